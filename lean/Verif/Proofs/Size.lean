import Verif.Spec.Size
import Verif.Proofs.Reading
import Verif.Proofs.Convert
import Verif.Proofs.Auto
import Verif.Proofs.OpenRun
import Verif.Proofs.Closed
import Verif.Proofs.OrdinalMeaning

/-! How long the comparison form of a word, the digits of a number, and the result of a conversion can be (C73). -/

namespace NumberParser
open Spec UnicodeData

set_option maxRecDepth 100000

/-! ### Comparison forms -/

/-- Characters that may occur in the words of the tables: those below U+0980, and the typographic apostrophe. And numeric
characters. -/
def narrow (c : Nat) : Bool := decide (c < 0x980) || c == 0x2019 || isNumericChar c

/-- At most one character that is not dropped, or one that is in no table. -/
def thin (v : List Nat) : Bool :=
  decide ((v.filter (fun x => !isMn x)).length ≤ 1) || v.any (fun x => !isMn x && !narrow x)

theorem thin_lower : lowerMap.all (fun _ v => thin (v.flatMap decompChar)) = true := by decide +kernel

theorem thin_nfd : nfdMap.all (fun _ v => thin v) = true := by decide +kernel

theorem mn_jamo : mnRanges.avoids 0x1100 0x1112 = true := by decide +kernel

theorem numeric_jamo : numericRanges.avoids 0x1100 0x1112 = true := by decide +kernel

theorem thin_decomp (c : Nat) : thin (decompChar c) = true := by
  by_cases hr : 0xac00 ≤ c ∧ c ≤ 0xd7a3
  · have hm : isMn (0x1100 + (c - 0xac00) / 588) = false := RTree.avoids_sound mn_jamo (by omega) (by omega)
    have hn : narrow (0x1100 + (c - 0xac00) / 588) = false := by
      have h3 : isNumericChar (0x1100 + (c - 0xac00) / 588) = false := RTree.avoids_sound numeric_jamo (by omega) (by omega)
      unfold narrow
      rw [h3]
      simp only [Bool.or_eq_false_iff, decide_eq_false_iff_not, beq_eq_false_iff_ne]
      exact ⟨⟨by omega, by omega⟩, trivial⟩
    unfold thin
    rw [Bool.or_eq_true]; right
    rw [List.any_eq_true]
    refine ⟨0x1100 + (c - 0xac00) / 588, ?_, by rw [hm, hn]; rfl⟩
    unfold decompChar
    rw [if_pos hr]
    dsimp only
    split <;> simp
  · unfold decompChar
    rw [if_neg hr]
    cases hf : nfdMap.find? c with
    | some v => exact MTree.all_sound thin_nfd hf
    | none =>
      unfold thin
      rw [Bool.or_eq_true]; left
      simp only [Option.getD_none, decide_eq_true_eq]
      exact Nat.le_trans (List.length_filter_le _ _) (by simp)

theorem thin_lowerChar (c : Nat) : thin ((lowerChar c).flatMap decompChar) = true := by
  unfold lowerChar
  cases hf : lowerMap.find? c with
  | some v => exact MTree.all_sound thin_lower hf
  | none => simpa using thin_decomp c

theorem insertCcc_filter_length (p : Nat → Bool) (c : Nat) (s : PyStr) : ((insertCcc c s).filter p).length = ((c :: s).filter p).length := by
  induction s with
  | nil => rfl
  | cons d ds ih =>
    simp only [insertCcc]
    split
    · simp only [List.filter_cons] at *
      split <;> split <;> simp_all
    · rfl

theorem canonicalOrder_filter (p : Nat → Bool) (s : PyStr) : ((canonicalOrder s).filter p).length = (s.filter p).length := by
  induction s with
  | nil => rfl
  | cons c cs ih =>
    simp only [canonicalOrder]
    rw [insertCcc_filter_length]
    simp only [List.filter_cons]
    split <;> simp [ih]

theorem lowerGo_short (rev t : PyStr) (h : ∀ x ∈ (lowerGo rev t).flatMap decompChar, isMn x = false → narrow x = true) :
    (((lowerGo rev t).flatMap decompChar).filter (fun x => !isMn x)).length ≤ t.length := by
  induction t generalizing rev with
  | nil => simp [lowerGo]
  | cons c cs ih =>
    simp only [lowerGo, List.flatMap_append, List.filter_append, List.length_append, List.length_cons] at *
    have h2 := ih (c :: rev) (fun x hx hm => h x (List.mem_append_right _ hx) hm)
    have h1 : ∀ v : List Nat, thin (v.flatMap decompChar) = true → (∀ x ∈ v.flatMap decompChar, isMn x = false → narrow x = true) →
        ((v.flatMap decompChar).filter (fun x => !isMn x)).length ≤ 1 := by
      intro v hv hn
      unfold thin at hv
      rcases Bool.or_eq_true _ _ ▸ hv with hv | hv
      · simpa using hv
      · obtain ⟨x, hx, hm⟩ := List.any_eq_true.mp hv
        simp only [Bool.and_eq_true, Bool.not_eq_true'] at hm
        rw [hn x hx hm.1] at hm
        cases hm.2
    have h3 := h1 _ (by
      split
      · simpa using thin_decomp _
      · exact thin_lowerChar c) (fun x hx hm => h x (List.mem_append_left _ hx) hm)
    omega

/-- The comparison form of a word of the tables is not longer than the word. -/
theorem norm_short (t : PyStr) (h : ∀ x ∈ norm t, narrow x = true) : (norm t).length ≤ t.length := by
  have h' : ∀ x ∈ (lowerGo [] t).flatMap decompChar, isMn x = false → narrow x = true := by
    intro x hx hm
    refine h x ?_
    unfold norm
    rw [mem_stripAccents]
    obtain ⟨c, hc, hxc⟩ := List.mem_flatMap.mp hx
    exact ⟨⟨c, hc, hxc⟩, hm⟩
  have := lowerGo_short [] t h'
  unfold norm stripAccents nfd
  rw [canonicalOrder_filter]
  exact this

/-! ### Digits -/

theorem lt_pow_digits (n : Nat) : n < 10 ^ (decDigits n).length := by
  induction n using Nat.strongRecOn with
  | _ n ih =>
    by_cases h : n < 10
    · rw [decDigits_lt h]; simpa using h
    · rw [decDigits_ge (by omega)]
      have := ih (n / 10) (by omega)
      rw [List.length_append, Nat.pow_add]
      simp only [List.length_cons, List.length_nil, Nat.zero_add, Nat.pow_one]
      omega

theorem digits_pos (n : Nat) : 1 ≤ (decDigits n).length := by
  have := (decDigits_isDigit n).1
  cases h : decDigits n with
  | nil => exact absurd h this
  | cons => simp

/-- The digits of the values together. -/
def digitCount : List (Class × Nat) → Nat
  | [] => 0
  | (_, v) :: ws => (decDigits v).length + digitCount ws

theorem digitCount_append (a b : List (Class × Nat)) : digitCount (a ++ b) = digitCount a + digitCount b := by
  induction a with
  | nil => simp [digitCount]
  | cons x a ih => obtain ⟨k, v⟩ := x; simp only [List.cons_append, digitCount, ih]; omega

theorem add_lt_pow {x y a b : Nat} (hx : x < 10 ^ a) (hy : y < 10 ^ b) (h : a = 0 ∨ 1 ≤ a) (hb : 1 ≤ b) : x + y < 10 ^ (a + b) := by
  have h10b : 10 ≤ 10 ^ b := by
    have := Nat.pow_le_pow_right (n := 10) (by omega) hb
    simpa using this
  rcases h with rfl | ha
  · simp at hx; subst hx; simpa using hy
  · have h10a : 10 ≤ 10 ^ a := by
      have := Nat.pow_le_pow_right (n := 10) (by omega) ha
      simpa using this
    rw [Nat.pow_add]
    generalize 10 ^ a = A at *
    generalize 10 ^ b = B at *
    have h1 : 10 * B ≤ A * B := Nat.mul_le_mul_right _ h10a
    have h2 : A * 10 ≤ A * B := Nat.mul_le_mul_left _ h10b
    omega

theorem mul_lt_pow {x y a b : Nat} (hx : x < 10 ^ a) (hy : y < 10 ^ b) : x * y < 10 ^ (a + b) := by
  rw [Nat.pow_add]
  rcases Nat.eq_zero_or_pos y with rfl | hp
  · simp only [Nat.mul_zero]; exact Nat.mul_pos (by omega) (by omega)
  · exact Nat.lt_of_lt_of_le (Nat.mul_lt_mul_of_pos_right hx hp) (Nat.mul_le_mul_left _ (Nat.le_of_lt hy))

theorem group_size {c o p D : Nat} (ih : c + o < 10 ^ D) : c + max o 1 * p < 10 ^ (D + (decDigits p).length) := by
  rcases Nat.eq_zero_or_pos o with rfl | ho
  · have := add_lt_pow (x := c) ih (lt_pow_digits p) (by omega) (digits_pos p)
    simpa using this
  · have e : max o 1 = o := by omega
    rw [e]
    rcases Nat.eq_zero_or_pos p with rfl | hp
    · simp only [Nat.mul_zero, Nat.add_zero]
      exact Nat.lt_of_lt_of_le (by omega) (Nat.pow_le_pow_right (by omega) (Nat.le_add_right D _))
    · have h1 : (c + o) * p < 10 ^ (D + (decDigits p).length) := mul_lt_pow ih (lt_pow_digits p)
      rw [Nat.add_mul] at h1
      have h2 : c * 1 ≤ c * p := Nat.mul_le_mul_left c hp
      omega

theorem reading_size {limit : Nat} {ws : List (Class × Nat)} {c o : Nat} {q : Option Nat} (h : Reading limit ws c o q) :
    c + o < 10 ^ digitCount ws := by
  induction h with
  | start => simp [digitCount]
  | @add ws c o q k d _ _ _ ih =>
    rw [digitCount_append]
    have := add_lt_pow ih (lt_pow_digits d) (by omega) (digits_pos d)
    simp only [digitCount, Nat.add_zero]; omega
  | @multiplyAll ws c o q p _ _ _ _ ih =>
    rw [digitCount_append]
    simpa [digitCount] using mul_lt_pow ih (lt_pow_digits p)
  | @multiplyGroup ws c o q p _ _ _ _ _ ih =>
    rw [digitCount_append]
    simp only [digitCount, Nat.add_zero]
    exact group_size ih
  | @closeGroup ws c o q p _ _ _ _ _ ih =>
    rw [digitCount_append]
    simp only [digitCount, Nat.add_zero]
    exact group_size ih

theorem reads_size {l : PyStr} {ws : List (Class × Nat)} {n : Nat} (h : ReadsAs l ws n) (hw : 1 ≤ digitCount ws) :
    (decDigits n).length ≤ digitCount ws := by
  obtain ⟨c, o, q, hr, rfl⟩ := h
  exact decDigits_length _ _ hw (reading_size hr)

/-! ### Tables -/

def sizeCheck (k : Nat) (ld : LangData) : Bool :=
  let p : PyStr × Nat → Bool := fun e => decide ((decDigits e.2).length + 1 ≤ k * e.1.length) && e.1.all narrow
  (ld.unitNumbers.all p && ld.directNumbers.all p && ld.tens.all p && ld.hundreds.all p && ld.bigPowersOfTen.all p) &&
    ld.skipTokens.all (fun t => decide (1 ≤ t.length) && t.all narrow)

theorem size_en : sizeCheck 3 (mkLangData Data.en) = true := by decide +kernel
theorem size_es : sizeCheck 67 (mkLangData Data.es) = true := by decide +kernel
theorem size_hi : sizeCheck 5 (mkLangData Data.hi) = true := by decide +kernel
theorem size_ru : sizeCheck 3 (mkLangData Data.ru) = true := by decide +kernel
theorem size_uk : sizeCheck 8 (mkLangData Data.uk) = true := by decide +kernel

theorem size_ok {l : PyStr} (hl : l ∈ supported) : sizeCheck (growthFactor l) (mkLangData (file l)) = true := by
  simp only [supported, List.mem_cons, List.not_mem_nil, or_false] at hl
  rcases hl with rfl | rfl | rfl | rfl | rfl
  · exact size_en
  · exact size_es
  · exact size_hi
  · exact size_ru
  · exact size_uk

theorem growthFactor_ge (l : PyStr) : 3 ≤ growthFactor l := by
  unfold growthFactor
  split
  · omega
  · split
    · omega
    · split <;> omega

theorem formOf_size {l : PyStr} (hl : l ∈ supported) {k : Class} {v : Nat} {f : PyStr} (h : FormOf l k v f) :
    (decDigits v).length + 1 ≤ growthFactor l * f.length ∧ ∀ x ∈ f, narrow x = true := by
  have hc := size_ok hl
  have hg := (formOf_iff hl k v f).mp h
  generalize mkLangData (file l) = ld at *
  unfold sizeCheck at hc
  simp only [Bool.and_eq_true] at hc
  obtain ⟨⟨⟨⟨⟨h1, h2⟩, h3⟩, h4⟩, h5⟩, _⟩ := hc
  have key : ∀ d : Dict, d.all (fun e => decide ((decDigits e.2).length + 1 ≤ growthFactor l * e.1.length) && e.1.all narrow) = true →
      d.get? f = some v → (decDigits v).length + 1 ≤ growthFactor l * f.length ∧ ∀ x ∈ f, narrow x = true := by
    intro d hd hf
    have := dictAll_sound hd hf
    simpa using this
  cases k
  · exact key _ h1 hg
  · exact key _ h2 hg
  · exact key _ h3 hg
  · exact key _ h4 hg
  · exact key _ h5 hg

theorem word_size {l : PyStr} (hl : l ∈ supported) {k : Class} {v : Nat} {t : PyStr} (h : Word l k v t) :
    (decDigits v).length + 1 ≤ growthFactor l * t.length := by
  obtain ⟨h1, h2⟩ := formOf_size hl h
  have h3 : (form t).length ≤ t.length := norm_short t h2
  exact Nat.le_trans h1 (Nat.mul_le_mul_left _ h3)

theorem skip_size {l : PyStr} (hl : l ∈ supported) {t : PyStr} (h : Skip l t) : (form t).length + 1 ≤ growthFactor l * t.length := by
  have hc := size_ok hl
  unfold sizeCheck at hc
  simp only [Bool.and_eq_true] at hc
  have h' : form t ∈ (mkLangData (file l)).skipTokens := h
  have h1 := List.all_eq_true.mp hc.2 _ h'
  simp only [Bool.and_eq_true, decide_eq_true_eq, List.all_eq_true] at h1
  have h2 : (form t).length ≤ t.length := norm_short t h1.2
  have h3 := Nat.mul_le_mul_right t.length (growthFactor_ge l)
  omega

theorem replaceGo_length (old new : PyStr) (ho : old ≠ []) (hn : new.length ≤ old.length) (k : Nat) (s : PyStr) :
    (replaceGo old new k s).length ≤ s.length - k := by
  have h1 : 1 ≤ old.length := by
    cases old with
    | nil => exact absurd rfl ho
    | cons => simp
  induction s generalizing k with
  | nil => simp [replaceGo]
  | cons c cs ih =>
    cases k with
    | succ k => have := ih k; simp only [replaceGo, List.length_cons]; omega
    | zero =>
      simp only [replaceGo]
      split
      · rename_i hp
        have hle := (List.isPrefixOf_iff_prefix.mp hp).length_le
        have := ih (old.length - 1)
        simp only [List.length_append, List.length_cons] at *
        omega
      · have := ih 0
        simp only [List.length_cons]
        omega

theorem irregular_facts (f : PyStr) : (irregular f).length ≤ f.length ∧ ∀ x ∈ f, narrow x = false → x ∈ irregular f := by
  have key : ∀ ps : List (PyStr × PyStr), (∀ p ∈ ps, p.1 ≠ [] ∧ p.2.length ≤ p.1.length ∧ ∀ x ∈ p.1, narrow x = true) → ∀ f : PyStr,
      (ps.foldl (fun f p => replace f p.1 p.2) f).length ≤ f.length ∧
        ∀ x ∈ f, narrow x = false → x ∈ ps.foldl (fun f p => replace f p.1 p.2) f := by
    intro ps
    induction ps with
    | nil => intro _ f; exact ⟨Nat.le_refl _, fun x hx _ => hx⟩
    | cons p ps ih =>
      intro h f
      obtain ⟨h1, h2, h3⟩ := h p (by simp)
      obtain ⟨k1, k2⟩ := ih (fun q hq => h q (by simp [hq])) (replace f p.1 p.2)
      have := replaceGo_length p.1 p.2 h1 h2 0 f
      refine ⟨Nat.le_trans k1 this, fun x hx hn => k2 x ?_ hn⟩
      refine replaceGo_keeps p.1 p.2 x h1 (fun hp => ?_) 0 f hx
      rw [h3 x hp] at hn; cases hn
  exact key irregulars (by decide) f

theorem ordinal_size {l : PyStr} (hl : l ∈ supported) {k : Class} {v : Nat} {t : PyStr} (h : OrdinalWord l k v t) :
    (decDigits v).length + 1 ≤ growthFactor l * t.length := by
  obtain ⟨_, c, hc, hs⟩ := h
  obtain ⟨h1, h2⟩ := formOf_size hl hc
  obtain ⟨i1, i2⟩ := irregular_facts (form t)
  have h3 : c.length ≤ (irregular (form t)).length ∧ ∀ x ∈ irregular (form t), narrow x = true := by
    rcases hs with e | e | ⟨stem, rfl, e⟩
    · rw [e]; exact ⟨Nat.le_refl _, h2⟩
    · rw [e]
      refine ⟨by simp, fun x hx => ?_⟩
      rcases List.mem_append.mp hx with hx | hx
      · exact h2 x hx
      · exact (by decide : ∀ x ∈ u!"th", narrow x = true) x hx
    · rw [e]
      refine ⟨by simp, fun x hx => ?_⟩
      rcases List.mem_append.mp hx with hx | hx
      · exact h2 x (List.mem_append_left _ hx)
      · exact (by decide : ∀ x ∈ u!"ieth", narrow x = true) x hx
  have h4 : (form t).length ≤ t.length := norm_short t (fun x hx => by
    cases hn : narrow x with
    | true => rfl
    | false => rw [h3.2 x (i2 x hx hn)] at hn; cases hn)
  exact Nat.le_trans h1 (Nat.mul_le_mul_left _ (by omega))

/-! ### Runs -/

/-- What an item of a run can contribute to the text. -/
def itemSize : List RunItem → Nat
  | [] => 0
  | .word _ v :: is => (decDigits v).length + 1 + itemSize is
  | .conj f :: is => f.length + 1 + itemSize is

theorem itemSize_append (a b : List RunItem) : itemSize (a ++ b) = itemSize a + itemSize b := by
  induction a with
  | nil => simp [itemSize]
  | cons x a ih => cases x <;> simp only [List.cons_append, itemSize, ih] <;> omega

theorem run_items {l : PyStr} (hl : l ∈ supported) {ts : List PyStr} {is : List RunItem} (h : RunTokens l ts is) :
    itemSize is ≤ growthFactor l * ts.flatten.length := by
  induction h with
  | nil => simp [itemSize]
  | word hw _ ih =>
    have := word_size hl hw
    simp only [itemSize, List.flatten_cons, List.length_append, Nat.mul_add]; omega
  | conj hs _ ih =>
    have := skip_size hl hs
    simp only [itemSize, List.flatten_cons, List.length_append, Nat.mul_add]; omega
  | blank _ _ ih =>
    simp only [List.flatten_cons, List.length_append, Nat.mul_add]; omega

theorem words_items (is : List RunItem) : digitCount (runWords is) + (runWords is).length ≤ itemSize is := by
  induction is with
  | nil => simp [digitCount, itemSize, runWords]
  | cons x is ih => cases x <;> simp only [runWords, digitCount, itemSize, List.length_cons] <;> omega

theorem digitCount_pos {ws : List (Class × Nat)} (h : ws ≠ []) : 1 ≤ digitCount ws := by
  cases ws with
  | nil => exact absurd rfl h
  | cons x ws => obtain ⟨k, v⟩ := x; have := digits_pos v; simp only [digitCount]; omega

theorem number_items {l : PyStr} {is : List RunItem} {n : Nat} (h : ReadsAs l (runWords is) n) (hw : runWords is ≠ []) :
    (decDigits n).length + 1 ≤ itemSize is := by
  have h1 := reads_size h (digitCount_pos hw)
  have h2 := words_items is
  have h3 : 1 ≤ (runWords is).length := by
    cases h : runWords is with
    | nil => exact absurd h hw
    | cons => simp
  omega

theorem withSpaces_append (a b : List PyStr) : withSpaces (a ++ b) = withSpaces a ++ withSpaces b := by
  induction a with
  | nil => rfl
  | cons x a ih => simp [withSpaces, ih]

theorem conj_items (cs : List PyStr) : (withSpaces cs).length = itemSize (cs.map .conj) := by
  induction cs with
  | nil => rfl
  | cons c cs ih => simp [withSpaces, itemSize, ih]; omega

theorem cut_size {l : PyStr} {is : List RunItem} {xs : List PyStr} (h : Cut l is xs) (hw : runWords is ≠ []) :
    (withSpaces xs).length ≤ itemSize is := by
  induction h with
  | last hr =>
    have := number_items hr hw
    simpa [withSpaces] using this
  | @more is rest cs n k v xs hr he _ _ ih =>
    have hne : runWords is ≠ [] := by
      obtain ⟨is', k', v', rfl⟩ := he
      rw [runWords_append]; simp [runWords]
    have h1 := number_items hr hne
    have h2 := ih (by simp [runWords])
    rw [List.cons_append, itemSize_append, itemSize_append, ← conj_items]
    simp only [withSpaces, withSpaces_append, List.length_append, List.length_cons, List.length_nil]
    omega

theorem spaced_short (xs : List PyStr) : (spaced xs).length ≤ (withSpaces xs).length := by
  induction xs with
  | nil => simp [spaced]
  | cons x xs ih =>
    cases xs with
    | nil => simp [spaced, withSpaces]
    | cons y ys => simp only [spaced, withSpaces, List.length_append] at *; omega

theorem converted_size {l : PyStr} (hl : l ∈ supported) {ts : List PyStr} {out : PyStr} (h : Converted l ts out) :
    out.length ≤ growthFactor l * ts.flatten.length := by
  have hg := growthFactor_ge l
  have hrun : ∀ {run : List PyStr} {is : List RunItem}, Run l run is → itemSize is ≤ growthFactor l * run.flatten.length ∧
      ∃ k v rest, is = .word k v :: rest := by
    rintro run is ⟨h1, t, ts', rfl, hc⟩
    refine ⟨run_items hl h1, ?_⟩
    cases h1 with
    | word _ _ => exact ⟨_, _, _, rfl⟩
    | conj hs _ => exact absurd hs (cardinal_not_skip hl hc)
    | blank hb _ => exact absurd hb (cardinal_not_blank hl hc)
  have hself : ∀ t : PyStr, t.length ≤ growthFactor l * t.length := fun t => Nat.le_mul_of_pos_left _ (by omega)
  induction h with
  | nil => simp
  | @keep t ts out _ _ ih =>
    have := hself t
    simp only [List.flatten_cons, List.length_append, Nat.mul_add]; omega
  | ending hr hc =>
    obtain ⟨h1, k, v, rest, rfl⟩ := hrun hr
    exact Nat.le_trans (cut_size hc (by simp [runWords])) h1
  | @mark run is xs t ts out hr hc _ _ _ ih =>
    obtain ⟨h1, k, v, rest, rfl⟩ := hrun hr
    have := cut_size hc (by simp [runWords])
    have := hself t
    simp only [List.flatten_append, List.flatten_cons, List.length_append, Nat.mul_add]; omega
  | @markTight run is xs t ts out hr hc _ _ _ ih =>
    obtain ⟨h1, k, v, rest, rfl⟩ := hrun hr
    have := cut_size hc (by simp [runWords])
    have := hself t
    have := spaced_short xs
    simp only [List.flatten_append, List.flatten_cons, List.length_append, Nat.mul_add]; omega
  | @word run is xs t ts out hr _ hc _ _ _ ih =>
    obtain ⟨h1, k, v, rest, rfl⟩ := hrun hr
    have := cut_size hc (by simp [runWords])
    have := hself t
    simp only [List.flatten_append, List.flatten_cons, List.length_append, Nat.mul_add]; omega
  | @conjWord run is f xs t ts out hr hc _ _ _ ih =>
    obtain ⟨h1, k, v, rest, he⟩ := hrun hr
    have hne : runWords is ≠ [] := by
      cases is with
      | nil => simp at he
      | cons x is => simp at he; rw [he.1]; simp [runWords]
    have := cut_size hc hne
    have := hself t
    rw [itemSize_append] at h1
    simp only [itemSize] at h1
    simp only [List.flatten_append, List.flatten_cons, List.length_append, Nat.mul_add, List.length_cons, List.length_nil]; omega
  | @ordinal run is xs t k v ts out hr ho hc _ ih =>
    have h1 : itemSize is ≤ growthFactor l * run.flatten.length := by
      rcases hr with ⟨rfl, rfl⟩ | hr
      · simp [itemSize]
      · exact (hrun hr).1
    have h2 := cut_size hc (by rw [runWords_append]; simp [runWords])
    have h3 := ordinal_size hl ho
    have h4 := spaced_short xs
    rw [itemSize_append] at h2
    simp only [itemSize] at h2
    simp only [List.flatten_append, List.flatten_cons, List.length_append, Nat.mul_add]; omega

end NumberParser
