import Verif.Proofs.OrdinalText
import Verif.Proofs.Reading
import Verif.Proofs.Occurs
import Verif.Proofs.Convert
import Verif.Proofs.Accents

/-! The exact meaning of `parse_ordinal` (C56). -/

set_option linter.unusedSimpArgs false

namespace NumberParser
open Spec UnicodeData

set_option maxRecDepth 100000

/-! ### Characters of comparison forms are stable -/

/-- Not changed by lower-casing, decomposition and removal of accents. -/
def stab (x : Nat) : Bool := lowerChar x == [x] && (x != 0x3a3 && (decompChar x == [x] && !isMn x))

theorem stab_tables : lowerMap.all (fun _ v => v.all (fun y => (decompChar y).all (fun x => isMn x || stab x))) = true ∧
    nfdMap.all (fun k v => (lowerMap.find? k).isSome || v.all (fun x => isMn x || stab x)) = true ∧
    ([0x3c2, 0x3c3].all stab = true) ∧ (List.range 0xc3).all (fun i => stab (0x1100 + i)) = true := by decide +kernel

theorem norm_stab {t : PyStr} {x : Nat} (h : x ∈ norm t) : stab x = true := by
  obtain ⟨c, _, hx⟩ := mem_norm h
  obtain ⟨t1, t2, t3, t4⟩ := stab_tables
  unfold normChars at hx
  rw [List.mem_filter] at hx
  obtain ⟨hx, hm⟩ := hx
  have hm : isMn x = false := by simpa using hm
  obtain ⟨y, hy, hxy⟩ := List.mem_flatMap.mp hx
  clear hx
  have hx := hxy
  unfold lowerChars at hy
  split at hy
  · have : y = 0x3c2 ∨ y = 0x3c3 := by simpa using hy
    rcases this with rfl | rfl
    · rw [show decompChar 0x3c2 = [0x3c2] by decide +kernel, List.mem_singleton] at hx; subst hx; exact List.all_eq_true.mp t3 _ (by simp)
    · rw [show decompChar 0x3c3 = [0x3c3] by decide +kernel, List.mem_singleton] at hx; subst hx; exact List.all_eq_true.mp t3 _ (by simp)
  · rename_i h3
    unfold lowerChar at hy
    cases hf : lowerMap.find? c with
    | some v =>
      rw [hf, Option.getD_some] at hy
      have := MTree.all_sound t1 hf
      have := List.all_eq_true.mp (List.all_eq_true.mp this y hy) x hx
      rw [hm] at this; exact this
    | none =>
      rw [hf, Option.getD_none, List.mem_singleton] at hy
      subst hy
      by_cases hr : 0xac00 ≤ y ∧ y ≤ 0xd7a3
      · have := hangul_decomp hr.1 hr.2 hx
        have h4 := List.all_eq_true.mp t4 (x - 0x1100) (List.mem_range.mpr (by omega))
        rw [show 0x1100 + (x - 0x1100) = x by omega] at h4
        exact h4
      · have hd : decompChar y = (nfdMap.find? y).getD [y] := by unfold decompChar; rw [if_neg hr]
        rw [hd] at hx
        cases hn : nfdMap.find? y with
        | some v =>
          rw [hn, Option.getD_some] at hx
          have := MTree.all_sound t2 hn
          rw [hf] at this
          have := List.all_eq_true.mp this x hx
          rw [hm] at this; exact this
        | none =>
          rw [hn] at hd hx
          simp only [Option.getD_none, List.mem_singleton] at hx hd
          subst hx
          unfold stab lowerChar
          rw [hf, hd, hm]; simp [h3]

theorem stab_iff {x : Nat} : stab x = true ↔ lowerChar x = [x] ∧ x ≠ 0x3a3 ∧ decompChar x = [x] ∧ isMn x = false := by
  unfold stab
  simp

/-- A text of stable characters is only reordered. -/
theorem norm_of_stab {g : PyStr} (h : ∀ x ∈ g, stab x = true) : norm g = canonicalOrder g := by
  have hlow : ∀ (rev g : PyStr), (∀ x ∈ g, stab x = true) → lowerGo rev g = g := by
    intro rev g
    induction g generalizing rev with
    | nil => intro _; rfl
    | cons c cs ih =>
      intro h
      obtain ⟨h1, h2, _, _⟩ := stab_iff.mp (h c (by simp))
      unfold lowerGo
      rw [if_neg h2, h1, ih _ (fun d hd => h d (List.mem_cons_of_mem _ hd))]; rfl
  have hdec : ∀ g : PyStr, (∀ x ∈ g, stab x = true) → g.flatMap decompChar = g := by
    intro g
    induction g with
    | nil => intro _; rfl
    | cons c cs ih =>
      intro h
      rw [List.flatMap_cons, (stab_iff.mp (h c (by simp))).2.2.1, ih (fun d hd => h d (List.mem_cons_of_mem _ hd))]; rfl
  unfold norm lower stripAccents nfd
  rw [hlow _ _ h, hdec _ h]
  apply List.filter_eq_self.mpr
  intro c hc
  rw [mem_canonicalOrder] at hc
  simp [(stab_iff.mp (h c hc)).2.2.2]

theorem canonicalOrder_zero {g : PyStr} (h : ∀ x ∈ canonicalOrder g, ccc x = 0) : canonicalOrder g = g := by
  have := canonicalOrder_fixed (p := g) (fun c hc => h c ((mem_canonicalOrder _ _).mpr hc)) []
  simpa [canonicalOrder] using this

/-! ### The irregular ordinals -/

theorem replaceGo_cases (p r : PyStr) (s : PyStr) : replaceGo p r 0 s = s ∨ Occurs r (replaceGo p r 0 s) := by
  induction s with
  | nil => exact Or.inl rfl
  | cons c cs ih =>
    unfold replaceGo
    split
    · exact Or.inr ⟨[], _, rfl⟩
    · rcases ih with h | ⟨a, b, h⟩
      · exact Or.inl (by rw [h])
      · exact Or.inr ⟨c :: a, b, by rw [h]; rfl⟩

theorem replaceGo_chars (p r : PyStr) (k : Nat) (s : PyStr) : ∀ x ∈ replaceGo p r k s, x ∈ r ∨ x ∈ s := by
  induction s generalizing k with
  | nil => intro x hx; simp [replaceGo] at hx
  | cons c cs ih =>
    intro x hx
    cases k with
    | succ k =>
      rcases ih k x hx with h | h
      · exact Or.inl h
      · exact Or.inr (List.mem_cons_of_mem _ h)
    | zero =>
      unfold replaceGo at hx
      split at hx
      · rcases List.mem_append.mp hx with h | h
        · exact Or.inl h
        · rcases ih _ x h with h | h
          · exact Or.inl h
          · exact Or.inr (List.mem_cons_of_mem _ h)
      · rcases List.mem_cons.mp hx with h | h
        · exact Or.inr (by simp [h])
        · rcases ih _ x h with h | h
          · exact Or.inl h
          · exact Or.inr (List.mem_cons_of_mem _ h)

theorem foldl_replace_cases (ps : List (PyStr × PyStr)) (f : PyStr) (P : PyStr → Prop) (hP : ∀ p ∈ ps, ∀ s, Occurs p.2 s → P s)
    (g : PyStr) (hg : g = f ∨ P g) :
    ps.foldl (fun f p => replace f p.1 p.2) g = f ∨ P (ps.foldl (fun f p => replace f p.1 p.2) g) := by
  induction ps generalizing g with
  | nil => exact hg
  | cons p ps ih =>
    rw [List.foldl_cons]
    apply ih (fun q hq => hP q (List.mem_cons_of_mem _ hq))
    rcases replaceGo_cases p.1 p.2 g with h | h
    · unfold replace; rw [h]; exact hg
    · exact Or.inr (hP p (by simp) _ h)

/-- Contains one of the cardinals that replace irregular ordinals. -/
def HasIrregular (g : PyStr) : Prop := ∃ p ∈ irregulars, Occurs p.2 g

theorem irregular_cases (f : PyStr) : irregular f = f ∨ HasIrregular (irregular f) :=
  foldl_replace_cases irregulars f HasIrregular (fun p hp _ h => ⟨p, hp, h⟩) f (Or.inl rfl)

theorem foldl_replace_chars (ps : List (PyStr × PyStr)) (hp : ∀ p ∈ ps, ∀ x ∈ p.2, isAz x = true) (g : PyStr) :
    ∀ x ∈ ps.foldl (fun f p => replace f p.1 p.2) g, isAz x = true ∨ x ∈ g := by
  induction ps generalizing g with
  | nil => intro x hx; exact Or.inr hx
  | cons p ps ih =>
    intro x hx
    rcases ih (fun q hq => hp q (List.mem_cons_of_mem _ hq)) _ x hx with h | h
    · exact Or.inl h
    · rcases replaceGo_chars _ _ _ _ x h with h | h
      · exact Or.inl (hp p (by simp) x h)
      · exact Or.inr h

theorem irregular_chars (f : PyStr) : ∀ x ∈ irregular f, isAz x = true ∨ x ∈ f :=
  foldl_replace_chars irregulars (by decide) f

theorem replaceGo_keeps (p r : PyStr) (a : Nat) (hp0 : p ≠ []) (ha : a ∉ p) (k : Nat) (s : PyStr) (h : a ∈ s.drop k) : a ∈ replaceGo p r k s := by
  induction s generalizing k with
  | nil => simp at h
  | cons c cs ih =>
    cases k with
    | succ k => exact ih k h
    | zero =>
      unfold replaceGo
      split
      · rename_i hp
        rw [List.isPrefixOf_iff_prefix] at hp
        obtain ⟨q, hq⟩ := hp
        apply List.mem_append_right
        apply ih
        cases p with
        | nil => exact absurd rfl hp0
        | cons d ds =>
          rw [List.cons_append] at hq
          injection hq with h1 h2
          subst h1 h2
          rw [List.drop_zero, ← List.cons_append] at h
          simpa using (List.mem_append.mp h).resolve_left ha
      · rcases List.mem_cons.mp h with rfl | h
        · simp
        · exact List.mem_cons_of_mem _ (ih 0 h)

theorem irregular_keeps {a : Nat} (ha : isAz a = false) (f : PyStr) : a ∈ irregular f ↔ a ∈ f := by
  constructor
  · intro h
    rcases irregular_chars f a h with h | h
    · rw [h] at ha; cases ha
    · exact h
  · have key : ∀ p ∈ irregulars, p.1 ≠ [] ∧ ∀ x ∈ p.1, isAz x = true := by decide
    unfold irregular
    generalize irregulars = ps at key
    induction ps generalizing f with
    | nil => exact id
    | cons p ps ih =>
      intro h
      rw [List.foldl_cons]
      apply ih _ (fun q hq => key q (List.mem_cons_of_mem _ hq))
      unfold replace
      exact replaceGo_keeps _ _ _ (key p (by simp)).1 (fun hm => by rw [(key p (by simp)).2 a hm] at ha; cases ha) 0 f h

theorem conv_other {ld : LangData} {f : PyStr} (h : (isNumberToken f ld).isSome = false) : applyCardinalConversion f ld = irregular f := by
  unfold isNumberToken at h
  generalize hg : applyCardinalConversion f ld = g at h
  unfold applyCardinalConversion at hg
  simp only at hg
  split at hg
  · rename_i h1; subst hg; rw [h] at h1; cases h1
  · split at hg
    · rename_i h1; subst hg; rw [h] at h1; cases h1
    · exact hg.symm

/-! ### Tables -/

def listedCheck (ld : LangData) : Bool :=
  ld.allNumbers.all (fun e => e.1.all (fun c => ccc c == 0) && !(e.1.length == 1 && e.1.all (fun c => !isWord c))) &&
  ld.skipTokens.all (fun t => t.all (fun c => ccc c == 0) && irregulars.all (fun p => !occursB p.2 t) &&
    (t == u!"-" || !(t.length == 1 && t.all (fun c => !isWord c))))

theorem listed {l : PyStr} (hl : l ∈ supported) : listedCheck (mkLangData (file l)) = true := by
  simp only [supported, List.mem_cons, List.not_mem_nil, or_false] at hl
  rcases hl with rfl | rfl | rfl | rfl | rfl <;> decide +kernel

theorem listed_ccc {l : PyStr} (hl : l ∈ supported) {t : PyStr} (h : numOrSkip (mkLangData (file l)) t = true) : ∀ c ∈ t, ccc c = 0 := by
  have hk := listed hl
  unfold listedCheck at hk
  rw [Bool.and_eq_true] at hk
  unfold numOrSkip at h
  rw [Bool.or_eq_true] at h
  intro c hc
  rcases h with h | h
  · have := dictAllKey_sound (p := fun t => t.all (fun c => ccc c == 0) && !(t.length == 1 && t.all (fun c => !isWord c))) hk.1 h
    rw [Bool.and_eq_true, List.all_eq_true] at this
    simpa using this.1 c hc
  · have := List.all_eq_true.mp hk.2 _ (List.elem_iff.mp h)
    simp only [Bool.and_eq_true, List.all_eq_true] at this
    simpa using this.1.1 c hc

theorem listed_single {l : PyStr} (hl : l ∈ supported) {c : Nat} (h : numOrSkip (mkLangData (file l)) [c] = true) (hc : isWord c = false) :
    c = 0x2d := by
  have hk := listed hl
  unfold listedCheck at hk
  rw [Bool.and_eq_true] at hk
  unfold numOrSkip at h
  rw [Bool.or_eq_true] at h
  rcases h with h | h
  · have := dictAllKey_sound (p := fun t => t.all (fun c => ccc c == 0) && !(t.length == 1 && t.all (fun c => !isWord c))) hk.1 h
    simp [hc] at this
  · have := List.all_eq_true.mp hk.2 _ (List.elem_iff.mp h)
    simp [hc] at this
    exact this.2

theorem skip_regular {l : PyStr} (hl : l ∈ supported) {t : PyStr} (h : isSkipToken t (mkLangData (file l)) = true) : ¬ HasIrregular t := by
  have hk := listed hl
  unfold listedCheck at hk
  rw [Bool.and_eq_true] at hk
  have := List.all_eq_true.mp hk.2 _ (List.elem_iff.mp h)
  simp only [Bool.and_eq_true] at this
  rintro ⟨p, hp, ho⟩
  have h2 := List.all_eq_true.mp this.1.2 p hp
  rw [(occursB_iff _ _).mpr ho] at h2; cases h2


/-! ### Tokens -/

theorem wordTokens_mem {ts : List PyStr} (h : WordTokens ts) {t : PyStr} (ht : t ∈ ts) :
    (∀ c ∈ t, isWord c = true) ∨ ∃ c, t = [c] ∧ isWord c = false := by
  induction h with
  | last hw => rw [List.mem_singleton] at ht; subst ht; exact Or.inl hw
  | cons hw hc _ ih =>
    rcases List.mem_cons.mp ht with rfl | ht
    · exact Or.inl hw
    · rcases List.mem_cons.mp ht with rfl | ht
      · exact Or.inr ⟨_, rfl, hc⟩
      · exact ih ht

theorem spaceTokens_mem {ts : List PyStr} (h : SpaceTokens ts) {t : PyStr} (ht : t ∈ ts) :
    (∀ c ∈ t, isSpace c = false) ∨ (∀ c ∈ t, isSpace c = true) := by
  induction h with
  | last hw => rw [List.mem_singleton] at ht; subst ht; exact Or.inl hw
  | cons hw _ hg _ _ ih =>
    rcases List.mem_cons.mp ht with rfl | ht
    · exact Or.inl hw
    · rcases List.mem_cons.mp ht with rfl | ht
      · exact Or.inr hg
      · exact ih ht

theorem sepChar_hi {l : PyStr} (hl : l = u!"hi") (c : Nat) : sepChar l c = isSpace c := by rw [hl]; exact hi_sep c

theorem sepChar_nonhi {l : PyStr} (hl : l ≠ u!"hi") (c : Nat) : sepChar l c = !isWord c := by
  unfold sepChar
  rw [if_neg (fun h => hl ((re_bug l).mp h))]

/-- A token consists of characters that do not split words, or is white space, or (outside Hindi) a single character. -/
theorem token_shape {l s t : PyStr} (ht : t ∈ tokenize s l) :
    (∀ c ∈ t, sepChar l c = false ∧ (l ≠ u!"hi" → isWord c = true)) ∨ (∀ c ∈ t, isSpace c = true) ∨
      (l ≠ u!"hi" ∧ ∃ c, t = [c] ∧ isWord c = false ∧ isSpace c = false) := by
  have h := ((tokens_iff l s _).mpr rfl).2
  by_cases hl : l = u!"hi"
  · rw [if_pos hl] at h
    rcases spaceTokens_mem h ht with h | h
    · exact Or.inl (fun c hc => ⟨by rw [sepChar_hi hl]; exact h c hc, fun hn => absurd hl hn⟩)
    · exact Or.inr (Or.inl h)
  · rw [if_neg hl] at h
    rcases wordTokens_mem h ht with h | ⟨c, rfl, hc⟩
    · exact Or.inl (fun c hc => ⟨by rw [sepChar_nonhi hl, h c hc]; rfl, fun _ => h c hc⟩)
    · cases hs : isSpace c with
      | true => exact Or.inr (Or.inl (by simpa using hs))
      | false => exact Or.inr (Or.inr ⟨hl, c, rfl, hc, hs⟩)

theorem preserved_shy : preserved (fun c => c != 0xad) = true := by decide +kernel
theorem preserved_hyphen : preserved (fun c => c != 0x2d) = true := by decide +kernel

theorem norm_noShy {t : PyStr} (h : ∀ c ∈ t, c ≠ 0xad) : ∀ x ∈ norm t, x ≠ 0xad := by
  have := norm_preserved (p := fun c => c != 0xad) preserved_shy (t := t)
    (fun c h1 h2 _ x hx => by have := hangul_decomp h1 h2 hx; simp; omega) (fun c hc => by simpa using h c hc)
  intro x hx; simpa using this x hx

theorem norm_noHyphen {t : PyStr} (h : ∀ c ∈ t, c ≠ 0x2d) : ∀ x ∈ norm t, x ≠ 0x2d := by
  have := norm_preserved (p := fun c => c != 0x2d) preserved_hyphen (t := t)
    (fun c h1 h2 _ x hx => by have := hangul_decomp h1 h2 hx; simp; omega) (fun c hc => by simpa using h c hc)
  intro x hx; simpa using this x hx

theorem token_noShy {l s t : PyStr} (ht : t ∈ tokenize s l) : ∀ c ∈ t, c ≠ 0xad := by
  intro c hc
  have := (List.mem_filter.mp (token_chars ht c hc)).2
  simpa using this

/-- The characters of the comparison form of a token after the replacement of irregular ordinals. -/
theorem piece_chars {t : PyStr} {x : Nat} (hx : x ∈ irregular (norm t)) : isAz x = true ∨ x ∈ norm t := irregular_chars _ x hx

theorem az_check : (List.range 26).all (fun i => stab (97 + i) && (97 + i != 0xad) && (97 + i != 0x27) && !isNumericChar (97 + i)) = true := by decide +kernel

theorem az_facts {x : Nat} (h : isAz x = true) : stab x = true ∧ x ≠ 0xad ∧ isWord x = true ∧ isNumericChar x = false := by
  have hw := az_word h
  unfold isAz at h
  simp only [Bool.and_eq_true, decide_eq_true_eq] at h
  have := List.all_eq_true.mp az_check (x - 97) (List.mem_range.mpr (by omega))
  rw [show 97 + (x - 97) = x by omega] at this
  simp at this
  exact ⟨this.1.1.1, by omega, hw, this.2⟩

theorem piece_stab {t : PyStr} {x : Nat} (hx : x ∈ irregular (norm t)) : stab x = true :=
  (piece_chars hx).elim (fun h => (az_facts h).1) norm_stab

theorem piece_clean {t : PyStr} (h1 : ∀ c ∈ t, c ≠ 0xad) (h2 : noApos t = true) :
    noShy (dropApos (irregular (norm t))) = irregular (norm t) := by
  rw [dropApos_noApos]
  · apply List.filter_eq_self.mpr
    intro x hx
    rcases piece_chars hx with h | h
    · simpa using (az_facts h).2.1
    · simpa using norm_noShy h1 x h
  · unfold noApos
    rw [List.all_eq_true]
    intro x hx
    rcases piece_chars hx with h | h
    · unfold isAz at h
      simp only [Bool.and_eq_true, decide_eq_true_eq] at h
      simp; omega
    · exact List.all_eq_true.mp (norm_noApos h2) x h

theorem irregular_blank {f : PyStr} : blank (irregular f) = blank f := by
  rcases irregular_cases f with h | ⟨p, hp, a, b, h⟩
  · rw [h]
  · have key : ∀ p ∈ irregulars, ∃ c ∈ p.2, isSpace c = false := by decide
    obtain ⟨c, hc, hs⟩ := key p hp
    have h1 : blank (irregular f) = false := not_blank_of_mem (c := c) (by rw [h]; simp [hc]) hs
    cases hb : blank f with
    | false => exact h1
    | true =>
      have hf : irregular f = f := by
        have h2 : ∀ c ∈ f, isAz c = false := by
          intro c hc
          have hsp := (blank_spec f).mp hb c hc
          cases ha : isAz c with
          | false => rfl
          | true => rw [word_not_space (az_word ha)] at hsp; cases hsp
        have ha : ∀ p, isAz p = true → p ∉ f := fun p hp hm => by rw [h2 p hm] at hp; cases hp
        simp only [irregular, irregulars, List.foldl_cons, List.foldl_nil, replace]
        rw [replaceGo_absent _ _ _ _ (ha _ (by decide)), replaceGo_absent _ _ _ _ (ha _ (by decide)),
          replaceGo_absent _ _ _ _ (ha _ (by decide)), replaceGo_absent _ _ _ _ (ha _ (by decide)),
          replaceGo_absent _ _ _ _ (ha _ (by decide)), replaceGo_absent _ _ _ _ (ha _ (by decide)),
          replaceGo_absent _ _ _ _ (ha _ (by decide))]
      rw [hf] at h1 ⊢; rw [h1] at hb; cases hb

/-- An ordinary token stays ordinary after the conversion of ordinals. -/
theorem piece_other {l s t : PyStr} (hl : l ∈ supported) (ht : t ∈ tokenize s l) (ha : noApos t = true) (ho : Ordinary l t) :
    ∃ x ∈ solid l (dropApos (applyCardinalConversion (norm t) (mkLangData (file l)))), numOrSkip (mkLangData (file l)) x = false := by
  obtain ⟨⟨c0, hc0, hs0⟩, hnw, hsk⟩ := ho
  have hc0 : c0 ∈ norm t := hc0
  rw [numberWord_iff hl] at hnw
  rw [skip_iff] at hsk
  have hnw : (isNumberToken (norm t) (mkLangData (file l))).isSome = false := by simpa using hnw
  have hsk : isSkipToken (norm t) (mkLangData (file l)) = false := by simpa using hsk
  have hcv := conv_other hnw
  have hkey : (mkLangData (file l)).allNumbers.mem (irregular (norm t)) = false := by
    rw [← hcv]
    unfold isNumberToken isCardinalToken at hnw
    split at hnw
    · cases hnw
    · rename_i h; simpa using h
  have hskip : isSkipToken (irregular (norm t)) (mkLangData (file l)) = false := by
    cases h : isSkipToken (irregular (norm t)) (mkLangData (file l)) with
    | false => rfl
    | true =>
      rcases irregular_cases (norm t) with e | e
      · rw [e, hsk] at h; cases h
      · exact absurd e (skip_regular hl h)
  have hnos : numOrSkip (mkLangData (file l)) (irregular (norm t)) = false := by unfold numOrSkip; rw [hkey, hskip]; rfl
  have hbl : blank (irregular (norm t)) = false := by rw [irregular_blank]; exact not_blank_of_mem hc0 hs0
  have hstab : ∀ x ∈ irregular (norm t), stab x = true := fun x hx => piece_stab hx
  rw [hcv]
  generalize hld : mkLangData (file l) = ld at *
  have hclean := piece_clean (token_noShy ht) ha
  rw [solid_eq, hclean]
  by_cases hsep : ∃ x ∈ irregular (norm t), sepChar l x = true
  · -- a character at which the converted token is split again
    have single : ∀ x ∈ irregular (norm t), sepChar l x = true → isSpace x = false → numOrSkip ld [x] = false →
        ∃ y ∈ ((sol l (irregular (norm t))).map norm).filter (fun t => !blank t), numOrSkip ld y = false := by
      intro x hx h1 h2 h3
      refine ⟨[x], ?_, h3⟩
      have hn : norm [x] = [x] := by
        rw [norm_of_stab (fun y hy => by rw [List.mem_singleton] at hy; subst hy; exact hstab _ hx)]; rfl
      have hbx : blank [x] = false := not_blank_of_mem (c := x) (by simp) h2
      obtain ⟨a, b, e⟩ := List.append_of_mem hx
      rw [List.mem_filter]
      refine ⟨List.mem_map.mpr ⟨[x], ?_, hn⟩, by rw [hbx]; rfl⟩
      rw [e, sol_append_sep l a b h1]
      refine List.mem_append.mpr (Or.inr (List.mem_append.mpr (Or.inl ?_)))
      rw [sol_eq]
      simp [hd_cons, stl_cons, h1, h2]
    rcases token_shape ht with hw | hw | ⟨hhi, c, rfl, hc, hcs⟩
    · -- a word
      obtain ⟨x, hx, hxs⟩ := hsep
      by_cases hhi : l = u!"hi"
      · exfalso
        rw [sepChar_hi hhi] at hxs
        rcases piece_chars hx with h | h
        · rw [word_not_space (az_word h)] at hxs; cases hxs
        · rw [norm_nonspace (fun c hc => by rw [← sepChar_hi hhi]; exact (hw c hc).1) x h] at hxs; cases hxs
      · have hnw : isWord x = false := by rw [sepChar_nonhi hhi] at hxs; simpa using hxs
        have hm := (stab_iff.mp (hstab x hx)).2.2.2
        have hx' : x ∈ norm t := (piece_chars hx).resolve_left (fun h => by rw [az_word h] at hnw; cases hnw)
        have := norm_wordish (fun c hc => (hw c hc).2 hhi) x hx'
        unfold wordish at this
        rw [hnw, hm] at this
        have : x = 0xbd7 ∨ x = 0x1b35 := by simpa using this
        refine single x hx hxs ?_ ?_
        · rcases this with rfl | rfl <;> decide
        · cases hn : numOrSkip ld [x] with
          | false => rfl
          | true =>
            rw [← hld] at hn
            have := listed_single hl hn hnw
            omega
    · exfalso
      have := norm_space hw c0 hc0
      rw [hs0] at this; cases this
    · -- a single character
      have hnonw : ∀ x ∈ norm [c], isWord x = false := norm_nonword (by simpa using hc)
      have hw0 := hnonw c0 hc0
      have hirr : irregular (norm [c]) = norm [c] := by
        rw [← hcv, ← hld]
        apply conv_noletters
        intro x hx
        cases hz : isAz x with
        | false => rfl
        | true => have := hnonw x hx; rw [az_word hz] at this; cases this
      refine single c0 (by rw [hirr]; exact hc0) (by rw [sepChar_nonhi hhi, hw0]; rfl) hs0 ?_
      cases hn : numOrSkip ld [c0] with
      | false => rfl
      | true =>
        exfalso
        rw [← hld] at hn
        have he := listed_single hl hn hw0
        have hc : c = 0x2d := by
          apply Classical.byContradiction
          intro hne
          exact norm_noHyphen (t := [c]) (by simpa using hne) c0 hc0 he
        subst hc he
        rw [hirr, show norm [0x2d] = [0x2d] by decide +kernel, ← hld, hn] at hnos
        cases hnos
  · have hsep' : ∀ x ∈ irregular (norm t), sepChar l x = false := fun x hx => by
      cases h : sepChar l x with
      | false => rfl
      | true => exact absurd ⟨x, hx, h⟩ hsep
    rw [sol_word l hsep' hbl]
    refine ⟨norm (irregular (norm t)), ?_, ?_⟩
    · rw [List.mem_filter]
      refine ⟨by simp, ?_⟩
      obtain ⟨y, hy, hys⟩ : ∃ y ∈ irregular (norm t), isSpace y = false := by
        apply Classical.byContradiction
        intro hno
        have : blank (irregular (norm t)) = true := (blank_spec _).mpr (fun y hy => by
          cases h : isSpace y with
          | true => rfl
          | false => exact absurd ⟨y, hy, h⟩ hno)
        rw [this] at hbl; cases hbl
      rw [norm_of_stab hstab, not_blank_of_mem ((mem_canonicalOrder _ _).mpr hy) hys]; rfl
    · cases hn : numOrSkip ld (norm (irregular (norm t))) with
      | false => rfl
      | true =>
        have hz := hn
        rw [← hld] at hz
        have hz := listed_ccc hl hz
        rw [norm_of_stab hstab] at hz hn
        rw [canonicalOrder_zero hz, hnos] at hn
        cases hn

/-! ### The converted tokens -/

abbrev conv (l : PyStr) (t : PyStr) : PyStr := applyCardinalConversion (norm t) (mkLangData (file l))

theorem isNumberToken_conv {l : PyStr} {t c : PyStr} (h : isNumberToken (norm t) (mkLangData (file l)) = some c) : conv l t = c := by
  unfold isNumberToken isCardinalToken at h
  split at h
  · injection h
  · cases h

theorem conv_chars {l : PyStr} (hl : l ∈ supported) {t : PyStr} : ∀ x ∈ conv l t, isAz x = true ∨ x ∈ norm t := by
  intro x hx
  cases h : isNumberToken (norm t) (mkLangData (file l)) with
  | none =>
    rw [show conv l t = _ from conv_other (by rw [h]; rfl)] at hx
    exact irregular_chars _ x hx
  | some c =>
    rw [isNumberToken_conv h] at hx
    obtain ⟨_, hs⟩ := (numberToken_iff hl).mp h
    rcases hs with e | e | ⟨stem, rfl, e⟩
    · exact irregular_chars _ x (by rw [e]; exact hx)
    · exact irregular_chars _ x (by rw [e]; simp [hx])
    · rcases List.mem_append.mp hx with h | h
      · exact irregular_chars _ x (by rw [e]; simp [h])
      · rw [List.mem_singleton] at h; subst h; exact Or.inl (by decide)

theorem conv_noApos {l : PyStr} (hl : l ∈ supported) {t : PyStr} (h : noApos t = true) : noApos (conv l t) = true := by
  unfold noApos
  rw [List.all_eq_true]
  intro x hx
  rcases conv_chars hl x hx with h' | h'
  · unfold isAz at h'
    simp only [Bool.and_eq_true, decide_eq_true_eq] at h'
    simp; omega
  · exact List.all_eq_true.mp (norm_noApos h) x h'

theorem conv_blank_iff {l : PyStr} (hl : l ∈ supported) (t : PyStr) : blank (conv l t) = blank (norm t) := by
  have hd := supported_data hl
  cases h : isNumberToken (norm t) (mkLangData (file l)) with
  | none => rw [show conv l t = _ from conv_other (by rw [h]; rfl)]; exact irregular_blank
  | some c =>
    have h1 : blank (conv l t) = false := by
      rw [isNumberToken_conv h]
      exact key_blank (languageData_wf hd) ((allNumbers_iff hl c).mpr ((numberToken_iff hl).mp h).1)
    rw [h1]
    cases hb : blank (norm t) with
    | false => rfl
    | true => rw [(blank_not_number hd hb).1] at h; cases h

/-- The conversion of a number word. -/
theorem piece_number {l : PyStr} (hl : l ∈ supported) {t : PyStr} (ha : noApos t = true) {k : Class} {v : Nat}
    (hw : Word l k v t ∨ OrdinalWord l k v t) :
    FormOf l k v (conv l t) ∧ solid l (dropApos (conv l t)) = [conv l t] ∧ hd l (noShy (dropApos (conv l t))) = conv l t ∧
      norm (conv l t) = conv l t := by
  have hd := supported_data hl
  have hf : FormOf l k v (conv l t) := by
    rcases hw with hw | ⟨_, c, hf, hs⟩
    · have hm := (allNumbers_iff hl (norm t)).mpr ⟨k, v, hw⟩
      rw [show conv l t = norm t from (stable_key hd hm (norm_noApos ha)).2.2.2]; exact hw
    · rw [isNumberToken_conv ((numberToken_iff hl).mpr ⟨⟨k, v, hf⟩, hs⟩)]; exact hf
  have hm := (allNumbers_iff hl _).mpr ⟨k, v, hf⟩
  obtain ⟨h1, h2, h3, _⟩ := stable_key hd hm (conv_noApos hl ha)
  exact ⟨hf, h1, h2, h3⟩

theorem piece_skip {l : PyStr} (hl : l ∈ supported) {t : PyStr} (h : Skip l t) :
    conv l t = norm t ∧ solid l (dropApos (conv l t)) = [norm t] := by
  rw [skip_iff] at h
  obtain ⟨_, h1, h2⟩ := stable_skip (supported_data hl) h
  have : conv l t = norm t := h2
  rw [this]; exact ⟨rfl, h1⟩

theorem piece_blank {l : PyStr} {t : PyStr} (h : BlankForm t) : conv l t = norm t ∧ solid l (dropApos (conv l t)) = [] := by
  rw [blankForm_iff] at h
  have : conv l t = norm t := conv_blank _ h
  rw [this]; exact ⟨rfl, solid_blank h⟩

theorem apos_check : supported.all (fun l => [u!"'", u!"’"].all (fun t => conv l t == t)) = true := by decide +kernel

theorem piece_apos {l : PyStr} (hl : l ∈ supported) {t : PyStr} (h : t = u!"'" ∨ t = u!"’") :
    conv l t = t ∧ dropApos (conv l t) = [] ∧ solid l (dropApos (conv l t)) = [] := by
  have : conv l t = t := by
    have := List.all_eq_true.mp (List.all_eq_true.mp apos_check l hl) t (by rcases h with h | h <;> simp [h])
    simpa using this
  have h2 : dropApos t = [] := by rcases h with rfl | rfl <;> rfl
  rw [this, h2]
  exact ⟨rfl, rfl, solid_blank (t := []) rfl⟩

/-! ### Apostrophes in Hindi words -/

theorem dropApos_mem {s : PyStr} {c : Nat} : c ∈ dropApos s ↔ c ∈ s ∧ c ≠ 0x27 ∧ c ≠ 0x2019 := by
  rw [dropApos_eq]
  unfold withoutApostrophes
  rw [List.mem_filter]
  simp

theorem lowerGo_nosigma {rev s : PyStr} (h : 0x3a3 ∉ s) : lowerGo rev s = s.flatMap lowerChar := by
  induction s generalizing rev with
  | nil => rfl
  | cons c cs ih =>
    unfold lowerGo
    rw [if_neg (by rintro rfl; exact h (by simp)), ih (fun hc => h (List.mem_cons_of_mem _ hc)), List.flatMap_cons]

theorem lowerGo_sigma {rev s : PyStr} (h : 0x3a3 ∈ s) : 0x3c2 ∈ lowerGo rev s ∨ 0x3c3 ∈ lowerGo rev s := by
  induction s generalizing rev with
  | nil => cases h
  | cons c cs ih =>
    unfold lowerGo
    by_cases hc : c = 0x3a3
    · rw [if_pos hc]
      split <;> simp
    · rw [if_neg hc]
      have := ih (rev := c :: rev) ((List.mem_cons.mp h).resolve_left (fun e => hc e.symm))
      simp only [List.mem_append]
      exact this.elim (fun h => Or.inl (Or.inr h)) (fun h => Or.inr (Or.inr h))

theorem norm_sigma {s : PyStr} (h : 0x3a3 ∈ s) : 0x3c2 ∈ norm s ∨ 0x3c3 ∈ norm s := by
  have key : ∀ y, (y = 0x3c2 ∨ y = 0x3c3) → y ∈ lower s → y ∈ norm s := by
    intro y hy hm
    unfold norm
    rw [mem_stripAccents]
    refine ⟨⟨y, hm, ?_⟩, ?_⟩
    · rcases hy with rfl | rfl <;> decide +kernel
    · rcases hy with rfl | rfl <;> decide +kernel
  exact (lowerGo_sigma (rev := []) h).elim (fun h => Or.inl (key _ (Or.inl rfl) h)) (fun h => Or.inr (key _ (Or.inr rfl) h))

theorem contrib_norm {t : PyStr} (hs : 0x3a3 ∉ t) (h : ∀ c ∈ norm t, ccc c = 0) : norm t = t.flatMap contrib := by
  have hD : norm t = ((t.flatMap lowerChar).flatMap decompChar).filter (fun x => !isMn x) := by
    unfold norm stripAccents nfd lower
    rw [lowerGo_nosigma hs]
    apply filter_order
    intro x hx
    unfold okOrder
    cases hm : isMn x with
    | true => rfl
    | false =>
      have : x ∈ norm t := by
        unfold norm
        rw [mem_stripAccents]
        obtain ⟨y, hy, hxy⟩ := List.mem_flatMap.mp hx
        exact ⟨⟨y, by unfold lower; rw [lowerGo_nosigma hs]; exact hy, hxy⟩, hm⟩
      simp [h x this]
  rw [hD]
  clear hD h hs
  induction t with
  | nil => rfl
  | cons c cs ih =>
    rw [List.flatMap_cons, List.flatMap_append, List.filter_append, ih, List.flatMap_cons]; rfl

theorem contrib_apos : contrib 0x27 = [0x27] ∧ contrib 0x2019 = [0x2019] ∧ ccc 0x27 = 0 ∧ ccc 0x2019 = 0 := by decide +kernel

theorem contrib_noApos {c : Nat} (h3 : c ≠ 0x3a3) (h : c ≠ 0x27 ∧ c ≠ 0x2019) : noApos (contrib c) = true := by
  unfold noApos
  rw [List.all_eq_true]
  intro x hx
  have : x ∈ normChars c := by
    unfold normChars lowerChars
    rw [if_neg h3]; exact hx
  exact normChars_preserved (p := fun c => c != 0x27 && c != 0x2019) preserved_noapos
    (fun c h1 h2 _ x hx => by have := hangul_decomp h1 h2 hx; simp; omega) (by simp [h]) x this

theorem norm_dropApos {t : PyStr} (h : ∀ c ∈ norm t, ccc c = 0 ∧ c ≠ 0x3c2 ∧ c ≠ 0x3c3) : dropApos (norm t) = norm (dropApos t) := by
  have hs : 0x3a3 ∉ t := fun hs => (norm_sigma hs).elim (fun h' => (h _ h').2.1 rfl) (fun h' => (h _ h').2.2 rfl)
  have e1 := contrib_norm hs (fun c hc => (h c hc).1)
  have hs' : 0x3a3 ∉ dropApos t := fun hc => hs (dropApos_mem.mp hc).1
  have e2 := contrib_norm hs' (fun x hx => by
    obtain ⟨c, hc, hxc⟩ := mem_norm hx
    have hc := (dropApos_mem.mp hc).1
    exact (h x (norm_mem hc (fun e => hs (e ▸ hc)) hxc)).1)
  rw [e1, e2]
  clear e1 e2 h
  induction t with
  | nil => rfl
  | cons c cs ih =>
    have ih := ih (fun hc => hs (List.mem_cons_of_mem _ hc)) (fun hc => hs (List.mem_cons_of_mem _ (dropApos_mem.mp hc).1))
    rw [List.flatMap_cons, dropApos_append, ih, show c :: cs = [c] ++ cs from rfl, dropApos_append, List.flatMap_append]
    congr 1
    by_cases h1 : c = 0x27
    · subst h1; rw [contrib_apos.1]; rfl
    by_cases h2 : c = 0x2019
    · subst h2; rw [contrib_apos.2.1]; rfl
    have h3 : c ≠ 0x3a3 := by rintro rfl; exact hs (by simp)
    rw [dropApos_noApos (contrib_noApos h3 ⟨h1, h2⟩), show dropApos [c] = [c] from dropApos_noApos (by simp [noApos, h1, h2])]
    simp

/-- Hindi words consist of Devanagari characters. -/
theorem hi_devCheck : (mkLangData (file u!"hi")).allNumbers.all (fun e => e.1.all (fun c => 0x900 ≤ c && c ≤ 0x97f && ccc c == 0)) = true ∧
    (mkLangData (file u!"hi")).skipTokens.all (fun t => t.all (fun c => 0x900 ≤ c && c ≤ 0x97f && ccc c == 0)) = true := by decide +kernel

theorem hi_devanagari {t : PyStr} (h : numOrSkip (mkLangData (file u!"hi")) t = true) : ∀ c ∈ t, 0x900 ≤ c ∧ c ≤ 0x97f ∧ ccc c = 0 := by
  unfold numOrSkip at h
  rw [Bool.or_eq_true] at h
  intro c hc
  have : t.all (fun c => 0x900 ≤ c && c ≤ 0x97f && ccc c == 0) = true := by
    rcases h with h | h
    · exact dictAllKey_sound (p := fun t => t.all (fun c => 0x900 ≤ c && c ≤ 0x97f && ccc c == 0)) hi_devCheck.1 h
    · exact List.all_eq_true.mp hi_devCheck.2 _ (List.elem_iff.mp h)
  have := List.all_eq_true.mp this c hc
  simp at this
  exact ⟨this.1.1, this.1.2, this.2⟩

theorem hi_notNumber {t : PyStr} (ha : noApos t = false) : isNumberToken (norm t) (mkLangData (file u!"hi")) = none := by
  have hl : u!"hi" ∈ supported := by decide
  -- the apostrophe stays
  have hap : ∃ a, (a = 0x27 ∨ a = 0x2019) ∧ a ∈ t := by
    unfold noApos at ha
    rw [List.all_eq_false] at ha
    obtain ⟨a, h1, h2⟩ := ha
    refine ⟨a, ?_, h1⟩
    by_cases h : a = 0x27
    · exact Or.inl h
    · right
      apply Classical.byContradiction
      intro h'
      exact h2 (by simp [h, h'])
  obtain ⟨a, haa, hat⟩ := hap
  have hanorm : a ∈ norm t := by
    apply norm_mem hat
    · rcases haa with rfl | rfl <;> decide
    · rcases haa with rfl | rfl <;> decide +kernel
  cases h : isNumberToken (norm t) (mkLangData (file u!"hi")) with
  | none => rfl
  | some c =>
    exfalso
    obtain ⟨⟨k, v, hf⟩, hst⟩ := (numberToken_iff hl).mp h
    have hck := hi_devanagari (t := c) (by unfold numOrSkip; rw [(allNumbers_iff hl c).mpr ⟨k, v, hf⟩]; rfl)
    have hair : a ∈ irregular (norm t) := by
      rcases irregular_keeps (a := a) (by rcases haa with rfl | rfl <;> decide) (norm t) with h
      exact h.mpr hanorm
    have hac : a ∈ c ++ u!"thieth" := by
      rcases hst with e | e | ⟨stem, rfl, e⟩
      · rw [e] at hair; simp [hair]
      · rw [e] at hair; simp only [List.mem_append] at hair ⊢
        rcases hair with h | h
        · exact Or.inl h
        · exfalso; rcases haa with rfl | rfl <;> (revert h; decide)
      · rw [e] at hair; simp only [List.mem_append] at hair ⊢
        rcases hair with h | h
        · exact Or.inl (Or.inl h)
        · exfalso; rcases haa with rfl | rfl <;> (revert h; decide)
    rcases List.mem_append.mp hac with h | h
    · have := hck a h; omega
    · exfalso; rcases haa with rfl | rfl <;> (revert h; decide)

/-- What a Hindi token with an apostrophe becomes. -/
theorem hi_piece {s t : PyStr} (ht : t ∈ tokenize s u!"hi") (ha : noApos t = false) :
    conv u!"hi" t = irregular (norm t) ∧
    solid u!"hi" (dropApos (conv u!"hi" t)) = [norm (dropApos (irregular (norm t)))].filter (fun t => !blank t) ∧
    hd u!"hi" (noShy (dropApos (conv u!"hi" t))) = dropApos (irregular (norm t)) ∧
    ((numOrSkip (mkLangData (file u!"hi")) (norm (dropApos (irregular (norm t)))) = true ∨ blank (norm (dropApos (irregular (norm t)))) = true ∨
      numOrSkip (mkLangData (file u!"hi")) (norm (withoutApostrophes t)) = true ∨ blank (norm (withoutApostrophes t)) = true) →
      norm (dropApos (irregular (norm t))) = norm (withoutApostrophes t)) := by
  have hl : u!"hi" ∈ supported := by decide
  -- the apostrophe stays
  have hap : ∃ a, (a = 0x27 ∨ a = 0x2019) ∧ a ∈ t := by
    unfold noApos at ha
    rw [List.all_eq_false] at ha
    obtain ⟨a, h1, h2⟩ := ha
    refine ⟨a, ?_, h1⟩
    by_cases h : a = 0x27
    · exact Or.inl h
    · right
      apply Classical.byContradiction
      intro h'
      exact h2 (by simp [h, h'])
  obtain ⟨a, haa, hat⟩ := hap
  have hnsp : ∀ c ∈ t, isSpace c = false := by
    rcases token_shape ht with h | h | ⟨h, _⟩
    · intro c hc; rw [← hi_sep]; exact (h c hc).1
    · exfalso
      have := h a hat
      rcases haa with rfl | rfl <;> (revert this; decide)
    · exact absurd rfl h
  have hfs : ∀ c ∈ norm t, isSpace c = false := norm_nonspace hnsp
  have hgs : ∀ c ∈ irregular (norm t), isSpace c = false := by
    intro c hc
    rcases piece_chars hc with h | h
    · exact word_not_space (az_word h)
    · exact hfs c h
  have hnum : (isNumberToken (norm t) (mkLangData (file u!"hi"))).isSome = false := by rw [hi_notNumber ha]; rfl
  have hcv : conv u!"hi" t = irregular (norm t) := conv_other hnum
  have hshy : noShy (dropApos (irregular (norm t))) = dropApos (irregular (norm t)) := by
    apply List.filter_eq_self.mpr
    intro x hx
    rcases piece_chars (dropApos_mem.mp hx).1 with h | h
    · simpa using (az_facts h).2.1
    · simpa using norm_noShy (token_noShy ht) x h
  have hsep : ∀ c ∈ dropApos (irregular (norm t)), sepChar u!"hi" c = false := fun c hc => by
    rw [hi_sep]; exact hgs c (dropApos_mem.mp hc).1
  refine ⟨hcv, ?_, ?_, ?_⟩
  · rw [hcv, solid_eq, hshy]
    cases hb : blank (dropApos (irregular (norm t))) with
    | true =>
      rw [sol_blank _ hb, List.filter_cons, blank_norm hb]; rfl
    | false => rw [sol_word _ hsep hb]; rfl
  · rw [hcv, hshy, hd_word _ hsep]
  · have hstab : ∀ x ∈ dropApos (irregular (norm t)), stab x = true := fun x hx => piece_stab (dropApos_mem.mp hx).1
    rw [norm_of_stab hstab, ← dropApos_eq]
    -- it suffices that the characters are harmless
    have fin : (∀ c ∈ norm t, (c = 0x27 ∨ c = 0x2019) ∨ (0x900 ≤ c ∧ c ≤ 0x97f ∧ ccc c = 0)) →
        canonicalOrder (dropApos (irregular (norm t))) = norm (dropApos t) := by
      intro h
      have hirr : irregular (norm t) = norm t := by
        rw [← hcv]
        apply conv_noletters
        intro c hc
        cases hz : isAz c with
        | false => rfl
        | true =>
          unfold isAz at hz
          simp only [Bool.and_eq_true, decide_eq_true_eq] at hz
          rcases h c hc with (h | h) | h <;> omega
      rw [hirr]
      have h' : ∀ c ∈ norm t, ccc c = 0 ∧ c ≠ 0x3c2 ∧ c ≠ 0x3c3 := by
        intro c hc
        rcases h c hc with (rfl | rfl) | h
        · exact ⟨contrib_apos.2.2.1, by decide, by decide⟩
        · exact ⟨contrib_apos.2.2.2, by decide, by decide⟩
        · exact ⟨h.2.2, by omega, by omega⟩
      rw [← norm_dropApos h']
      apply canonicalOrder_zero
      intro x hx
      exact (h' x (dropApos_mem.mp ((mem_canonicalOrder _ _).mp hx)).1).1
    have nospace : ∀ {x : PyStr}, (∀ c ∈ x, isSpace c = false) → blank x = true → x = [] := by
      intro x h1 h2
      rw [blank_spec] at h2
      cases x with
      | nil => rfl
      | cons c cs => have := h2 c (by simp); rw [h1 c (by simp)] at this; cases this
    intro h
    apply fin
    have left : (∀ c ∈ dropApos (irregular (norm t)), 0x900 ≤ c ∧ c ≤ 0x97f ∧ ccc c = 0) →
        ∀ c ∈ norm t, (c = 0x27 ∨ c = 0x2019) ∨ (0x900 ≤ c ∧ c ≤ 0x97f ∧ ccc c = 0) := by
      intro hc
      have hf : irregular (norm t) = norm t := by
        rcases irregular_cases (norm t) with e | ⟨p, hp, x, y, e⟩
        · exact e
        · exfalso
          have key : ∀ p ∈ irregulars, ∃ c ∈ p.2, c < 0x900 ∧ c ≠ 0x27 ∧ c ≠ 0x2019 := by decide
          obtain ⟨d, hd, h1, h2⟩ := key p hp
          have := hc d (dropApos_mem.mpr ⟨by rw [e]; simp [hd], h2⟩)
          omega
      intro c hcn
      by_cases h1 : c = 0x27
      · exact Or.inl (Or.inl h1)
      by_cases h2 : c = 0x2019
      · exact Or.inl (Or.inr h2)
      exact Or.inr (hc c (dropApos_mem.mpr ⟨by rw [hf]; exact hcn, h1, h2⟩))
    have right : (∀ c ∈ norm (dropApos t), 0x900 ≤ c ∧ c ≤ 0x97f ∧ ccc c = 0) →
        ∀ c ∈ norm t, (c = 0x27 ∨ c = 0x2019) ∨ (0x900 ≤ c ∧ c ≤ 0x97f ∧ ccc c = 0) := by
      intro hc x hx
      obtain ⟨c, hct, hxc⟩ := mem_norm hx
      have ap : ∀ y, (y = 0x27 ∨ y = 0x2019) → normChars y = [y] := by
        rintro y (rfl | rfl) <;> decide +kernel
      by_cases h1 : c = 0x27 ∨ c = 0x2019
      · rw [ap c h1, List.mem_singleton] at hxc
        left; rw [hxc]; exact h1
      · have hcd : c ∈ dropApos t := dropApos_mem.mpr ⟨hct, fun e => h1 (Or.inl e), fun e => h1 (Or.inr e)⟩
        by_cases h3 : c = 0x3a3
        · exfalso
          rw [h3] at hcd
          rcases norm_sigma hcd with h | h
          · have := hc _ h; omega
          · have := hc _ h; omega
        · exact Or.inr (hc x (norm_mem hcd h3 hxc))
    rcases h with h | h | h | h
    · apply left
      have := hi_devanagari h
      intro c hc
      exact this c ((mem_canonicalOrder _ _).mpr hc)
    · apply left
      have := nospace (x := canonicalOrder (dropApos (irregular (norm t)))) (fun c hc => hgs c (dropApos_mem.mp ((mem_canonicalOrder _ _).mp hc)).1) h
      intro c hc
      have hc' := (mem_canonicalOrder _ _).mpr hc
      rw [this] at hc'; cases hc'
    · exact right (hi_devanagari h)
    · apply right
      have := nospace (x := norm (dropApos t)) (norm_nonspace (fun c hc => hnsp c (dropApos_mem.mp hc).1)) h
      rw [this]; simp

/-! ### All tokens -/

/-- The tokens of a text: without apostrophes, or an apostrophe, or Hindi. -/
def AposOK (l t : PyStr) : Prop := noApos t = true ∨ (t = u!"'" ∨ t = u!"’") ∨ (l = u!"hi" ∧ noApos t = false)

theorem onlyNumbers_pos {l : PyStr} (hl : l ∈ supported) {ts : List PyStr} {ws : List (Class × Nat)} (h : OnlyNumbers l ts ws) : PosScale ws := by
  induction h with
  | nil => intro p hp; simp at hp
  | @word t k v ts ws hw _ ih =>
    intro p hp
    rcases List.mem_cons.mp hp with hp | hp
    · cases hp
      rcases hw with hw | ⟨_, c, hf, _⟩
      · exact scale_pos hl hw
      · exact scale_pos hl hf
    · exact ih p hp
  | other _ _ ih => exact ih

theorem hd_nil_blank {l : PyStr} {g : PyStr} (h : blank g = true) : hd l (noShy (dropApos g)) = [] := by
  apply hd_blank
  rw [blank_spec] at h
  intro c hc
  rw [dropApos_eq] at hc
  exact h c (List.mem_filter.mp (List.mem_filter.mp hc).1).1

theorem noApos_without {t : PyStr} (h : noApos t = true) : withoutApostrophes t = t := by rw [← dropApos_eq, dropApos_noApos h]

theorem blankForm_nil : BlankForm [] := by intro c hc; cases hc

theorem apos_without {t : PyStr} (h : t = u!"'" ∨ t = u!"’") : withoutApostrophes t = [] := by rcases h with rfl | rfl <;> rfl

/-- What a token becomes, in all cases. -/
theorem piece_token {l s t : PyStr} (hl : l ∈ supported) (ht : t ∈ tokenize s l) (ha : AposOK l t) :
    (∀ k v, Word l k v (withoutApostrophes t) ∨ OrdinalWord l k v t →
      ∃ x, FormOf l k v x ∧ solid l (dropApos (conv l t)) = [x] ∧ norm (hd l (noShy (dropApos (conv l t)))) = x) ∧
    (BlankForm (withoutApostrophes t) → solid l (dropApos (conv l t)) = [] ∧ blank (norm (hd l (noShy (dropApos (conv l t))))) = true) ∧
    (Skip l (withoutApostrophes t) → solid l (dropApos (conv l t)) = [norm (withoutApostrophes t)]) ∧
    ((∀ k v, ¬ (Word l k v (withoutApostrophes t) ∨ OrdinalWord l k v t)) → ¬ BlankForm (withoutApostrophes t) →
      ¬ Skip l (withoutApostrophes t) → ∃ x ∈ solid l (dropApos (conv l t)), numOrSkip (mkLangData (file l)) x = false) := by
  have hdat := supported_data hl
  rcases ha with hna | hap | ⟨rfl, hna⟩
  · rw [noApos_without hna]
    refine ⟨?_, ?_, ?_, ?_⟩
    · intro k v hw
      obtain ⟨h1, h2, h3, h4⟩ := piece_number hl hna hw
      exact ⟨_, h1, h2, by rw [h3, h4]⟩
    · intro hb
      refine ⟨(piece_blank hb).2, ?_⟩
      rw [(piece_blank hb).1]
      rw [blankForm_iff] at hb
      rw [hd_nil_blank hb]; rfl
    · intro hs; exact (piece_skip hl hs).2
    · intro h1 h2 h3
      refine piece_other hl ht hna ⟨?_, ?_, h3⟩
      · apply Classical.byContradiction
        intro h
        apply h2
        intro c hc
        cases hs : isSpace c with
        | true => rfl
        | false => exact absurd ⟨c, hc, hs⟩ h
      · rintro ⟨k, v, c, hf, hst⟩
        by_cases hc : Cardinal l t
        · obtain ⟨k, v, hc⟩ := hc; exact h1 k v (Or.inl hc)
        · exact h1 k v (Or.inr ⟨hc, c, hf, hst⟩)
  · rw [apos_without hap, (piece_apos hl hap).2.1, show hd l (noShy []) = [] from hd_nil l]
    have e0 : solid l [] = [] := solid_blank (t := []) rfl
    have hno : (mkLangData (file l)).allNumbers.mem [] = false ∧ isSkipToken [] (mkLangData (file l)) = false := by
      have := (blank_not_number hdat (t := []) rfl).2
      refine ⟨?_, this⟩
      cases hm : (mkLangData (file l)).allNumbers.mem [] with
      | false => rfl
      | true => have := key_blank (languageData_wf hdat) hm; cases this
    refine ⟨?_, fun _ => ⟨e0, rfl⟩, ?_, fun _ h => absurd blankForm_nil h⟩
    · rintro k v (hw | ⟨_, c, hf, hst⟩)
      · exfalso
        have := (allNumbers_iff hl (norm [])).mpr ⟨k, v, hw⟩
        rw [show norm [] = [] from rfl, hno.1] at this; cases this
      · exfalso
        have h1 := (numberToken_iff hl (f := norm t)).mpr ⟨⟨k, v, hf⟩, hst⟩
        have h2 := isNumberToken_conv h1
        rw [(piece_apos hl hap).1] at h2
        have hm := (allNumbers_iff hl c).mpr ⟨k, v, hf⟩
        rw [← h2] at hm
        have h3 := listed_single (l := l) hl (c := if t = u!"'" then 0x27 else 0x2019) (by
          unfold numOrSkip
          rcases hap with rfl | rfl <;> (simp; left; exact hm)) (by rcases hap with rfl | rfl <;> decide +kernel)
        rcases hap with rfl | rfl <;> (revert h3; decide)
    · intro hs
      exfalso
      rw [skip_iff, show norm [] = [] from rfl, hno.2] at hs; cases hs
  · obtain ⟨h1, h2, h3, h4⟩ := hi_piece ht hna
    refine ⟨?_, ?_, ?_, ?_⟩
    · rintro k v (hw | ⟨_, c, hf, hst⟩)
      · have hm := (allNumbers_iff hl (norm (withoutApostrophes t))).mpr ⟨k, v, hw⟩
        have e := h4 (Or.inr (Or.inr (Or.inl (by unfold numOrSkip; rw [hm]; rfl))))
        refine ⟨norm (withoutApostrophes t), hw, ?_, by rw [h3, e]⟩
        rw [h2, e, List.filter_cons, key_blank (languageData_wf hdat) hm]; rfl
      · exfalso
        have h5 := (numberToken_iff hl (f := norm t)).mpr ⟨⟨k, v, hf⟩, hst⟩
        rw [hi_notNumber hna] at h5; cases h5
    · intro hb
      rw [blankForm_iff] at hb
      have e := h4 (Or.inr (Or.inr (Or.inr hb)))
      rw [h2, h3, e, List.filter_cons, hb]
      exact ⟨rfl, rfl⟩
    · intro hs
      have hs' := hs
      rw [skip_iff] at hs
      have e := h4 (Or.inr (Or.inr (Or.inl (by unfold numOrSkip; rw [hs, Bool.or_true]))))
      rw [h2, e, List.filter_cons, skip_blank (languageData_wf hdat) hs]; rfl
    · intro n1 n2 n3
      refine ⟨norm (dropApos (irregular (norm t))), ?_, ?_⟩
      · rw [h2, List.mem_filter]
        refine ⟨by simp, ?_⟩
        cases hb : blank (norm (dropApos (irregular (norm t)))) with
        | false => rfl
        | true =>
          have e := h4 (Or.inr (Or.inl hb))
          rw [e] at hb
          exact absurd ((blankForm_iff _).mpr hb) n2
      · cases hb : numOrSkip (mkLangData (file u!"hi")) (norm (dropApos (irregular (norm t)))) with
        | false => rfl
        | true =>
          exfalso
          have e := h4 (Or.inl hb)
          rw [e] at hb
          unfold numOrSkip at hb
          rw [Bool.or_eq_true] at hb
          rcases hb with hb | hb
          · obtain ⟨k, v, hf⟩ := (allNumbers_iff hl _).mp hb
            exact n1 k v (Or.inl hf)
          · exact n3 ((skip_iff _ _).mpr hb)

theorem onlyNumbers_kinds {l s : PyStr} (hl : l ∈ supported) {ts : List PyStr} (ha : ∀ t ∈ ts, AposOK l t) (hts : ∀ t ∈ ts, t ∈ tokenize s l)
    {ws : List (Class × Nat)} (h : OnlyNumbers l ts ws) :
    kinds (mkLangData (file l)) (ts.flatMap (fun t => solid l (dropApos (conv l t)))) = kindsOf ws ∧
    (ts.flatMap (fun t => solid l (dropApos (conv l t)))).all (numOrSkip (mkLangData (file l))) = true := by
  have hwf := languageData_wf (supported_data hl)
  induction h with
  | nil => exact ⟨rfl, rfl⟩
  | @word t k v ts ws hw h ih =>
    have ih := ih (fun x hx => ha x (List.mem_cons_of_mem _ hx)) (fun x hx => hts x (List.mem_cons_of_mem _ hx))
    rw [List.flatMap_cons, kinds_append, List.all_append]
    obtain ⟨x, hf, hs, _⟩ := (piece_token hl (hts t (by simp)) (ha t (by simp))).1 k v hw
    have hm := (allNumbers_iff hl _).mpr ⟨_, _, hf⟩
    rw [hs, kinds_key hwf hm, kindOf_class hl hf, ih.1, ih.2]
    exact ⟨rfl, by simp [numOrSkip, hm]⟩
  | @other t ts ws ht h ih =>
    have ih := ih (fun x hx => ha x (List.mem_cons_of_mem _ hx)) (fun x hx => hts x (List.mem_cons_of_mem _ hx))
    rw [List.flatMap_cons, kinds_append, List.all_append]
    obtain ⟨_, p2, p3, _⟩ := piece_token hl (hts t (by simp)) (ha t (by simp))
    rcases ht with ht | ht
    · rw [(p2 ht).1, ih.1, ih.2]; exact ⟨rfl, rfl⟩
    · rw [p3 ht, ih.1, ih.2]
      rw [skip_iff] at ht
      rw [kinds_skip hwf ht]
      exact ⟨rfl, by simp [numOrSkip, ht]⟩

theorem onlyNumbers_of {l s : PyStr} (hl : l ∈ supported) {ts : List PyStr} (ha : ∀ t ∈ ts, AposOK l t) (hts : ∀ t ∈ ts, t ∈ tokenize s l)
    (h : (ts.flatMap (fun t => solid l (dropApos (conv l t)))).all (numOrSkip (mkLangData (file l))) = true) :
    ∃ ws, OnlyNumbers l ts ws := by
  induction ts with
  | nil => exact ⟨[], .nil⟩
  | cons t ts ih =>
    rw [List.flatMap_cons, List.all_append, Bool.and_eq_true] at h
    obtain ⟨ws, hws⟩ := ih (fun x hx => ha x (List.mem_cons_of_mem _ hx)) (fun x hx => hts x (List.mem_cons_of_mem _ hx)) h.2
    by_cases c1 : ∃ k v, Word l k v (withoutApostrophes t) ∨ OrdinalWord l k v t
    · obtain ⟨k, v, hw⟩ := c1; exact ⟨_, .word hw hws⟩
    by_cases c2 : BlankForm (withoutApostrophes t)
    · exact ⟨ws, .other (Or.inl c2) hws⟩
    by_cases c3 : Skip l (withoutApostrophes t)
    · exact ⟨ws, .other (Or.inr c3) hws⟩
    exfalso
    obtain ⟨x, hx, hxn⟩ := (piece_token hl (hts t (by simp)) (ha t (by simp))).2.2.2 (fun k v hw => c1 ⟨k, v, hw⟩) c2 c3
    rw [List.all_eq_true.mp h.1 x hx] at hxn; cases hxn

/-! ### The joined text -/

theorem sol_join_words (l : PyStr) (gs : List PyStr) (h : ∀ g ∈ gs, blank g = true ∨ ∀ c ∈ g, sepChar l c = false) :
    sol l (join u!" " gs) = gs.filter (fun g => !blank g) := by
  have one : ∀ g, (blank g = true ∨ ∀ c ∈ g, sepChar l c = false) → sol l g = if blank g then [] else [g] := by
    intro g hg
    cases hb : blank g with
    | true => rw [sol_blank l hb]; rfl
    | false => rw [sol_word l (hg.resolve_left (by simp [hb])) hb]; rfl
  induction gs with
  | nil => simp [join]
  | cons g gs ih =>
    have ih := ih (fun x hx => h x (List.mem_cons_of_mem _ hx))
    rw [List.filter_cons]
    cases gs with
    | nil =>
      show sol l g = _
      rw [one g (h g (by simp))]
      cases blank g <;> rfl
    | cons g' gs =>
      show sol l (g ++ u!" " ++ join u!" " (g' :: gs)) = _
      rw [List.append_assoc]
      show sol l (g ++ 0x20 :: join u!" " (g' :: gs)) = _
      rw [sol_append_sep l g _ (sepChar_of_space l (by decide)), sol_space l (by decide), ih, one g (h g (by simp))]
      cases blank g <;> rfl

theorem conv_shape {l s t : PyStr} (hl : l ∈ supported) (ht : t ∈ tokenize s l) :
    blank (conv l t) = true ∨ ∀ c ∈ conv l t, sepChar u!"hi" c = false := by
  have key : (∀ c ∈ t, isSpace c = false) → ∀ c ∈ conv l t, sepChar u!"hi" c = false := by
    intro h c hc
    rw [hi_sep]
    rcases conv_chars hl c hc with h' | h'
    · exact word_not_space (az_word h')
    · exact norm_nonspace h c h'
  rcases token_shape ht with h | h | ⟨_, c, rfl, _, hc⟩
  · refine Or.inr (key ?_)
    intro c hc
    obtain ⟨h1, h2⟩ := h c hc
    by_cases hhi : l = u!"hi"
    · rw [← sepChar_hi hhi]; exact h1
    · exact word_not_space (h2 hhi)
  · left
    rw [conv_blank_iff hl]
    exact blank_norm ((blank_spec t).mpr h)
  · exact Or.inr (key (by simpa using hc))

theorem parseOrdinal_join {l s : PyStr} (hl : l ∈ supported) :
    parseOrdinal s (some l) = parseNumber (join u!" " ((tokenize s l).map (conv l))) (some l) := by
  unfold parseOrdinal
  simp only [resolveLanguage, supported_data hl, bind, Except.bind, normalizeTokens, List.map_map]
  rfl

theorem blank_join (gs : List PyStr) : blank (join u!" " gs) = true ↔ ∀ g ∈ gs, blank g = true := by
  constructor
  · intro h g hg
    rw [blank_spec] at *
    exact fun c hc => h c (mem_join' hg hc)
  · intro h
    rw [blank_spec]
    intro c hc
    cases gs with
    | nil => simp [join] at hc
    | cons g gs =>
      obtain ⟨a, b, e, _, h3⟩ := join_mid (u := []) (v := gs) (t := g)
      have h2 : ∀ c ∈ a, c = 0x20 ∨ ∃ x ∈ ([] : List PyStr), c ∈ x := by assumption
      rw [List.nil_append] at e
      rw [e] at hc
      simp only [List.mem_append] at hc
      have sp : ∀ x ∈ g :: gs, ∀ c ∈ x, isSpace c = true := fun x hx => (blank_spec x).mp (h x hx)
      rcases hc with (hc | hc) | hc
      · rcases h2 c hc with rfl | ⟨x, hx, _⟩
        · decide
        · cases hx
      · exact sp g (by simp) c hc
      · rcases h3 c hc with rfl | ⟨x, hx, hcx⟩
        · decide
        · exact sp x (List.mem_cons_of_mem _ hx) c hcx

theorem conv_numeric {l : PyStr} (hl : l ∈ supported) {t : PyStr} (h : ∀ c ∈ conv l t, isNumericChar c = true) :
    conv l t = norm t := by
  cases hn : isNumberToken (norm t) (mkLangData (file l)) with
  | some c =>
    exfalso
    have hm := (allNumbers_iff hl c).mpr ((numberToken_iff hl).mp hn).1
    obtain ⟨x, hx, h1, _⟩ := numOrSkip_wordy (supported_data hl) (t := c) (by unfold numOrSkip; rw [hm]; rfl)
    rw [← isNumberToken_conv hn] at hx
    rw [h x hx] at h1; cases h1
  | none =>
    have e : conv l t = irregular (norm t) := conv_other (by rw [hn]; rfl)
    rcases irregular_cases (norm t) with h' | ⟨p, hp, a, b, h'⟩
    · rw [e, h']
    · exfalso
      have key : ∀ p ∈ irregulars, ∃ c ∈ p.2, isNumericChar c = false := by decide +kernel
      obtain ⟨c, hc, hcn⟩ := key p hp
      have := h c (by rw [e, h']; simp [hc])
      rw [hcn] at this; cases this

/-- When the joined text is word input. -/
theorem wordInput_join {l s : PyStr} (hl : l ∈ supported) (h1 : ∃ t ∈ tokenize s l, ¬ BlankForm t) (h2 : ¬ SingleNumeral (tokenize s l)) :
    WordInput (join u!" " ((tokenize s l).map (conv l))) := by
  constructor
  · intro hb
    obtain ⟨t, ht, hbt⟩ := h1
    have := (blank_join _).mp ((blank_spec _).mpr hb) (conv l t) (List.mem_map.mpr ⟨t, ht, rfl⟩)
    rw [conv_blank_iff hl] at this
    exact hbt ((blankForm_iff t).mpr this)
  · intro hn
    obtain ⟨g, hg, hgn⟩ := (numericText_sol _).mp hn
    rw [sol_join_words _ _ (by
      intro g hg
      obtain ⟨t, ht, rfl⟩ := List.mem_map.mp hg
      exact conv_shape hl ht)] at hg
    obtain ⟨u, v, e, hu, _, hv⟩ := List.filter_eq_cons_iff.mp hg
    obtain ⟨a, b', e1, rfl, e2⟩ := List.map_eq_append_iff.mp e
    obtain ⟨t, b, rfl, rfl, rfl⟩ := List.map_eq_cons_iff.mp e2
    have hv := List.filter_eq_nil_iff.mp hv
    have hbt : blank (conv l t) = false := by
      have : conv l t ∈ ((tokenize s l).map (conv l)).filter (fun g => !blank g) := by rw [hg]; simp
      simpa using (List.mem_filter.mp this).2
    have he := conv_numeric hl hgn
    apply h2
    have bl : ∀ x, (conv l x ∈ a.map (conv l) ∨ conv l x ∈ b.map (conv l)) → BlankForm x := by
      intro x hx
      rw [blankForm_iff, ← conv_blank_iff hl]
      rcases hx with hx | hx
      · simpa using hu _ hx
      · simpa using hv _ hx
    refine ⟨a, t, b, e1, fun x hx => bl x (Or.inl (List.mem_map.mpr ⟨x, hx, rfl⟩)), fun x hx => bl x (Or.inr (List.mem_map.mpr ⟨x, hx, rfl⟩)), ?_, ?_⟩
    · intro h0
      have h0 : norm t = [] := h0
      rw [he, h0] at hbt; cases hbt
    · show ∀ c ∈ norm t, _
      rw [← he]; exact hgn

theorem tokens_aposOK {l s : PyStr} : ∀ t ∈ tokenize s l, AposOK l t := by
  intro t ht
  by_cases hhi : l = u!"hi"
  · cases hna : noApos t with
    | true => exact Or.inl hna
    | false => exact Or.inr (Or.inr ⟨hhi, hna⟩)
  · have h := ((tokens_iff l s _).mpr rfl).2
    rw [if_neg hhi] at h
    rcases wordTokens_mem h ht with hw | ⟨c, rfl, hc⟩
    · left
      unfold noApos
      rw [List.all_eq_true]
      intro c hc
      have := hw c hc
      have h1 : c ≠ 0x27 := by rintro rfl; revert this; decide +kernel
      have h2 : c ≠ 0x2019 := by rintro rfl; revert this; decide +kernel
      simp [h1, h2]
    · by_cases h1 : c = 0x27
      · subst h1; exact Or.inr (Or.inl (Or.inl rfl))
      by_cases h2 : c = 0x2019
      · subst h2; exact Or.inr (Or.inl (Or.inr rfl))
      left; unfold noApos; simp [h1, h2]

theorem hd_chars (l s : PyStr) : ∀ c ∈ hd l s, sepChar l c = false := by
  induction s with
  | nil => simp
  | cons d ds ih =>
    rw [hd_cons]
    split
    · simp
    · rename_i h
      intro c hc
      rcases List.mem_cons.mp hc with rfl | hc
      · simpa using h
      · exact ih c hc

theorem skipHead_check : supported.all (fun l => (file l).skipTokens.all (fun t => t == u!"-" || t.all (fun c => !sepChar l c))) = true := by
  decide +kernel

/-- A conjunction at the beginning is found again. -/
theorem first_skip_plain {l s : PyStr} (hl : l ∈ supported) {t : PyStr} {ts : List PyStr} (hts : t :: ts = tokenize s l) (h : Skip l t) :
    isSkipToken (norm (hd l (noShy (dropApos (conv l t))))) (mkLangData (file l)) = true := by
  have hdat := supported_data hl
  have ht : t = hd l (noShy s) := by
    rw [tokenize_eq, split_cons] at hts
    injection hts
  have htok : t ∈ tokenize s l := by rw [← hts]; simp
  have hsep : ∀ c ∈ norm t, sepChar l c = false := by
    have hm : norm t ∈ (file l).skipTokens := h
    have := List.all_eq_true.mp (List.all_eq_true.mp skipHead_check l hl) _ hm
    rw [Bool.or_eq_true, beq_iff_eq] at this
    rcases this with e | e
    · have hc := hd_chars l (noShy s)
      rw [← ht] at hc
      by_cases hhi : l = u!"hi"
      · rw [e]; intro c hc; rw [List.mem_singleton] at hc; subst hc; rw [sepChar_hi hhi]; decide
      · exfalso
        have hw : ∀ c ∈ t, isWord c = true := fun c hc' => by have := hc c hc'; rw [sepChar_nonhi hhi] at this; simpa using this
        have := norm_wordish hw 0x2d (by rw [e]; simp)
        revert this; decide +kernel
    · intro c hc; simpa using List.all_eq_true.mp e c hc
  obtain ⟨e1, e2⟩ := piece_skip hl h
  rw [skip_iff] at h
  obtain ⟨e3, e4, _⟩ := stable_skip hdat h
  rw [e1] at e2 ⊢
  have hns : noShy (norm t) = norm t := by
    apply List.filter_eq_self.mpr
    intro c hc
    simpa using norm_noShy (token_noShy htok) c hc
  rw [dropApos_noApos e3, hns, hd_word l hsep]
  have hb := skip_blank (languageData_wf hdat) h
  rw [solid_eq, dropApos_noApos e3, hns, sol_word l hsep hb] at e4
  have : norm (norm t) = norm t := by
    rw [List.map_singleton, List.filter_cons] at e4
    split at e4
    · injection e4
    · cases e4
  rw [this]; exact h

theorem first_skip {l s : PyStr} (hl : l ∈ supported) {t : PyStr} {ts : List PyStr} (hts : t :: ts = tokenize s l)
    (h : Skip l (withoutApostrophes t)) :
    isSkipToken (norm (hd l (noShy (dropApos (conv l t))))) (mkLangData (file l)) = true := by
  have ht : t ∈ tokenize s l := by rw [← hts]; simp
  rcases tokens_aposOK t ht with hna | hap | ⟨rfl, hna⟩
  · rw [noApos_without hna] at h
    exact first_skip_plain hl hts h
  · exfalso
    rw [apos_without hap, skip_iff] at h
    rw [(blank_not_number (supported_data hl) (blank_norm (t := []) rfl)).2] at h; cases h
  · obtain ⟨_, _, h3, h4⟩ := hi_piece ht hna
    rw [skip_iff] at h
    rw [h3, h4 (Or.inr (Or.inr (Or.inl (by unfold numOrSkip; rw [h, Bool.or_true]))))]
    exact h

theorem first_not_skip {l s : PyStr} (hl : l ∈ supported) {t : PyStr} {ts : List PyStr} (ht : t ∈ tokenize s l)
    (hs : ¬ Skip l (withoutApostrophes t)) {ws : List (Class × Nat)} (h : OnlyNumbers l (t :: ts) ws) :
    isSkipToken (norm (hd l (noShy (dropApos (conv l t))))) (mkLangData (file l)) = false := by
  have hdat := supported_data hl
  have hwf := languageData_wf hdat
  obtain ⟨p1, p2, _, _⟩ := piece_token hl ht (tokens_aposOK t ht)
  cases h with
  | word hw h =>
    obtain ⟨x, hf, _, e⟩ := p1 _ _ hw
    rw [e]
    exact key_skip hwf ((allNumbers_iff hl _).mpr ⟨_, _, hf⟩)
  | other hb h =>
    exact (blank_not_number hdat (p2 (hb.resolve_right hs)).2).2

/-- `parse_ordinal` in terms of the rules. -/
theorem parseOrdinal_reads {l s : PyStr} (hl : l ∈ supported) {t : PyStr} {ts : List PyStr}
    (hts : Tokens l s (t :: ts)) (h1 : ∃ x ∈ t :: ts, ¬ BlankForm x) (h2 : ¬ SingleNumeral (t :: ts)) :
    ∃ r, parseOrdinal s (some l) = .ok r ∧
      ∀ n, r = some n ↔ ¬ Skip l (withoutApostrophes t) ∧ ∃ ws, OnlyNumbers l (t :: ts) ws ∧ ReadsAs l ws n := by
  rw [tokens_iff] at hts
  have hd := supported_data hl
  have hwf := languageData_wf hd
  have hap := tokens_aposOK (l := l) (s := s)
  rw [hts] at h1 h2
  have hwi := wordInput_join hl h1 h2
  rw [parseOrdinal_join hl, parseNumber_input hl hwi]
  rw [← hts, List.map_cons, hd_join, ← List.map_cons, solid_join, List.flatMap_map]
  rw [← hts] at hap
  have htm : ∀ x ∈ t :: ts, x ∈ tokenize s l := fun x hx => by rw [← hts]; exact hx
  refine ⟨_, rfl, fun n => ?_⟩
  rw [solidNumber_eq hwf.toDisjoint]
  constructor
  · intro h
    split at h
    · cases h
    rename_i hsk
    split at h
    · rename_i hall
      obtain ⟨ws, hws⟩ := onlyNumbers_of (s := s) hl hap htm hall
      refine ⟨?_, ws, hws, ?_⟩
      · intro hs
        exact hsk (first_skip hl hts hs)
      · rw [readsAs_run (onlyNumbers_pos hl hws), ← (onlyNumbers_kinds hl hap htm hws).1]
        rw [Option.map_eq_some_iff] at h
        exact h
    · cases h
  · rintro ⟨hs, ws, hws, hr⟩
    rw [readsAs_run (onlyNumbers_pos hl hws), ← (onlyNumbers_kinds hl hap htm hws).1] at hr
    rw [if_neg, if_pos (onlyNumbers_kinds hl hap htm hws).2, Option.map_eq_some_iff]
    · exact hr
    · rw [first_not_skip hl (htm t (by simp)) hs hws]; simp

/-- All tokens blank. -/
theorem parseOrdinal_blankForms {l s : PyStr} (hl : l ∈ supported) (h : ∀ t ∈ tokenize s l, BlankForm t) :
    parseOrdinal s (some l) = .ok none := by
  rw [parseOrdinal_join hl]
  have : blank (join u!" " ((tokenize s l).map (conv l))) = true := by
    rw [blank_join]
    intro g hg
    obtain ⟨t, ht, rfl⟩ := List.mem_map.mp hg
    rw [conv_blank_iff hl]; exact (blankForm_iff t).mp (h t ht)
  unfold parseNumber
  rw [this]; rfl

theorem join_spaced (gs : List PyStr) : join u!" " gs = spaced gs := by
  induction gs with
  | nil => rfl
  | cons g gs ih =>
    cases gs with
    | nil => rfl
    | cons g' gs => show g ++ u!" " ++ join u!" " (g' :: gs) = g ++ u!" " ++ spaced (g' :: gs); rw [ih]

/-- A single numeral. -/
theorem parseOrdinal_numeral {l s : PyStr} (hl : l ∈ supported) (h : SingleNumeral (tokenize s l)) :
    parseOrdinal s (some l) = (pyInt (spaced ((tokenize s l).map norm))).map some := by
  obtain ⟨a, t, b, e, ha, hb, hne, hn⟩ := h
  have hn : ∀ c ∈ norm t, isNumericChar c = true := hn
  have hct : conv l t = norm t := by
    apply conv_noletters
    intro c hc
    cases hz : isAz c with
    | false => rfl
    | true => have := hn c hc; rw [(az_facts hz).2.2.2] at this; cases this
  have hmap : (tokenize s l).map (conv l) = (tokenize s l).map norm := by
    rw [e, List.map_append, List.map_append, List.map_cons, List.map_cons, hct]
    congr 1
    · exact List.map_congr_left (fun x hx => (piece_blank (ha x hx)).1)
    · congr 1
      exact List.map_congr_left (fun x hx => (piece_blank (hb x hx)).1)
  rw [parseOrdinal_join hl, hmap, join_spaced]
  apply parseNumber_numeric
  obtain ⟨x, y, e1, e2, e3⟩ := join_mid (u := a.map norm) (v := b.map norm) (t := norm t)
  rw [← join_spaced, e, List.map_append, List.map_cons]
  refine ⟨x, norm t, y, e1, ?_, ?_, hne, hn⟩
  · intro c hc
    rcases e2 c hc with rfl | ⟨z, hz, hcz⟩
    · decide
    · obtain ⟨w, hw, rfl⟩ := List.mem_map.mp hz
      exact ha w hw c hcz
  · intro c hc
    rcases e3 c hc with rfl | ⟨z, hz, hcz⟩
    · decide
    · obtain ⟨w, hw, rfl⟩ := List.mem_map.mp hz
      exact hb w hw c hcz

end NumberParser
