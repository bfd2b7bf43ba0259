import Verif.Spec.VocabularyGrowth
import Verif.Proofs.Size
import Verif.Proofs.Growth
import Verif.Proofs.VocabularyApart
import Verif.Proofs.VocabularyPieces

/-! How numbers and results grow, with the vocabulary of any data module. -/

set_option linter.unusedSimpArgs false

namespace NumberParser
open Spec UnicodeData

set_option maxRecDepth 100000

/-! ### Comparison forms -/

def three (v : List Nat) : Bool := decide ((v.filter (fun x => !isMn x)).length ≤ 3)

theorem three_lower : lowerMap.all (fun _ v => three (v.flatMap decompChar)) = true := by decide +kernel

theorem three_nfd : nfdMap.all (fun _ v => three v) = true := by decide +kernel

theorem three_decomp (c : Nat) : three (decompChar c) = true := by
  by_cases hr : 0xac00 ≤ c ∧ c ≤ 0xd7a3
  · unfold three decompChar
    rw [if_pos hr, decide_eq_true_eq]
    refine Nat.le_trans (List.length_filter_le _ _) ?_
    dsimp only
    split <;> simp
  · unfold decompChar
    rw [if_neg hr]
    cases hf : nfdMap.find? c with
    | some v => exact MTree.all_sound three_nfd hf
    | none =>
      unfold three
      rw [decide_eq_true_eq]
      exact Nat.le_trans (List.length_filter_le _ _) (by simp)

theorem three_lowerChar (c : Nat) : three ((lowerChar c).flatMap decompChar) = true := by
  unfold lowerChar
  cases hf : lowerMap.find? c with
  | some v => exact MTree.all_sound three_lower hf
  | none => simpa using three_decomp c

theorem lowerGo_three (rev t : PyStr) : (((lowerGo rev t).flatMap decompChar).filter (fun x => !isMn x)).length ≤ 3 * t.length := by
  induction t generalizing rev with
  | nil => simp [lowerGo]
  | cons c cs ih =>
    simp only [lowerGo, List.flatMap_append, List.filter_append, List.length_append, List.length_cons] at *
    have h2 := ih (c :: rev)
    have h1 : ∀ v : List Nat, three (v.flatMap decompChar) = true → ((v.flatMap decompChar).filter (fun x => !isMn x)).length ≤ 3 := by
      intro v hv
      unfold three at hv
      simpa using hv
    have h3 : (((if c = 0x3a3 then [if casedNext rev && !casedNext cs then 0x3c2 else 0x3c3] else lowerChar c).flatMap decompChar).filter (fun x => !isMn x)).length ≤ 3 := by
      apply h1
      split
      · simpa using three_decomp _
      · exact three_lowerChar c
    omega

/-- The comparison form is at most three times as long as the text. -/
theorem norm_three (t : PyStr) : (norm t).length ≤ 3 * t.length := by
  have := lowerGo_three [] t
  unfold norm stripAccents nfd
  rw [canonicalOrder_filter]
  exact this

/-! ### Words -/

theorem word_sizeOf {F : Nat} {i : Info} (hF : DigitsWithin F i) {k : Class} {v : Nat} {t : PyStr} (h : WordOf i k v t) :
    (decDigits v).length + 1 ≤ 3 * F * t.length := by
  have h1 := hF.2 k _ v h
  have h2 : (form t).length ≤ 3 * t.length := norm_three t
  have h3 := Nat.mul_le_mul_left F h2
  have : F * (3 * t.length) = 3 * F * t.length := by rw [← Nat.mul_assoc, Nat.mul_comm F 3]
  omega

theorem skip_sizeOf {F : Nat} {i : Info} (hF : DigitsWithin F i) (hi : Tidy i) {t : PyStr} (h : SkipOf i t) :
    (form t).length + 1 ≤ 3 * F * t.length := by
  have h1 : (form t).length ≤ 3 * t.length := norm_three t
  have h2 : 1 ≤ t.length := by
    cases t with
    | nil =>
      exact absurd (norm_space (t := []) (by simp)) (skip_not_blankOf hi h)
    | cons => simp
  have h3 : 6 * t.length ≤ 3 * F * t.length := Nat.mul_le_mul_right _ (by have := hF.1; omega)
  omega

theorem stands_shorter {i : Info} {g c : PyStr} (h : StandsForOf i g c) : c.length ≤ g.length := by
  obtain ⟨a, b, hc, _, _⟩ := h
  generalize hl : a ++ c :: b = l at hc
  have hm : c ∈ l := by rw [← hl]; simp
  clear hl
  cases hc with
  | ieth stem =>
    simp only [List.mem_cons, List.not_mem_nil, or_false] at hm
    rcases hm with rfl | rfl | rfl <;> simp
  | th stem _ =>
    simp only [List.mem_cons, List.not_mem_nil, or_false] at hm
    rcases hm with rfl | rfl <;> simp
  | other _ _ =>
    simp only [List.mem_cons, List.not_mem_nil, or_false] at hm
    subst hm; exact Nat.le_refl _

theorem ordinal_sizeOf {F : Nat} {i : Info} (hF : DigitsWithin F i) {k : Class} {v : Nat} {t : PyStr} (h : OrdinalOf i k v t) :
    (decDigits v).length + 1 ≤ 3 * F * t.length := by
  obtain ⟨_, c, hc, hs⟩ := h
  have h1 := hF.2 k _ v hc
  have h2 := stands_shorter hs
  have h3 := (irregular_facts (form t)).1
  have h4 : (form t).length ≤ 3 * t.length := norm_three t
  have h5 := Nat.mul_le_mul_left F (show c.length ≤ 3 * t.length by omega)
  have : F * (3 * t.length) = 3 * F * t.length := by rw [← Nat.mul_assoc, Nat.mul_comm F 3]
  omega

/-! ### Runs -/

theorem run_itemsOf {F : Nat} {i : Info} (hF : DigitsWithin F i) (hi : Tidy i) {ts : List PyStr} {is : List RunItem} (h : RunTokensOf i ts is) :
    itemSize is ≤ 3 * F * ts.flatten.length := by
  induction h with
  | nil => simp [itemSize]
  | word hw _ ih =>
    have := word_sizeOf hF hw
    simp only [itemSize, List.flatten_cons, List.length_append, Nat.mul_add]; omega
  | conj hs _ ih =>
    have := skip_sizeOf hF hi hs
    simp only [itemSize, List.flatten_cons, List.length_append, Nat.mul_add]; omega
  | blank _ _ ih =>
    simp only [List.flatten_cons, List.length_append, Nat.mul_add]; omega

theorem readAs_size {i : Info} {ws : List (Class × Nat)} {n : Nat} (h : ReadAs i ws n) (hw : 1 ≤ digitCount ws) :
    (decDigits n).length ≤ digitCount ws := by
  obtain ⟨c, o, q, hr, rfl⟩ := h
  exact decDigits_length _ _ hw (reading_size hr)

theorem number_itemsOf {i : Info} {is : List RunItem} {n : Nat} (h : ReadAs i (runWords is) n) (hw : runWords is ≠ []) :
    (decDigits n).length + 1 ≤ itemSize is := by
  have h1 := readAs_size h (digitCount_pos hw)
  have h2 := words_items is
  have h3 : 1 ≤ (runWords is).length := by
    cases h : runWords is with
    | nil => exact absurd h hw
    | cons => simp
  omega

theorem cut_sizeOf {i : Info} {is : List RunItem} {xs : List PyStr} (h : CutOf i is xs) (hw : runWords is ≠ []) :
    (withSpaces xs).length ≤ itemSize is := by
  induction h with
  | last hr =>
    have := number_itemsOf hr hw
    simpa [withSpaces] using this
  | @more is rest cs n k v xs hr he _ _ ih =>
    have hne : runWords is ≠ [] := by
      obtain ⟨is', k', v', rfl⟩ := he
      rw [runWords_append]; simp [runWords]
    have h1 := number_itemsOf hr hne
    have h2 := ih (by simp [runWords])
    rw [List.cons_append, itemSize_append, itemSize_append, ← conj_items]
    simp only [withSpaces, withSpaces_append, List.length_append, List.length_cons, List.length_nil]
    omega

theorem converted_sizeOf {F : Nat} {i : Info} (hF : DigitsWithin F i) (hi : Tidy i) {ts : List PyStr} {out : PyStr} (h : ConvertedOf i ts out) :
    out.length ≤ 3 * F * ts.flatten.length := by
  have hg := hF.1
  have hrun : ∀ {run : List PyStr} {is : List RunItem}, RunOf i run is → itemSize is ≤ 3 * F * run.flatten.length ∧
      ∃ k v rest, is = .word k v :: rest := by
    rintro run is ⟨h1, t, ts', rfl, hc⟩
    refine ⟨run_itemsOf hF hi h1, ?_⟩
    cases h1 with
    | word _ _ => exact ⟨_, _, _, rfl⟩
    | conj hs _ => exact absurd hs (cardinal_not_skipOf hi hc)
    | blank hb _ => exact absurd hb (cardinal_not_blankOf hi hc)
  have hself : ∀ t : PyStr, t.length ≤ 3 * F * t.length := fun t => Nat.le_mul_of_pos_left _ (by omega)
  induction h with
  | nil => simp
  | @keep t ts out _ _ ih =>
    have := hself t
    simp only [List.flatten_cons, List.length_append, Nat.mul_add]; omega
  | ending hr hc =>
    obtain ⟨h1, k, v, rest, rfl⟩ := hrun hr
    exact Nat.le_trans (cut_sizeOf hc (by simp [runWords])) h1
  | @mark run is xs t ts out hr hc _ _ _ ih =>
    obtain ⟨h1, k, v, rest, rfl⟩ := hrun hr
    have := cut_sizeOf hc (by simp [runWords])
    have := hself t
    simp only [List.flatten_append, List.flatten_cons, List.length_append, Nat.mul_add]; omega
  | @markTight run is xs t ts out hr hc _ _ _ ih =>
    obtain ⟨h1, k, v, rest, rfl⟩ := hrun hr
    have := cut_sizeOf hc (by simp [runWords])
    have := hself t
    have := spaced_short xs
    simp only [List.flatten_append, List.flatten_cons, List.length_append, Nat.mul_add]; omega
  | @word run is xs t ts out hr _ hc _ _ _ ih =>
    obtain ⟨h1, k, v, rest, rfl⟩ := hrun hr
    have := cut_sizeOf hc (by simp [runWords])
    have := hself t
    simp only [List.flatten_append, List.flatten_cons, List.length_append, Nat.mul_add]; omega
  | @conjWord run is f xs t ts out hr hc _ _ _ ih =>
    obtain ⟨h1, k, v, rest, he⟩ := hrun hr
    have hne : runWords is ≠ [] := by
      cases is with
      | nil => simp at he
      | cons x is => simp at he; rw [he.1]; simp [runWords]
    have := cut_sizeOf hc hne
    have := hself t
    rw [itemSize_append] at h1
    simp only [itemSize] at h1
    simp only [List.flatten_append, List.flatten_cons, List.length_append, Nat.mul_add, List.length_cons, List.length_nil]; omega
  | @ordinal run is xs t k v ts out hr ho hc _ ih =>
    have h1 : itemSize is ≤ 3 * F * run.flatten.length := by
      rcases hr with ⟨rfl, rfl⟩ | hr
      · simp [itemSize]
      · exact (hrun hr).1
    have h2 := cut_sizeOf hc (by rw [runWords_append]; simp [runWords])
    have h3 := ordinal_sizeOf hF ho
    have h4 := spaced_short xs
    rw [itemSize_append] at h2
    simp only [itemSize] at h2
    simp only [List.flatten_append, List.flatten_cons, List.length_append, Nat.mul_add]; omega

/-! ### Prefixes -/

theorem onlyWordsOf_split {i : Info} {a b : List PyStr} {ws : List (Class × Nat)} (h : OnlyWordsOf i (a ++ b) ws) :
    ∃ x y, OnlyWordsOf i a x ∧ OnlyWordsOf i b y ∧ ws = x ++ y := by
  induction a generalizing ws with
  | nil => exact ⟨[], ws, .nil, h, rfl⟩
  | cons t a ih =>
    cases h with
    | word hw h =>
      obtain ⟨x, y, h1, h2, rfl⟩ := ih h
      exact ⟨_, y, .word hw h1, h2, rfl⟩
    | other ho h =>
      obtain ⟨x, y, h1, h2, rfl⟩ := ih h
      exact ⟨x, y, .other ho h1, h2, rfl⟩

theorem onlyWordsOf_append {i : Info} {a b : List PyStr} {x y : List (Class × Nat)} (h : OnlyWordsOf i a x) (h' : OnlyWordsOf i b y) :
    OnlyWordsOf i (a ++ b) (x ++ y) := by
  induction h with
  | nil => exact h'
  | word hw _ ih => exact .word hw ih
  | other ho _ ih => exact .other ho ih

end NumberParser
