import Verif.Model.Parser

/-! Helper lemmas: strings, tokenisers, dictionaries, decimal conversion. -/

namespace NumberParser

/-! ### strip / blank -/

theorem dropWhile_eq_nil_iff_all (p : Nat → Bool) (s : PyStr) : s.dropWhile p = [] ↔ s.all p = true := by
  induction s with
  | nil => simp
  | cons c cs ih =>
    by_cases h : p c
    · rw [List.dropWhile_cons, if_pos h, ih, List.all_cons, h, Bool.true_and]
    · simp [h]

theorem rdropWhile_eq_nil_iff (p : Nat → Bool) (s : PyStr) : rdropWhile p s = [] ↔ s.all p = true := by
  unfold rdropWhile
  rw [List.reverse_eq_nil_iff, dropWhile_eq_nil_iff_all]
  simp

theorem all_dropWhile_iff (p : Nat → Bool) (s : PyStr) : (s.dropWhile p).all p = true ↔ s.all p = true := by
  induction s with
  | nil => simp
  | cons c cs ih =>
    by_cases h : p c <;> simp_all

theorem blank_iff (s : PyStr) : blank s = true ↔ s.all isSpace = true := by
  unfold blank strip
  rw [List.isEmpty_iff, rdropWhile_eq_nil_iff, all_dropWhile_iff]

theorem blank_eq (s : PyStr) : blank s = s.all isSpace := by
  rw [Bool.eq_iff_iff]; exact blank_iff s

@[simp] theorem blank_nil : blank [] = true := rfl

theorem blank_append (a b : PyStr) : blank (a ++ b) = (blank a && blank b) := by
  simp [blank_eq]

theorem blank_cons (c : Nat) (b : PyStr) : blank (c :: b) = (isSpace c && blank b) := by
  simp [blank_eq]

/-! ### replace of a single character by nothing -/

theorem replaceGo_single (c : Nat) (s : PyStr) : replaceGo [c] [] 0 s = s.filter (fun d => !(c == d)) := by
  induction s with
  | nil => rfl
  | cons d ds ih =>
    simp only [replaceGo, List.isPrefixOf, Bool.and_true, List.length_singleton, Nat.sub_self, List.nil_append, ih]
    by_cases h : c = d <;> simp [h]

theorem replace_single (c : Nat) (s : PyStr) : replace s [c] [] = s.filter (fun d => d != c) := by
  unfold replace
  rw [replaceGo_single]
  congr; funext d
  by_cases h : c = d
  · subst h; simp
  · have h2 : d ≠ c := Ne.symm h
    rw [bne_iff_ne.mpr h2]; simp [h]

/-! ### tokenisers -/

theorem splitNonWord_ne_nil (s : PyStr) : splitNonWord s ≠ [] := by
  cases s with
  | nil => simp [splitNonWord]
  | cons c cs => simp only [splitNonWord]; split <;> (try split) <;> simp

theorem splitSpaces_ne_nil (s : PyStr) : splitSpaces s ≠ [] := by
  cases s with
  | nil => simp [splitSpaces]
  | cons c cs =>
    simp only [splitSpaces]
    split
    · split <;> (try split) <;> simp
    · split <;> simp

theorem splitNonWord_flatten (s : PyStr) : (splitNonWord s).flatten = s := by
  induction s with
  | nil => rfl
  | cons c cs ih =>
    simp only [splitNonWord]
    split
    · split
      · rename_i h; exact absurd h (splitNonWord_ne_nil cs)
      · rename_i h; rw [h] at ih; simpa using ih
    · simpa using ih

theorem splitNonWord_append_sep (a b : PyStr) (c : Nat) (hc : isWord c = false) :
    splitNonWord (a ++ c :: b) = splitNonWord a ++ [c] :: splitNonWord b := by
  induction a with
  | nil => simp [splitNonWord, hc]
  | cons d ds ih =>
    simp only [List.cons_append, splitNonWord, ih]
    split
    · cases h : splitNonWord ds with
      | nil => exact absurd h (splitNonWord_ne_nil ds)
      | cons t ts => simp
    · simp

theorem splitNonWord_word (w : PyStr) (h : w.all isWord = true) : splitNonWord w = [w] := by
  induction w with
  | nil => rfl
  | cons c cs ih =>
    simp only [List.all_cons, Bool.and_eq_true] at h
    simp [splitNonWord, h.1, ih h.2]

/-- Prepending a word to a text that starts with a separator. -/
theorem splitNonWord_word_sep (w b : PyStr) (c : Nat) (h : w.all isWord = true) (hc : isWord c = false) :
    splitNonWord (w ++ c :: b) = w :: [c] :: splitNonWord b := by
  rw [splitNonWord_append_sep _ _ _ hc, splitNonWord_word w h]; rfl

theorem splitSpaces_flatten (s : PyStr) : (splitSpaces s).flatten = s := by
  induction s with
  | nil => rfl
  | cons c cs ih =>
    simp only [splitSpaces]
    split
    · split
      · rename_i h; rw [h] at ih
        split <;> simpa using ih
      · simpa using ih
    · split
      · rename_i h; exact absurd h (splitSpaces_ne_nil cs)
      · rename_i h; rw [h] at ih; simpa using ih

end NumberParser
