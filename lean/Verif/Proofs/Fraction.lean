import Verif.Proofs.Numeric
import Verif.Proofs.Detect
import Verif.Spec.Fraction

/-! `find` and the loop of `parse_fraction`. -/

namespace NumberParser
open Spec

theorem find_none {sub : PyStr} (hs : sub ≠ []) (s : PyStr) : find sub s = none ↔ ¬ Occurs sub s := by
  induction s with
  | nil =>
    simp only [find, true_iff]
    rintro ⟨a, b, h⟩
    have := congrArg List.length h
    simp at this
    exact hs (List.length_eq_zero_iff.mp (by omega))
  | cons c cs ih =>
    simp only [find]
    by_cases hp : sub.isPrefixOf (c :: cs) = true
    · rw [if_pos hp]
      obtain ⟨b, hb⟩ := List.isPrefixOf_iff_prefix.mp hp
      simp only [reduceCtorEq, false_iff, Classical.not_not]
      exact ⟨[], b, by rw [List.nil_append]; exact hb.symm⟩
    · rw [if_neg hp, Option.map_eq_none_iff, ih]
      constructor
      · rintro h ⟨a, b, he⟩
        cases a with
        | nil => exact hp (List.isPrefixOf_iff_prefix.mpr ⟨b, by simpa using he.symm⟩)
        | cons x a => simp at he; exact h ⟨a, b, by simpa using he.2⟩
      · rintro h ⟨a, b, he⟩
        exact h ⟨c :: a, b, by rw [he]; rfl⟩

theorem find_some {sub : PyStr} {s : PyStr} {i : Nat} (h : find sub s = some i) :
    SplitAt sub s (s.take i) (s.drop (i + sub.length)) := by
  induction s generalizing i with
  | nil => simp [find] at h
  | cons c cs ih =>
    simp only [find] at h
    by_cases hp : sub.isPrefixOf (c :: cs) = true
    · rw [if_pos hp] at h
      injection h with h; subst h
      obtain ⟨b, hb⟩ := List.isPrefixOf_iff_prefix.mp hp
      refine ⟨?_, by simp⟩
      rw [← hb]; simp
    · rw [if_neg hp] at h
      cases hf : find sub cs with
      | none => rw [hf] at h; simp at h
      | some j =>
        rw [hf] at h; simp at h; subst h
        obtain ⟨h1, h2⟩ := ih hf
        refine ⟨?_, ?_⟩
        · simp only [List.take_succ_cons, List.cons_append]
          rw [show j + 1 + sub.length = (j + sub.length) + 1 from by omega, List.drop_succ_cons, ← h1]
        · intro a' b' he
          cases a' with
          | nil => exact absurd (List.isPrefixOf_iff_prefix.mpr ⟨b', by simpa using he.symm⟩) hp
          | cons x a' =>
            simp at he
            have := h2 a' b' (by simpa using he.2)
            simp only [List.take_succ_cons, List.length_cons]
            omega

theorem splitAt_unique {sub s a b a' b' : PyStr} (h : SplitAt sub s a b) (h' : SplitAt sub s a' b') : a = a' ∧ b = b' := by
  have hl : a.length = a'.length := Nat.le_antisymm (h.2 _ _ h'.1) (h'.2 _ _ h.1)
  have he := h.1.symm.trans h'.1
  rw [List.append_assoc, List.append_assoc] at he
  obtain ⟨h1, h2⟩ := List.append_inj he hl
  exact ⟨h1, (List.append_inj h2 rfl).2⟩

/-- What `parse_fraction` does with the two sides. -/
def fractionOf (l a b : PyStr) : Res (Option PyStr) := do
  let m ← parseNumber a (some l)
  let n ← parseNumber b (some l)
  match m, n with
  | some m, some n => return some (decDigits m ++ u!"/" ++ decDigits n)
  | _, _ => return none

theorem strInt_of_lt {n : Nat} (h : n < 10 ^ 4300) : strInt n = .ok (decDigits n) := by
  unfold strInt
  rw [if_pos]
  exact decDigits_length n 4300 (by decide) h

theorem fractionLoop_hit {s l sep a b : PyStr} {seps : List PyStr} (hs : sep ≠ []) (h : SplitAt sep s a b) :
    fractionLoop s l (sep :: seps) = fractionOf l a b := by
  unfold fractionLoop
  cases hf : find sep s with
  | none => exact absurd ⟨a, b, h.1⟩ ((find_none hs s).mp hf)
  | some i =>
    obtain ⟨rfl, rfl⟩ := splitAt_unique h (find_some hf)
    simp only [fractionOf]
    cases ha : parseNumber (s.take i) (some l) with
    | error e => rfl
    | ok m =>
      cases hb : parseNumber (s.drop (i + sep.length)) (some l) with
      | error e => rfl
      | ok n =>
        cases m with
        | none => rfl
        | some m =>
          cases n with
          | none => rfl
          | some n =>
            simp only [bind, Except.bind, strInt_of_lt (parseNumber_lt ha), strInt_of_lt (parseNumber_lt hb)]

theorem fractionLoop_skip {s l : PyStr} {pre post : List PyStr} (hne : ∀ x ∈ pre, x ≠ []) (h : ∀ x ∈ pre, ¬ Occurs x s) :
    fractionLoop s l (pre ++ post) = fractionLoop s l post := by
  induction pre with
  | nil => rfl
  | cons x pre ih =>
    rw [List.cons_append, fractionLoop, (find_none (hne x (by simp)) s).mpr (h x (by simp))]
    exact ih (fun y hy => hne y (List.mem_cons_of_mem _ hy)) (fun y hy => h y (List.mem_cons_of_mem _ hy))

theorem separators_ne : ∀ x ∈ separators, x ≠ [] := by decide

theorem separators_solid : ∀ x ∈ separators, ∃ c ∈ x, isSpace c = false := by decide

theorem blank_spec (s : PyStr) : blank s = true ↔ Blank s := by
  rw [blank_eq, List.all_eq_true]; rfl

theorem parts_not_blank {s a b : PyStr} (h : FractionParts s a b) : blank s = false := by
  obtain ⟨hi, sep, lo, h1, _, h3, _⟩ := h
  obtain ⟨c, hc, hs⟩ := separators_solid sep (by rw [h1]; simp)
  cases hb : blank s with
  | false => rfl
  | true =>
    have := (blank_spec s).mp hb c (by rw [h3]; simp [hc])
    rw [hs] at this; exact absurd this (by simp)

theorem parseFraction_parts {s a b l : PyStr} (h : FractionParts s a b) : parseFraction s (some l) = fractionOf l a b := by
  unfold parseFraction
  rw [parts_not_blank h]
  obtain ⟨hi, sep, lo, h1, h2, h3⟩ := h
  show fractionLoop s l separators = _
  rw [h1, fractionLoop_skip (fun x hx => separators_ne x (by rw [h1]; simp [hx])) h2,
    fractionLoop_hit (separators_ne sep (by rw [h1]; simp)) h3]

theorem parseFraction_no_parts {s l : PyStr} (h : ∀ x ∈ separators, ¬ Occurs x s) : parseFraction s (some l) = .ok none := by
  unfold parseFraction
  split
  · rfl
  · show fractionLoop s l separators = _
    have := fractionLoop_skip (l := l) (post := []) separators_ne h
    rw [List.append_nil] at this
    rw [this]; rfl

theorem splitAt_of_occurs {sep s : PyStr} (hs : sep ≠ []) (h : Occurs sep s) : ∃ a b, SplitAt sep s a b := by
  cases hf : find sep s with
  | none => exact absurd h ((find_none hs s).mp hf)
  | some i => exact ⟨_, _, find_some hf⟩

theorem first_hit {p : PyStr → Prop} (ls : List PyStr) : (∀ x ∈ ls, ¬ p x) ∨ ∃ a x b, ls = a ++ x :: b ∧ (∀ y ∈ a, ¬ p y) ∧ p x := by
  induction ls with
  | nil => exact Or.inl (by simp)
  | cons x ls ih =>
    by_cases h : p x
    · exact Or.inr ⟨[], x, ls, rfl, by simp, h⟩
    · rcases ih with ih | ⟨a, y, b, h1, h2, h3⟩
      · refine Or.inl ?_
        intro y hy
        rcases List.mem_cons.mp hy with rfl | hy
        · exact h
        · exact ih y hy
      · refine Or.inr ⟨x :: a, y, b, by rw [h1]; rfl, ?_, h3⟩
        intro z hz
        rcases List.mem_cons.mp hz with rfl | hz
        · exact h
        · exact h2 z hz

theorem parts_cases (s : PyStr) : (∀ x ∈ separators, ¬ Occurs x s) ∨ ∃ a b, FractionParts s a b := by
  rcases first_hit (p := fun x => Occurs x s) separators with h | ⟨hi, x, lo, h1, h2, h3⟩
  · exact Or.inl h
  · obtain ⟨a, b, hab⟩ := splitAt_of_occurs (separators_ne x (by rw [h1]; simp)) h3
    exact Or.inr ⟨a, b, hi, x, lo, h1, h2, hab⟩

theorem parts_unique {s a b a' b' : PyStr} (h : FractionParts s a b) (h' : FractionParts s a' b') : a = a' ∧ b = b' := by
  obtain ⟨hi, x, lo, h1, h2, h3⟩ := h
  obtain ⟨hi', x', lo', h1', h2', h3'⟩ := h'
  have e : hi ++ x :: lo = hi' ++ x' :: lo' := by rw [← h1, ← h1']
  have hx : x = x' := by
    rcases List.append_eq_append_iff.mp e with ⟨c, hc1, hc2⟩ | ⟨c, hc1, hc2⟩
    · cases c with
      | nil => simp at hc2; exact hc2.1
      | cons y c =>
        simp only [List.cons_append, List.cons.injEq] at hc2
        exact absurd ⟨a, b, h3.1⟩ (h2' x (by rw [hc1, hc2.1]; simp))
    · cases c with
      | nil => simp at hc2; exact hc2.1.symm
      | cons y c =>
        simp only [List.cons_append, List.cons.injEq] at hc2
        exact absurd ⟨a', b', h3'.1⟩ (h2 x' (by rw [hc1, hc2.1]; simp))
  subst hx
  exact splitAt_unique h3 h3'

end NumberParser
