import Verif.Proofs.Package
import Verif.Proofs.Fraction

/-! `parse_fraction` with any list of languages. -/

set_option linter.unusedSimpArgs false

namespace NumberParser
open Spec

theorem pyInt_bind_lt {s : PyStr} {n : Nat} (h : (do let n ← pyInt s; return some n : Res (Option Nat)) = .ok (some n)) : n < 10 ^ 4300 := by
  cases hp : pyInt s with
  | error e => rw [hp] at h; cases h
  | ok m =>
    rw [hp] at h
    injection h with h
    injection h with h
    subst h
    exact digitText_lt ((pyInt_iff s m).mp hp)

/-- Every result of `parse_number` can be converted back. -/
theorem parseNumberIn_lt {p : Package} {s : PyStr} {l : Option PyStr} {n : Nat} (h : parseNumberIn p s l = .ok (some n)) : n < 10 ^ 4300 := by
  unfold parseNumberIn at h
  split at h
  · cases h
  split at h
  · exact pyInt_bind_lt h
  cases h1 : resolveLanguageIn p s l with
  | error e => rw [h1] at h; cases h
  | ok l' =>
    rw [h1] at h
    cases h2 : languageDataIn p l' with
    | error e => simp only [bind, Except.bind, h2] at h; cases h
    | ok ld =>
      simp only [bind, Except.bind, h2] at h
      split at h
      · cases h3 : buildNumber ld (normalizeTokens (tokenize (replace (replace s u!"'" []) u!"’" []) l')) with
        | error e => rw [h3] at h; cases h
        | ok b =>
          rw [h3] at h
          match b, h with
          | [], h => cases h
          | [x], h => exact pyInt_bind_lt h
          | _ :: _ :: _, h => cases h
      · cases h

/-- The result for two sides -/
def fractionOfIn (p : Package) (l a b : PyStr) : Res (Option PyStr) := do
  let m ← parseNumberIn p a (some l)
  let n ← parseNumberIn p b (some l)
  match m, n with
  | some m, some n => return some (decDigits m ++ u!"/" ++ decDigits n)
  | _, _ => return none

theorem fractionLoopIn_hit {p : Package} {s l sep a b : PyStr} {seps : List PyStr} (hs : sep ≠ []) (h : SplitAt sep s a b) :
    fractionLoopIn p s l (sep :: seps) = fractionOfIn p l a b := by
  unfold fractionLoopIn
  cases hf : find sep s with
  | none => exact absurd ⟨a, b, h.1⟩ ((find_none hs s).mp hf)
  | some i =>
    obtain ⟨rfl, rfl⟩ := splitAt_unique h (find_some hf)
    simp only [fractionOfIn]
    cases ha : parseNumberIn p (s.take i) (some l) with
    | error e => rfl
    | ok m =>
      cases hb : parseNumberIn p (s.drop (i + sep.length)) (some l) with
      | error e => rfl
      | ok n =>
        cases m with
        | none => rfl
        | some m =>
          cases n with
          | none => rfl
          | some n =>
            simp only [bind, Except.bind, strInt_of_lt (parseNumberIn_lt ha), strInt_of_lt (parseNumberIn_lt hb)]

theorem fractionLoopIn_skip {p : Package} {s l : PyStr} {pre post : List PyStr} (hne : ∀ x ∈ pre, x ≠ []) (h : ∀ x ∈ pre, ¬ Occurs x s) :
    fractionLoopIn p s l (pre ++ post) = fractionLoopIn p s l post := by
  induction pre with
  | nil => rfl
  | cons x pre ih =>
    rw [List.cons_append, fractionLoopIn, (find_none (hne x (by simp)) s).mpr (h x (by simp))]
    exact ih (fun y hy => hne y (List.mem_cons_of_mem _ hy)) (fun y hy => h y (List.mem_cons_of_mem _ hy))

theorem parseFractionIn_parts {p : Package} {s a b l : PyStr} (h : FractionParts s a b) :
    parseFractionIn p s (some l) = fractionOfIn p l a b := by
  unfold parseFractionIn
  rw [parts_not_blank h]
  obtain ⟨hi, sep, lo, h1, h2, h3⟩ := h
  show fractionLoopIn p s l separators = _
  rw [h1, fractionLoopIn_skip (fun x hx => separators_ne x (by rw [h1]; simp [hx])) h2,
    fractionLoopIn_hit (separators_ne sep (by rw [h1]; simp)) h3]

theorem parseFractionIn_no_parts {p : Package} {s l : PyStr} (h : ∀ x ∈ separators, ¬ Occurs x s) :
    parseFractionIn p s (some l) = .ok none := by
  unfold parseFractionIn
  split
  · rfl
  · show fractionLoopIn p s l separators = _
    have := fractionLoopIn_skip (p := p) (l := l) (post := []) separators_ne h
    rw [List.append_nil] at this
    rw [this]; rfl

end NumberParser
