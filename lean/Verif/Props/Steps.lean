import Verif.Proofs.Steps
import Verif.Spec.Steps
import Verif.Props.Package

/-!
# C101: the work is linear in the length of the text

All iterations of all loops of a call, of its own and of the functions it calls (Model/Steps), are at most a constant number for each
character of the text, and a number that depends on the data modules only.  Specification: Verif/Spec/Steps.lean.
-/

namespace NumberParser
open Spec

theorem dictSteps_size (d : Dict) : normalizeDictSteps d ≤ tableSize d := by
  unfold normalizeDictSteps tableSize
  induction d with
  | nil => exact Nat.le_refl _
  | cons e d ih =>
    have h : stripAccentsSteps e.1 ≤ 4 * e.1.length := by
      unfold stripAccentsSteps
      rw [nfd_length]
      generalize e.1 = w
      induction w with
      | nil => simp
      | cons c w ihw =>
        have := short_decomp c
        simp only [List.flatMap_cons, List.length_append, List.length_cons]
        omega
    simp only [List.map_cons, List.sum_cons]
    omega

theorem allDataSteps_size (p : Package) : allDataSteps p ≤ packageSize p := by
  unfold allDataSteps packageSize
  induction p with
  | nil => exact Nat.le_refl _
  | cons e p ih =>
    have h : languageDataSteps e.2 ≤ moduleSize e.2 := by
      unfold languageDataSteps moduleSize
      have h1 := dictSteps_size e.2.unitNumbers
      have h2 := dictSteps_size e.2.directNumbers
      have h3 := dictSteps_size e.2.tens
      have h4 := dictSteps_size e.2.hundreds
      have h5 := dictSteps_size e.2.bigPowersOfTen
      omega
    simp only [List.map_cons, List.sum_cons]
    omega

theorem detectionSteps_size (p : Package) (n : Nat) (l : Option PyStr) : detectionSteps p n l ≤ detectionWork p n l := by
  cases l with
  | some l => exact Nat.le_refl _
  | none => exact Nat.add_le_add_right (allDataSteps_size p) _

end NumberParser

namespace NumberParser.Props
open NumberParser Spec

/-- The functions with counters return, or raise, what the functions of the parser do. -/
theorem c101_result (p : Package) (s : PyStr) (l : Option PyStr) :
    (parseCounted p s l).result = parseIn p s l ∧ (parseNumberCounted p s l).result = parseNumberIn p s l ∧
    (parseOrdinalCounted p s l).result = parseOrdinalIn p s l ∧ (parseFractionCounted p s l).result = parseFractionIn p s l :=
  ⟨parseCounted_result p s l, parseNumberCounted_result p s l, parseOrdinalCounted_result p s l, parseFractionCounted_result p s l⟩

/-- **C101** `parse`: at most 28 iterations for each character, and those for the language and the tables. -/
theorem c101_parse (p : Package) (hp : Distinct p) (s : PyStr) (l : Option PyStr) :
    (parseCounted p s l).steps ≤ 28 * s.length + 12 + packageSize p + detectionWork p s.length l := by
  have h1 := parse_steps hp s l
  have h2 := allDataSteps_size p
  have h3 := detectionSteps_size p s.length l
  omega

/-- **C101** `parse_number`: at most 12 iterations for each character. -/
theorem c101_number (p : Package) (hp : Distinct p) (s : PyStr) (l : Option PyStr) :
    (parseNumberCounted p s l).steps ≤ 12 * s.length + 4 + packageSize p + detectionWork p s.length l := by
  have h1 := number_steps hp s l
  have h2 := allDataSteps_size p
  have h3 := detectionSteps_size p s.length l
  omega

/-- **C101** `parse_ordinal`: at most 94; it reads the tables twice. -/
theorem c101_ordinal (p : Package) (hp : Distinct p) (s : PyStr) (l : Option PyStr) :
    (parseOrdinalCounted p s l).steps ≤ 94 * s.length + 25 + 2 * packageSize p + detectionWork p s.length l := by
  have h1 := ordinal_steps hp s l
  have h2 := allDataSteps_size p
  have h3 := detectionSteps_size p s.length l
  omega

/-- **C101** `parse_fraction`: at most 12; it reads the tables twice. -/
theorem c101_fraction (p : Package) (hp : Distinct p) (s : PyStr) (l : Option PyStr) :
    (parseFractionCounted p s l).steps ≤ 12 * s.length + 12 + 2 * packageSize p + detectionWork p s.length l := by
  have h1 := fraction_steps hp s l
  have h2 := allDataSteps_size p
  have h3 := detectionSteps_size p s.length l
  omega

set_option maxRecDepth 100000 in
/-- **C101** With the five languages of the repository: the functions of the parser, and the numbers. -/
theorem c101_repository (s : PyStr) :
    (∀ l, (parseCounted repository s l).result = parse s l ∧ (parseNumberCounted repository s l).result = parseNumber s l ∧
      (parseOrdinalCounted repository s l).result = parseOrdinal s l ∧ (parseFractionCounted repository s l).result = parseFraction s l) ∧
    (∀ l, (parseCounted repository s (some l)).steps ≤ 28 * s.length + 20045) ∧
    (parseCounted repository s none).steps ≤ 138 * s.length + 40128 ∧
    (∀ l, (parseNumberCounted repository s (some l)).steps ≤ 12 * s.length + 20037) ∧
    (parseNumberCounted repository s none).steps ≤ 122 * s.length + 40120 ∧
    (∀ l, (parseOrdinalCounted repository s (some l)).steps ≤ 94 * s.length + 40091) ∧
    (parseOrdinalCounted repository s none).steps ≤ 204 * s.length + 60174 ∧
    (∀ l, (parseFractionCounted repository s (some l)).steps ≤ 12 * s.length + 40078) ∧
    (parseFractionCounted repository s none).steps ≤ 122 * s.length + 60161 := by
  have hz : packageSize repository = 20033 := by decide +kernel
  have hl : repository.length = 5 := by decide +kernel
  have hn : detectionWork repository s.length none = 20033 + 5 * (22 * s.length + 10) := by
    show packageSize repository + repository.length * (22 * s.length + 10) = _
    rw [hz, hl]
  have hs : ∀ l, detectionWork repository s.length (some l) = 0 := fun l => rfl
  refine ⟨fun l => ?_, fun l => ?_, ?_, fun l => ?_, ?_, fun l => ?_, ?_, fun l => ?_, ?_⟩
  · obtain ⟨a1, a2, a3, a4⟩ := c101_result repository s l
    obtain ⟨b1, b2, b3, b4⟩ := c82_repository s l
    exact ⟨a1.trans b1, a2.trans b2, a3.trans b3, a4.trans b4⟩
  · have := c101_parse repository repository_distinct s (some l)
    rw [hs, hz] at this; omega
  · have := c101_parse repository repository_distinct s none
    rw [hn, hz] at this; omega
  · have := c101_number repository repository_distinct s (some l)
    rw [hs, hz] at this; omega
  · have := c101_number repository repository_distinct s none
    rw [hn, hz] at this; omega
  · have := c101_ordinal repository repository_distinct s (some l)
    rw [hs, hz] at this; omega
  · have := c101_ordinal repository repository_distinct s none
    rw [hn, hz] at this; omega
  · have := c101_fraction repository repository_distinct s (some l)
    rw [hs, hz] at this; omega
  · have := c101_fraction repository repository_distinct s none
    rw [hn, hz] at this; omega

set_option maxRecDepth 100000 in
/-- The hypothesis is met by the languages of the repository; and counts of some calls: twice as many words, not quite twice as many
iterations. -/
theorem c101_example : Distinct repository ∧
    (parseCounted repository u!"I have twenty three and five" (some u!"en")).steps = 364 ∧
    (parseCounted repository (List.replicate 10 u!"one and ").flatten (some u!"en")).steps = 647 ∧
    (parseCounted repository (List.replicate 20 u!"one and ").flatten (some u!"en")).steps = 1027 :=
  ⟨repository_distinct, by decide +kernel, by decide +kernel, by decide +kernel⟩

end NumberParser.Props
