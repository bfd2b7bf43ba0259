import Verif.Spec.Numerals

/-!
# Specification: counted hundreds

"nineteen hundred forty-five", "twelve hundred million": the hundreds are counted up to 99 instead of being carried over
into the thousands.  Used in English and Hindi.
-/

namespace NumberParser.Spec
open NumberParser

/-- `v < 10000` with counted hundreds; below 1000 this is the ordinary spelling. -/
def enCounted (v : Nat) : List PyStr :=
  if v < 100 then enBelow100 v
  else enBelow100 (v / 100) ++ [u!"hundred"] ++ (if v % 100 = 0 then [] else enBelow100 (v % 100))

/-- `v < 10000` with counted hundreds, in Hindi. -/
def hiCounted (v : Nat) : List PyStr :=
  if v < 100 then [nth hiBelow100 v]
  else [nth hiBelow100 (v / 100), u!"सौ"] ++ (if v % 100 = 0 then [] else [nth hiBelow100 (v % 100)])

/-- Numbers of the form "g₁ scale₁ g₂ scale₂ … low", where the scale words get smaller, each group `g` is below 10000 and
not greater than its scale word (`scale k` is the value of the scale word number `k < K`). -/
structure CountedGroups (scale : Nat → Nat) (K : Nat) (groups : List (Nat × Nat)) (low : Nat) : Prop where
  smaller : groups.Pairwise (fun a b => b.1 < a.1)
  group : ∀ x ∈ groups, x.1 < K ∧ 1 ≤ x.2 ∧ x.2 < 10000 ∧ x.2 ≤ scale x.1
  rest : low < 10000
  notEmpty : groups ≠ [] ∨ low ≠ 0

/-- Their value. -/
def countedValue (scale : Nat → Nat) (groups : List (Nat × Nat)) (low : Nat) : Nat :=
  (groups.map (fun x => x.2 * scale x.1)).sum + low

/-- Their words. -/
def countedWords (counted : Nat → List PyStr) (scaleWord : Nat → PyStr) (groups : List (Nat × Nat)) (low : Nat) : List PyStr :=
  groups.flatMap (fun x => counted x.2 ++ [scaleWord x.1]) ++ (if low = 0 then [] else counted low)

end NumberParser.Spec
