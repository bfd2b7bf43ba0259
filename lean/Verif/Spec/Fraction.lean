import Verif.Model.Py

/-!
# Specification: fractions
-/

namespace NumberParser.Spec
open NumberParser

/-- The separators of a fraction, in order of priority. -/
def separators : List PyStr := [u!"divided by", u!"over", u!"by", u!"/"]

/-- `a` and `b` are what is left and right of the first occurrence of `sep` in `s`. -/
def SplitAt (sep s a b : PyStr) : Prop :=
  s = a ++ sep ++ b ∧ ∀ a' b', s = a' ++ sep ++ b' → a.length ≤ a'.length

/-- `sep` occurs in `s`. -/
def Occurs (sep s : PyStr) : Prop := ∃ a b, s = a ++ sep ++ b

/-- `a` and `b` are what is left and right of the first occurrence of the separator of highest priority in `s`. -/
def FractionParts (s a b : PyStr) : Prop :=
  ∃ higher sep lower, separators = higher ++ sep :: lower ∧ (∀ x ∈ higher, ¬ Occurs x s) ∧ SplitAt sep s a b

end NumberParser.Spec
