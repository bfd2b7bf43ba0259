import Verif.Spec.VocabularyOrdinalNames
import Verif.Spec.Fraction

/-!
# Specification: named numbers in fractions and sentences, with any vocabulary
-/

namespace NumberParser.Spec
open NumberParser

/-- A word in one piece that can stand in a fraction: it has a character that is not numeric, and no part of it looks like a separator of
a fraction. -/
def FractionWord (l w : PyStr) : Prop :=
  OnePiece l w ∧ (∃ c ∈ w, isNumericChar c = false) ∧ ∀ x ∈ [u!"divided", u!"over", u!"by", u!"/"], ¬ Occurs x w

end NumberParser.Spec
