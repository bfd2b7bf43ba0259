import Verif.Spec.VocabularyWords

/-!
# Specification: the switch for the long scale
-/

namespace NumberParser.Spec
open NumberParser

/-- `w` is a scale word the two scales treat differently: its value is greater than 100, and up to 10000. -/
def Between (i : Info) (w : PyStr) : Prop := ∃ v, LastEntry i.bigPowersOfTen w v ∧ 100 < v ∧ v ≤ 10000

/-- The module `i` with the other setting of `USE_LONG_SCALE` -/
def switched (i : Info) : Info := { i with useLongScale := !i.useLongScale }

end NumberParser.Spec
