import Verif.Spec.Words

/-!
# Specification: how much longer a text can become
-/

namespace NumberParser.Spec
open NumberParser

/-- How many times longer a text of the language may become when its numbers are written in digits. -/
def growthFactor (l : PyStr) : Nat := if l = u!"es" then 67 else if l = u!"uk" then 8 else if l = u!"hi" then 5 else 3

end NumberParser.Spec
