import Verif.Spec.Numerals

/-!
# Specification: English ordinals
-/

namespace NumberParser.Spec
open NumberParser

/-- The ordinal of a cardinal number word. -/
def enOrdinal (w : PyStr) : PyStr :=
  if w = u!"one" then u!"first" else if w = u!"two" then u!"second" else if w = u!"three" then u!"third"
  else if w = u!"five" then u!"fifth" else if w = u!"eight" then u!"eighth" else if w = u!"nine" then u!"ninth"
  else if w = u!"twelve" then u!"twelfth"
  else if w.getLast? = some 0x79 then w.dropLast ++ u!"ieth"          -- "twenty": "twentieth"
  else w ++ u!"th"

/-- The words of the ordinal of `n`: the last word of the cardinal becomes an ordinal. -/
def enOrdinalWords (n : Nat) : List PyStr := (enWords n).dropLast ++ [enOrdinal ((enWords n).getLastD [])]

/-- The gap before an ordinal is that before the cardinal: "twenty-first", "one hundred and second". -/
def enOrdinalGap (w w' : PyStr) : PyStr :=
  if enTens.elem w && (enSmall.map enOrdinal).elem w' then u!"-"
  else if w == u!"hundred" && ((enTens.map enOrdinal).elem w' || (enSmall.map enOrdinal).elem w') then u!" and "
  else enGap w w'

/-- The text of the ordinal of `n`. -/
def enOrdinalText (n : Nat) : PyStr := phrase enOrdinalGap (enOrdinalWords n)

end NumberParser.Spec
