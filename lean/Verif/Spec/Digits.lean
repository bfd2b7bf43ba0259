import Verif.Model.Unicode

/-!
# Specification: digit strings
-/

namespace NumberParser.Spec
open NumberParser

/-- `s` is a decimal numeral (with the decimal digits of any script) of value `n`. -/
inductive Numeral : PyStr → Nat → Prop where
  | digit {c d : Nat} : decimalValue c = some d → Numeral [c] d
  | snoc {s : PyStr} {n c d : Nat} : Numeral s n → decimalValue c = some d → Numeral (s ++ [c]) (10 * n + d)

/-- White space other than the ASCII separator controls U+001C-U+001F. -/
def OrdinarySpace (s : PyStr) : Prop := ∀ c ∈ s, isSpace c = true ∧ ¬ (0x1c ≤ c ∧ c ≤ 0x1f)

/-- `s` is a numeral of at most 4300 digits, of value `n`, surrounded by ordinary white space. -/
def DigitText (s : PyStr) (n : Nat) : Prop :=
  ∃ a t b, s = a ++ t ++ b ∧ OrdinarySpace a ∧ OrdinarySpace b ∧ Numeral t n ∧ t.length ≤ 4300

/-- `s`, up to surrounding white space, is a non-empty string of numeric characters (Python's `isnumeric`). -/
def NumericText (s : PyStr) : Prop :=
  ∃ a t b, s = a ++ t ++ b ∧ (∀ c ∈ a, isSpace c = true) ∧ (∀ c ∈ b, isSpace c = true) ∧ t ≠ [] ∧
    ∀ c ∈ t, isNumericChar c = true

/-- `s` is empty or white space only. -/
def Blank (s : PyStr) : Prop := ∀ c ∈ s, isSpace c = true

end NumberParser.Spec
