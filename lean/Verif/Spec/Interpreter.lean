import Verif.Model.Interpreter
import Verif.Spec.Words
import Verif.Spec.Digits

/-!
# Specification: interpreters that agree

When two interpreters have the same character tables for some characters, and what a larger limit of digits means.
-/

namespace NumberParser.Spec
open NumberParser

/-- All characters of the text are in the set. -/
def Within (K : Nat → Prop) (s : PyStr) : Prop := ∀ c ∈ s, K c

/-- The two interpreters have the same character tables on the set `K`, which contains ASCII, the two small sigmas, the characters of the number words of the five languages,
and with each character its lower case and its decomposition. -/
structure SameOn (V W : Interpreter) (K : Nat → Prop) : Prop where
  ascii : ∀ c, c < 128 → K c
  sigma : K 0x3c2 ∧ K 0x3c3
  words : ∀ l ∈ supported, ∀ k w v, (w, v) ∈ entries l k → Within K w
  lower : ∀ c, K c → V.lowerChar c = W.lowerChar c ∧ Within K (V.lowerChar c)
  decomp : ∀ c, K c → V.decomp c = W.decomp c ∧ Within K (V.decomp c)
  agree : ∀ c, K c → V.word c = W.word c ∧ V.mn c = W.mn c ∧ V.caseIgnorable c = W.caseIgnorable c ∧ V.cased c = W.cased c ∧
    V.ccc c = W.ccc c ∧ V.numeric c = W.numeric c ∧ V.decimal c = W.decimal c

/-- The first limit is at most the second. -/
def LimitLE : Option Nat → Option Nat → Prop
  | _, none => True
  | none, some _ => False
  | some a, some b => a ≤ b

/-- CPython 3.11 with another limit of digits -/
def withLimit (limit : Option Nat) : Interpreter := { python311 with limit := limit }

/-- `s` is a numeral of value `n`, surrounded by ordinary white space, of at most as many digits as the limit allows. -/
def DigitTextUpTo (limit : Option Nat) (s : PyStr) (n : Nat) : Prop :=
  ∃ a t b, s = a ++ t ++ b ∧ OrdinarySpace a ∧ OrdinarySpace b ∧ Numeral t n ∧ LimitLE (some t.length) limit

/-- Latin, Greek, Cyrillic, Armenian, Hebrew, Arabic, ... and Devanagari characters (below U+0980), general punctuation, and the two letters
U+2C65 and U+2C66, whose capitals are below U+0980 -/
def Everyday (c : Nat) : Prop := c < 0x980 ∨ (0x2000 ≤ c ∧ c < 0x2070) ∨ c = 0x2c65 ∨ c = 0x2c66

/-- The interpreter has the character tables of CPython 3.11 for the character. -/
structure As311 (V : Interpreter) (c : Nat) : Prop where
  word : V.word c = isWord c
  mn : V.mn c = isMn c
  caseIgnorable : V.caseIgnorable c = isCaseIgnorable c
  cased : V.cased c = isCased c
  lower : V.lowerChar c = lowerChar c
  decomp : V.decomp c = decompChar c
  ccc : V.ccc c = ccc c
  numeric : V.numeric c = isNumericChar c
  decimal : V.decimal c = decimalValue c

end NumberParser.Spec
