import Verif.Model.Json

/-!
# JSON

The grammar of JSON (RFC 8259) with the meaning of each text as a value, independently of any parser.  As Python does, it
also allows `NaN`, `Infinity` and `-Infinity`, lone surrogates in escapes, and integers of at most 4300 digits only.
The value of a number with a fraction or an exponent is the nearest double, `decimalFloat` (see Verif/Spec/Double.lean).
-/

namespace NumberParser.Spec

open NumberParser NumberParser.Gen

/-- White space -/
def JsonBlanks (w : PyStr) : Prop := ∀ c ∈ w, c = 32 ∨ c = 9 ∨ c = 10 ∨ c = 13

/-! ## Strings -/

/-- `c` is the hexadecimal digit with value `v`. -/
def HexDigit (c v : Nat) : Prop :=
  (48 ≤ c ∧ c ≤ 57 ∧ v = c - 48) ∨ (97 ≤ c ∧ c ≤ 102 ∧ v = c - 97 + 10) ∨ (65 ≤ c ∧ c ≤ 70 ∧ v = c - 65 + 10)

/-- `t` is `\uXXXX` with the value `u`. -/
def UnicodeEscape (t : PyStr) (u : Nat) : Prop :=
  ∃ a b c d v1 v2 v3 v4, t = [92, 117, a, b, c, d] ∧ HexDigit a v1 ∧ HexDigit b v2 ∧ HexDigit c v3 ∧ HexDigit d v4 ∧
    u = v1 * 4096 + v2 * 256 + v3 * 16 + v4

/-- High and low surrogates, and the code point of a pair -/
def HighSurrogate (u : Nat) : Prop := 0xD800 ≤ u ∧ u < 0xDC00
def LowSurrogate (u : Nat) : Prop := 0xDC00 ≤ u ∧ u < 0xE000
def pairPoint (h l : Nat) : Nat := 0x10000 + (h - 0xD800) * 0x400 + (l - 0xDC00)

/-- `\"`, `\\`, `\/`, `\b`, `\f`, `\n`, `\r`, `\t` -/
def shortEscapes : List (Nat × Nat) := [(34, 34), (92, 92), (47, 47), (98, 8), (102, 12), (110, 10), (114, 13), (116, 9)]

/-- The text between quotation marks and the string it stands for -/
inductive JsonChars : PyStr → PyStr → Prop where
  | nil : JsonChars [] []
  | plain {c : Nat} {t s : PyStr} : 32 ≤ c → c ≠ 34 → c ≠ 92 → JsonChars t s → JsonChars (c :: t) (c :: s)
  | short {e x : Nat} {t s : PyStr} : (e, x) ∈ shortEscapes → JsonChars t s → JsonChars (92 :: e :: t) (x :: s)
  /-- an escape that is not the first half of a pair of surrogates -/
  | unicode {k t s : PyStr} {u : Nat} : UnicodeEscape k u →
      (HighSurrogate u → ¬ ∃ k' l t', UnicodeEscape k' l ∧ LowSurrogate l ∧ t = k' ++ t') →
      JsonChars t s → JsonChars (k ++ t) (u :: s)
  | pair {k k' t s : PyStr} {h l : Nat} : UnicodeEscape k h → HighSurrogate h → UnicodeEscape k' l → LowSurrogate l →
      JsonChars t s → JsonChars (k ++ (k' ++ t)) (pairPoint h l :: s)

/-! ## Numbers -/

/-- Decimal digits -/
def JsonDigits (ds : PyStr) : Prop := ds ≠ [] ∧ ∀ c ∈ ds, 48 ≤ c ∧ c ≤ 57

/-- Their value -/
def numeral (ds : PyStr) : Nat := ds.foldl (fun n c => 10 * n + (c - 48)) 0

/-- An integer: no leading zeros -/
def JsonInt (i : PyStr) : Prop := JsonDigits i ∧ (i = [48] ∨ i.head? ≠ some 48)

/-- A fraction, with its digits -/
def JsonFrac (f ds : PyStr) : Prop := (f = [] ∧ ds = []) ∨ (f = 46 :: ds ∧ JsonDigits ds)

/-- An exponent, with its value -/
def JsonExp (x : PyStr) (e : Int) : Prop :=
  (x = [] ∧ e = 0) ∨
  ∃ m ds, (m = 101 ∨ m = 69) ∧ JsonDigits ds ∧
    ((x = m :: ds ∧ e = numeral ds) ∨ (x = m :: 43 :: ds ∧ e = numeral ds) ∨ (x = m :: 45 :: ds ∧ e = -(numeral ds : Int)))

/-- A minus sign or nothing -/
def signText (negative : Bool) : PyStr := if negative then [45] else []

/-- A number -/
inductive JsonNumber : PyStr → Json → Prop where
  | int {i : PyStr} (negative : Bool) : JsonInt i → i.length ≤ 4300 →
      JsonNumber (signText negative ++ i) (.int (if negative then -(numeral i : Int) else (numeral i : Int)))
  | float {i f ds x : PyStr} {e : Int} (negative : Bool) : JsonInt i → JsonFrac f ds → JsonExp x e → (f ≠ [] ∨ x ≠ []) →
      JsonNumber (signText negative ++ (i ++ (f ++ x))) (.float (decimalFloat negative (numeral (i ++ ds)) (e - ds.length)))

/-! ## Values -/

/-- The dictionary of a list of members: a later member replaces the value of an earlier one with the same name. -/
def dictionary (ms : List (PyStr × Json)) : List (PyStr × Json) := ms.foldl (fun d m => Table.set d m.1 m.2) []

mutual

/-- A text (without white space around) and its value -/
inductive JsonValue : PyStr → Json → Prop where
  | null : JsonValue u!"null" .null
  | true : JsonValue u!"true" (.bool true)
  | false : JsonValue u!"false" (.bool false)
  | nan : JsonValue u!"NaN" (.float .nan)
  | infinity : JsonValue u!"Infinity" (.float (.inf false))
  | minusInfinity : JsonValue u!"-Infinity" (.float (.inf true))
  | number {t : PyStr} {v : Json} : JsonNumber t v → JsonValue t v
  | string {t s : PyStr} : JsonChars t s → JsonValue (34 :: (t ++ [34])) (.str s)
  | emptyArray {w : PyStr} : JsonBlanks w → JsonValue (91 :: (w ++ [93])) (.arr [])
  | array {t : PyStr} {vs : List Json} : JsonElements t vs → JsonValue (91 :: (t ++ [93])) (.arr vs)
  | emptyObject {w : PyStr} : JsonBlanks w → JsonValue (123 :: (w ++ [125])) (.obj [])
  | object {t : PyStr} {ms : List (PyStr × Json)} : JsonMembers t ms → JsonValue (123 :: (t ++ [125])) (.obj (dictionary ms))

/-- Values with commas between them -/
inductive JsonElements : PyStr → List Json → Prop where
  | one {w t w' : PyStr} {v : Json} : JsonBlanks w → JsonValue t v → JsonBlanks w' → JsonElements (w ++ (t ++ w')) [v]
  | more {w t w' r : PyStr} {v : Json} {vs : List Json} : JsonBlanks w → JsonValue t v → JsonBlanks w' → JsonElements r vs →
      JsonElements (w ++ (t ++ (w' ++ 44 :: r))) (v :: vs)

/-- Members `"name": value` with commas between them -/
inductive JsonMembers : PyStr → List (PyStr × Json) → Prop where
  | one {w q k w' w'' t w''' : PyStr} {v : Json} : JsonBlanks w → JsonChars q k → JsonBlanks w' → JsonBlanks w'' → JsonValue t v →
      JsonBlanks w''' → JsonMembers (w ++ 34 :: (q ++ 34 :: (w' ++ 58 :: (w'' ++ (t ++ w'''))))) [(k, v)]
  | more {w q k w' w'' t w''' r : PyStr} {v : Json} {ms : List (PyStr × Json)} : JsonBlanks w → JsonChars q k → JsonBlanks w' →
      JsonBlanks w'' → JsonValue t v → JsonBlanks w''' → JsonMembers r ms →
      JsonMembers (w ++ 34 :: (q ++ 34 :: (w' ++ 58 :: (w'' ++ (t ++ (w''' ++ 44 :: r)))))) ((k, v) :: ms)

end

/-- A JSON text: a value, with white space around -/
def JsonText (s : PyStr) (v : Json) : Prop := ∃ w t w', JsonBlanks w ∧ JsonValue t v ∧ JsonBlanks w' ∧ s = w ++ (t ++ w')

end NumberParser.Spec
