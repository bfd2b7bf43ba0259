import Verif.Model.Py
import Verif.Model.UnicodeData

/-!
# The Unicode-dependent Python built-ins

`re`'s `\w`, `str.lower`, `str.isnumeric`, `int(str)`, `unicodedata.normalize("NFD", ...)` and
`unicodedata.category(c) == "Mn"`, over the generated tables of CPython 3.11 (Unicode 14.0).
-/

namespace NumberParser
open UnicodeData

/-- `re.match(r"\w", c)`: alphanumeric or underscore. -/
def isWord (c : Nat) : Bool := wordRanges.mem c

/-- `unicodedata.category(c) == "Mn"` -/
def isMn (c : Nat) : Bool := mnRanges.mem c

/-! ## `str.lower` -/

def isCaseIgnorable (c : Nat) : Bool := caseIgnorableRanges.mem c
def isCased (c : Nat) : Bool := casedRanges.mem c

/-- The first character that is not case-ignorable exists and is cased. -/
def casedNext (s : PyStr) : Bool :=
  match s.dropWhile isCaseIgnorable with
  | [] => false
  | c :: _ => isCased c

/-- `chr(c).lower()` outside the final-sigma rule. -/
def lowerChar (c : Nat) : PyStr := (lowerMap.find? c).getD [c]

/-- Worker of `lower`; the first argument is the part already read, reversed.
CPython `do_lower` / `handle_capital_sigma` (Objects/unicodeobject.c). -/
def lowerGo : PyStr → PyStr → PyStr
  | _, [] => []
  | rev, c :: cs =>
    (if c = 0x3a3 then [if casedNext rev && !casedNext cs then 0x3c2 else 0x3c3] else lowerChar c)
      ++ lowerGo (c :: rev) cs

/-- `s.lower()` -/
def lower (s : PyStr) : PyStr := lowerGo [] s

/-! ## NFD -/

/-- Full canonical decomposition of one character. -/
def decompChar (c : Nat) : PyStr :=
  if 0xac00 ≤ c ∧ c ≤ 0xd7a3 then
    let s := c - 0xac00
    if s % 28 = 0 then [0x1100 + s / 588, 0x1161 + s % 588 / 28]
    else [0x1100 + s / 588, 0x1161 + s % 588 / 28, 0x11a7 + s % 28]
  else (nfdMap.find? c).getD [c]

/-- `unicodedata.combining(c)` -/
def ccc (c : Nat) : Nat := cccTree.get c

/-- Insert a character in front of an already ordered string, moving it (stably) behind the directly
following combining characters of smaller class. -/
def insertCcc (c : Nat) : PyStr → PyStr
  | [] => [c]
  | d :: ds => if ccc d ≠ 0 ∧ ccc d < ccc c then d :: insertCcc c ds else c :: d :: ds

/-- Canonical ordering: a stable sort by combining class of every run of characters of non-zero class. -/
def canonicalOrder : PyStr → PyStr
  | [] => []
  | c :: cs => insertCcc c (canonicalOrder cs)

/-- `unicodedata.normalize("NFD", s)` -/
def nfd (s : PyStr) : PyStr := canonicalOrder (s.flatMap decompChar)

/-! ## Numeric characters and `int` -/

/-- `c.isnumeric()` -/
def isNumericChar (c : Nat) : Bool := numericRanges.mem c

/-- `s.isnumeric()`: non-empty and all characters numeric. -/
def isNumeric (s : PyStr) : Bool := !s.isEmpty && s.all isNumericChar

/-- `unicodedata.decimal(c)` -/
def decimalValue (c : Nat) : Option Nat := (decimalRanges.find? c).map (fun lo => (c - lo) % 10)

/-- White space that `int(str)` strips: as `str.isspace`, but the ASCII controls 0x1c-0x1f are kept by
CPython's `_PyUnicode_TransformDecimalAndSpaceToASCII` and then rejected as digits. -/
def isIntSpace (c : Nat) : Bool := isSpace c && !(0x1c ≤ c && c ≤ 0x1f)

/-- Value of a list of decimal digit values, most significant first. -/
def digitsValue (ds : List Nat) : Nat := ds.foldl (fun acc d => 10 * acc + d) 0

/-- `int(s)`, restricted to strings without sign and underscore.  (The library calls `int` only on strings
whose stripped form is `isnumeric`, parser.py:300-301, and on results of `str(int)`, parser.py:322; neither
contains a sign or an underscore.)  A string of more than 4300 digits raises `ValueError`. -/
def pyInt (s : PyStr) : Res Nat :=
  let t := rdropWhile isIntSpace (s.dropWhile isIntSpace)
  if t.isEmpty then .error .badInt
  else match t.mapM decimalValue with
    | none => .error .badInt
    | some ds => if ds.length ≤ maxStrDigits then .ok (digitsValue ds) else .error .badInt

end NumberParser
