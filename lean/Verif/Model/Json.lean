import Verif.Model.Emit

/-!
# Model of `json.load`, used in /repo/number_parser_scripts/write_complete_language_data.py, lines 148 and 165

`json.load(f)` is `json.loads(f.read())`: CPython 3.11's Lib/json/decoder.py (`JSONDecoder.decode`, strict) with the scanner
of Modules/_json.c.  `none` stands for a `ValueError` (`JSONDecodeError` is one, and so is the refusal of integers with more
than 4300 digits).

Simplifications: the position and text of the error are left out; so is the recursion limit.
-/

namespace NumberParser.Gen

open NumberParser

/-- A double: finite, infinite or not a number.  (The sign of zero is left out.) -/
inductive JFloat where
  | fin (x : JNum)
  | inf (negative : Bool)
  | nan
  deriving DecidableEq, Repr

/-- What `json.loads` returns.  An object is a dictionary: its items in insertion order. -/
inductive Json where
  | null
  | bool (b : Bool)
  | int (n : Int)
  | float (x : JFloat)
  | str (s : PyStr)
  | arr (l : List Json)
  | obj (t : List (PyStr × Json))

/-! ## White space, strings -/

/-- `[ \t\n\r]` -/
def isJsonSpace (c : Nat) : Bool := c == 32 || c == 9 || c == 10 || c == 13

/-- `_w(s, idx).end()` -/
def skipWs : PyStr → PyStr
  | [] => []
  | c :: r => if isJsonSpace c then skipWs r else c :: r

/-- `\uXXXX`: the four digits -/
def hex4 (a b c d : Nat) : Option Nat :=
  match hexValue a, hexValue b, hexValue c, hexValue d with
  | some a, some b, some c, some d => some (((16 * a + b) * 16 + c) * 16 + d)
  | _, _, _, _ => none

/-- `Py_UNICODE_IS_HIGH_SURROGATE` -/
def isHigh (u : Nat) : Bool := decide (0xD800 ≤ u ∧ u ≤ 0xDBFF)

/-- `Py_UNICODE_IS_LOW_SURROGATE` -/
def isLow (u : Nat) : Bool := decide (0xDC00 ≤ u ∧ u ≤ 0xDFFF)

/-- `Py_UNICODE_JOIN_SURROGATES` -/
def joinSurrogates (h l : Nat) : Nat := 0x10000 + (h - 0xD800) * 1024 + (l - 0xDC00)

/-- Does an escaped low surrogate come next? -/
def lowAfter : PyStr → Option Nat
  | x :: y :: a :: b :: c :: d :: _ =>
    if x = 92 ∧ y = 117 then
      match hex4 a b c d with
      | some u => if isLow u then some u else none
      | none => none
    else none
  | _ => none

/-- The escapes with one character -/
def simpleEscape (e : Nat) : Option Nat :=
  if e = 34 then some 34 else if e = 92 then some 92 else if e = 47 then some 47 else if e = 98 then some 8
  else if e = 102 then some 12 else if e = 110 then some 10 else if e = 114 then some 13 else if e = 116 then some 9 else none

/-- One more character in front -/
def pushChar (c : Nat) : Option (PyStr × PyStr) → Option (PyStr × PyStr)
  | none => none
  | some (s, r) => some (c :: s, r)

/-- `scanstring`, after the opening quotation mark: the string and what follows the closing quotation mark -/
def jstr : PyStr → Option (PyStr × PyStr)
  | [] => none
  | c :: r =>
    if c = 34 then some ([], r)
    else if c < 32 then none
    else if c = 92 then
      match r with
      | [] => none
      | e :: r =>
        if e = 117 then
          match r with
          | a :: b :: c :: d :: r =>
            match hex4 a b c d with
            | none => none
            | some u =>
              if isHigh u then
                match lowAfter r with
                | none => pushChar u (jstr r)
                | some w =>
                  match r with
                  | _ :: _ :: _ :: _ :: _ :: _ :: r => pushChar (joinSurrogates u w) (jstr r)
                  | _ => none
              else pushChar u (jstr r)
          | _ => none
        else
          match simpleEscape e with
          | none => none
          | some x => pushChar x (jstr r)
    else pushChar c (jstr r)

/-! ## Numbers -/

/-- `p / q` to the nearest integer, ties to even -/
def roundHalfEven (p q : Nat) : Nat :=
  if 2 * (p % q) < q then p / q
  else if q < 2 * (p % q) then p / q + 1
  else if p / q % 2 = 0 then p / q else p / q + 1

/-- `n / 2 ^ k` in lowest terms -/
def lowest (n : Nat) : Nat → JNum
  | 0 => ⟨n, 0⟩
  | k + 1 => if n % 2 = 0 then lowest (n / 2) k else ⟨n, k + 1⟩

/-- The largest `t` with `2 ^ t ≤ p / q` (for `p`, `q` > 0) -/
def floorLog (p q : Nat) : Int :=
  let t : Int := (Nat.log2 p : Int) - (Nat.log2 q : Int)
  if p * 2 ^ (-t).toNat < q * 2 ^ t.toNat then t - 1 else t

/-- The double nearest to `p / q`, ties to even.  Finite doubles are the numbers `n * 2 ^ e` with `n < 2 ^ 53` and
`-1074 ≤ e ≤ 971`. -/
def nearestDouble (p q : Nat) : JFloat :=
  if p = 0 then .fin ⟨0, 0⟩
  else
    let e : Int := max (floorLog p q - 52) (-1074)
    if e < 0 then .fin (lowest (roundHalfEven (p * 2 ^ (-e).toNat) q) (-e).toNat)
    else
      let n := roundHalfEven p (q * 2 ^ e.toNat) * 2 ^ e.toNat
      if n < 2 ^ 1024 then .fin ⟨n, 0⟩ else .inf false

/-- Change of sign -/
def JFloat.neg : JFloat → JFloat
  | .fin x => .fin ⟨-x.num, x.exp⟩
  | .inf n => .inf (!n)
  | .nan => .nan

/-- `float("…")` of a JSON number: `digits * 10 ^ e` -/
def decimalFloat (negative : Bool) (digits : Nat) (e : Int) : JFloat :=
  let x := nearestDouble (digits * 10 ^ e.toNat) (10 ^ (-e).toNat)
  if negative then x.neg else x

/-- `0`-`9` -/
def isDigit (c : Nat) : Bool := decide (48 ≤ c ∧ c ≤ 57)

/-- The digits at the front, and the rest -/
def spanDigits : PyStr → PyStr × PyStr
  | [] => ([], [])
  | c :: r => if isDigit c then (c :: (spanDigits r).1, (spanDigits r).2) else ([], c :: r)

/-- The value of decimal digits -/
def digitsNat (ds : PyStr) : Nat := ds.foldl (fun n c => 10 * n + (c - 48)) 0

/-- A fraction `.123` at the front: its digits (none if there is no fraction), and the rest -/
def jfrac : PyStr → PyStr × PyStr
  | [] => ([], [])
  | c :: r => if c = 46 ∧ (spanDigits r).1 ≠ [] then spanDigits r else ([], c :: r)

/-- An exponent `e+12` at the front: its value (`none` if there is no exponent), and the rest -/
def jexp : PyStr → Option Int × PyStr
  | [] => (none, [])
  | c :: r =>
    if c = 101 ∨ c = 69 then
      match r with
      | [] => (none, c :: r)
      | s :: t =>
        let ds := if s = 43 ∨ s = 45 then spanDigits t else spanDigits r
        if ds.1 = [] then (none, c :: r) else (some (if s = 45 then -(digitsNat ds.1 : Int) else (digitsNat ds.1 : Int)), ds.2)
    else (none, c :: r)

/-- `_match_number_unicode`, after the sign -/
def jnumAbs (negative : Bool) (s : PyStr) : Option (Json × PyStr) :=
  let d := spanDigits s
  match d.1 with
  | [] => none
  | x :: xs =>
    -- the integer: a lone 0, or all digits
    let (int, rest) : PyStr × PyStr := if x = 48 then ([48], xs ++ d.2) else (x :: xs, d.2)
    let (frac, rest) := jfrac rest
    let (exp, rest) := jexp rest
    if frac = [] ∧ exp = none then
      if int.length ≤ maxStrDigits then
        some (.int (if negative then -(digitsNat int : Int) else (digitsNat int : Int)), rest)
      else none
    else some (.float (decimalFloat negative (digitsNat (int ++ frac)) (exp.getD 0 - frac.length)), rest)

/-- `s.startswith(t)`: what follows -/
def stripPrefix : PyStr → PyStr → Option PyStr
  | [], s => some s
  | _ :: _, [] => none
  | a :: t, b :: s => if a = b then stripPrefix t s else none

/-- The constants -/
def jconst (s : PyStr) : Option (Json × PyStr) :=
  match stripPrefix u!"null" s with
  | some r => some (.null, r)
  | none => match stripPrefix u!"true" s with
    | some r => some (.bool true, r)
    | none => match stripPrefix u!"false" s with
      | some r => some (.bool false, r)
      | none => match stripPrefix u!"NaN" s with
        | some r => some (.float .nan, r)
        | none => match stripPrefix u!"Infinity" s with
          | some r => some (.float (.inf false), r)
          | none => match stripPrefix u!"-Infinity" s with
            | some r => some (.float (.inf true), r)
            | none => none

/-- A number -/
def jnum : PyStr → Option (Json × PyStr)
  | [] => none
  | c :: r => if c = 45 then jnumAbs true r else jnumAbs false (c :: r)

/-! ## Values -/

mutual

/-- `scan_once`: a value at the front, and what follows.  The first argument bounds the depth of the calls. -/
def jvalue : Nat → PyStr → Option (Json × PyStr)
  | 0, _ => none
  | _ + 1, [] => none
  | fuel + 1, c :: r =>
    if c = 34 then
      match jstr r with
      | some (s, r) => some (.str s, r)
      | none => none
    else if c = 123 then
      match skipWs r with
      | [] => none
      | c :: r => if c = 125 then some (.obj [], r) else
        match jmembers fuel (c :: r) with
        | some (ms, r) => some (.obj (ofItems ms), r)
        | none => none
    else if c = 91 then
      match skipWs r with
      | [] => none
      | c :: r => if c = 93 then some (.arr [], r) else
        match jelements fuel (c :: r) with
        | some (vs, r) => some (.arr vs, r)
        | none => none
    else
      match jconst (c :: r) with
      | some x => some x
      | none => jnum (c :: r)

/-- `_parse_array_unicode`, from the first element on -/
def jelements : Nat → PyStr → Option (List Json × PyStr)
  | 0, _ => none
  | fuel + 1, s =>
    match jvalue fuel s with
    | none => none
    | some (v, r) =>
      match skipWs r with
      | [] => none
      | c :: r =>
        if c = 93 then some ([v], r)
        else if c = 44 then
          match jelements fuel (skipWs r) with
          | some (vs, r) => some (v :: vs, r)
          | none => none
        else none

/-- `_parse_object_unicode`, from the first key on -/
def jmembers : Nat → PyStr → Option (List (PyStr × Json) × PyStr)
  | 0, _ => none
  | _ + 1, [] => none
  | fuel + 1, q :: r =>
    if q = 34 then
      match jstr r with
      | none => none
      | some (k, r) =>
        match skipWs r with
        | [] => none
        | c :: r =>
          if c = 58 then
            match jvalue fuel (skipWs r) with
            | none => none
            | some (v, r) =>
              match skipWs r with
              | [] => none
              | c :: r =>
                if c = 125 then some ([(k, v)], r)
                else if c = 44 then
                  match jmembers fuel (skipWs r) with
                  | some (ms, r) => some ((k, v) :: ms, r)
                  | none => none
                else none
          else none
    else none

end

/-- `json.loads(s)`; a text that starts with a byte order mark is refused. -/
def loads (s : PyStr) : Option Json :=
  if s.head? = some 0xFEFF then none
  else
    match jvalue (2 * s.length + 2) (skipWs s) with
    | some (v, r) => if skipWs r = [] then some v else none
    | none => none

end NumberParser.Gen
