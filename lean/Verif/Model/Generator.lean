import Verif.Model.Unicode

/-!
# Model of the data generator, /repo/number_parser_scripts/write_complete_language_data.py

The generator reads for each language a rule file (CLDR) and a supplementary file, both JSON, and writes the data
module.  The model starts from the decoded JSON and ends with the dictionary that is written; the text of the module
is modelled in Verif/Model/Emit.lean.

Simplifications: the printed and logged messages are not modelled; a JSON number of a supplementary file is a
number of the form `num / 2 ^ exp` (all integers and all finite floats are), infinities and NaN are left out.
-/

namespace NumberParser.Gen

open NumberParser

/-- What can end the generator: `IndexError` (line 89), `OverflowError` (line 59), `FileNotFoundError` (line 164). -/
inductive GenErr where
  | index
  | overflow
  | noFile
  deriving DecidableEq, Repr

abbrev GRes := Except GenErr

instance {α : Type} [DecidableEq α] : DecidableEq (GRes α)
  | .ok a, .ok b => if h : a = b then isTrue (by rw [h]) else isFalse (fun e => h (Except.ok.inj e))
  | .error a, .error b => if h : a = b then isTrue (by rw [h]) else isFalse (fun e => h (Except.error.inj e))
  | .ok _, .error _ => isFalse (fun e => nomatch e)
  | .error _, .ok _ => isFalse (fun e => nomatch e)

/-! ## Built-ins -/

/-- A Python `dict` with string keys: its items in insertion order. -/
abbrev Table (α : Type) := List (PyStr × α)

/-- `d.get(k)` -/
def Table.get? {α : Type} : Table α → PyStr → Option α
  | [], _ => none
  | (k, v) :: d, x => if k == x then some v else Table.get? d x

/-- `d[k] = v`: an existing key keeps its place, a new key goes last. -/
def Table.set {α : Type} : Table α → PyStr → α → Table α
  | [], k, v => [(k, v)]
  | (k', v') :: d, k, v => if k' == k then (k', v) :: d else (k', v') :: Table.set d k v

/-- `a.update(b)` -/
def Table.update {α : Type} (a b : Table α) : Table α := b.foldl (fun d e => Table.set d e.1 e.2) a

/-- `s.split(c)[0]` for a one-character separator -/
def splitFirst (c : Nat) (s : PyStr) : PyStr := s.takeWhile (fun x => x != c)

/-- `s.split(c)[-1]` for a one-character separator -/
def splitLast (c : Nat) (s : PyStr) : PyStr := (s.reverse.takeWhile (fun x => x != c)).reverse

/-- `sub in s` for a non-empty `sub` -/
def contains (sub s : PyStr) : Bool := (find sub s).isSome

/-- The digits of an `int` literal: decimal digits, with single underscores between them. -/
def intDigits : Bool → PyStr → Option (List Nat)
  | afterDigit, [] => if afterDigit then some [] else none
  | afterDigit, c :: cs =>
    if c = 95 then (if afterDigit then intDigits false cs else none)
    else match decimalValue c with
      | none => none
      | some d => (intDigits true cs).map (fun ds => d :: ds)

/-- `int(s)` for any string (`none` where it raises `ValueError`): white space around, a sign, underscores. -/
def pyIntAny (s : PyStr) : Option Int :=
  let t := rdropWhile isIntSpace (s.dropWhile isIntSpace)
  let (negative, digits) := match t with
    | 43 :: u => (false, u)
    | 45 :: u => (true, u)
    | u => (false, u)
  match intDigits false digits with
  | none => none
  | some ds =>
    if ds.length ≤ maxStrDigits then
      some (if negative then -(digitsValue ds : Int) else (digitsValue ds : Int))
    else none

/-- The nearest IEEE double of a natural number, ties to even (for numbers below `2 ^ 1024`). -/
def roundDouble (n : Nat) : Nat :=
  if n < 2 ^ 53 then n
  else
    let e := Nat.log2 n - 52
    let q := n / 2 ^ e
    let r := n % 2 ^ e
    if 2 * r > 2 ^ e ∨ (2 * r = 2 ^ e ∧ q % 2 = 1) then (q + 1) * 2 ^ e else q * 2 ^ e

/-- `number /= 10` on a multiple of ten: the quotient is an integer, rounded to a double.
`OverflowError` if it is too large for a double. -/
def divTen (n : Nat) : GRes Nat :=
  let q := roundDouble (n / 10)
  if q < 2 ^ 1024 then .ok q else .error .overflow

/-- The JSON numbers: `num / 2 ^ exp`. -/
structure JNum where
  num : Int
  exp : Nat
  deriving DecidableEq, Repr

/-- `a == b` on numbers -/
def JNum.eqv (a b : JNum) : Bool := a.num * 2 ^ b.exp == b.num * 2 ^ a.exp

/-- `a < b` on numbers -/
def JNum.lt (a b : JNum) : Bool := decide (a.num * 2 ^ b.exp < b.num * 2 ^ a.exp)

/-- `int(a)`: towards zero -/
def JNum.toInt (a : JNum) : Int := a.num.tdiv (2 ^ a.exp)

/-- An `int` as a number -/
def JNum.ofInt (n : Int) : JNum := ⟨n, 0⟩

/-- `s < t` on strings: by code points, from left to right -/
def strLt : PyStr → PyStr → Bool
  | [], [] => false
  | [], _ :: _ => true
  | _ :: _, [] => false
  | a :: s, b :: t => if a = b then strLt s t else decide (a < b)

/-- Worker of `sorted`: put `x` before the first element that is not smaller. -/
def insertBy {α : Type} (lt : α → α → Bool) (x : α) : List α → List α
  | [] => [x]
  | y :: ys => if lt y x then y :: insertBy lt x ys else x :: y :: ys

/-- `sorted(l)` with respect to `lt` (stable) -/
def sortBy {α : Type} (lt : α → α → Bool) : List α → List α
  | [] => []
  | x :: xs => insertBy lt x (sortBy lt xs)

/-! ## The functions of the script -/

/-- `VALID_KEYS`, line 19 -/
def VALID_KEYS : List PyStr := [u!"spellout-cardinal", u!"spellout-numbering"]

/-- `INVALID_KEYS`, line 20 -/
def INVALID_KEYS : List PyStr := [u!"cents"]

/-- `_is_valid`, lines 31-40 -/
def isValid (key : PyStr) : Bool :=
  let v := VALID_KEYS.foldl (fun acc k => if contains k key then true else acc) false
  INVALID_KEYS.foldl (fun acc k => if contains k key then false else acc) v

/-- `language_data`, line 145: the five dictionaries of `REQUIRED_NUMBERS_DATA` (lines 22-28) -/
structure Tables (α : Type) where
  unit : Table α
  direct : Table α
  tens : Table α
  hundreds : Table α
  big : Table α
  deriving DecidableEq

/-- lines 145-146: `{key: {} for key in REQUIRED_NUMBERS_DATA}` -/
def Tables.empty {α : Type} : Tables α := ⟨[], [], [], [], []⟩

/-- `_add_base_words`, lines 43-50 -/
def addBaseWords (number : Int) (word : PyStr) (d : Tables Int) : Tables Int :=
  if word == u!"ERROR" || word == [] then d
  else if number ≤ 9 then { d with unit := d.unit.set word number }
  else if number ≤ 99 then { d with direct := d.direct.set word number }
  else d

/-- The loop of `_count_zero`, lines 55-61, with the number of passes as fuel. -/
def countZeroGo : Nat → Nat → GRes Nat
  | 0, _ => .ok 0
  | fuel + 1, n =>
    if 9 < n then
      if n % 10 = 0 then do
        let n' ← divTen n
        let k ← countZeroGo fuel n'
        return k + 1
      else .ok 0
    else .ok 0

/-- `_count_zero`, lines 53-62.  (A number that is not greater than 9, in particular a negative one, gives 0.) -/
def countZero (number : Int) : GRes Nat := countZeroGo (Nat.log2 number.toNat + 1) number.toNat

/-- `str(number)[0]`, line 68 -/
def firstChar (number : Int) : Nat := if number < 0 then 45 else (decDigits number.toNat).headD 0

/-- `_add_compound_words`, lines 65-83 -/
def addCompoundWords (number : Int) (word : PyStr) (d : Tables Int) : GRes (Tables Int) := do
  let power ← countZero number
  if power = 0 || firstChar number == 49 then return d
  let root := if word.elem 91 then strip (splitFirst 91 word) else strip (splitFirst 62 word)
  if root == [] then return d
  if power = 1 then return { d with tens := d.tens.set root number }
  else if power = 2 then return { d with hundreds := d.hundreds.set root number }
  else return d

/-- The content of the bracket that a `{` has opened, up to the first `}`; no match across a line feed. -/
def closeBracket : PyStr → Option PyStr
  | [] => none
  | c :: cs => if c = 125 then some [] else if c = 10 then none else (closeBracket cs).map (fun w => c :: w)

/-- Worker of `findBrackets`: `skip` characters of a match are still to be passed over. -/
def findBracketsGo : Nat → PyStr → List PyStr
  | _, [] => []
  | skip + 1, _ :: cs => findBracketsGo skip cs
  | 0, c :: cs =>
    if c = 123 then
      match closeBracket cs with
      | some w => w :: findBracketsGo (w.length + 1) cs
      | none => findBracketsGo 0 cs
    else findBracketsGo 0 cs

/-- `re.findall(r"\{(.*?)\}", s)`, line 94 -/
def findBrackets (s : PyStr) : List PyStr := findBracketsGo 0 s

/-- `_add_multiplier_words`, lines 86-107 -/
def addMultiplierWords (number : Int) (word : PyStr) (d : Tables Int) : GRes (Tables Int) := do
  let required := splitLast 60 word
  match required with
  | [] => throw .index
  | c :: _ =>
    if c != 32 then return d
    let power ← countZero number
    if required.elem 36 then
      return (findBrackets required).foldl
        (fun d w => if 2 ≤ power then { d with big := d.big.set w (10 ^ power : Int) } else d) d
    let valid := if required.elem 91 then strip (splitFirst 91 required) else strip (splitFirst 62 required)
    if 2 ≤ power then return { d with big := d.big.set valid (10 ^ power : Int) } else return d

/-- `_extract_information`, lines 110-129 -/
def extractInformation (key word : PyStr) (d : Tables Int) : GRes (Tables Int) :=
  match pyIntAny key with
  | none => return d
  | some number =>
    let word := replace word u!";" []
    let gt := word.count 62
    let lt := word.count 60
    if word.count 61 ≠ 0 then return d
    else if gt = 0 ∧ lt = 0 then return addBaseWords number word d
    else if gt = 2 ∧ lt = 0 then addCompoundWords number word d
    else if gt = 2 ∧ lt = 2 then addMultiplierWords number word d
    else return d

/-- `data["rbnf"]["rbnf"]["SpelloutRules"]`: the rule sets with their rules -/
abbrev RuleSets := List (PyStr × List (PyStr × PyStr))

/-- lines 159-162: the loop over the rules of one set -/
def extractRules (rules : List (PyStr × PyStr)) (d : Tables Int) : GRes (Tables Int) :=
  rules.foldlM (fun d r => extractInformation r.1 (replace r.2 [0xad] []) d) d

/-- lines 157-162: the loop over the rule sets -/
def extract (sets : RuleSets) : GRes (Tables Int) :=
  sets.foldlM (fun d s => if isValid s.1 then extractRules s.2 d else return d) Tables.empty

/-- A supplementary file -/
structure Supplementary where
  tables : Tables JNum
  skipTokens : List PyStr
  /-- `none`: the entry is missing (lines 175-178) -/
  useLongScale : Option Bool

/-- The dictionary that is written, `ordered_language_data` -/
structure Output where
  tables : Tables Int
  skipTokens : List PyStr
  useLongScale : Option Bool
  deriving DecidableEq

/-- `key=lambda x: (x[1], x[0])`, lines 168-170: comparison of two items -/
def itemLt (a b : PyStr × JNum) : Bool := if a.2.eqv b.2 then strLt a.1 b.1 else a.2.lt b.2

/-- lines 167-173 for one of the five dictionaries -/
def orderTable (extracted : Table Int) (supplementary : Table JNum) : Table Int :=
  let merged := Table.update (extracted.map (fun e => (e.1, JNum.ofInt e.2))) supplementary
  let sorted := sortBy itemLt merged
  sorted.foldl (fun d e => Table.set d e.1 (JNum.toInt e.2)) []

/-- lines 145-178: what is written for one language -/
def generate (sets : RuleSets) (supp : Supplementary) : GRes Output := do
  let d ← extract sets
  return {
    tables := {
      unit := orderTable d.unit supp.tables.unit
      direct := orderTable d.direct supp.tables.direct
      tens := orderTable d.tens supp.tables.tens
      hundreds := orderTable d.hundreds supp.tables.hundreds
      big := orderTable d.big supp.tables.big }
    skipTokens := sortBy strLt supp.skipTokens
    useLongScale := supp.useLongScale }

end NumberParser.Gen
