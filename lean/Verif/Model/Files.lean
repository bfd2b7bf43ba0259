import Verif.Model.Json

/-!
# Model of the generator on the level of files

/repo/number_parser_scripts/write_complete_language_data.py, lines 127-188: from the bytes of the two JSON files of a
language to the bytes of the module.  Verif/Model/Generator.lean and Verif/Model/Emit.lean model the same lines from decoded
dictionaries to the text; here decoding, encoding and values of unexpected types are added.

Simplifications: the script runs in a UTF-8 locale on a POSIX system (`open` without `encoding` uses the locale's encoding);
if several values of a file have the wrong type, the exception may be that of another one; values with which Python's
dynamic typing goes on in some unintended way (a string as a number, a list of pairs as a dictionary, …) give `unmodelled`:
what comes of the language then is left open (`unusualText`).  Standard output takes every message (see Verif/Model/Messages.lean for
one that does not).
-/

namespace NumberParser.Gen

open NumberParser

/-- A sequence of bytes -/
abbrev Bytes := List Nat

/-! ## UTF-8 (`open(…)`, lines 147, 164, 187) -/

/-- A code point that can be encoded: not a surrogate -/
def isScalar (c : Nat) : Bool := decide (c < 0xD800) || decide (0xE000 ≤ c ∧ c < 0x110000)

/-- The bytes of a code point -/
def utf8Char (c : Nat) : Bytes :=
  if c < 0x80 then [c]
  else if c < 0x800 then [0xC0 + c / 64, 0x80 + c % 64]
  else if c < 0x10000 then [0xE0 + c / 4096, 0x80 + c / 64 % 64, 0x80 + c % 64]
  else [0xF0 + c / 262144, 0x80 + c / 4096 % 64, 0x80 + c / 64 % 64, 0x80 + c % 64]

/-- `s.encode("utf-8")`; `none`: `UnicodeEncodeError` -/
def utf8Encode (s : PyStr) : Option Bytes := if s.all isScalar then some (s.flatMap utf8Char) else none

/-- A continuation byte -/
def isCont (b : Nat) : Bool := decide (0x80 ≤ b ∧ b < 0xC0)

/-- One more code point in front -/
def consOpt (c : Nat) : Option PyStr → Option PyStr
  | none => none
  | some s => some (c :: s)

/-- `b.decode("utf-8")`; `none`: `UnicodeDecodeError` -/
def utf8Decode : Bytes → Option PyStr
  | [] => some []
  | a :: r =>
    if a < 0x80 then consOpt a (utf8Decode r)
    else if a < 0xC2 then none
    else if a < 0xE0 then
      match r with
      | b :: r => if isCont b then consOpt ((a - 0xC0) * 64 + (b - 0x80)) (utf8Decode r) else none
      | _ => none
    else if a < 0xF0 then
      match r with
      | b :: c :: r =>
        if isCont b && isCont c && decide (0x800 ≤ (a - 0xE0) * 4096 + (b - 0x80) * 64 + (c - 0x80)) &&
            isScalar ((a - 0xE0) * 4096 + (b - 0x80) * 64 + (c - 0x80)) then
          consOpt ((a - 0xE0) * 4096 + (b - 0x80) * 64 + (c - 0x80)) (utf8Decode r)
        else none
      | _ => none
    else if a < 0xF5 then
      match r with
      | b :: c :: d :: r =>
        if isCont b && isCont c && isCont d &&
            decide (0x10000 ≤ (a - 0xF0) * 262144 + (b - 0x80) * 4096 + (c - 0x80) * 64 + (d - 0x80)) &&
            isScalar ((a - 0xF0) * 262144 + (b - 0x80) * 4096 + (c - 0x80) * 64 + (d - 0x80)) then
          consOpt ((a - 0xF0) * 262144 + (b - 0x80) * 4096 + (c - 0x80) * 64 + (d - 0x80)) (utf8Decode r)
        else none
      | _ => none
    else none

/-- Worker of `newlines`; the first argument tells whether the character before was a `\r`. -/
def newlinesGo : Bool → PyStr → PyStr
  | _, [] => []
  | cr, c :: r =>
    if c = 13 then 10 :: newlinesGo true r
    else if c = 10 ∧ cr = true then newlinesGo false r
    else c :: newlinesGo false r

/-- Universal newlines: `\r\n` and `\r` are read as `\n`. -/
def newlines (s : PyStr) : PyStr := newlinesGo false s

/-! ## The generator -/

/-- The exceptions: `ValueError` (with `UnicodeDecodeError` and `JSONDecodeError`), `KeyError`, `TypeError`, `AttributeError`,
`OverflowError`, `UnicodeEncodeError`, `FileNotFoundError`, those of Verif/Model/Generator.lean.  `unmodelled`: see above. -/
inductive FileErr where
  | value
  | key
  | type
  | attribute
  | overflow
  | encode
  | noFile
  | gen (e : GenErr)
  | unmodelled
  deriving DecidableEq, Repr

abbrev FRes := Except FileErr

instance {α : Type} [DecidableEq α] : DecidableEq (FRes α)
  | .ok a, .ok b => if h : a = b then isTrue (by rw [h]) else isFalse (fun e => h (Except.ok.inj e))
  | .error a, .error b => if h : a = b then isTrue (by rw [h]) else isFalse (fun e => h (Except.error.inj e))
  | .ok _, .error _ => isFalse (fun e => nomatch e)
  | .error _, .ok _ => isFalse (fun e => nomatch e)

/-- An exception of Verif/Model/Generator.lean -/
def liftGen {α : Type} : GRes α → FRes α
  | .ok a => .ok a
  | .error e => .error (.gen e)

/-- `json.load(open(…))`, lines 147-148, 164-165 -/
def readJson (bytes : Bytes) : FRes Json :=
  match utf8Decode bytes with
  | none => throw .value
  | some s =>
    match loads (newlines s) with
    | none => throw .value
    | some v => return v

/-- `data[k]` -/
def jget (data : Json) (k : PyStr) : FRes Json :=
  match data with
  | .obj t =>
    match Table.get? t k with
    | some v => return v
    | none => throw .key
  | _ => throw .type

/-- lines 159-162: the loop over the rules of one set; `.items()` and `.replace` exist for dictionaries and strings only. -/
def extractRulesJson (vals : Json) (d : Tables Int) : FRes (Tables Int) :=
  match vals with
  | .obj items => items.foldlM (fun d r =>
      match r.2 with
      | .str w => liftGen (extractInformation r.1 (replace w [0xad] []) d)
      | _ => throw .attribute) d
  | _ => throw .attribute

/-- lines 157-162 -/
def extractJson (requisite : Json) : FRes (Tables Int) :=
  match requisite with
  | .obj sets => sets.foldlM (fun d s => if isValid s.1 then extractRulesJson s.2 d else return d) Tables.empty
  | _ => throw .attribute

/-- lines 149-155: `data["rbnf"]["rbnf"]["SpelloutRules"]`; `none`: a `KeyError`, which is caught -/
def requisiteData (data : Json) : FRes (Option Json) :=
  match (do let a ← jget data u!"rbnf"; let b ← jget a u!"rbnf"; jget b u!"SpelloutRules" : FRes Json) with
  | .ok v => return some v
  | .error .key => return none
  | .error e => throw e

/-- A value of a supplementary dictionary: something that can be sorted among numbers (line 168) and given to `int` (line
173). -/
def jsonNum : Json → FRes JNum
  | .int n => return JNum.ofInt n
  | .bool b => return JNum.ofInt (if b then 1 else 0)
  | .float (.fin x) => return x
  | .float (.inf _) => throw .overflow
  | .float .nan => throw .value
  | .str _ => throw .unmodelled
  | _ => throw .type

/-- The argument of `update`, line 167 -/
def jsonTableOf : Json → FRes (Table JNum)
  | .obj t => t.mapM (fun e => do return (e.1, ← jsonNum e.2))
  | .null | .bool _ | .int _ | .float _ => throw .type
  | _ => throw .unmodelled

/-- Are they all strings? -/
def jsonStrings : List Json → Option (List PyStr)
  | [] => some []
  | .str s :: r => (jsonStrings r).map (fun l => s :: l)
  | _ :: _ => none

/-- The argument of `sorted`, line 174: a list of strings, or a string (its characters), or a dictionary (its keys) -/
def jsonTokens : Json → FRes (List PyStr)
  | .arr l => match jsonStrings l with
    | some ts => return ts
    | none => throw .unmodelled
  | .str s => return s.map (fun c => [c])
  | .obj t => return t.map (fun e => e.1)
  | _ => throw .type

/-- lines 175-178: a missing entry is logged only -/
def longScaleOf (data : Json) : FRes (Option Bool) :=
  match jget data u!"USE_LONG_SCALE" with
  | .ok (.bool b) => return some b
  | .ok _ => throw .unmodelled
  | .error .key => return none
  | .error e => throw e

/-- lines 166-178 -/
def mergeJson (d : Tables Int) (data : Json) : FRes Output := do
  let unit ← jget data u!"UNIT_NUMBERS" >>= jsonTableOf
  let direct ← jget data u!"DIRECT_NUMBERS" >>= jsonTableOf
  let tens ← jget data u!"TENS" >>= jsonTableOf
  let hundreds ← jget data u!"HUNDREDS" >>= jsonTableOf
  let big ← jget data u!"BIG_POWERS_OF_TEN" >>= jsonTableOf
  let skip ← jget data u!"SKIP_TOKENS" >>= jsonTokens
  let longScale ← longScaleOf data
  return {
    tables := {
      unit := orderTable d.unit unit
      direct := orderTable d.direct direct
      tens := orderTable d.tens tens
      hundreds := orderTable d.hundreds hundreds
      big := orderTable d.big big }
    skipTokens := sortBy strLt skip
    useLongScale := longScale }

/-- What Python makes of supplementary data with which it goes on in some unintended way (`unmodelled`), lines 163-186: any text or any
exception.  Nothing is known about this function, so that no theorem can depend on what it does. -/
opaque unusualText (d : Tables Int) (data : Json) : FRes PyStr

/-- lines 166-186 -/
def mergeText (d : Tables Int) (data : Json) : FRes PyStr :=
  match mergeJson d data with
  | .ok out => .ok (emit out)
  | .error .unmodelled => unusualText d data
  | .error e => .error e

/-- The files of a language: name, bytes of the rule file, bytes of the supplementary file (`none`: there is none) -/
structure LangBytes where
  name : PyStr
  source : Bytes
  supplementary : Option Bytes

/-- lines 138-186: the text for one language; `none`: the file is skipped -/
def newTextBytes (f : LangBytes) : FRes (Option PyStr) :=
  if SKIPPED_FILES.elem f.name then return none
  else do
    let data ← readJson f.source
    match ← requisiteData data with
    | none => return none
    | some requisite =>
      let d ← extractJson requisite
      match f.supplementary with
      | none => throw .noFile
      | some supp =>
        let data ← readJson supp
        let text ← mergeText d data
        return some text

/-- lines 138-188: the body of the loop; the target directory afterwards and the exception if there was one.  The target is
truncated before the text is encoded (line 187). -/
def writeOneBytes (f : LangBytes) (targets : Table Bytes) : Table Bytes × Option FileErr :=
  match newTextBytes f with
  | .error e => (targets, some e)
  | .ok none => (targets, none)
  | .ok (some text) =>
    match utf8Encode text with
    | some bytes => (Table.set targets (targetName f.name) bytes, none)
    | none => (Table.set targets (targetName f.name) [], some .encode)

/-- `write_complete_data`, lines 132-188 -/
def writeAllBytes : List LangBytes → Table Bytes → Table Bytes × Option FileErr
  | [], targets => (targets, none)
  | f :: fs, targets =>
    match writeOneBytes f targets with
    | (targets', none) => writeAllBytes fs targets'
    | (targets', some e) => (targets', some e)

/-- The states of the target directory that can be seen while `write_complete_data` runs, and that are left if it is killed:
line 187 truncates the target, then its bytes are written bit by bit. -/
inductive VisibleBytes : List LangBytes → Table Bytes → Table Bytes → Prop where
  /-- before the next file -/
  | here (fs : List LangBytes) (targets : Table Bytes) : VisibleBytes fs targets targets
  /-- while the target of the next file is written -/
  | during (f : LangBytes) (fs : List LangBytes) (targets : Table Bytes) (text : PyStr) (bytes part : Bytes) :
      newTextBytes f = .ok (some text) → utf8Encode text = some bytes → part <+: bytes →
      VisibleBytes (f :: fs) targets (Table.set targets (targetName f.name) part)
  /-- after the target was truncated, if the text cannot be encoded -/
  | truncated (f : LangBytes) (fs : List LangBytes) (targets : Table Bytes) (text : PyStr) :
      newTextBytes f = .ok (some text) → utf8Encode text = none →
      VisibleBytes (f :: fs) targets (Table.set targets (targetName f.name) [])
  /-- later -/
  | later (f : LangBytes) (fs : List LangBytes) (targets targets' targets'' : Table Bytes) :
      writeOneBytes f targets = (targets', none) → VisibleBytes fs targets' targets'' → VisibleBytes (f :: fs) targets targets''

end NumberParser.Gen
