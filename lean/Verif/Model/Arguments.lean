import Verif.Model.Parser

/-!
# Model of the API for arguments of any type

Python checks no types: a call with an argument that is no `str` goes on until an operation on it fails.  Here the four functions are modelled
on Python objects, with the methods looked up at run time.

Simplification: objects of classes made by users (among them subclasses of `str`) are not modelled; the objects are strings, bytes objects
(`bytes`, `bytearray`), `None`, and built-in objects without the methods of strings (numbers, lists, dictionaries, ...).  Bytes and strings are
never equal (`python -bb`, which makes the comparison an error, is not modelled).
-/

namespace NumberParser

/-- An argument -/
inductive PyObj where
  | str (s : PyStr)
  | bytes (b : List Nat)
  | none
  | other
  deriving DecidableEq

/-- An exception: `ValueError` (one of the two of `Model/Parser`), `AttributeError`, `TypeError` -/
inductive ArgErr where
  | value (e : PyErr)
  | attribute
  | type
  deriving DecidableEq

abbrev ARes := Except ArgErr

instance {α : Type} [DecidableEq α] : DecidableEq (ARes α)
  | .ok a, .ok b => if h : a = b then isTrue (by rw [h]) else isFalse (fun e => h (Except.ok.inj e))
  | .error a, .error b => if h : a = b then isTrue (by rw [h]) else isFalse (fun e => h (Except.error.inj e))
  | .ok _, .error _ => isFalse (fun e => nomatch e)
  | .error _, .ok _ => isFalse (fun e => nomatch e)

/-- A computation on strings -/
def liftRes {α : Type} : Res α → ARes α
  | .ok a => .ok a
  | .error e => .error (.value e)

/-! ## The methods -/

/-- ASCII white space, which `bytes.strip` removes -/
def isByteSpace (b : Nat) : Bool := b == 32 || (decide (9 ≤ b) && decide (b ≤ 13))

/-- `x.strip()` -/
def PyObj.strip : PyObj → ARes PyObj
  | .str s => .ok (.str (NumberParser.strip s))
  | .bytes b => .ok (.bytes (rdropWhile isByteSpace (b.dropWhile isByteSpace)))
  | _ => .error .attribute

/-- `bool(x)`, for strings and bytes -/
def PyObj.truth : PyObj → Bool
  | .str s => !s.isEmpty
  | .bytes b => !b.isEmpty
  | _ => true

/-- `x.isnumeric()` -/
def PyObj.isnumeric : PyObj → ARes Bool
  | .str s => .ok (isNumeric s)
  | _ => .error .attribute

/-- `int(x)`, only called for strings -/
def PyObj.int : PyObj → ARes Nat
  | .str s => liftRes (pyInt s)
  | _ => .error .type

/-- `x.replace(old, new)` with strings -/
def PyObj.replace (x : PyObj) (old new : PyStr) : ARes PyObj :=
  match x with
  | .str s => .ok (.str (NumberParser.replace s old new))
  | .bytes _ => .error .type
  | _ => .error .attribute

/-- `x.find(sub)` with a string -/
def PyObj.find (x : PyObj) (sub : PyStr) : ARes (Option Nat) :=
  match x with
  | .str s => .ok (NumberParser.find sub s)
  | .bytes _ => .error .type
  | _ => .error .attribute

/-- `x[:i]` and `x[i:]` -/
def PyObj.take (x : PyObj) (i : Nat) : ARes PyObj :=
  match x with
  | .str s => .ok (.str (s.take i))
  | .bytes b => .ok (.bytes (b.take i))
  | _ => .error .type

def PyObj.drop (x : PyObj) (i : Nat) : ARes PyObj :=
  match x with
  | .str s => .ok (.str (s.drop i))
  | .bytes b => .ok (.bytes (b.drop i))
  | _ => .error .type

/-- `re.split(…, x)` with a pattern for strings -/
def PyObj.split (x : PyObj) (f : PyStr → List PyStr) : ARes (List PyStr) :=
  match x with
  | .str s => .ok (f s)
  | _ => .error .type

/-- `x in l` for a list of strings -/
def PyObj.elem (x : PyObj) (l : List PyStr) : Bool :=
  match x with
  | .str s => l.elem s
  | _ => false

/-! ## parser.py -/

/-- `LanguageData(language)`, parser.py:22-41 -/
def languageDataO (language : PyObj) : ARes LangData :=
  if !language.elem SUPPORTED_LANGUAGES then .error (.value .unsupportedLanguage)
  else match language with
    | .str l => liftRes (languageData l)
    | _ => .error .type                        -- unreachable: `"number_parser.data." + language`

/-- `_tokenize`, parser.py:177-182 -/
def tokenizeO (x language : PyObj) : ARes (List PyStr) := do
  let x ← x.replace u!"\u00ad" []
  if language.elem RE_BUG_LANGUAGES then x.split splitSpaces else x.split splitNonWord

/-- parser.py:263-271 -/
def countValidO (x : PyObj) (language : PyStr) : ARes Nat := do
  let ld ← languageDataO (.str language)
  let tokens ← tokenizeO x (.str language)
  return ((normalizeTokens tokens).filter (fun t => (isNumberToken t ld).isSome || isSkipToken t ld)).length

/-- `_valid_tokens_by_language`, parser.py:259-277 -/
def validTokensByLanguageO (x : PyObj) : ARes PyObj := do
  let matches_ ← SUPPORTED_LANGUAGES.mapM (fun l => do return (l, ← countValidO x l))
  let best := maxKey matches_
  if best.2 = 0 then return .str u!"en"
  return .str best.1

/-- `if language is None: language = _valid_tokens_by_language(input_string)` -/
def resolveLanguageO (x : PyObj) : PyObj → ARes PyObj
  | .none => validTokensByLanguageO x
  | l => .ok l

/-- `parse_number`, parser.py:295-324 -/
def parseNumberO (x language : PyObj) : ARes (Option Nat) := do
  let t ← x.strip
  if !t.truth then return none
  else do
    let numeric ← t.isnumeric
    if numeric then do
      let n ← x.int
      return some n
    else do
      let language ← resolveLanguageO x language
      let ld ← languageDataO language
      let x ← x.replace u!"'" []
      let x ← x.replace u!"’" []
      let tokens ← tokenizeO x language
      let tokens := normalizeTokens tokens
      liftRes (
        if tokensOk ld 0 tokens then do
          let built ← buildNumber ld tokens
          match built with
          | [s] => do
            let n ← pyInt s
            return some n
          | _ => return none
        else return none)

/-- `parse_ordinal`, parser.py:280-292 -/
def parseOrdinalO (x language : PyObj) : ARes (Option Nat) := do
  let language ← resolveLanguageO x language
  let ld ← languageDataO language
  let tokens ← tokenizeO x language
  let processed := (normalizeTokens tokens).map (fun t => applyCardinalConversion t ld)
  parseNumberO (.str (join u!" " processed)) language

/-- The loop of `parse_fraction` over the separators, parser.py:336-353 -/
def fractionLoopO (x language : PyObj) : List PyStr → ARes (Option PyStr)
  | [] => .ok none
  | sep :: seps => do
    let position ← x.find sep
    match position with
    | none => fractionLoopO x language seps
    | some pos => do
      let before ← x.take pos
      let after ← x.drop (pos + sep.length)
      let m ← parseNumberO before language
      let n ← parseNumberO after language
      match m, n with
      | some m, some n => liftRes (do
        let ms ← strInt m
        let ns ← strInt n
        return some (ms ++ u!"/" ++ ns))
      | _, _ => return none

/-- `parse_fraction`, parser.py:326-353 -/
def parseFractionO (x language : PyObj) : ARes (Option PyStr) := do
  let t ← x.strip
  if !t.truth then return none
  else do
    let language ← resolveLanguageO x language
    fractionLoopO x language FRACTION_SEPARATORS

/-- `parse`, parser.py:356-426 -/
def parseO (x language : PyObj) : ARes PyStr := do
  let language ← resolveLanguageO x language
  let ld ← languageDataO language
  let tokens ← tokenizeO x language
  liftRes (do
    let raw ← parseRaw ld tokens
    return strip raw)

end NumberParser
