import Verif.Model.Pipeline

/-!
# Model of the parser with another list of languages

`Model/Parser` has the five languages built in: `SUPPORTED_LANGUAGES` (parser.py:6) and the modules in `number_parser/data`.  Here both
are a parameter, so that one can say what adding or removing a language does.
-/

namespace NumberParser
open Gen

/-- The languages, in the order of `SUPPORTED_LANGUAGES` (parser.py:6), each with the `info` of its data module.
Simplifications: the names are distinct, there is at least one, and the modules have all keys `LanguageData.__init__` reads. -/
abbrev Package := List (PyStr × Info)

/-- `LanguageData(language)`, parser.py:22-41 -/
def languageDataIn (p : Package) (language : PyStr) : Res LangData :=
  match p.find? (fun e => e.1 == language) with
  | some e => .ok (mkLangData e.2)
  | none => .error .unsupportedLanguage

/-- The number of valid tokens of the text in one language, parser.py:263-271 -/
def countValidIn (p : Package) (input language : PyStr) : Res Nat := do
  let ld ← languageDataIn p language
  let tokens := normalizeTokens (tokenize input language)
  return (tokens.filter (fun t => (isNumberToken t ld).isSome || isSkipToken t ld)).length

/-- `_valid_tokens_by_language`, parser.py:259-277 -/
def validTokensByLanguageIn (p : Package) (input : PyStr) : Res PyStr := do
  let matches_ ← (p.map Prod.fst).mapM (fun l => do return (l, ← countValidIn p input l))
  let best := maxKey matches_
  if best.2 = 0 then return u!"en"
  return best.1

/-- `if language is None: language = _valid_tokens_by_language(input_string)`, parser.py:282-283, 304-305, 331-332, 361-362 -/
def resolveLanguageIn (p : Package) (input : PyStr) : Option PyStr → Res PyStr
  | some l => .ok l
  | none => validTokensByLanguageIn p input

/-- `parse_number`, parser.py:295-324 -/
def parseNumberIn (p : Package) (input : PyStr) (language : Option PyStr) : Res (Option Nat) :=
  if blank input then .ok none
  else if isNumeric (strip input) then do
    let n ← pyInt input
    return some n
  else do
    let language ← resolveLanguageIn p input language
    let ld ← languageDataIn p language
    let input := replace input u!"'" []
    let input := replace input u!"’" []
    let tokens := normalizeTokens (tokenize input language)
    if tokensOk ld 0 tokens then
      let built ← buildNumber ld tokens
      match built with
      | [s] => do
        let n ← pyInt s
        return some n
      | _ => return none
    else return none

/-- `parse_ordinal`, parser.py:280-292 -/
def parseOrdinalIn (p : Package) (input : PyStr) (language : Option PyStr) : Res (Option Nat) := do
  let language ← resolveLanguageIn p input language
  let ld ← languageDataIn p language
  let tokens := normalizeTokens (tokenize input language)
  let processed := tokens.map (fun t => applyCardinalConversion t ld)
  parseNumberIn p (join u!" " processed) (some language)

/-- The loop of `parse_fraction` over the separators, parser.py:336-353 -/
def fractionLoopIn (p : Package) (input language : PyStr) : List PyStr → Res (Option PyStr)
  | [] => .ok none
  | sep :: seps =>
    match find sep input with
    | none => fractionLoopIn p input language seps
    | some pos => do
      let before := input.take pos
      let after := input.drop (pos + sep.length)
      let m ← parseNumberIn p before (some language)
      let n ← parseNumberIn p after (some language)
      match m, n with
      | some m, some n => do
        let ms ← strInt m
        let ns ← strInt n
        return some (ms ++ u!"/" ++ ns)
      | _, _ => return none

/-- `parse_fraction`, parser.py:326-353 -/
def parseFractionIn (p : Package) (input : PyStr) (language : Option PyStr) : Res (Option PyStr) :=
  if blank input then .ok none
  else do
    let language ← resolveLanguageIn p input language
    fractionLoopIn p input language FRACTION_SEPARATORS

/-- `parse`, parser.py:356-426 -/
def parseIn (p : Package) (input : PyStr) (language : Option PyStr) : Res PyStr := do
  let language ← resolveLanguageIn p input language
  let ld ← languageDataIn p language
  let raw ← parseRaw ld (tokenize input language)
  return strip raw

end NumberParser
