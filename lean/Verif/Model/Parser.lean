import Verif.Model.Unicode
import Verif.Model.Data

/-!
# Model of `number_parser/parser.py`

Function by function.  Line numbers refer to `/repo/number_parser/parser.py`.
-/

namespace NumberParser

/-- parser.py:5 -/
def SENTENCE_SEPARATORS : List PyStr := [u!".", u!","]

/-- parser.py:6 -/
def SUPPORTED_LANGUAGES : List PyStr := [u!"en", u!"es", u!"hi", u!"ru", u!"uk"]

/-- parser.py:7 -/
def RE_BUG_LANGUAGES : List PyStr := [u!"hi"]

/-! ## Tokens -/

/-- `re.split(r"(\W)", s)`: words (possibly empty) alternating with single non-word characters. -/
def splitNonWord : PyStr → List PyStr
  | [] => [[]]
  | c :: cs =>
    if isWord c then
      match splitNonWord cs with
      | [] => [[c]]                    -- unreachable: the result is never empty
      | t :: ts => (c :: t) :: ts
    else [] :: [c] :: splitNonWord cs

/-- `re.split(r"(\s+)", s)`: words (possibly empty) alternating with maximal white-space runs. -/
def splitSpaces : PyStr → List PyStr
  | [] => [[]]
  | c :: cs =>
    if isSpace c then
      match cs, splitSpaces cs with
      | d :: _, [] :: run :: ts => if isSpace d then [] :: (c :: run) :: ts else [] :: [c] :: [] :: run :: ts
      | _, ts => [] :: [c] :: ts
    else
      match splitSpaces cs with
      | [] => [[c]]                    -- unreachable: the result is never empty
      | t :: ts => (c :: t) :: ts

/-- `_tokenize`, parser.py:177-182 -/
def tokenize (input : PyStr) (language : PyStr) : List PyStr :=
  let input := replace input u!"\u00ad" []
  if RE_BUG_LANGUAGES.elem language then splitSpaces input else splitNonWord input

/-- `_strip_accents`, parser.py:185-191 -/
def stripAccents (word : PyStr) : PyStr := (nfd word).filter (fun c => !isMn c)

/-- `_normalize_tokens`, parser.py:194-196 -/
def normalizeTokens (tokens : List PyStr) : List PyStr := tokens.map (fun t => stripAccents (lower t))

/-- `_normalize_dict`, parser.py:199-201 -/
def normalizeDict (d : Dict) : Dict := d.foldl (fun acc e => Dict.set acc (stripAccents e.1) e.2) []

/-! ## Language data -/

/-- The attributes of a `LanguageData` object, parser.py:13-20 and 26-41 -/
structure LangData where
  unitNumbers : Dict
  directNumbers : Dict
  tens : Dict
  hundreds : Dict
  bigPowersOfTen : Dict
  skipTokens : List PyStr
  allNumbers : Dict
  unitAndDirectNumbers : Dict
  maximumGroupValue : Nat

/-- The body of `LanguageData.__init__` after the module has been imported, parser.py:26-41 -/
def mkLangData (info : Info) : LangData :=
  let unit := normalizeDict info.unitNumbers
  let direct := normalizeDict info.directNumbers
  let tens := normalizeDict info.tens
  let hundreds := normalizeDict info.hundreds
  let big := normalizeDict info.bigPowersOfTen
  { unitNumbers := unit
    directNumbers := direct
    tens := tens
    hundreds := hundreds
    bigPowersOfTen := big
    skipTokens := info.skipTokens
    allNumbers := Dict.merge (Dict.merge (Dict.merge (Dict.merge (Dict.merge [] unit) direct) tens) hundreds) big
    unitAndDirectNumbers := Dict.merge (Dict.merge [] unit) direct
    maximumGroupValue := if info.useLongScale then 10000 else 100 }

/-- `import_module("number_parser.data." + language).info` for the supported languages, parser.py:25.
(Data files exist for many more languages; parser.py:23 keeps them from being loaded.) -/
def dataModule (language : PyStr) : Option Info :=
  if language = u!"en" then some Data.en
  else if language = u!"es" then some Data.es
  else if language = u!"hi" then some Data.hi
  else if language = u!"ru" then some Data.ru
  else if language = u!"uk" then some Data.uk
  else none

/-- `LanguageData(language)`, parser.py:22-41 -/
def languageData (language : PyStr) : Res LangData :=
  if !SUPPORTED_LANGUAGES.elem language then .error .unsupportedLanguage
  else match dataModule language with
    | some info => .ok (mkLangData info)
    | none => .error .unsupportedLanguage      -- unreachable: every supported language has a module

/-! ## Token classification -/

/-- `_is_cardinal_token`, parser.py:204-208 -/
def isCardinalToken (token : PyStr) (ld : LangData) : Option PyStr :=
  if ld.allNumbers.mem token then some token else none

/-- `re.sub(suf + r"$", repl, s)` for a literal `suf` without newline: `$` matches at the end of the string
and before a trailing newline. -/
def subEnd (suf repl s : PyStr) : PyStr :=
  if suf.isSuffixOf s then s.take (s.length - suf.length) ++ repl
  else if (suf ++ [10]).isSuffixOf s then s.take (s.length - suf.length - 1) ++ repl ++ [10]
  else s

/-- parser.py:235-243 -/
def CARDINAL_DIRECT_NUMBERS : List (PyStr × PyStr) :=
  [(u!"first", u!"one"), (u!"second", u!"two"), (u!"third", u!"three"), (u!"fifth", u!"five"),
   (u!"eighth", u!"eight"), (u!"ninth", u!"nine"), (u!"twelfth", u!"twelve")]

/-- `_apply_cardinal_conversion`, parser.py:231-256 -/
def applyCardinalConversion (token : PyStr) (ld : LangData) : PyStr :=
  let token := CARDINAL_DIRECT_NUMBERS.foldl (fun t wn => replace t wn.1 wn.2) token
  let form1 := subEnd u!"ieth" u!"y" token
  if (isCardinalToken form1 ld).isSome then form1
  else
    let form2 := subEnd u!"th" [] token
    if (isCardinalToken form2 ld).isSome then form2
    else token

/-- `_is_number_token`, parser.py:218-224 -/
def isNumberToken (token : PyStr) (ld : LangData) : Option PyStr :=
  isCardinalToken (applyCardinalConversion token ld) ld

/-- `_is_ordinal_token`, parser.py:211-215 -/
def isOrdinalToken (token : PyStr) (ld : LangData) : Option PyStr :=
  match isCardinalToken token ld with
  | none => isNumberToken token ld
  | some _ => none

/-- `_is_skip_token`, parser.py:227-228 -/
def isSkipToken (token : PyStr) (ld : LangData) : Bool := ld.skipTokens.elem token

/-- Truth value of an optional string in Python: `None` and `""` are false. -/
def truthy : Option PyStr → Bool
  | some (_ :: _) => true
  | _ => false

/-! ## Building numbers -/

/-- `_check_validity`, parser.py:44-92 -/
def checkValidity (tok : PyStr) (prevTok : Option PyStr) (prevPow : Option Nat) (total grp : Nat)
    (ld : LangData) : Bool :=
  match prevTok with
  | none => true
  | some prev =>
    if ld.unitAndDirectNumbers.mem tok && ld.unitAndDirectNumbers.mem prev then false
    else if ld.directNumbers.mem tok && ld.tens.mem prev then false
    else if ld.tens.mem tok && (ld.tens.mem prev || ld.unitAndDirectNumbers.mem prev) then false
    else if ld.hundreds.mem tok && !ld.bigPowersOfTen.mem prev then false
    else match ld.bigPowersOfTen.get? tok with
      | some p =>
        if p < grp then false
        else match prevPow with
          | some pp => if total ≠ 0 ∧ pp ≠ 0 ∧ p ≥ pp then false else true
          | none => true
      | none => true

/-- `_check_large_multiplier`, parser.py:95-102.  Returns the multiplier instead of `True`. -/
def checkLargeMultiplier (tok : PyStr) (total grp : Nat) (ld : LangData) : Option Nat :=
  if total + grp ≠ 0 then
    match ld.bigPowersOfTen.get? tok with
    | some large => if large > total + grp ∧ large ≠ 100 then some large else none
    | none => none
  else none

/-- An entry of `value_list`: a number (still to be converted by `str`) or a skip token. -/
inductive Item where
  | num (n : Nat)
  | skip (t : PyStr)
  deriving DecidableEq, Repr

/-- The local variables of `_build_number`, parser.py:107-112.  `out` is `value_list`; the conversions
`str(total_value)` are done at the end (`renderItems`): they have no effect besides possibly raising
`ValueError`, which is raised by the whole call in either case. -/
structure BState where
  total : Nat
  grp : Nat
  prevTok : Option PyStr
  prevPow : Option Nat
  out : List Item
  usedSkip : List PyStr
  deriving DecidableEq, Repr

def BState.init : BState := ⟨0, 0, none, none, [], []⟩

/-- parser.py:143-149: the actions when the token cannot continue the current number -/
def flushInvalid (s : BState) : BState :=
  { s with
    out := s.out ++ [.num (s.total + s.grp)] ++ s.usedSkip.map .skip
    total := 0, grp := 0, prevPow := none }

/-- parser.py:151-172: add the token's value to the current group -/
def addToken (ld : LangData) (s : BState) (tok : PyStr) : BState :=
  let s' :=
    match ld.unitAndDirectNumbers.get? tok with
    | some v => { s with grp := s.grp + v }
    | none =>
      match ld.tens.get? tok with
      | some v => { s with grp := s.grp + v }
      | none =>
        match ld.hundreds.get? tok with
        | some v => { s with grp := s.grp + v }
        | none =>
          match ld.bigPowersOfTen.get? tok with
          | some p =>
            let g := (if s.grp = 0 then 1 else s.grp) * p
            if p > ld.maximumGroupValue then { s with total := s.total + g, grp := 0, prevPow := some p }
            else { s with grp := g }
          | none => s
  { s' with prevTok := some tok, usedSkip := [] }

/-- The body of the loop of `_build_number`, parser.py:114-172 -/
def buildStep (ld : LangData) (s : BState) (tok : PyStr) : BState :=
  if blank tok then s
  else if ld.skipTokens.elem tok then { s with usedSkip := s.usedSkip ++ [tok] }
  else match checkLargeMultiplier tok s.total s.grp ld with
    | some p =>
      { s with total := (s.total + s.grp) * p, prevTok := some tok, grp := 0, usedSkip := [], prevPow := some p }
    | none =>
      if checkValidity tok s.prevTok s.prevPow s.total s.grp ld then addToken ld s tok
      else addToken ld (flushInvalid s) tok

/-- `_build_number` up to the `str` conversions, parser.py:105-174 -/
def buildItems (ld : LangData) (tokens : List PyStr) : List Item :=
  let s := tokens.foldl (buildStep ld) BState.init
  s.out ++ [.num (s.total + s.grp)]

/-- `str(total_value)` for the numbers of `value_list` -/
def renderItem : Item → Res PyStr
  | .num n => strInt n
  | .skip t => .ok t

/-- `_build_number`, parser.py:105-174 -/
def buildNumber (ld : LangData) (tokens : List PyStr) : Res (List PyStr) :=
  (buildItems ld tokens).mapM renderItem

/-! ## Language detection -/

/-- The number of valid tokens of the text in one language, parser.py:263-271 -/
def countValid (input language : PyStr) : Res Nat := do
  let ld ← languageData language
  let tokens := normalizeTokens (tokenize input language)
  return (tokens.filter (fun t => (isNumberToken t ld).isSome || isSkipToken t ld)).length

/-- `max(d, key=d.get)`: the first key with the largest value -/
def maxKey : Dict → PyStr × Nat
  | [] => ([], 0)                                       -- unreachable
  | [e] => e
  | e :: e' :: d => let m := maxKey (e' :: d); if m.2 > e.2 then m else e

/-- `_valid_tokens_by_language`, parser.py:259-277 -/
def validTokensByLanguage (input : PyStr) : Res PyStr := do
  let matches_ ← SUPPORTED_LANGUAGES.mapM (fun l => do return (l, ← countValid input l))
  let best := maxKey matches_
  if best.2 = 0 then return u!"en"
  return best.1

/-- `if language is None: language = _valid_tokens_by_language(input_string)` -/
def resolveLanguage (input : PyStr) : Option PyStr → Res PyStr
  | some l => .ok l
  | none => validTokensByLanguage input

/-! ## The API -/

/-- The token check of `parse_number`, parser.py:315-320, from the given index on -/
def tokensOk (ld : LangData) : Nat → List PyStr → Bool
  | _, [] => true
  | i, t :: ts =>
    if truthy (isCardinalToken t ld) || blank t then tokensOk ld (i + 1) ts
    else if isSkipToken t ld && i != 0 then tokensOk ld (i + 1) ts
    else false

/-- `parse_number`, parser.py:295-324 -/
def parseNumber (input : PyStr) (language : Option PyStr) : Res (Option Nat) :=
  if blank input then .ok none
  else if isNumeric (strip input) then do
    let n ← pyInt input
    return some n
  else do
    let language ← resolveLanguage input language
    let ld ← languageData language
    let input := replace input u!"'" []
    let input := replace input u!"’" []
    let tokens := normalizeTokens (tokenize input language)
    if tokensOk ld 0 tokens then
      let built ← buildNumber ld tokens
      match built with
      | [s] => do
        let n ← pyInt s
        return some n
      | _ => return none
    else return none

/-- `parse_ordinal`, parser.py:280-292 -/
def parseOrdinal (input : PyStr) (language : Option PyStr) : Res (Option Nat) := do
  let language ← resolveLanguage input language
  let ld ← languageData language
  let tokens := normalizeTokens (tokenize input language)
  let processed := tokens.map (fun t => applyCardinalConversion t ld)
  parseNumber (join u!" " processed) (some language)

/-- parser.py:334 -/
def FRACTION_SEPARATORS : List PyStr := [u!"divided by", u!"over", u!"by", u!"/"]

/-- The loop of `parse_fraction` over the separators, parser.py:336-353 -/
def fractionLoop (input language : PyStr) : List PyStr → Res (Option PyStr)
  | [] => .ok none
  | sep :: seps =>
    match find sep input with
    | none => fractionLoop input language seps
    | some pos => do
      let before := input.take pos
      let after := input.drop (pos + sep.length)
      let m ← parseNumber before (some language)
      let n ← parseNumber after (some language)
      match m, n with
      | some m, some n => do
        let ms ← strInt m
        let ns ← strInt n
        return some (ms ++ u!"/" ++ ns)
      | _, _ => return none

/-- `parse_fraction`, parser.py:326-353 -/
def parseFraction (input : PyStr) (language : Option PyStr) : Res (Option PyStr) :=
  if blank input then .ok none
  else do
    let language ← resolveLanguage input language
    fractionLoop input language FRACTION_SEPARATORS

/-- The local variables of `parse`, parser.py:368-371 -/
structure PState where
  final : List PyStr
  current : List PyStr
  taken : List PyStr
  pop : Bool
  deriving DecidableEq, Repr

def PState.init : PState := ⟨[], [], [], true⟩

/-- `_build_and_add_number`, parser.py:373-382 -/
def buildAndAdd (ld : LangData) (s : PState) (popLastSpace : Bool) : Res PState :=
  if s.taken.isEmpty then .ok s
  else do
    let result ← buildNumber ld s.taken
    let current := s.current ++ result.flatMap (fun number => [number, u!" "])
    return { s with taken := [], current := if popLastSpace then current.dropLast else current }

/-- The body of the loop of `parse`, parser.py:384-420 -/
def parseStep (ld : LangData) (s : PState) (token : PyStr) : Res PState :=
  let cmp := stripAccents (lower token)
  let ordinal := isOrdinalToken cmp ld
  if blank cmp then
    if s.taken.isEmpty then .ok { s with current := s.current ++ [token], pop := true }
    else .ok { s with pop := false }
  else if SENTENCE_SEPARATORS.elem cmp then do
    let s ← buildAndAdd ld s s.pop
    return { s with final := s.final ++ (s.current ++ [token]), current := [] }
  else if truthy ordinal then do
    let s ← buildAndAdd ld { s with taken := s.taken ++ [ordinal.getD []] } true
    return { s with pop := true }
  else if truthy (isCardinalToken cmp ld) || (isSkipToken cmp ld && !s.taken.isEmpty) then
    .ok { s with taken := s.taken ++ [cmp], pop := true }
  else do
    let s ← match s.taken.getLast? with
      | some last =>
        if isSkipToken last ld then do
          let s ← buildAndAdd ld { s with taken := s.taken.dropLast } false
          pure { s with current := s.current ++ [last, u!" "] }
        else pure s
      | none => pure s
    let s ← buildAndAdd ld s false
    return { s with current := s.current ++ [token], pop := true }

/-- The part of `parse` after language resolution, without the final `strip`, parser.py:366-425 -/
def parseRaw (ld : LangData) (tokens : List PyStr) : Res PyStr := do
  let s ← tokens.foldlM (parseStep ld) PState.init
  let s ← buildAndAdd ld s false
  return (s.final ++ s.current).flatten

/-- `parse`, parser.py:356-426 -/
def parse (input : PyStr) (language : Option PyStr) : Res PyStr := do
  let language ← resolveLanguage input language
  let ld ← languageData language
  let raw ← parseRaw ld (tokenize input language)
  return strip raw

end NumberParser
