import Verif.Model.Parser

/-!
# Model of the parser on other Python interpreters

`Model/Parser` has the interpreter built in: the character tables of CPython 3.11 and the default limit of 4300 digits in conversions
between `int` and `str`.  The package supports Python 3.9 to 3.13 (setup.py:34-38), whose tables are those of other versions of Unicode, and
the limit can be set by the user, or is missing (releases before September 2022).  Here both are a parameter.
Simplification: the white space characters are those of 3.11 (they are the same in all these versions).
-/

namespace NumberParser

/-- What the interpreter contributes: the limit of `sys.set_int_max_str_digits` (`none`: no limit) and its character tables. -/
structure Interpreter where
  /-- `sys.get_int_max_str_digits()`, `none` for 0 and for interpreters without it -/
  limit : Option Nat
  /-- `re.match(r"\w", c)` -/
  word : Nat → Bool
  /-- `unicodedata.category(c) == "Mn"` -/
  mn : Nat → Bool
  /-- Case-ignorable and cased characters, for the final-sigma rule of `str.lower` -/
  caseIgnorable : Nat → Bool
  cased : Nat → Bool
  /-- `chr(c).lower()` outside the final-sigma rule -/
  lowerChar : Nat → PyStr
  /-- Full canonical decomposition -/
  decomp : Nat → PyStr
  /-- `unicodedata.combining(c)` -/
  ccc : Nat → Nat
  /-- `c.isnumeric()` -/
  numeric : Nat → Bool
  /-- `unicodedata.decimal(c)` -/
  decimal : Nat → Option Nat

/-- CPython 3.11, as in `Model/Parser` -/
def python311 : Interpreter :=
  ⟨some 4300, isWord, isMn, isCaseIgnorable, isCased, lowerChar, decompChar, ccc, isNumericChar, decimalValue⟩

/-- May a number of this many digits be converted? -/
def Interpreter.fits (V : Interpreter) (n : Nat) : Bool :=
  match V.limit with
  | none => true
  | some k => n ≤ k

/-! ## The built-ins (`Model/Unicode`, `Model/Py`) -/

/-- As `casedNext`: CPython `handle_capital_sigma` -/
def casedNextOn (V : Interpreter) (s : PyStr) : Bool :=
  match s.dropWhile V.caseIgnorable with
  | [] => false
  | c :: _ => V.cased c

/-- As `lowerGo`: CPython `do_lower` -/
def lowerGoOn (V : Interpreter) : PyStr → PyStr → PyStr
  | _, [] => []
  | rev, c :: cs =>
    (if c = 0x3a3 then [if casedNextOn V rev && !casedNextOn V cs then 0x3c2 else 0x3c3] else V.lowerChar c)
      ++ lowerGoOn V (c :: rev) cs

/-- `s.lower()` -/
def lowerOn (V : Interpreter) (s : PyStr) : PyStr := lowerGoOn V [] s

/-- As `insertCcc`: one step of the canonical ordering -/
def insertCccOn (V : Interpreter) (c : Nat) : PyStr → PyStr
  | [] => [c]
  | d :: ds => if V.ccc d ≠ 0 ∧ V.ccc d < V.ccc c then d :: insertCccOn V c ds else c :: d :: ds

/-- Canonical ordering -/
def canonicalOrderOn (V : Interpreter) : PyStr → PyStr
  | [] => []
  | c :: cs => insertCccOn V c (canonicalOrderOn V cs)

/-- `unicodedata.normalize("NFD", s)` -/
def nfdOn (V : Interpreter) (s : PyStr) : PyStr := canonicalOrderOn V (s.flatMap V.decomp)

/-- `s.isnumeric()` -/
def isNumericOn (V : Interpreter) (s : PyStr) : Bool := !s.isEmpty && s.all V.numeric

/-- `int(s)`, restricted as `pyInt` -/
def pyIntOn (V : Interpreter) (s : PyStr) : Res Nat :=
  let t := rdropWhile isIntSpace (s.dropWhile isIntSpace)
  if t.isEmpty then .error .badInt
  else match t.mapM V.decimal with
    | none => .error .badInt
    | some ds => if V.fits ds.length then .ok (digitsValue ds) else .error .badInt

/-- `str(n)` for `n >= 0` -/
def strIntOn (V : Interpreter) (n : Nat) : Res PyStr :=
  if V.fits (decDigits n).length then .ok (decDigits n) else .error .badInt

/-! ## Tokens and language data -/

/-- `re.split(r"(\W)", s)`, parser.py:182 -/
def splitNonWordOn (V : Interpreter) : PyStr → List PyStr
  | [] => [[]]
  | c :: cs =>
    if V.word c then
      match splitNonWordOn V cs with
      | [] => [[c]]                    -- unreachable: the result is never empty
      | t :: ts => (c :: t) :: ts
    else [] :: [c] :: splitNonWordOn V cs

/-- `_tokenize`, parser.py:177-182 -/
def tokenizeOn (V : Interpreter) (input : PyStr) (language : PyStr) : List PyStr :=
  let input := replace input u!"\u00ad" []
  if RE_BUG_LANGUAGES.elem language then splitSpaces input else splitNonWordOn V input

/-- `_strip_accents`, parser.py:185-191 -/
def stripAccentsOn (V : Interpreter) (word : PyStr) : PyStr := (nfdOn V word).filter (fun c => !V.mn c)

/-- `_normalize_tokens`, parser.py:194-196 -/
def normalizeTokensOn (V : Interpreter) (tokens : List PyStr) : List PyStr := tokens.map (fun t => stripAccentsOn V (lowerOn V t))

/-- `_normalize_dict`, parser.py:199-201 -/
def normalizeDictOn (V : Interpreter) (d : Dict) : Dict := d.foldl (fun acc e => Dict.set acc (stripAccentsOn V e.1) e.2) []

/-- The body of `LanguageData.__init__` after the import, parser.py:26-41 -/
def mkLangDataOn (V : Interpreter) (info : Info) : LangData :=
  let unit := normalizeDictOn V info.unitNumbers
  let direct := normalizeDictOn V info.directNumbers
  let tens := normalizeDictOn V info.tens
  let hundreds := normalizeDictOn V info.hundreds
  let big := normalizeDictOn V info.bigPowersOfTen
  { unitNumbers := unit
    directNumbers := direct
    tens := tens
    hundreds := hundreds
    bigPowersOfTen := big
    skipTokens := info.skipTokens
    allNumbers := Dict.merge (Dict.merge (Dict.merge (Dict.merge (Dict.merge [] unit) direct) tens) hundreds) big
    unitAndDirectNumbers := Dict.merge (Dict.merge [] unit) direct
    maximumGroupValue := if info.useLongScale then 10000 else 100 }

/-- `LanguageData(language)`, parser.py:22-41 -/
def languageDataOn (V : Interpreter) (language : PyStr) : Res LangData :=
  if !SUPPORTED_LANGUAGES.elem language then .error .unsupportedLanguage
  else match dataModule language with
    | some info => .ok (mkLangDataOn V info)
    | none => .error .unsupportedLanguage      -- unreachable: every supported language has a module

/-! ## Building numbers: only `str` depends on the interpreter -/

/-- `str(total_value)` for the numbers of `value_list` -/
def renderItemOn (V : Interpreter) : Item → Res PyStr
  | .num n => strIntOn V n
  | .skip t => .ok t

/-- `_build_number`, parser.py:105-174 -/
def buildNumberOn (V : Interpreter) (ld : LangData) (tokens : List PyStr) : Res (List PyStr) :=
  (buildItems ld tokens).mapM (renderItemOn V)

/-! ## Language detection -/

/-- The number of valid tokens of the text in one language, parser.py:263-271 -/
def countValidOn (V : Interpreter) (input language : PyStr) : Res Nat := do
  let ld ← languageDataOn V language
  let tokens := normalizeTokensOn V (tokenizeOn V input language)
  return (tokens.filter (fun t => (isNumberToken t ld).isSome || isSkipToken t ld)).length

/-- `_valid_tokens_by_language`, parser.py:259-277 -/
def validTokensByLanguageOn (V : Interpreter) (input : PyStr) : Res PyStr := do
  let matches_ ← SUPPORTED_LANGUAGES.mapM (fun l => do return (l, ← countValidOn V input l))
  let best := maxKey matches_
  if best.2 = 0 then return u!"en"
  return best.1

/-- `if language is None: language = _valid_tokens_by_language(input_string)` -/
def resolveLanguageOn (V : Interpreter) (input : PyStr) : Option PyStr → Res PyStr
  | some l => .ok l
  | none => validTokensByLanguageOn V input

/-! ## The API -/

/-- `parse_number`, parser.py:295-324 -/
def parseNumberOn (V : Interpreter) (input : PyStr) (language : Option PyStr) : Res (Option Nat) :=
  if blank input then .ok none
  else if isNumericOn V (strip input) then do
    let n ← pyIntOn V input
    return some n
  else do
    let language ← resolveLanguageOn V input language
    let ld ← languageDataOn V language
    let input := replace input u!"'" []
    let input := replace input u!"’" []
    let tokens := normalizeTokensOn V (tokenizeOn V input language)
    if tokensOk ld 0 tokens then
      let built ← buildNumberOn V ld tokens
      match built with
      | [s] => do
        let n ← pyIntOn V s
        return some n
      | _ => return none
    else return none

/-- `parse_ordinal`, parser.py:280-292 -/
def parseOrdinalOn (V : Interpreter) (input : PyStr) (language : Option PyStr) : Res (Option Nat) := do
  let language ← resolveLanguageOn V input language
  let ld ← languageDataOn V language
  let tokens := normalizeTokensOn V (tokenizeOn V input language)
  let processed := tokens.map (fun t => applyCardinalConversion t ld)
  parseNumberOn V (join u!" " processed) (some language)

/-- The loop of `parse_fraction` over the separators, parser.py:336-353 -/
def fractionLoopOn (V : Interpreter) (input language : PyStr) : List PyStr → Res (Option PyStr)
  | [] => .ok none
  | sep :: seps =>
    match find sep input with
    | none => fractionLoopOn V input language seps
    | some pos => do
      let before := input.take pos
      let after := input.drop (pos + sep.length)
      let m ← parseNumberOn V before (some language)
      let n ← parseNumberOn V after (some language)
      match m, n with
      | some m, some n => do
        let ms ← strIntOn V m
        let ns ← strIntOn V n
        return some (ms ++ u!"/" ++ ns)
      | _, _ => return none

/-- `parse_fraction`, parser.py:326-353 -/
def parseFractionOn (V : Interpreter) (input : PyStr) (language : Option PyStr) : Res (Option PyStr) :=
  if blank input then .ok none
  else do
    let language ← resolveLanguageOn V input language
    fractionLoopOn V input language FRACTION_SEPARATORS

/-- `_build_and_add_number`, parser.py:373-382 -/
def buildAndAddOn (V : Interpreter) (ld : LangData) (s : PState) (popLastSpace : Bool) : Res PState :=
  if s.taken.isEmpty then .ok s
  else do
    let result ← buildNumberOn V ld s.taken
    let current := s.current ++ result.flatMap (fun number => [number, u!" "])
    return { s with taken := [], current := if popLastSpace then current.dropLast else current }

/-- The body of the loop of `parse`, parser.py:384-420 -/
def parseStepOn (V : Interpreter) (ld : LangData) (s : PState) (token : PyStr) : Res PState :=
  let cmp := stripAccentsOn V (lowerOn V token)
  let ordinal := isOrdinalToken cmp ld
  if blank cmp then
    if s.taken.isEmpty then .ok { s with current := s.current ++ [token], pop := true }
    else .ok { s with pop := false }
  else if SENTENCE_SEPARATORS.elem cmp then do
    let s ← buildAndAddOn V ld s s.pop
    return { s with final := s.final ++ (s.current ++ [token]), current := [] }
  else if truthy ordinal then do
    let s ← buildAndAddOn V ld { s with taken := s.taken ++ [ordinal.getD []] } true
    return { s with pop := true }
  else if truthy (isCardinalToken cmp ld) || (isSkipToken cmp ld && !s.taken.isEmpty) then
    .ok { s with taken := s.taken ++ [cmp], pop := true }
  else do
    let s ← match s.taken.getLast? with
      | some last =>
        if isSkipToken last ld then do
          let s ← buildAndAddOn V ld { s with taken := s.taken.dropLast } false
          pure { s with current := s.current ++ [last, u!" "] }
        else pure s
      | none => pure s
    let s ← buildAndAddOn V ld s false
    return { s with current := s.current ++ [token], pop := true }

/-- The part of `parse` after language resolution, without the final `strip`, parser.py:366-425 -/
def parseRawOn (V : Interpreter) (ld : LangData) (tokens : List PyStr) : Res PyStr := do
  let s ← tokens.foldlM (parseStepOn V ld) PState.init
  let s ← buildAndAddOn V ld s false
  return (s.final ++ s.current).flatten

/-- `parse`, parser.py:356-426 -/
def parseOn (V : Interpreter) (input : PyStr) (language : Option PyStr) : Res PyStr := do
  let language ← resolveLanguageOn V input language
  let ld ← languageDataOn V language
  let raw ← parseRawOn V ld (tokenizeOn V input language)
  return strip raw

end NumberParser
