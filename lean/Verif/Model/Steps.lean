import Verif.Model.Package

/-!
# Model of the work `number_parser/parser.py` does: iterations of its loops

Every function again, with the number of iterations of all the loops it runs: `for` statements, comprehensions and generator
expressions, in the function itself and in those it calls.  The operations of Python on strings, dictionaries, lists and integers
(`replace`, `find`, `re.split`, `re.sub`, `in`, `normalize`, `str`, `int`, ...) have no loop in the source and are not counted.
Line numbers refer to `/repo/number_parser/parser.py`.
-/

namespace NumberParser

/-- A call: its result (or exception) and the number of iterations -/
structure Counted (α : Type) where
  result : Res α
  steps : Nat

/-- One call after the other -/
instance : Monad Counted where
  pure a := ⟨.ok a, 0⟩
  bind x f := match x.result with
    | .error e => ⟨.error e, x.steps⟩
    | .ok a => ⟨(f a).result, x.steps + (f a).steps⟩

/-- `n` iterations -/
def iterate (n : Nat) : Counted Unit := ⟨.ok (), n⟩

/-- `_strip_accents`, parser.py:185-191: one iteration for each character of the decomposed word -/
def stripAccentsSteps (word : PyStr) : Nat := (nfd word).length

/-- `_normalize_tokens`, parser.py:194-196 -/
def normalizeTokensSteps (tokens : List PyStr) : Nat := (tokens.map (fun t => 1 + stripAccentsSteps (lower t))).sum

/-- `_normalize_dict`, parser.py:199-201.  (An entry listed twice counts twice.) -/
def normalizeDictSteps (d : Dict) : Nat := (d.map (fun e => 1 + stripAccentsSteps e.1)).sum

/-- `LanguageData.__init__`, parser.py:26-30 -/
def languageDataSteps (info : Info) : Nat :=
  normalizeDictSteps info.unitNumbers + normalizeDictSteps info.directNumbers + normalizeDictSteps info.tens +
    normalizeDictSteps info.hundreds + normalizeDictSteps info.bigPowersOfTen

/-- `LanguageData(language)`, parser.py:22-41 -/
def languageDataCounted (p : Package) (language : PyStr) : Counted LangData :=
  match p.find? (fun e => e.1 == language) with
  | some e => ⟨.ok (mkLangData e.2), languageDataSteps e.2⟩
  | none => ⟨.error .unsupportedLanguage, 0⟩

/-- `_apply_cardinal_conversion`, parser.py:245-246 -/
def conversionSteps : Nat := CARDINAL_DIRECT_NUMBERS.length

/-- `_is_ordinal_token`, parser.py:211-215 -/
def ordinalTokenSteps (token : PyStr) (ld : LangData) : Nat :=
  match isCardinalToken token ld with
  | none => conversionSteps
  | some _ => 0

/-- One iteration of the loop of `_build_number`, parser.py:114-172, with those of the inner loop, parser.py:146-147 -/
def buildStepSteps (ld : LangData) (s : BState) (tok : PyStr) : Nat :=
  1 + (if blank tok then 0
    else if ld.skipTokens.elem tok then 0
    else match checkLargeMultiplier tok s.total s.grp ld with
      | some _ => 0
      | none => if checkValidity tok s.prevTok s.prevPow s.total s.grp ld then 0 else s.usedSkip.length)

/-- The loop of `_build_number` from a state on, parser.py:114-172 -/
def buildLoopSteps (ld : LangData) : BState → List PyStr → Nat
  | _, [] => 0
  | s, t :: ts => buildStepSteps ld s t + buildLoopSteps ld (buildStep ld s t) ts

/-- `_build_number`, parser.py:105-174.  (If `str` raises, the iterations after that are counted, too.) -/
def buildNumberCounted (ld : LangData) (tokens : List PyStr) : Counted (List PyStr) :=
  ⟨buildNumber ld tokens, buildLoopSteps ld BState.init tokens⟩

/-- The body of the loop of `_valid_tokens_by_language`, parser.py:263-271; the comprehension of lines 266-270 calls
`_is_number_token` for each token -/
def countValidCounted (p : Package) (input language : PyStr) : Counted Nat := do
  let ld ← languageDataCounted p language
  iterate (normalizeTokensSteps (tokenize input language))
  let tokens := normalizeTokens (tokenize input language)
  iterate (tokens.map (fun _ => 1 + conversionSteps)).sum
  return (tokens.filter (fun t => (isNumberToken t ld).isSome || isSkipToken t ld)).length

/-- The loop of `_valid_tokens_by_language`, parser.py:262-272 -/
def detectionLoop (p : Package) (input : PyStr) : List PyStr → Counted Dict
  | [] => pure []
  | l :: ls => do
    iterate 1
    let n ← countValidCounted p input l
    let rest ← detectionLoop p input ls
    return (l, n) :: rest

/-- `_valid_tokens_by_language`, parser.py:259-277 -/
def validTokensCounted (p : Package) (input : PyStr) : Counted PyStr := do
  let matches_ ← detectionLoop p input (p.map Prod.fst)
  let best := maxKey matches_
  if best.2 = 0 then return u!"en"
  return best.1

/-- parser.py:282-283, 304-305, 331-332, 361-362 -/
def resolveLanguageCounted (p : Package) (input : PyStr) : Option PyStr → Counted PyStr
  | some l => pure l
  | none => validTokensCounted p input

/-- The loop of `parse_number` that checks the tokens, parser.py:314-319; it ends with the first token that is none of a number -/
def tokensOkSteps (ld : LangData) : Nat → List PyStr → Nat
  | _, [] => 0
  | i, t :: ts =>
    if truthy (isCardinalToken t ld) || blank t then 1 + tokensOkSteps ld (i + 1) ts
    else if isSkipToken t ld && i != 0 then 1 + tokensOkSteps ld (i + 1) ts
    else 1

/-- `parse_number`, parser.py:295-324 -/
def parseNumberCounted (p : Package) (input : PyStr) (language : Option PyStr) : Counted (Option Nat) :=
  if blank input then pure none
  else if isNumeric (strip input) then ⟨(do let n ← pyInt input; return some n), 0⟩
  else do
    let language ← resolveLanguageCounted p input language
    let ld ← languageDataCounted p language
    let input := replace input u!"'" []
    let input := replace input u!"’" []
    iterate (normalizeTokensSteps (tokenize input language))
    let tokens := normalizeTokens (tokenize input language)
    iterate (tokensOkSteps ld 0 tokens)
    if tokensOk ld 0 tokens then do
      let built ← buildNumberCounted ld tokens
      match built with
      | [s] => ⟨(do let n ← pyInt s; return some n), 0⟩
      | _ => return none
    else return none

/-- `parse_ordinal`, parser.py:280-292 -/
def parseOrdinalCounted (p : Package) (input : PyStr) (language : Option PyStr) : Counted (Option Nat) := do
  let language ← resolveLanguageCounted p input language
  let ld ← languageDataCounted p language
  iterate (normalizeTokensSteps (tokenize input language))
  let tokens := normalizeTokens (tokenize input language)
  iterate (tokens.map (fun _ => 1 + conversionSteps)).sum
  let processed := tokens.map (fun t => applyCardinalConversion t ld)
  parseNumberCounted p (join u!" " processed) (some language)

/-- The loop of `parse_fraction` over the separators, parser.py:336-353 -/
def fractionLoopCounted (p : Package) (input language : PyStr) : List PyStr → Counted (Option PyStr)
  | [] => pure none
  | sep :: seps => do
    iterate 1
    match find sep input with
    | none => fractionLoopCounted p input language seps
    | some pos => do
      let before := input.take pos
      let after := input.drop (pos + sep.length)
      let m ← parseNumberCounted p before (some language)
      let n ← parseNumberCounted p after (some language)
      match m, n with
      | some m, some n => ⟨(do let ms ← strInt m; let ns ← strInt n; return some (ms ++ u!"/" ++ ns)), 0⟩
      | _, _ => return none

/-- `parse_fraction`, parser.py:326-353 -/
def parseFractionCounted (p : Package) (input : PyStr) (language : Option PyStr) : Counted (Option PyStr) :=
  if blank input then pure none
  else do
    let language ← resolveLanguageCounted p input language
    fractionLoopCounted p input language FRACTION_SEPARATORS

/-- `_build_and_add_number`, parser.py:373-382, with the loop of lines 378-379 -/
def buildAndAddCounted (ld : LangData) (s : PState) (popLastSpace : Bool) : Counted PState :=
  if s.taken.isEmpty then pure s
  else do
    let result ← buildNumberCounted ld s.taken
    iterate result.length
    let current := s.current ++ result.flatMap (fun number => [number, u!" "])
    return { s with taken := [], current := if popLastSpace then current.dropLast else current }

/-- The body of the loop of `parse`, parser.py:384-420 -/
def parseStepCounted (ld : LangData) (s : PState) (token : PyStr) : Counted PState := do
  iterate 1
  iterate (stripAccentsSteps (lower token))
  let cmp := stripAccents (lower token)
  iterate (ordinalTokenSteps cmp ld)
  let ordinal := isOrdinalToken cmp ld
  if blank cmp then
    if s.taken.isEmpty then return { s with current := s.current ++ [token], pop := true }
    else return { s with pop := false }
  else if SENTENCE_SEPARATORS.elem cmp then do
    let s ← buildAndAddCounted ld s s.pop
    return { s with final := s.final ++ (s.current ++ [token]), current := [] }
  else if truthy ordinal then do
    let s ← buildAndAddCounted ld { s with taken := s.taken ++ [ordinal.getD []] } true
    return { s with pop := true }
  else if truthy (isCardinalToken cmp ld) || (isSkipToken cmp ld && !s.taken.isEmpty) then
    return { s with taken := s.taken ++ [cmp], pop := true }
  else do
    let s ← match s.taken.getLast? with
      | some last =>
        if isSkipToken last ld then do
          let s ← buildAndAddCounted ld { s with taken := s.taken.dropLast } false
          pure { s with current := s.current ++ [last, u!" "] }
        else pure s
      | none => pure s
    let s ← buildAndAddCounted ld s false
    return { s with current := s.current ++ [token], pop := true }

/-- The loop of `parse`, parser.py:384-420 -/
def parseLoopCounted (ld : LangData) : PState → List PyStr → Counted PState
  | s, [] => pure s
  | s, t :: ts => do
    let s ← parseStepCounted ld s t
    parseLoopCounted ld s ts

/-- `parse`, parser.py:356-426 -/
def parseCounted (p : Package) (input : PyStr) (language : Option PyStr) : Counted PyStr := do
  let language ← resolveLanguageCounted p input language
  let ld ← languageDataCounted p language
  let s ← parseLoopCounted ld PState.init (tokenize input language)
  let s ← buildAndAddCounted ld s false
  return strip (s.final ++ s.current).flatten

end NumberParser
