import Verif.Model.Parser

/-!
# Model of the process: shared state, call histories, threads

The functions of Verif/Model/Parser.lean take the language tables as a value.  In the program the tables are
mutable objects shared by all calls: the `info` dictionaries of the imported data modules (kept by Python in
`sys.modules`; `LanguageData.__init__` makes `self.skip_tokens` an alias of the list inside) and the attributes of
the class `LanguageData` (parser.py:13-20).  This file models the API calls as programs that act on these shared
objects, so that a call could change them, or leave results of one call to the next.

Simplifications: an `import_module` call is one atomic step (Python's import lock); the tables are read at the
moment the `LanguageData` object is made; everything else a call does (local lists and dictionaries of one call,
which no other call can reach) is not split into steps.
-/

namespace NumberParser

/-- The mutable objects that calls share. -/
structure Globals where
  /-- the imported modules `number_parser.data.<language>` with their `info` -/
  modules : List (PyStr × Info)
  /-- the attributes of the class `LanguageData` -/
  classAttrs : LangData

/-- A new process, parser.py:13-20.  (`maximum_group_value` is no class attribute; 0 stands for it.) -/
def Globals.fresh : Globals := ⟨[], ⟨[], [], [], [], [], [], [], [], 0⟩⟩

/-- A call in progress: finished, or about to act on the shared objects: `write` is what it does to them, `next`
how it continues after having seen them. -/
inductive Prog (α : Type) where
  | done (r : Res α)
  | step (write : Globals → Globals) (next : Globals → Prog α)

/-- Sequential composition; an exception ends the call. -/
def Prog.bind {α β : Type} : Prog α → (α → Prog β) → Prog β
  | .done (.ok a), k => k a
  | .done (.error e), _ => .done (.error e)
  | .step w n, k => .step w (fun g => (n g).bind k)

instance : Monad Prog where
  pure a := .done (.ok a)
  bind := Prog.bind

/-- A computation that does not touch the shared objects. -/
def Prog.lift {α : Type} (r : Res α) : Prog α := .done r

def findModule (g : Globals) (language : PyStr) : Option Info := (g.modules.find? (fun m => m.1 == language)).map (fun m => m.2)

/-- `import_module("number_parser.data." + language).info`, parser.py:25: the module is executed and registered at
the first import; later imports return the registered module. -/
def importInfo (language : PyStr) : Prog Info :=
  .step
    (fun g => match findModule g language with
      | some _ => g
      | none => match dataModule language with
        | some info => { g with modules := g.modules ++ [(language, info)] }
        | none => g)
    (fun g => match findModule g language with
      | some info => .done (.ok info)
      | none => match dataModule language with
        | some info => .done (.ok info)
        | none => .done (.error .unsupportedLanguage))

/-- `LanguageData(language)`, parser.py:22-41 -/
def languageDataP (language : PyStr) : Prog LangData :=
  if !SUPPORTED_LANGUAGES.elem language then .done (.error .unsupportedLanguage)
  else do
    let info ← importInfo language
    return mkLangData info

/-- parser.py:263-271 -/
def countValidP (input language : PyStr) : Prog Nat := do
  let ld ← languageDataP language
  let tokens := normalizeTokens (tokenize input language)
  return (tokens.filter (fun t => (isNumberToken t ld).isSome || isSkipToken t ld)).length

/-- The loop of `_valid_tokens_by_language`, parser.py:262-272 -/
def scoresP (input : PyStr) : List PyStr → Prog Dict
  | [] => return []
  | l :: ls => do
    let n ← countValidP input l
    let rest ← scoresP input ls
    return (l, n) :: rest

/-- `_valid_tokens_by_language`, parser.py:259-277 -/
def validTokensByLanguageP (input : PyStr) : Prog PyStr := do
  let matches_ ← scoresP input SUPPORTED_LANGUAGES
  let best := maxKey matches_
  if best.2 = 0 then return u!"en"
  return best.1

/-- `if language is None: ...` -/
def resolveLanguageP (input : PyStr) : Option PyStr → Prog PyStr
  | some l => return l
  | none => validTokensByLanguageP input

/-- `parse_number`, parser.py:295-324 -/
def parseNumberP (input : PyStr) (language : Option PyStr) : Prog (Option Nat) :=
  if blank input then return none
  else if isNumeric (strip input) then Prog.lift (do
    let n ← pyInt input
    return some n)
  else do
    let language ← resolveLanguageP input language
    let ld ← languageDataP language
    let input := replace input u!"'" []
    let input := replace input u!"’" []
    let tokens := normalizeTokens (tokenize input language)
    Prog.lift (
      if tokensOk ld 0 tokens then do
        let built ← buildNumber ld tokens
        match built with
        | [s] => do
          let n ← pyInt s
          return some n
        | _ => return none
      else return none)

/-- `parse_ordinal`, parser.py:280-292 -/
def parseOrdinalP (input : PyStr) (language : Option PyStr) : Prog (Option Nat) := do
  let language ← resolveLanguageP input language
  let ld ← languageDataP language
  let tokens := normalizeTokens (tokenize input language)
  let processed := tokens.map (fun t => applyCardinalConversion t ld)
  parseNumberP (join u!" " processed) (some language)

/-- parser.py:336-353 -/
def fractionLoopP (input language : PyStr) : List PyStr → Prog (Option PyStr)
  | [] => return none
  | sep :: seps =>
    match find sep input with
    | none => fractionLoopP input language seps
    | some pos => do
      let m ← parseNumberP (input.take pos) (some language)
      let n ← parseNumberP (input.drop (pos + sep.length)) (some language)
      Prog.lift (match m, n with
        | some m, some n => do
          let ms ← strInt m
          let ns ← strInt n
          return some (ms ++ u!"/" ++ ns)
        | _, _ => return none)

/-- `parse_fraction`, parser.py:326-353 -/
def parseFractionP (input : PyStr) (language : Option PyStr) : Prog (Option PyStr) :=
  if blank input then return none
  else do
    let language ← resolveLanguageP input language
    fractionLoopP input language FRACTION_SEPARATORS

/-- `parse`, parser.py:356-426 -/
def parseP (input : PyStr) (language : Option PyStr) : Prog PyStr := do
  let language ← resolveLanguageP input language
  let ld ← languageDataP language
  Prog.lift (do
    let raw ← parseRaw ld (tokenize input language)
    return strip raw)

/-- A call of the public API (number_parser/__init__.py). -/
inductive Call where
  | parse (input : PyStr) (language : Option PyStr)
  | number (input : PyStr) (language : Option PyStr)
  | ordinal (input : PyStr) (language : Option PyStr)
  | fraction (input : PyStr) (language : Option PyStr)

/-- What a call returns: a number or a string, or `None`. -/
inductive Reply where
  | number (n : Option Nat)
  | text (t : Option PyStr)
  deriving DecidableEq

/-- The program of a call. -/
def Call.prog : Call → Prog Reply
  | .parse s l => do return .text (some (← parseP s l))
  | .number s l => do return .number (← parseNumberP s l)
  | .ordinal s l => do return .number (← parseOrdinalP s l)
  | .fraction s l => do return .text (← parseFractionP s l)

/-- Run a call to its end, without interruption. -/
def Prog.run {α : Type} : Prog α → Globals → Res α × Globals
  | .done r, g => (r, g)
  | .step w n, g => (n g).run (w g)

/-- A caller that catches the exceptions of a call. -/
def Prog.attempt {α : Type} : Prog α → Prog (Res α)
  | .done r => .done (.ok r)
  | .step w n => .step w (fun g => (n g).attempt)

/-- A caller that makes the given calls one after the other and collects the replies. -/
def session : List Call → Prog (List (Res Reply))
  | [] => return []
  | c :: cs => do
    let r ← c.prog.attempt
    let rs ← session cs
    return r :: rs

/-- Threads and the objects they share. -/
structure Machine where
  shared : Globals
  threads : List (Prog (List (Res Reply)))

/-- Thread `i` makes one step (nothing happens if it has finished or does not exist). -/
def Machine.step (m : Machine) (i : Nat) : Machine :=
  match m.threads[i]? with
  | some (.step w n) => ⟨w m.shared, m.threads.set i (n m.shared)⟩
  | _ => m

/-- The machine after the given schedule. -/
def Machine.runSchedule (m : Machine) (schedule : List Nat) : Machine := schedule.foldl Machine.step m

/-- A new process with one thread for each list of calls. -/
def Machine.start (sessions : List (List Call)) : Machine := ⟨Globals.fresh, sessions.map session⟩

end NumberParser
