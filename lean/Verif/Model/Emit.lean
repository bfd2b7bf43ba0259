import Verif.Model.Generator

/-!
# Model of the text of the generated modules, and of reading them back

/repo/number_parser_scripts/write_complete_language_data.py, lines 132-188, and what `import` makes of the text.

Simplifications: files are written in one step; the encoding of the text is not modelled (no surrogates); the reader
knows only the Python that is needed: one assignment of a dictionary display whose values are dictionaries from strings
to integers, lists of strings or the names True and False.
-/

namespace NumberParser.Gen

open NumberParser

/-! ## `json.dumps(…, indent=4, ensure_ascii=False)` -/

/-- A hexadecimal digit -/
def hexDigit (n : Nat) : Nat := if n < 10 then 48 + n else 87 + n

/-- A character of a JSON string (`json.encoder.py_encode_basestring`) -/
def jsonChar (c : Nat) : PyStr :=
  if c = 34 then [92, 34]
  else if c = 92 then [92, 92]
  else if c = 10 then [92, 110]
  else if c = 13 then [92, 114]
  else if c = 9 then [92, 116]
  else if c = 12 then [92, 102]
  else if c = 8 then [92, 98]
  else if c < 32 then [92, 117, 48, 48, hexDigit (c / 16), hexDigit (c % 16)]
  else [c]

/-- A JSON string -/
def jsonStr (s : PyStr) : PyStr := 34 :: s.flatMap jsonChar ++ [34]

/-- `int.__repr__` -/
def reprInt (n : Int) : PyStr := if n < 0 then 45 :: decDigits (-n).toNat else decDigits n.toNat

/-- Line feed and indentation -/
def nl (indent : Nat) : PyStr := 10 :: List.replicate indent 32

/-- An item of a table: `"word": 5` -/
def jsonItem (e : PyStr × Int) : PyStr := jsonStr e.1 ++ u!": " ++ reprInt e.2

/-- A table -/
def jsonTable (t : Table Int) : PyStr :=
  if t.isEmpty then u!"{}" else u!"{" ++ nl 8 ++ join (u!"," ++ nl 8) (t.map jsonItem) ++ nl 4 ++ u!"}"

/-- A list of strings -/
def jsonList (l : List PyStr) : PyStr :=
  if l.isEmpty then u!"[]" else u!"[" ++ nl 8 ++ join (u!"," ++ nl 8) (l.map jsonStr) ++ nl 4 ++ u!"]"

/-- A boolean -/
def jsonBool (b : Bool) : PyStr := if b then u!"true" else u!"false"

/-- The values of `ordered_language_data` -/
inductive Val where
  | table (t : Table Int)
  | list (l : List PyStr)
  | flag (b : Bool)
  deriving DecidableEq

def jsonVal : Val → PyStr
  | .table t => jsonTable t
  | .list l => jsonList l
  | .flag b => jsonBool b

/-- `ordered_language_data`, in the order of insertion: lines 146, 173-178 -/
def Output.entries (o : Output) : Table Val :=
  [(u!"UNIT_NUMBERS", .table o.tables.unit), (u!"DIRECT_NUMBERS", .table o.tables.direct), (u!"TENS", .table o.tables.tens),
   (u!"HUNDREDS", .table o.tables.hundreds), (u!"BIG_POWERS_OF_TEN", .table o.tables.big),
   (u!"SKIP_TOKENS", .list o.skipTokens)] ++
  (match o.useLongScale with | some b => [(u!"USE_LONG_SCALE", Val.flag b)] | none => [])

/-- `json.dumps(ordered_language_data, indent=4, ensure_ascii=False)`, lines 180-182 -/
def dumps (d : Table Val) : PyStr :=
  u!"{" ++ nl 4 ++ join (u!"," ++ nl 4) (d.map (fun e => jsonStr e.1 ++ u!": " ++ jsonVal e.2)) ++ nl 0 ++ u!"}"

/-- Worker of `subWord`: `before` tells whether the character before is a word character; `skip` characters of a match
are still to be passed over. -/
def subWordGo (word new : PyStr) : Bool → Nat → PyStr → PyStr
  | _, _, [] => []
  | _, skip + 1, c :: cs => subWordGo word new (isWord c) skip cs
  | before, 0, c :: cs =>
    if !before && word.isPrefixOf (c :: cs) && !((cs.drop (word.length - 1)).head?.any isWord) then
      new ++ subWordGo word new (isWord c) (word.length - 1) cs
    else c :: subWordGo word new (isWord c) 0 cs

/-- `re.sub(r"\bword\b", new, s)` for a word of word characters -/
def subWord (word new s : PyStr) : PyStr := subWordGo word new false 0 s

/-- The text of the module, lines 180-186 -/
def emit (o : Output) : PyStr :=
  let text := dumps o.entries
  let text := subWord u!"false" u!"False" text
  let text := subWord u!"true" u!"True" text
  u!"info = " ++ text ++ u!"\n"

/-! ## `write_complete_data` over a directory -/

/-- The files of a language: name of the rule file, its `SpelloutRules` (`none`: the key is missing), the supplementary
file (`none`: there is none). -/
structure LangFiles where
  name : PyStr
  rules : Option RuleSets
  supplementary : Option Supplementary

/-- Line 138 -/
def SKIPPED_FILES : List PyStr := [u!"root.json", u!"es-419.json"]

/-- Line 142: `file_name.split(".")[0] + ".py"` -/
def targetName (name : PyStr) : PyStr := splitFirst 46 name ++ u!".py"

/-- lines 138-186: the text for one file; `none` if the file is skipped (lines 138-140, 149-155) -/
def newText (f : LangFiles) : GRes (Option PyStr) :=
  if SKIPPED_FILES.elem f.name then return none
  else match f.rules with
    | none => return none
    | some sets => do
      let _ ← extract sets                      -- lines 157-162, before the supplementary file is opened
      match f.supplementary with
      | none => throw .noFile
      | some supp =>
        let out ← generate sets supp
        return some (emit out)

/-- lines 138-188: the body of the loop, acting on the target directory (file names and contents) -/
def writeOne (f : LangFiles) (targets : Table PyStr) : GRes (Table PyStr) := do
  match ← newText f with
  | none => return targets
  | some text => return Table.set targets (targetName f.name) text

/-- `write_complete_data`, lines 132-188: the target directory at the end, and the exception if there was one.
The files come in the order of `os.listdir`. -/
def writeCompleteData : List LangFiles → Table PyStr → Table PyStr × Option GenErr
  | [], targets => (targets, none)
  | f :: fs, targets =>
    match writeOne f targets with
    | .ok targets' => writeCompleteData fs targets'
    | .error e => (targets, some e)

/-- The states of the target directory that can be seen while `write_complete_data` runs, and that are left if it is
killed: lines 187-188 truncate the target (`open(…, "w+")`) and then write the text bit by bit. -/
inductive Visible : List LangFiles → Table PyStr → Table PyStr → Prop where
  /-- before the next file -/
  | here (fs : List LangFiles) (targets : Table PyStr) : Visible fs targets targets
  /-- while the target of the next file is written -/
  | during (f : LangFiles) (fs : List LangFiles) (targets : Table PyStr) (text part : PyStr) :
      newText f = .ok (some text) → part <+: text → Visible (f :: fs) targets (Table.set targets (targetName f.name) part)
  /-- later -/
  | later (f : LangFiles) (fs : List LangFiles) (targets targets' targets'' : Table PyStr) :
      writeOne f targets = .ok targets' → Visible fs targets' targets'' → Visible (f :: fs) targets targets''

/-! ## Importing a module -/

/-- Python tokens -/
inductive Tok where
  | lbrace | rbrace | lbrack | rbrack | colon | comma
  | str (s : PyStr)
  | int (n : Int)
  | name (s : PyStr)
  deriving DecidableEq

/-- What the scanner is reading -/
inductive Mode where
  | idle
  /-- inside a string, after the given characters -/
  | str (s : PyStr)
  /-- after a backslash in a string -/
  | esc (s : PyStr)
  /-- in `\uXXXX`: digits still to come, value so far -/
  | uni (s : PyStr) (left value : Nat)
  | minus
  /-- in a number: its sign and its value so far -/
  | num (negative : Bool) (value : Nat)
  | name (s : PyStr)
  | fail
  deriving DecidableEq

/-- Value of a hexadecimal digit -/
def hexValue (c : Nat) : Option Nat :=
  if 48 ≤ c ∧ c ≤ 57 then some (c - 48) else if 97 ≤ c ∧ c ≤ 102 then some (c - 87) else if 65 ≤ c ∧ c ≤ 70 then some (c - 55) else none

/-- The scanner: tokens so far and what is being read. -/
structure Scan where
  toks : List Tok
  mode : Mode
  deriving DecidableEq

def isAsciiLetter (c : Nat) : Bool := (65 ≤ c && c ≤ 90) || (97 ≤ c && c ≤ 122) || c == 95

/-- A character outside strings, numbers and names -/
def scanIdle (toks : List Tok) (c : Nat) : Scan :=
  if c = 32 ∨ c = 10 then ⟨toks, .idle⟩
  else if c = 123 then ⟨toks ++ [.lbrace], .idle⟩
  else if c = 125 then ⟨toks ++ [.rbrace], .idle⟩
  else if c = 91 then ⟨toks ++ [.lbrack], .idle⟩
  else if c = 93 then ⟨toks ++ [.rbrack], .idle⟩
  else if c = 58 then ⟨toks ++ [.colon], .idle⟩
  else if c = 44 then ⟨toks ++ [.comma], .idle⟩
  else if c = 34 then ⟨toks, .str []⟩
  else if c = 45 then ⟨toks, .minus⟩
  else if 48 ≤ c ∧ c ≤ 57 then ⟨toks, .num false (c - 48)⟩
  else if isAsciiLetter c then ⟨toks, .name [c]⟩
  else ⟨toks, .fail⟩

/-- One character of the source -/
def scanStep (s : Scan) (c : Nat) : Scan :=
  match s.mode with
  | .idle => scanIdle s.toks c
  | .str t =>
    if c = 34 then ⟨s.toks ++ [.str t], .idle⟩
    else if c = 92 then ⟨s.toks, .esc t⟩
    else if c = 10 then ⟨s.toks, .fail⟩
    else ⟨s.toks, .str (t ++ [c])⟩
  | .esc t =>
    if c = 34 then ⟨s.toks, .str (t ++ [34])⟩
    else if c = 92 then ⟨s.toks, .str (t ++ [92])⟩
    else if c = 110 then ⟨s.toks, .str (t ++ [10])⟩
    else if c = 114 then ⟨s.toks, .str (t ++ [13])⟩
    else if c = 116 then ⟨s.toks, .str (t ++ [9])⟩
    else if c = 102 then ⟨s.toks, .str (t ++ [12])⟩
    else if c = 98 then ⟨s.toks, .str (t ++ [8])⟩
    else if c = 117 then ⟨s.toks, .uni t 4 0⟩
    else if c = 84 ∨ c = 70 then ⟨s.toks, .str (t ++ [92, c])⟩   -- an unknown escape stays as it is (T, F)
    else ⟨s.toks, .fail⟩                                          -- other escapes: not modelled
  | .uni t left v =>
    match hexValue c with
    | none => ⟨s.toks, .fail⟩
    | some d => if left = 1 then ⟨s.toks, .str (t ++ [16 * v + d])⟩ else ⟨s.toks, .uni t (left - 1) (16 * v + d)⟩
  | .minus => if 48 ≤ c ∧ c ≤ 57 then ⟨s.toks, .num true (c - 48)⟩ else ⟨s.toks, .fail⟩
  | .num neg v =>
    if 48 ≤ c ∧ c ≤ 57 then ⟨s.toks, .num neg (10 * v + (c - 48))⟩
    else scanIdle (s.toks ++ [.int (if neg then -(v : Int) else (v : Int))]) c
  | .name t => if isAsciiLetter c then ⟨s.toks, .name (t ++ [c])⟩ else scanIdle (s.toks ++ [.name t]) c
  | .fail => ⟨s.toks, .fail⟩

/-- The tokens of an expression that ends with a line feed -/
def scan (s : PyStr) : Option (List Tok) :=
  let r := s.foldl scanStep ⟨[], .idle⟩
  if r.mode = .idle then some r.toks else none

/-- A dictionary display from strings to integers, after the opening brace -/
def readTable : List Tok → Option (Table Int × List Tok)
  | .rbrace :: r => some ([], r)
  | .str w :: .colon :: .int n :: .rbrace :: r => some ([(w, n)], r)
  | .str w :: .colon :: .int n :: .comma :: r => (readTable r).map (fun x => ((w, n) :: x.1, x.2))
  | _ => none

/-- A list display of strings, after the opening bracket -/
def readList : List Tok → Option (List PyStr × List Tok)
  | .rbrack :: r => some ([], r)
  | .str w :: .rbrack :: r => some ([w], r)
  | .str w :: .comma :: r => (readList r).map (fun x => (w :: x.1, x.2))
  | _ => none

/-- A dictionary made of items: a later item with the same key overrides. -/
def ofItems {α : Type} (l : List (PyStr × α)) : Table α := l.foldl (fun d e => Table.set d e.1 e.2) []

/-- A value -/
def readVal : List Tok → Option (Val × List Tok)
  | .lbrace :: r => (readTable r).map (fun x => (.table (ofItems x.1), x.2))
  | .lbrack :: r => (readList r).map (fun x => (.list x.1, x.2))
  | .name n :: r => if n = u!"True" then some (.flag true, r) else if n = u!"False" then some (.flag false, r) else none
  | _ => none

/-- The items of the outer dictionary, after the opening brace; each pass reads one item. -/
def readItems : Nat → List Tok → Option (List (PyStr × Val) × List Tok)
  | 0, _ => none
  | _ + 1, .rbrace :: r => some ([], r)
  | fuel + 1, .str k :: .colon :: r =>
    match readVal r with
    | none => none
    | some (v, .rbrace :: r') => some ([(k, v)], r')
    | some (v, .comma :: r') => (readItems fuel r').map (fun x => ((k, v) :: x.1, x.2))
    | some _ => none
  | _ + 1, _ => none

/-- The value of `info` after executing the module text; `none` if it is not of the expected form (a `NameError` or
`SyntaxError`, for example). -/
def importText (text : PyStr) : Option (Table Val) :=
  if (u!"info = ").isPrefixOf text then
    match scan (text.drop (u!"info = ").length) with
    | some (.lbrace :: r) =>
      match readItems (r.length + 1) r with
      | some (items, []) => some (ofItems items)
      | _ => none
    | _ => none
  else none

end NumberParser.Gen
