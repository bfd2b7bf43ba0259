import Verif.Model.Files

/-!
# Model of the messages of the generator

/repo/number_parser_scripts/write_complete_language_data.py, lines 110-188 once more, with what is printed to standard output (line 115)
and logged (lines 152-154 and 178).  Standard output is a parameter: it takes some texts, and refuses others with a
`UnicodeEncodeError` (a UTF-8 terminal refuses lone surrogates, an ASCII one everything outside ASCII).  The log goes to standard error,
which takes every text (`backslashreplace`).

Simplifications: as in Verif/Model/Files.lean; only the text of a log entry is modelled, not its prefix `ERROR:root:`.
-/

namespace NumberParser.Gen

open NumberParser

/-- Something the script says -/
inductive Message where
  /-- by `print`, without the line end -/
  | printed (text : PyStr)
  /-- by `logging.error` -/
  | logged (text : PyStr)
  deriving DecidableEq

/-- Standard output: the texts it takes -/
structure Console where
  takes : PyStr → Bool

/-- Standard output in UTF-8 -/
def Console.utf8 : Console := ⟨fun s => s.all isScalar⟩

/-- Standard output in ASCII -/
def Console.ascii : Console := ⟨fun s => s.all (fun c => decide (c < 128))⟩

/-- line 115: the text that is printed -/
def notInteger (key : PyStr) : PyStr := u!"The given key " ++ key ++ u!" is not an integer"

/-- lines 152-154: the text that is logged -/
def rulesMissing (name : PyStr) : PyStr := u!"\"['rbnf']['rbnf']['SpelloutRules']\" doesn't exist in " ++ name

/-- line 178: the text that is logged -/
def scaleMissing (name : PyStr) : PyStr := u!"long_scale information missing in " ++ name

/-- lines 159-162 with lines 112-116: the loop over the rules of one set -/
def sayRules (c : Console) : List (PyStr × Json) → Tables Int → List Message × FRes (Tables Int)
  | [], d => ([], .ok d)
  | r :: rs, d =>
    match r.2 with
    | .str w =>
      match pyIntAny r.1 with
      | none =>
        if c.takes (notInteger r.1) then (.printed (notInteger r.1) :: (sayRules c rs d).1, (sayRules c rs d).2)
        else ([], .error .encode)
      | some _ =>
        match liftGen (extractInformation r.1 (replace w [0xad] []) d) with
        | .ok d' => sayRules c rs d'
        | .error e => ([], .error e)
    | _ => ([], .error .attribute)

/-- lines 157-162: the loop over the rule sets -/
def saySets (c : Console) : List (PyStr × Json) → Tables Int → List Message × FRes (Tables Int)
  | [], d => ([], .ok d)
  | s :: ss, d =>
    if isValid s.1 then
      match s.2 with
      | .obj items =>
        match sayRules c items d with
        | (m, .ok d') => (m ++ (saySets c ss d').1, (saySets c ss d').2)
        | (m, .error e) => (m, .error e)
      | _ => ([], .error .attribute)
    else saySets c ss d

/-- lines 157-162 -/
def sayExtract (c : Console) (requisite : Json) : List Message × FRes (Tables Int) :=
  match requisite with
  | .obj sets => saySets c sets Tables.empty
  | _ => ([], .error .attribute)

/-- lines 175-178: what is logged if the entry is missing -/
def sayScale (name : PyStr) (data : Json) : List Message :=
  match jget data u!"USE_LONG_SCALE" with
  | .error .key => [.logged (scaleMissing name)]
  | _ => []

/-- lines 138-186: what is said, and the text for one language -/
def sayText (c : Console) (f : LangBytes) : List Message × FRes (Option PyStr) :=
  if SKIPPED_FILES.elem f.name then ([], .ok none)
  else
    match readJson f.source with
    | .error e => ([], .error e)
    | .ok data =>
      match requisiteData data with
      | .error e => ([], .error e)
      | .ok none => ([.logged (rulesMissing f.name)], .ok none)
      | .ok (some requisite) =>
        match sayExtract c requisite with
        | (m, .error e) => (m, .error e)
        | (m, .ok d) =>
          match f.supplementary with
          | none => (m, .error .noFile)
          | some supp =>
            match readJson supp with
            | .error e => (m, .error e)
            | .ok data =>
              match mergeText d data with
              | .error e => (m, .error e)
              | .ok text => (m ++ sayScale f.name data, .ok (some text))

/-- lines 138-188: the body of the loop: what is said, the target directory afterwards and the exception if there was one -/
def sayOne (c : Console) (f : LangBytes) (targets : Table Bytes) : List Message × Table Bytes × Option FileErr :=
  match sayText c f with
  | (m, .error e) => (m, targets, some e)
  | (m, .ok none) => (m, targets, none)
  | (m, .ok (some text)) =>
    match utf8Encode text with
    | some bytes => (m, Table.set targets (targetName f.name) bytes, none)
    | none => (m, Table.set targets (targetName f.name) [], some .encode)

/-- `write_complete_data`, lines 132-188 -/
def sayAll (c : Console) : List LangBytes → Table Bytes → List Message × Table Bytes × Option FileErr
  | [], targets => ([], targets, none)
  | f :: fs, targets =>
    match sayOne c f targets with
    | (m, targets', none) => (m ++ (sayAll c fs targets').1, (sayAll c fs targets').2)
    | (m, targets', some e) => (m, targets', some e)

end NumberParser.Gen
