import Verif.Model.Files

/-!
# Model of the generator when the operating system fails

/repo/number_parser_scripts/write_complete_language_data.py, lines 132-188 once more, with the calls of the operating system that can raise
an `OSError`: listing the source directory (line 137), opening and reading a source file (lines 148-149; a subdirectory, or a file that
cannot be read) and a supplementary file (lines 163-164), opening a target (line 187; a missing directory, a file that cannot be written)
and writing and closing it (lines 187-188; a full disk).  Which of them fail is a parameter.

Simplifications: as in Verif/Model/Files.lean; a read that fails raises an exception before the JSON parser sees anything (`json.load` reads
the whole file first); a missing supplementary file is `none` there, and not a failure here.
-/

namespace NumberParser.Gen

open NumberParser

/-- The exception that ends a run -/
inductive SysErr where
  /-- an `OSError` -/
  | os
  /-- another exception, as in Verif/Model/Files.lean -/
  | script (e : FileErr)
  deriving DecidableEq

/-- Which operations on the files of a language fail.  `stop = some k`: writing fails when `k` bytes are written; if the text is not longer,
closing fails. -/
structure Faults where
  source : Bool
  supplementary : Bool
  target : Bool
  stop : Option Nat
  deriving DecidableEq

/-- Nothing fails. -/
def noFaults : Faults := ⟨false, false, false, none⟩

/-- lines 138-186: the text for one language; `none`: the file is skipped -/
def textUnder (q : Faults) (f : LangBytes) : Except SysErr (Option PyStr) :=
  if SKIPPED_FILES.elem f.name then .ok none
  else if q.source then .error .os
  else
    match readJson f.source with
    | .error e => .error (.script e)
    | .ok data =>
      match requisiteData data with
      | .error e => .error (.script e)
      | .ok none => .ok none
      | .ok (some requisite) =>
        match extractJson requisite with
        | .error e => .error (.script e)
        | .ok d =>
          if q.supplementary then .error .os
          else
            match f.supplementary with
            | none => .error (.script .noFile)
            | some supp =>
              match readJson supp with
              | .error e => .error (.script e)
              | .ok data =>
                match mergeText d data with
                | .error e => .error (.script e)
                | .ok text => .ok (some text)

/-- lines 138-188: the body of the loop; the target directory afterwards and the exception if there was one -/
def writeUnder (q : Faults) (f : LangBytes) (targets : Table Bytes) : Table Bytes × Option SysErr :=
  match textUnder q f with
  | .error e => (targets, some e)
  | .ok none => (targets, none)
  | .ok (some text) =>
    if q.target then (targets, some .os)
    else
      match utf8Encode text with
      | none => (Table.set targets (targetName f.name) [], some (.script .encode))
      | some bytes =>
        match q.stop with
        | none => (Table.set targets (targetName f.name) bytes, none)
        | some k => (Table.set targets (targetName f.name) (bytes.take k), some .os)

/-- lines 137-188: the loop -/
def writeAllUnder : List (LangBytes × Faults) → Table Bytes → Table Bytes × Option SysErr
  | [], targets => (targets, none)
  | f :: fs, targets =>
    match writeUnder f.2 f.1 targets with
    | (targets', none) => writeAllUnder fs targets'
    | (targets', some e) => (targets', some e)

/-- `write_complete_data`, lines 132-188; `none`: the source directory cannot be listed -/
def runUnder (files : Option (List (LangBytes × Faults))) (targets : Table Bytes) : Table Bytes × Option SysErr :=
  match files with
  | none => (targets, some .os)
  | some fs => writeAllUnder fs targets

end NumberParser.Gen
