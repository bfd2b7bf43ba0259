import Verif.Model.Files

/-!
# Model of several runs of the generator at the same time

/repo/number_parser_scripts/write_complete_language_data.py, lines 187-188, once more: several processes execute `write_complete_data` over
the same target directory at the same time.  `open(full_target_path, "w+")` truncates the target; the text is then written in pieces of any
sizes, each at the position the process has reached, whatever other processes have done to the file in the meantime.  A piece written behind
the end of the file leaves a hole, which reads as zero bytes.  The steps of the processes interleave in any way; a process may stop at any
moment (it is killed).

Simplifications: as in Verif/Model/Files.lean; the source and supplementary files do not change while the processes run, so that what a
process writes is known from the beginning (`jobs`); a piece is written in one step.
-/

namespace NumberParser.Gen

open NumberParser

/-- What is in a file after `d` was written at position `o`; a hole is filled with zero bytes. -/
def overlay (c : Bytes) (o : Nat) (d : Bytes) : Bytes := (c ++ List.replicate (o - c.length) 0).take o ++ d ++ c.drop (o + d.length)

/-- lines 137-188: the targets a run opens and what it writes to them, one after another, up to the first exception -/
def jobs : List LangBytes → List (PyStr × Bytes)
  | [] => []
  | f :: fs =>
    match newTextBytes f with
    | .error _ => []
    | .ok none => jobs fs
    | .ok (some text) =>
      match utf8Encode text with
      | some bytes => (targetName f.name, bytes) :: jobs fs
      | none => [(targetName f.name, [])]

/-- The target a process has open -/
structure OpenFile where
  name : PyStr
  bytes : Bytes
  offset : Nat

/-- A process: the target it has open, and what it will do afterwards -/
structure Process where
  doing : Option OpenFile
  todo : List (PyStr × Bytes)

/-- A process at its beginning -/
def begin (todo : List (PyStr × Bytes)) : Process := ⟨none, todo⟩

/-- A step of a process: what becomes of the target directory and of the process -/
inductive ProcessStep : Table Bytes → Process → Table Bytes → Process → Prop where
  /-- line 187: the next target is opened, and truncated -/
  | opens (T : Table Bytes) (n : PyStr) (b : Bytes) (todo : List (PyStr × Bytes)) :
      ProcessStep T ⟨none, (n, b) :: todo⟩ (Table.set T n []) ⟨some ⟨n, b, 0⟩, todo⟩
  /-- line 188: the next `k` bytes are written -/
  | writes (T : Table Bytes) (n : PyStr) (b c : Bytes) (o k : Nat) (todo : List (PyStr × Bytes)) :
      Table.get? T n = some c → o + k ≤ b.length →
      ProcessStep T ⟨some ⟨n, b, o⟩, todo⟩ (Table.set T n (overlay c o ((b.drop o).take k))) ⟨some ⟨n, b, o + k⟩, todo⟩
  /-- line 188: the target is closed when all is written -/
  | closes (T : Table Bytes) (n : PyStr) (b : Bytes) (todo : List (PyStr × Bytes)) :
      ProcessStep T ⟨some ⟨n, b, b.length⟩, todo⟩ T ⟨none, todo⟩

/-- The states several processes can come to, from their beginning with the target directory `T` and the tasks `js` -/
inductive Reachable (T : Table Bytes) (js : List (List (PyStr × Bytes))) : Table Bytes → List Process → Prop where
  | start : Reachable T js T (js.map begin)
  | step {S S' : Table Bytes} {before after : List Process} {p p' : Process} :
      Reachable T js S (before ++ p :: after) → ProcessStep S p S' p' → Reachable T js S' (before ++ p' :: after)

end NumberParser.Gen
