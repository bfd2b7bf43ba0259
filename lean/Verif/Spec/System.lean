import Verif.Model.System
import Verif.Spec.Files

/-!
# Specification: the generator when the operating system fails
-/

namespace NumberParser.Spec
open NumberParser Gen

/-- Nothing goes wrong with a source file: it has a special name, and is not even opened; or it can be read, and has no spellout rules; or
it has a module, and all its files can be read and written. -/
def Undisturbed (f : LangBytes × Faults) : Prop :=
  SpecialName f.1.name ∨ (f.2.source = false ∧ LeftOutBytes f.1) ∨ ((∃ bytes, ModuleBytes f.1 bytes) ∧ f.2 = noFaults)

/-- All files of the language can be opened and read, as far as reading goes. -/
def CanOpen (f : LangBytes × Faults) : Prop := f.2.source = false ∧ f.2.supplementary = false ∧ f.2.target = false

/-- What the run leaves behind of the file with which it ends, where `T` was: if a file cannot be opened or read, or the language has no
module, nothing; if writing stops, the bytes that were written; if the module cannot be encoded, an empty target. -/
inductive LeftBehind (f : LangBytes × Faults) (T : Table Bytes) : Table Bytes → Prop where
  | untouched : (¬ CanOpen f ∨ ¬ ∃ text, ModuleOf f.1 text) → LeftBehind f T T
  | beginning (bytes : Bytes) (k : Nat) : CanOpen f → ModuleBytes f.1 bytes → f.2.stop = some k →
      LeftBehind f T (Table.set T (moduleFile f.1.name) (bytes.take k))
  | emptied (text : PyStr) : CanOpen f → ModuleOf f.1 text → Unencodable text → LeftBehind f T (Table.set T (moduleFile f.1.name) [])

/-- A history of runs over source directories: each run may meet failures of the operating system or be killed at any moment.  The source
files may change between the runs; `used` is every list of files there was. -/
inductive History : List (List LangBytes) → Table Bytes → Table Bytes → Prop where
  | start (T : Table Bytes) : History [] T T
  | failed {used : List (List LangBytes)} {T S : Table Bytes} (fs : List (LangBytes × Faults)) :
      History used T S → History (fs.map (fun f => f.1) :: used) T (writeAllUnder fs S).1
  | unlisted {used : List (List LangBytes)} {T S : Table Bytes} : History used T S → History used T (runUnder none S).1
  | killed {used : List (List LangBytes)} {T S S' : Table Bytes} (fs : List LangBytes) :
      History used T S → VisibleBytes fs S S' → History (fs :: used) T S'

end NumberParser.Spec
