import Verif.Model.Emit
import Verif.Spec.Generator

/-!
# Specification of the generated modules and of the run over the directories (C51-C53)
-/

namespace NumberParser.Spec

open NumberParser Gen

/-- `p` occurs in `w` as a whole word: no word character (`\w`) directly before or after it. -/
def WholeWord (p w : PyStr) : Prop :=
  ∃ a b, w = a ++ p ++ b ∧ (∀ c, a.getLast? = some c → isWord c = false) ∧ (∀ c, b.head? = some c → isWord c = false)

/-- A text that survives in the module: no control characters, and neither "true" nor "false" as a whole word. -/
def Harmless (w : PyStr) : Prop := (∀ c ∈ w, 32 ≤ c) ∧ ¬ WholeWord u!"true" w ∧ ¬ WholeWord u!"false" w

/-- The source file is left out: it has a special name or no rules. -/
def LeftOut (f : LangFiles) : Prop := f.name = u!"root.json" ∨ f.name = u!"es-419.json" ∨ f.rules = none

/-- `text` is the module for a source file. -/
def ModuleFor (f : LangFiles) (text : PyStr) : Prop :=
  ¬ LeftOut f ∧ ∃ sets supp out, f.rules = some sets ∧ f.supplementary = some supp ∧ generate sets supp = .ok out ∧ text = emit out

/-- A source file ends the run: a rule fails, or there is no supplementary file. -/
def FileFails (f : LangFiles) : Prop :=
  ¬ LeftOut f ∧ ∃ sets, f.rules = some sets ∧ (f.supplementary = none ∨ ∃ r ∈ usedRules sets, RuleFails r.1 r.2)

/-- The module of a source file: the name up to the first full stop, with the ending ".py". -/
def moduleFile (name : PyStr) : PyStr := name.takeWhile (fun c => c != 46) ++ u!".py"

/-- No two source files have the same target. -/
def DistinctTargets (fs : List LangFiles) : Prop := (fs.map (fun f => moduleFile f.name)).Nodup

end NumberParser.Spec
