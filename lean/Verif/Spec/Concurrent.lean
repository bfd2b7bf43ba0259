import Verif.Model.Concurrent
import Verif.Spec.Files

/-!
# Specification: several runs of the generator at the same time
-/

namespace NumberParser.Spec
open NumberParser Gen

/-- The process has done everything. -/
def Finished (p : Process) : Prop := p.doing = none ∧ p.todo = []

/-- No process has the target open. -/
def Quiet (ps : List Process) (n : PyStr) : Prop := ∀ p ∈ ps, ∀ w, p.doing = some w → w.name ≠ n

/-- No process has begun with the target: all who have it among their tasks still have it to do. -/
def NotBegun (js : List (List (PyStr × Bytes))) (ps : List Process) (n : PyStr) : Prop :=
  Quiet ps n ∧ ps.map (fun p => p.todo.filter (fun x => x.1 == n)) = js.map (fun j => j.filter (fun x => x.1 == n))

/-- Every process that writes the target `n` writes these bytes. -/
def Agreed (js : List (List (PyStr × Bytes))) (n : PyStr) (b : Bytes) : Prop := ∀ j ∈ js, ∀ x ∈ j, x.1 = n → x.2 = b

/-- The content is not longer than `b`, and each of its bytes is that of `b` or zero. -/
def WrittenWithin (c b : Bytes) : Prop := c.length ≤ b.length ∧ ∀ (i x : Nat), c[i]? = some x → x = 0 ∨ b[i]? = some x

end NumberParser.Spec
