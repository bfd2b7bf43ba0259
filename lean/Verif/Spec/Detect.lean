import Verif.Spec.Words

/-!
# Specification: language detection
-/

namespace NumberParser.Spec
open NumberParser

open Classical in
/-- `k` is the number of tokens of the text that are number words or conjunctions of the language `l`. -/
def Score (s l : PyStr) (k : Nat) : Prop :=
  ∃ ts, Tokens l s ts ∧ (ts.filter (fun t => NumberWord l t ∨ Skip l t)).length = k

/-- `l` is a supported language, no supported language scores more than `l`, and those listed before `l` score less. -/
def Detected (s l : PyStr) : Prop :=
  ∃ before after, supported = before ++ l :: after ∧
    ∃ k, Score s l k ∧ (∀ l' ∈ before, ∃ k', Score s l' k' ∧ k' < k) ∧ (∀ l' ∈ after, ∃ k', Score s l' k' ∧ k' ≤ k)

end NumberParser.Spec
