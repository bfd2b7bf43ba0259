import Verif.Proofs.VocabularyOrdinal
import Verif.Props.Sources
import Verif.Props.Pipeline

/-! The data modules of the repository meet the conditions of C80-C84. -/

namespace NumberParser.Props
open NumberParser Gen Spec

set_option maxRecDepth 100000 in
theorem plain_supported : supported.all (fun l => plainB (file l) && moderateB (file l)) = true := by decide +kernel

theorem supported_plain (l : PyStr) (hl : l ∈ supported) : Plain (file l) ∧ Moderate (file l) := by
  have := List.all_eq_true.mp plain_supported l hl
  rw [Bool.and_eq_true] at this
  exact ⟨plainB_sound this.1, moderateB_sound this.2⟩

/-- The check of a module of the repository -/
def shippedOK (e : PyStr × RuleSets × Supplementary × Output) : Bool :=
  match e.2.2.2.useLongScale with
  | none => true
  | some long => (plainB (tablesOf e.2.2.2 long) && moderateB (tablesOf e.2.2.2 long)) || e.1 == u!"pl"

set_option maxRecDepth 100000 in
theorem shipped_ok : otherLanguages.all shippedOK = true := by decide +kernel

theorem shipped_plain (name : PyStr) (rules : RuleSets) (supp : Supplementary) (module : Output) (long : Bool)
    (h : (name, rules, supp, module) ∈ otherLanguages) (hl : module.useLongScale = some long) (hn : name ≠ u!"pl") :
    Plain (tablesOf module long) ∧ Moderate (tablesOf module long) := by
  have := List.all_eq_true.mp shipped_ok _ h
  unfold shippedOK at this
  simp only [hl, Bool.or_eq_true, beq_iff_eq, hn, or_false, Bool.and_eq_true] at this
  exact ⟨plainB_sound this.1, moderateB_sound this.2⟩

end NumberParser.Props
