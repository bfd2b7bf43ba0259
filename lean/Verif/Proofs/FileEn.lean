import Verif.Proofs.Stages

/-! The generator, run on the English files.  One file per language: each takes some gigabytes of memory. -/

namespace NumberParser.Props

open NumberParser Gen Spec

def enFiles : LangBytes := ⟨u!"en.json", FileBytes.enSource, some FileBytes.enSupplementary⟩

set_option maxRecDepth 1000000 in
theorem source_en : sourceTables FileBytes.enSource = liftGen ((extract RuleData.enRules).map some) := by decide +kernel

set_option maxRecDepth 1000000 in
theorem supp_en : suppData FileBytes.enSupplementary = .ok RuleData.enSupplementary := by decide +kernel

theorem text_en : newTextBytes enFiles = .ok (some DataText.en) := by
  rw [← emit_en]
  exact text_of_stages (by decide) source_en supp_en c50_regenerate.1

end NumberParser.Props
