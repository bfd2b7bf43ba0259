import Verif.Proofs.FileEn

/-! The generator, run on the Spanish files.  One file per language: each takes some gigabytes of memory. -/

namespace NumberParser.Props

open NumberParser Gen Spec

def esFiles : LangBytes := ⟨u!"es.json", FileBytes.esSource, some FileBytes.esSupplementary⟩

set_option maxRecDepth 1000000 in
theorem source_es : sourceTables FileBytes.esSource = liftGen ((extract RuleData.esRules).map some) := by decide +kernel

set_option maxRecDepth 1000000 in
theorem supp_es : suppData FileBytes.esSupplementary = .ok RuleData.esSupplementary := by decide +kernel

theorem text_es : newTextBytes esFiles = .ok (some DataText.es) := by
  rw [← emit_es]
  exact text_of_stages (by decide) source_es supp_es c50_regenerate.2.1

end NumberParser.Props
