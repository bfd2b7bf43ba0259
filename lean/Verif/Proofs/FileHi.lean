import Verif.Proofs.FileEs

/-! The generator, run on the Hindi files.  One file per language: each takes some gigabytes of memory. -/

namespace NumberParser.Props

open NumberParser Gen Spec

def hiFiles : LangBytes := ⟨u!"hi.json", FileBytes.hiSource, some FileBytes.hiSupplementary⟩

set_option maxRecDepth 1000000 in
theorem source_hi : sourceTables FileBytes.hiSource = liftGen ((extract RuleData.hiRules).map some) := by decide +kernel

set_option maxRecDepth 1000000 in
theorem supp_hi : suppData FileBytes.hiSupplementary = .ok RuleData.hiSupplementary := by decide +kernel

theorem text_hi : newTextBytes hiFiles = .ok (some DataText.hi) := by
  rw [← emit_hi]
  exact text_of_stages (by decide) source_hi supp_hi c50_regenerate.2.2.1

end NumberParser.Props
