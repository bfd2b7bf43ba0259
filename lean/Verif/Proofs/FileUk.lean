import Verif.Proofs.FileRu

/-! The generator, run on the Ukrainian files.  One file per language: each takes some gigabytes of memory. -/

namespace NumberParser.Props

open NumberParser Gen Spec

def ukFiles : LangBytes := ⟨u!"uk.json", FileBytes.ukSource, some FileBytes.ukSupplementary⟩

set_option maxRecDepth 1000000 in
theorem source_uk : sourceTables FileBytes.ukSource = liftGen ((extract RuleData.ukRules).map some) := by decide +kernel

set_option maxRecDepth 1000000 in
theorem supp_uk : suppData FileBytes.ukSupplementary = .ok RuleData.ukSupplementary := by decide +kernel

/-- The shipped Ukrainian data without the five words that are in neither source -/
def ukGenerated : Info := { Data.uk with hundreds := Data.uk.hundreds.filter (fun e => !ukHandMade.elem e.1) }

theorem text_uk : newTextBytes ukFiles = .ok (some (emit (shipped ukGenerated))) :=
  text_of_stages (by decide) source_uk supp_uk c50_ukrainian_drift.2.2

end NumberParser.Props
