import Verif.Model.SourcesB
/-! The generator, run in the kernel on every source of `Model/SourcesB`. -/

namespace NumberParser.Gen.Sources
open NumberParser Gen

set_option maxRecDepth 1000000 in
theorem partB_generated : partB.all (fun e => decide (generate e.2.1 e.2.2.1 = .ok e.2.2.2)) = true := by
  decide +kernel

end NumberParser.Gen.Sources
