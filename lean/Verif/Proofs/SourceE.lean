import Verif.Model.SourcesE
/-! The generator, run in the kernel on every source of `Model/SourcesE`. -/

namespace NumberParser.Gen.Sources
open NumberParser Gen

set_option maxRecDepth 1000000 in
theorem partE_generated : partE.all (fun e => decide (generate e.2.1 e.2.2.1 = .ok e.2.2.2)) = true := by
  decide +kernel

end NumberParser.Gen.Sources
