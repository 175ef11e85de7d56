import Verif.Spec.Last
import Verif.Spec.Scale

/-! # Specification: settings that only the analyses read -/

namespace PySlope

/-- Specification: the call sets the water table, the water factor or the analysis options. -/
def Op.ForAnalysis : Op ℝ → Prop
  | .setWaterTable .. => True
  | .removeWaterTable => True
  | .updateWaterAnalysisOptions .. => True
  | .updateAnalysisOptions .. => True
  | _ => False

end PySlope
