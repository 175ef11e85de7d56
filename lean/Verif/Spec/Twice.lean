import Verif.Spec.Frame

/-! # Specification: settings -/

namespace PySlope

/-- Specification: the call sets something to what its arguments say, or takes something away: it adds nothing to what
is there. -/
def Op.Setting : Op ℝ → Prop
  | .setExternalBoundary .. | .setWaterTable .. | .removeWaterTable | .removeMaterial .. => True
  | .updateWaterAnalysisOptions .. | .updateAnalysisOptions .. | .updateBoundaryOptions .. => True
  | .removeAnalysisLimits | .setAnalysisLimits .. | .removeIndividualPlanes | .analyseSlope .. => True
  | .removeUdls .. | .removeLls .. => True
  | .setUdls .. | .setLls .. | .setMaterials .. => False
  | .addSingleEntryExitPlane .. | .addSingleCircularPlane .. | .analyseDynamic .. => False

/-- Specification: the call takes away some of the loads, not all of them. -/
def Op.TakesSomeLoads : Op ℝ → Prop
  | .removeUdls _ all => all = false
  | .removeLls _ all => all = false
  | _ => False

end PySlope
