import Verif.Spec.Ops

/-! # Specification: what a call is about -/

namespace PySlope

/-- The things a user enters. The size of the model and the limits of the search are not among them: entering a
load or a deep material can change those (C08, C57). -/
inductive Part where
  | slope | materials | udls | lls | water | waterFactor | options | circles

/-- Specification: the two slopes agree in one of the things the user enters. -/
def SamePart (s t : Slope ℝ) : Part → Prop
  | .slope => t.height = s.height ∧ t.length = s.length ∧ t.gradient = s.gradient
  | .materials => t.materials.map (fun l => (l.mat, l.color)) = s.materials.map (fun l => (l.mat, l.color))
  | .udls => t.udls.map (·.load) = s.udls.map (·.load)
  | .lls => t.lls.map (·.load) = s.lls.map (·.load)
  | .water => t.waterDepth = s.waterDepth
  | .waterFactor => t.waterH = s.waterH
  | .options => (t.slices, t.iterations, t.minFailureDist, t.tolerance, t.maxIterations) =
      (s.slices, s.iterations, s.minFailureDist, s.tolerance, s.maxIterations)
  | .circles => t.individual.map (fun p => (p.cx, p.cy, p.radius, p.lc, p.rc)) =
      s.individual.map (fun p => (p.cx, p.cy, p.radius, p.lc, p.rc))

/-- Specification: what a call is about, by its name. -/
def Op.about : Op ℝ → List Part
  | .setExternalBoundary .. => [.slope]
  | .setWaterTable .. | .removeWaterTable => [.water]
  | .setUdls .. | .removeUdls .. => [.udls]
  | .setLls .. | .removeLls .. => [.lls]
  | .setMaterials .. | .removeMaterial .. => [.materials]
  | .updateWaterAnalysisOptions .. => [.waterFactor]
  | .updateAnalysisOptions .. => [.options]
  | .addSingleEntryExitPlane .. | .addSingleCircularPlane .. | .removeIndividualPlanes => [.circles]
  | .updateBoundaryOptions .. | .removeAnalysisLimits | .setAnalysisLimits .. => []
  | .analyseSlope .. => []
  | .analyseDynamic .. => [.udls, .lls]

end PySlope
