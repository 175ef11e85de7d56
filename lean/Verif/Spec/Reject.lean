import Verif.Spec.Reachable

/-! # Specification: calls that can be refused -/

namespace PySlope

/-- Specification: a call of a public method that enters something into the slope or takes something out,
with the state it leaves and what it returns or raises. `set_materials` and `update_boundary_options` are left
out. -/
inductive Entry (s : Slope ℝ) : Out ℝ Unit → Prop
  | setExternalBoundary (h a l) : Entry s (s.setExternalBoundary h a l)
  | setWaterTable (d) : Entry s (s.setWaterTable d)
  | removeWaterTable : Entry s s.removeWaterTable
  | setUdls (us) (h : ∀ u, some u ∈ us → Udl.Constructed u) : Entry s (s.setUdls us)
  | removeUdls (us all) : Entry s (s.removeUdls us all)
  | setLls (ls) : Entry s (s.setLls ls)
  | removeLls (ls all) : Entry s (s.removeLls ls all)
  | removeMaterial (m d all) : Entry s (s.removeMaterial m d all)
  | updateWaterAnalysisOptions (auto h) : Entry s (s.updateWaterAnalysisOptions auto h)
  | updateAnalysisOptions (a b c d e) : Entry s (s.updateAnalysisOptions a b c d e)
  | setAnalysisLimits (a b c d) : Entry s (s.setAnalysisLimits a b c d)
  | removeAnalysisLimits : Entry s s.removeAnalysisLimits
  | addSingleEntryExitPlane (l r n) : Entry s (s.addSingleEntryExitPlane l r n)
  | addSingleCircularPlane (x y r) : Entry s (s.addSingleCircularPlane x y r)
  | removeIndividualPlanes : Entry s s.removeIndividualPlanes

end PySlope
