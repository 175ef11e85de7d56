import Verif.Spec.Frame
import Verif.Spec.Args

/-! # Specification: entries, and what each of a list of calls answers -/

namespace PySlope

/-- Specification: the call enters or takes away something the user gives, and computes it from the arguments and
what was entered of that kind only. Left out: the circles and the limits of the search, given by coordinates in
the model; the water factor computed from the angle; the least failure distance, cut to the size of the model. -/
def Op.Entry : Op ℝ → Prop
  | .setExternalBoundary .. | .setWaterTable .. | .removeWaterTable | .setUdls .. | .removeUdls .. | .setLls ..
  | .removeLls .. | .setMaterials .. | .removeMaterial .. | .updateBoundaryOptions .. => True
  | .updateWaterAnalysisOptions auto _ => auto = false
  | .updateAnalysisOptions _ _ f _ _ => f = none
  | _ => False

/-- Specification: the call leaves the boundary as it is, and its materials and water table lie within the depth `H`
of the model. -/
def Op.Fits (H : ℝ) : Op ℝ → Prop
  | .setExternalBoundary .. | .updateBoundaryOptions .. => False
  | .setMaterials ms => ∀ m, some m ∈ ms → m.depth ≤ H
  | .setWaterTable v => ∀ d, v.asNum = some d → d < H
  | _ => True

/-- Specification: two calls about different things. -/
def Unrelated (a b : Op ℝ) : Prop := ∀ p ∈ a.about, p ∉ b.about

/-- Specification: every call of a history with its answer, success or the exception it raised. -/
noncomputable def answers : List (Op ℝ) → Slope ℝ → List (Op ℝ × Except PyErr Unit)
  | [], _ => []
  | o :: os, s => (o, (o.run s).2) :: answers os (o.run s).1

end PySlope
