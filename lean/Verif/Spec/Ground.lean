import Verif.Model.Analysis
import Verif.Lemmas.Real

/-! # Specification: the ground as layers -/

namespace PySlope

/-- Specification: the layer at level `y`: the uppermost one whose bottom is below `y`, and below
the bottom of the last one, the last one. -/
noncomputable def layerAt (ls : List (Layer ℝ)) (y : ℝ) : Option (Layer ℝ) :=
  (ls.find? (fun l => decide (l.rl < y))).or ls.getLast?

/-- Specification: the unit weight of the ground at level `y`. -/
noncomputable def unitWeightAt (ls : List (Layer ℝ)) (y : ℝ) : ℝ :=
  match layerAt ls y with
  | some l => l.mat.unitWeight
  | none => 0

/-- Specification: the length the intervals `[a, b]` and `[l, r]` have in common. -/
noncomputable def common (a b l r : ℝ) : ℝ := max (min b r - max a l) 0

/-- Specification: the same slope in a model of the same size. -/
def SameBoundary (s t : Slope ℝ) : Prop :=
  t.height = s.height ∧ t.length = s.length ∧ t.extL = s.extL ∧ t.extH = s.extH

end PySlope
