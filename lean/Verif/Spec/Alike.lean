import Verif.Spec.Ground
import Verif.Spec.Change

/-! # Specification: the same ground and the same loads, however entered -/

namespace PySlope

/-- Specification: unit weight, cohesion and friction angle at level `y`. -/
noncomputable def soilAt (s : Slope ℝ) (y : ℝ) : Option (ℝ × ℝ × ℝ) :=
  (layerAt s.materials y).map fun l => (l.mat.unitWeight, l.mat.cohesion, l.mat.frictionAngle)

/-- Specification: what presses on the stretch from `a` to `b` of the ground: the distributed loads on
it and the line loads on it. -/
noncomputable def loadOn (s : Slope ℝ) (a b : ℝ) : ℝ :=
  (s.udls.map fun u => common a b u.left u.right * u.load.magnitude).sum +
    (s.lls.map fun l => if a ≤ l.coord ∧ l.coord < b then l.load.magnitude else 0).sum

/-- Specification: the same geometry, options and water, the same soil at every level and the same load
on every stretch of the ground. -/
structure Alike (s t : Slope ℝ) : Prop extends SameFrame s t where
  soil : ∀ y, soilAt t y = soilAt s y
  load : ∀ a b, loadOn t a b = loadOn s a b

end PySlope
