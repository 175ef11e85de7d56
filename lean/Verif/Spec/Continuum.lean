import Verif.Spec.Method
import Mathlib.Topology.EMetricSpace.BoundedVariation

/-! # Specification: the sliding mass without slices

The forces of the sliding mass over a circle per metre of its length, and its moments. -/

namespace PySlope

/-- Specification: the total variation of `f` from `a` to `b`: the supremum of the sums of the changes of `f` along points
in increasing order. -/
noncomputable def variation (f : ℝ → ℝ) (a b : ℝ) : ℝ := (eVariationOn f (Set.Icc a b)).toReal

/-- Specification: the level of the lower half of the circle at `x`. -/
noncomputable def circleY (cx cy r x : ℝ) : ℝ := cy - √(r ^ 2 - (x - cx) ^ 2)

/-- Specification: the weight of the soil over the circle at `x`, per metre. -/
noncomputable def columnAt (s : Slope ℝ) (cx cy r x : ℝ) : ℝ :=
  ∫ y in circleY cx cy r x..max (groundY s x) (circleY cx cy r x), unitWeightAt s.materials y

/-- Specification: the moment of the soil at `x` about the centre, over the radius, per metre. -/
noncomputable def soilMoment (s : Slope ℝ) (cx cy r x : ℝ) : ℝ := columnAt s cx cy r x * ((cx - x) / r)

/-- Specification: the moment about the centre, over the radius, of the loads between `xl` and `xr`: a distributed load acts
in the middle of its part between them. -/
noncomputable def loadMoment (s : Slope ℝ) (cx r xl xr : ℝ) : ℝ :=
  (s.udls.map fun u => u.load.magnitude * common xl xr u.left u.right *
    ((cx - (max xl u.left + min xr u.right) / 2) / r)).sum +
  (s.lls.map fun l => if xl ≤ l.coord ∧ l.coord < xr then l.load.magnitude * ((cx - l.coord) / r) else 0).sum

/-- Specification: the sum of the loads between `xl` and `xr`. -/
noncomputable def loadBetween (s : Slope ℝ) (xl xr : ℝ) : ℝ :=
  (s.udls.map fun u => u.load.magnitude * common xl xr u.left u.right).sum +
  (s.lls.map fun l => if xl ≤ l.coord ∧ l.coord < xr then l.load.magnitude else 0).sum

/-- Specification: cohesion and tangent of the friction angle where the circle is at `x`. -/
noncomputable def cohesionAt (s : Slope ℝ) (cx cy r x : ℝ) : ℝ :=
  match layerAt s.materials (circleY cx cy r x) with
  | some l => l.mat.cohesion
  | none => 0

noncomputable def tanPhiAt (s : Slope ℝ) (cx cy r x : ℝ) : ℝ :=
  match layerAt s.materials (circleY cx cy r x) with
  | some l => Real.tan (l.mat.frictionAngle * (Real.pi / 180))
  | none => 0

/-- Specification: the cosine of the inclination of the circle at `x`; `1 / cos` metres of the circle are under a metre. -/
noncomputable def cosAt (cx r x : ℝ) : ℝ := √(r ^ 2 - (x - cx) ^ 2) / r

/-- Specification: what Fellenius' method takes the circle to resist at `x`, per metre of `x`: the cohesion, and the friction
under the part of the weight that is normal to the circle, less the water pressure. -/
noncomputable def resistAt (s : Slope ℝ) (cx cy r x : ℝ) : ℝ :=
  cohesionAt s cx cy r x * (1 / cosAt cx r x) +
    max 0 (columnAt s cx cy r x * cosAt cx r x -
      pressureAt s x (circleY cx cy r x) (max (groundY s x) (circleY cx cy r x)) * (1 / cosAt cx r x)) * tanPhiAt s cx cy r x

/-- Specification: what Bishop's equation takes the circle to resist at `x`, per metre of `x`, when the factor of safety on its
right hand side is `F`. -/
noncomputable def bishopAt (s : Slope ℝ) (cx cy r F x : ℝ) : ℝ :=
  (cohesionAt s cx cy r x + (columnAt s cx cy r x -
    pressureAt s x (circleY cx cy r x) (max (groundY s x) (circleY cx cy r x))) * tanPhiAt s cx cy r x) *
    (1 / (cosAt cx r x + (cx - x) / r * tanPhiAt s cx cy r x / F))

/-- Specification: the length of the lower half of the circle from `xl` to `xr`. -/
noncomputable def arcLength (cx r xl xr : ℝ) : ℝ := r * (Real.arcsin ((xr - cx) / r) - Real.arcsin ((xl - cx) / r))

end PySlope
