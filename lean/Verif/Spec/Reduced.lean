import Verif.Spec.Change

/-! # Specification: the same slope with all strengths multiplied by a number -/

namespace PySlope

/-- Specification: layer `b` is layer `a` with cohesion and tangent of the friction angle multiplied by `k`. -/
def StrengthLayer (k : ℝ) (a b : Layer ℝ) : Prop :=
  b.mat.unitWeight = a.mat.unitWeight ∧ b.mat.cohesion = k * a.mat.cohesion ∧
  Real.tan (b.mat.frictionAngle * (Real.pi / 180)) = k * Real.tan (a.mat.frictionAngle * (Real.pi / 180)) ∧
  b.rl = a.rl

/-- Specification: `t` is `s` with all strengths multiplied by `k`, and with the tolerance of the iteration, which is
an absolute one, multiplied by `k` too. -/
structure StrengthTimes (k : ℝ) (s t : Slope ℝ) : Prop where
  frame : SameFrame { s with tolerance := k * s.tolerance } t
  materials : List.Forall₂ (StrengthLayer k) s.materials t.materials
  udls : t.udls = s.udls
  lls : t.lls = s.lls

/-- Specification: a result with the factor of safety multiplied by `k`. -/
noncomputable def Plane.fosTimes (k : ℝ) (p : Plane ℝ) : Plane ℝ := { p with fos := p.fos.map (Option.map (k * ·)) }

end PySlope
