import Verif.Spec.Method

/-! # Specification: dry sand -/

namespace PySlope

/-- Specification: dry ground without cohesion, with one friction angle. -/
def Sand (s : Slope ℝ) (φ : ℝ) : Prop :=
  s.waterRL = none ∧ s.materials ≠ [] ∧ 0 < φ ∧ φ < 90 ∧
  ∀ l ∈ s.materials, l.mat.cohesion = 0 ∧ l.mat.frictionAngle = φ

end PySlope
