import Verif.Spec.Method
import Verif.Spec.Circle

/-! # Specification: the same slope at another scale

Lengths, cohesions and distributed loads are multiplied by `k`, line loads by `k * k`; unit weights and friction
angles stay. Positions are measured from the crest. -/

namespace PySlope

/-- Specification: the point of `t` that is `k` times as far from the crest as the point `p` of `s`. -/
noncomputable def atScale (k : ℝ) (s t : Slope ℝ) (p : ℝ × ℝ) : ℝ × ℝ :=
  (t.topX + k * (p.1 - s.topX), t.topY + k * (p.2 - s.topY))

/-- Specification: layer `b` of `t` is layer `a` of `s` at scale `k`. -/
def SimilarLayer (k : ℝ) (s t : Slope ℝ) (a b : Layer ℝ) : Prop :=
  b.mat.unitWeight = a.mat.unitWeight ∧ b.mat.cohesion = k * a.mat.cohesion ∧
  b.mat.frictionAngle = a.mat.frictionAngle ∧ b.rl - t.topY = k * (a.rl - s.topY)

/-- Specification: distributed load `b` of `t` is load `a` of `s` at scale `k`. -/
def SimilarUdl (k : ℝ) (s t : Slope ℝ) (a b : PUdl ℝ) : Prop :=
  b.load.magnitude = k * a.load.magnitude ∧ b.left - t.topX = k * (a.left - s.topX) ∧
  b.right - t.topX = k * (a.right - s.topX)

/-- Specification: line load `b` of `t` is load `a` of `s` at scale `k`. -/
def SimilarLl (k : ℝ) (s t : Slope ℝ) (a b : PLl ℝ) : Prop :=
  b.load.magnitude = k * k * a.load.magnitude ∧ b.coord - t.topX = k * (a.coord - s.topX)

/-- Specification: `t` is `s` at scale `k`. The size of the model around the slope does not matter. -/
structure Similar (k : ℝ) (s t : Slope ℝ) : Prop where
  height : t.height = k * s.height
  length : t.length = k * s.length
  slices : t.slices = s.slices
  tolerance : t.tolerance = s.tolerance
  maxIterations : t.maxIterations = s.maxIterations
  waterH : t.waterH = s.waterH
  water : (s.waterRL = none ∧ t.waterRL = none) ∨ ∃ z z', s.waterRL = some z ∧ t.waterRL = some z' ∧ 0 < z ∧ 0 < z' ∧
    z' - t.topY = k * (z - s.topY)
  materials : List.Forall₂ (SimilarLayer k s t) s.materials t.materials
  udls : List.Forall₂ (SimilarUdl k s t) s.udls t.udls
  lls : List.Forall₂ (SimilarLl k s t) s.lls t.lls

/-- Specification: a circle meets the ground first at `a` and then at `b`, more than 3 cm further on. -/
def MeetsFirst (s : Slope ℝ) (cx cy r : ℝ) (a b : ℝ × ℝ) : Prop :=
  Crossing s cx cy r a ∧ Crossing s cx cy r b ∧ 0.03 < b.1 - a.1 ∧
  ∀ p, Crossing s cx cy r p → p.1 = a.1 ∨ b.1 ≤ p.1

end PySlope
