import Verif.Spec.Method

/-! # Specification of the drawn layers -/

namespace PySlope

/-- The area of a closed polygon whose corners are listed clockwise (the shoelace formula). -/
noncomputable def polyArea (pts : List (ℝ × ℝ)) : ℝ :=
  ((pts.zip (pts.rotate 1)).map fun e => e.2.1 * e.1.2 - e.1.1 * e.2.2).sum / 2

/-- The point is in the modelled ground. -/
def InGround (s : Slope ℝ) (p : ℝ × ℝ) : Prop :=
  0 ≤ p.1 ∧ p.1 ≤ s.extL ∧ 0 ≤ p.2 ∧ p.2 ≤ groundY s p.1

/-- One outline for each layer, in the same order. All its corners are in the ground, not above the
level `l` where the layer begins and not below the one where it ends: the top of the model less the
layer's depth, or 0 for the last layer. -/
def Stacked (s : Slope ℝ) : ℝ → List (Layer ℝ) → List (List (ℝ × ℝ)) → Prop
  | _, [], [] => True
  | l, m :: ms, o :: os =>
    (∀ v ∈ o, InGround s v ∧ v.2 ≤ l ∧ (if ms = [] then 0 else s.extH - m.mat.depth) ≤ v.2) ∧
      Stacked s (s.extH - m.mat.depth) ms os
  | _, _, _ => False

end PySlope
