import Verif.Spec.Method

/-! # Specification: a rising water table -/

namespace PySlope

/-- Specification: the ground at `x`, left of the toe, is not under water with the water table at depth `d'` and is
with the water table at depth `d`. -/
def GoesUnder (s : Slope ℝ) (d d' x : ℝ) : Prop :=
  x < s.topX + s.length ∧ s.topY - d' ≤ groundY s x ∧ groundY s x < s.topY - d

end PySlope
