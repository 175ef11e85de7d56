import Verif.Spec.Method

/-! # Specification: Bishop's factor of safety, without an iteration -/

namespace PySlope

/-- Specification: `G` is Bishop's factor of safety of the circle with centre `(cx, cy)` and radius `r` between the
abscissas `xl` and `xr`: the positive solution of Bishop's equation over its slices. -/
def BishopSolution (s : Slope ℝ) (cx cy r xl xr G : ℝ) : Prop :=
  0 < G ∧ bishopRhs s.slices.toNat (sliceOf s cx cy r xl xr) G = G

end PySlope
