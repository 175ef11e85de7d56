import Verif.Spec.Ground
import Mathlib.Algebra.BigOperators.Intervals
import Mathlib.MeasureTheory.Integral.IntervalIntegral.Basic
import Mathlib.Analysis.SpecialFunctions.Trigonometric.Basic

/-! # Specification: the method of slices as in a textbook

Nothing here refers to how the code computes: only to the attributes of a slope. -/

namespace PySlope
open Finset

/-- Specification: the level of the ground at the abscissa `x`: the crest plateau, the slope, the
toe plateau. -/
noncomputable def groundY (s : Slope ℝ) (x : ℝ) : ℝ :=
  if x ≤ s.topX then s.extH
  else if x < s.topX + s.length then s.extH - (x - s.topX) * (s.height / s.length)
  else s.extH - s.height

/-- Specification: what a slice of the ground over a circle is. -/
structure Slice where
  /-- width -/
  b : ℝ
  /-- weight with the loads on it -/
  W : ℝ
  /-- water pressure on the base -/
  u : ℝ
  /-- cohesion at the base -/
  c : ℝ
  /-- friction angle at the base, degrees -/
  φ : ℝ
  /-- sine and cosine of the inclination of the base, positive when it dips to the toe -/
  sin : ℝ
  cos : ℝ

/-- Specification: the tangent of the friction angle. -/
noncomputable def Slice.tan (q : Slice) : ℝ := Real.tan (q.φ * (Real.pi / 180))

/-- Specification: the weight over `[a, b]` between the levels `yb` and `yt`, with the distributed
loads and line loads on it. -/
noncomputable def weightOn (s : Slope ℝ) (a b yb yt : ℝ) : ℝ :=
  (b - a) * (∫ y in yb..yt, unitWeightAt s.materials y) +
    (s.udls.map fun u => u.load.magnitude * common a b u.left u.right).sum +
    (s.lls.map fun l => if a ≤ l.coord ∧ l.coord < b then l.load.magnitude else 0).sum

/-- Specification: the water pressure at the base of a slice: 9.81 times the height of the water
above the base inside the slice, times the factor on water pressure where the slope is under water. A
water level of 0 counts as no water (`if self._water_RL`). -/
noncomputable def pressureAt (s : Slope ℝ) (x yb yt : ℝ) : ℝ :=
  match s.waterRL with
  | none => 0
  | some z => if z = 0 then 0 else
      max (min z yt - yb) 0 * 9.81 * (if groundY s x < z ∧ x < s.topX + s.length then s.waterH else 1)

/-- Specification: slice `i` of the circle with centre `(cx, cy)` and radius `r` from `xl` to `xr`. -/
noncomputable def sliceOf (s : Slope ℝ) (cx cy r xl xr : ℝ) (i : ℕ) : Slice :=
  let b := (xr - xl) / s.slices
  let x := xl + (i + 1 / 2) * b
  let yb := cy - √(r ^ 2 - (x - cx) ^ 2)
  let yt := max (groundY s x) yb
  { b := b
    W := weightOn s (xl + i * b) (xl + (i + 1) * b) yb yt
    u := pressureAt s x yb yt
    c := match layerAt s.materials yb with
      | some l => l.mat.cohesion
      | none => 0
    φ := match layerAt s.materials yb with
      | some l => l.mat.frictionAngle
      | none => 0
    sin := (cx - x) / r
    cos := √(r ^ 2 - (x - cx) ^ 2) / r }

/-- Specification: the driving sum. -/
noncomputable def driving (n : ℕ) (q : ℕ → Slice) : ℝ := ∑ i ∈ range n, (q i).W * (q i).sin

/-- Specification: the factor of safety of the ordinary method (Fellenius), with `b / cos` the length
of a base. -/
noncomputable def fellenius (n : ℕ) (q : ℕ → Slice) : ℝ :=
  (∑ i ∈ range n, ((q i).c * ((q i).b / (q i).cos) +
    max 0 ((q i).W * (q i).cos - (q i).u * ((q i).b / (q i).cos)) * (q i).tan)) / driving n q

/-- Specification: the right hand side of Bishop's equation `F = …`, at the value `F`. At 0 it is the
limit 0. -/
noncomputable def bishopRhs (n : ℕ) (q : ℕ → Slice) (F : ℝ) : ℝ :=
  if F = 0 then 0 else
    (∑ i ∈ range n, ((q i).c * (q i).b + ((q i).W - (q i).u * (q i).b) * (q i).tan) /
      ((q i).cos + (q i).sin * (q i).tan / F)) / driving n q

/-- Specification: what a base resists, before division by its denominator. -/
noncomputable def Slice.hold (q : Slice) : ℝ := q.c * q.b + (q.W - q.u * q.b) * q.tan

/-- Specification: slices whose bases dip to the toe, which press on their bases, and one of which resists. -/
structure Dips (n : ℕ) (q : ℕ → Slice) : Prop where
  cos : ∀ i < n, 0 < (q i).cos
  sin : ∀ i < n, 0 ≤ (q i).sin
  tan : ∀ i < n, 0 ≤ (q i).tan
  hold : ∀ i < n, 0 ≤ (q i).hold
  some : ∃ i < n, 0 < (q i).hold
  driving : 0 < driving n q

/-- Specification: the factor of safety `F` is the end of the iteration `F, rhs F, rhs (rhs F), …` of
Bishop's equation over the slices of the circle from `xl` to `xr`, started from the ordinary method.
The iteration stops as soon as two values differ by less than the tolerance, and otherwise after
`max_iterations` turns. -/
def BishopValue (s : Slope ℝ) (cx cy r xl xr F : ℝ) : Prop :=
  let n := s.slices.toNat
  let q := sliceOf s cx cy r xl xr
  0 < driving n q ∧
  ∃ (k : ℕ) (f : ℕ → ℝ), k ≤ s.maxIterations.toNat ∧
    f 0 = fellenius n q ∧ (∀ i < k, f (i + 1) = bishopRhs n q (f i)) ∧ f k = F ∧
    (∀ i, i + 1 < k → s.tolerance ≤ |f (i + 1) - f i|) ∧
    (k = s.maxIterations.toNat ∨ (1 ≤ k ∧ |f k - f (k - 1)| < s.tolerance))

end PySlope
