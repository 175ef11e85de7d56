import Verif.Spec.Method
import Verif.Spec.Circle

/-! # Specification: arithmetic with rounding errors, and configurations close to each other -/

namespace PySlope

/-- Specification: `K` is an arithmetic with rounding errors of at most `ε`. Its numbers stand for the real numbers
`val`. Comparisons and negation are exact; `+ - * /`, square root and literals have a relative error of at most `ε`,
sine, cosine and arctangent an absolute one. -/
structure Accurate (ε : ℝ) {K : Type} [PyNum K] (val : K → ℝ) : Prop where
  lt : ∀ a b : K, a < b ↔ val a < val b
  le : ∀ a b : K, a ≤ b ↔ val a ≤ val b
  neg : ∀ a : K, val (-a) = -val a
  add : ∀ a b : K, |val (a + b) - (val a + val b)| ≤ ε * |val a + val b|
  sub : ∀ a b : K, |val (a - b) - (val a - val b)| ≤ ε * |val a - val b|
  mul : ∀ a b : K, |val (a * b) - val a * val b| ≤ ε * |val a * val b|
  div : ∀ a b : K, val b ≠ 0 → |val (a / b) - val a / val b| ≤ ε * |val a / val b|
  nat : ∀ n : ℕ, |val (n : K) - n| ≤ ε * n
  lit : ∀ (m : ℕ) (e : Bool) (d : ℕ), |val (OfScientific.ofScientific m e d : K) - (OfScientific.ofScientific m e d : ℝ)| ≤
    ε * |(OfScientific.ofScientific m e d : ℝ)|
  sqrt : ∀ a : K, 0 ≤ val a → |val (PyNum.sqrt a) - √(val a)| ≤ ε * √(val a)
  sin : ∀ a : K, |val (PyNum.sin a) - Real.sin (val a)| ≤ ε
  cos : ∀ a : K, |val (PyNum.cos a) - Real.cos (val a)| ≤ ε
  atan : ∀ a : K, |val (PyNum.atan a) - Real.arctan (val a)| ≤ ε

/-- Specification: the numbers of a material and the level of its bottom are within `ε`. -/
def CloseLayer (ε : ℝ) {K : Type} (val : K → ℝ) (a : Layer ℝ) (b : Layer K) : Prop :=
  |val b.mat.unitWeight - a.mat.unitWeight| ≤ ε ∧ |val b.mat.cohesion - a.mat.cohesion| ≤ ε ∧
  |val b.mat.tanPhi - a.mat.tanPhi| ≤ ε ∧ |val b.rl - a.rl| ≤ ε

/-- Specification: a configuration `t` of the arithmetic is within `ε` of the configuration `s`: the ground, the
materials, the loads, the water and the options; the numbers of slices and of turns are the same. -/
structure Close (ε : ℝ) {K : Type} (val : K → ℝ) (s : Slope ℝ) (t : Slope K) : Prop where
  topX : |val t.topX - s.topX| ≤ ε
  topY : |val t.topY - s.topY| ≤ ε
  botX : |val t.botX - s.botX| ≤ ε
  botY : |val t.botY - s.botY| ≤ ε
  extL : |val t.extL - s.extL| ≤ ε
  extH : |val t.extH - s.extH| ≤ ε
  gradient : |val t.gradient - s.gradient| ≤ ε
  waterH : |val t.waterH - s.waterH| ≤ ε
  tolerance : |val t.tolerance - s.tolerance| ≤ ε
  slices : t.slices = s.slices
  maxIterations : t.maxIterations = s.maxIterations
  materials : List.Forall₂ (CloseLayer ε val) s.materials t.materials
  udls : List.Forall₂ (fun a b => |val b.load.magnitude - a.load.magnitude| ≤ ε ∧ |val b.left - a.left| ≤ ε ∧
    |val b.right - a.right| ≤ ε) s.udls t.udls
  lls : List.Forall₂ (fun a b => |val b.load.magnitude - a.load.magnitude| ≤ ε ∧ |val b.coord - a.coord| ≤ ε) s.lls t.lls
  water : Option.Rel (fun a b => |val b - a| ≤ ε) s.waterRL t.waterRL

/-- Specification: no coincidences on the circle with centre `(cx, cy)` and radius `r` between the abscissas `xl` and
`xr`: the centre is inside the axes, no slice has its base exactly on the bottom of a layer, no line load is exactly on
the edge of a slice, and, if there is a water table, it is not exactly at the level of the crest, the toe or the bottom of
the model, it does not meet the ground at the centre of a slice, and no slice has its centre at the toe. -/
structure NoTies (s : Slope ℝ) (cx cy r xl xr : ℝ) : Prop where
  centre_x : 0 < cx
  centre_y : 0 < cy
  base : ∀ i < s.slices.toNat, ∀ l ∈ s.materials,
    l.rl ≠ cy - √(r ^ 2 - (xl + ((i : ℝ) + 1 / 2) * ((xr - xl) / s.slices) - cx) ^ 2)
  load : ∀ i ≤ s.slices.toNat, ∀ l ∈ s.lls, l.coord ≠ xl + (i : ℝ) * ((xr - xl) / s.slices)
  water : ∀ z, s.waterRL = some z → z ≠ 0 ∧ z ≠ s.topY ∧ z ≠ s.botY ∧ ∀ i < s.slices.toNat,
    xl + ((i : ℝ) + 1 / 2) * ((xr - xl) / s.slices) ≠ s.botX ∧
    groundY s (xl + ((i : ℝ) + 1 / 2) * ((xr - xl) / s.slices)) ≠ z

/-- Specification: no coincidences in the iteration of Bishop's equation: no value of it is 0, no denominator is 0, and
no two values in a row differ by exactly the tolerance. -/
structure NoTiesBishop (s : Slope ℝ) (cx cy r xl xr : ℝ) : Prop extends NoTies s cx cy r xl xr where
  value : ∀ k ≤ s.maxIterations.toNat, (bishopRhs s.slices.toNat (sliceOf s cx cy r xl xr))^[k]
    (fellenius s.slices.toNat (sliceOf s cx cy r xl xr)) ≠ 0
  denominator : ∀ k < s.maxIterations.toNat, ∀ i < s.slices.toNat,
    (sliceOf s cx cy r xl xr i).cos + (sliceOf s cx cy r xl xr i).sin * (sliceOf s cx cy r xl xr i).tan /
      (bishopRhs s.slices.toNat (sliceOf s cx cy r xl xr))^[k]
        (fellenius s.slices.toNat (sliceOf s cx cy r xl xr)) ≠ 0
  stop : ∀ k < s.maxIterations.toNat,
    |(bishopRhs s.slices.toNat (sliceOf s cx cy r xl xr))^[k + 1]
        (fellenius s.slices.toNat (sliceOf s cx cy r xl xr)) -
      (bishopRhs s.slices.toNat (sliceOf s cx cy r xl xr))^[k]
        (fellenius s.slices.toNat (sliceOf s cx cy r xl xr))| ≠ s.tolerance

/-- Specification: no coincidences in the crossings of a circle with the ground: the face is not level, the circle does
not just touch the level of the crest, the level of the toe or the line of the face, it does not go through a corner of
the ground, and no two recorded crossings are exactly 1 cm apart (crossings nearer than that count as one). -/
structure NoTiesEnds (s : Slope ℝ) (cx cy r : ℝ) : Prop where
  face : 0 < s.height
  crest : (cy - s.topY) ^ 2 ≠ r ^ 2
  toe : (cy - s.botY) ^ 2 ≠ r ^ 2
  line : ((cx - s.topX) * s.height + (cy - s.topY) * s.length) ^ 2 ≠ r ^ 2 * (s.length ^ 2 + s.height ^ 2)
  left_corner : ¬ OnCircle cx cy r (0, s.topY)
  crest_corner : ¬ OnCircle cx cy r (s.topX, s.topY)
  toe_corner : ¬ OnCircle cx cy r (s.botX, s.botY)
  right_corner : ¬ OnCircle cx cy r (s.extL, s.botY)
  gap : ∀ p q, Crossing s cx cy r p → Crossing s cx cy r q → |p.1 - q.1| ≠ 0.01

end PySlope
