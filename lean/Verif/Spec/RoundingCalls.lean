import Verif.Spec.Rounding
import Verif.Spec.Ops

/-! # Specification: the same program with other numbers

A program is a construction and a list of calls. Two programs are the same up to `ε` if they make the same calls with
numbers within `ε`. -/

namespace PySlope

variable {K : Type}

/-- Specification: two arguments are the same up to `ε`. -/
def CloseVal (ε : ℝ) (val : K → ℝ) : PyVal ℝ → PyVal K → Prop
  | .num x, .num y => |val y - x| ≤ ε
  | .none, .none => True
  | _, _ => False

/-- Specification: two materials are the same up to `ε`. -/
def CloseMaterial (ε : ℝ) (val : K → ℝ) (a : Material ℝ) (b : Material K) : Prop :=
  |val b.unitWeight - a.unitWeight| ≤ ε ∧ |val b.cohesion - a.cohesion| ≤ ε ∧ |val b.tanPhi - a.tanPhi| ≤ ε ∧
  |val b.depth - a.depth| ≤ ε

/-- Specification: two distributed loads are the same up to `ε`. -/
def CloseUdl (ε : ℝ) (val : K → ℝ) (a : Udl ℝ) (b : Udl K) : Prop :=
  |val b.magnitude - a.magnitude| ≤ ε ∧ |val b.offset - a.offset| ≤ ε ∧
  Option.Rel (fun x y => |val y - x| ≤ ε) a.length b.length ∧ b.dynamic = a.dynamic

/-- Specification: two line loads are the same up to `ε`. -/
def CloseLl (ε : ℝ) (val : K → ℝ) (a : LineLoad ℝ) (b : LineLoad K) : Prop :=
  |val b.magnitude - a.magnitude| ≤ ε ∧ |val b.offset - a.offset| ≤ ε ∧ b.dynamic = a.dynamic

/-- Specification: two calls are the same up to `ε`. Only the calls that configure a slope are related; of the calls that
remove loads or materials only those that remove all. -/
def CloseOp (ε : ℝ) (val : K → ℝ) : Op ℝ → Op K → Prop
  | .setExternalBoundary h a l, .setExternalBoundary h' a' l' => CloseVal ε val h h' ∧ CloseVal ε val a a' ∧ CloseVal ε val l l'
  | .setWaterTable d, .setWaterTable d' => CloseVal ε val d d'
  | .removeWaterTable, .removeWaterTable => True
  | .setUdls us, .setUdls us' => List.Forall₂ (Option.Rel (CloseUdl ε val)) us us'
  | .removeUdls _ all, .removeUdls _ all' => all = true ∧ all' = true
  | .setLls ls, .setLls ls' => List.Forall₂ (Option.Rel (CloseLl ε val)) ls ls'
  | .removeLls _ all, .removeLls _ all' => all = true ∧ all' = true
  | .setMaterials ms, .setMaterials ms' => List.Forall₂ (Option.Rel (CloseMaterial ε val)) ms ms'
  | .removeMaterial _ _ all, .removeMaterial _ _ all' => all = true ∧ all' = true
  | .updateWaterAnalysisOptions auto h, .updateWaterAnalysisOptions auto' h' => auto = auto' ∧
      (auto = false → CloseVal ε val h h')
  | .updateAnalysisOptions n i d t m, .updateAnalysisOptions n' i' d' t' m' => n = n' ∧ i = i' ∧ m = m' ∧
      Option.Rel (fun x y => |val y - x| ≤ ε) d d' ∧ Option.Rel (fun x y => |val y - x| ≤ ε) t t'
  | .updateBoundaryOptions l h, .updateBoundaryOptions l' h' => CloseVal ε val l l' ∧ CloseVal ε val h h'
  | .setAnalysisLimits a b c d, .setAnalysisLimits a' b' c' d' => CloseVal ε val a a' ∧ CloseVal ε val b b' ∧ CloseVal ε val c c' ∧
      CloseVal ε val d d'
  | .removeAnalysisLimits, .removeAnalysisLimits => True
  | .addSingleEntryExitPlane l r m, .addSingleEntryExitPlane l' r' m' => |val l' - l| ≤ ε ∧ |val r' - r| ≤ ε ∧ m = m'
  | .addSingleCircularPlane x y r, .addSingleCircularPlane x' y' r' => |val x' - x| ≤ ε ∧ |val y' - y| ≤ ε ∧ |val r' - r| ≤ ε
  | .removeIndividualPlanes, .removeIndividualPlanes => True
  | _, _ => False

/-- Specification: an argument, if given, is between two bounds. -/
def Within (P : ℝ → Prop) : PyVal ℝ → Prop
  | .num x => P x
  | _ => True

/-- Specification: the arguments of a boundary: a positive height, an angle strictly between 0 and 90 degrees and a
positive length or none. -/
def ProperBoundary (h a l : PyVal ℝ) : Prop :=
  (∃ x, h = .num x ∧ 0 < x) ∧ (∃ x, a = .num x ∧ 0 < x ∧ x < 90) ∧ (l = .none ∨ ∃ x, l = .num x ∧ 0 < x)

/-- Specification: the radius of a circle with half a chord of length `√C` and height `d` of the segment under it. -/
noncomputable def segmentRadius (C d : ℝ) : ℝ := (C + d ^ 2) / (2 * d)

/-- Specification: the centre of such a circle, if the middle of the chord is that of `l` and `r` and the chord falls at
the angle `β`. -/
noncomputable def segmentCentre (β C d : ℝ) (l r : ℝ × ℝ) : ℝ × ℝ :=
  ((l.1 + r.1) / 2 + Real.sin β * (segmentRadius C d - d), (l.2 + r.2) / 2 + Real.cos β * (segmentRadius C d - d))

/-- Specification: no coincidences in the circles tried one after the other on a chord, with segments of heights
`e k / num`, `e (k - 1) / num`, ...: each meets the ground without coincidences. The chord of the next circle has its middle
between the crossings of the last circle that has two. -/
def NoTiesCircles (s : Slope ℝ) (β C e : ℝ) (num : ℕ) : ℕ → ℝ × ℝ → ℝ × ℝ → Prop
  | 0, _, _ => True
  | k + 1, l, r =>
    let d := e * ((k : ℝ) + 1) / num
    let c := segmentCentre β C d l r
    NoTiesEnds s c.1 c.2 (segmentRadius C d) ∧
    (∀ l' r', FirstCrossings s c.1 c.2 (segmentRadius C d) l' r' → NoTiesCircles s β C e num k l' r') ∧
    ((∀ p q, Crossing s c.1 c.2 (segmentRadius C d) p → Crossing s c.1 c.2 (segmentRadius C d) q → q.1 - p.1 ≤ 0.03) →
      NoTiesCircles s β C e num k l r)

/-- Specification: no coincidences in the circles tried for an entry point `l` and an exit point `r`. The first has the
radius `1.1 h / cos β`, where `2 h` is the length of the chord and `β` its angle. -/
def NoTiesChord (s : Slope ℝ) (l r : ℝ × ℝ) (num : ℕ) : Prop :=
  let β := Real.arctan ((l.2 - r.2) / (r.1 - l.1))
  let h := √((l.2 - r.2) ^ 2 + (r.1 - l.1) ^ 2) / 2
  let R := h / Real.cos β * 1.1
  l.1 ≠ r.1 ∧ NoTiesCircles s β (h ^ 2) (R - √(R ^ 2 - h ^ 2)) num num l r

/-- Specification: the entry points of the search: an even spread over the range of entry points, with one point less for
every load, and a point 1 mm left of every load. -/
def IsEntry (s : Slope ℝ) (p : ℝ × ℝ) : Prop :=
  let n : ℤ := numPointsTop s.iterations.toNat - s.lls.length - s.udls.length
  p.2 = s.topY ∧ ((∃ k : ℕ, (k : ℤ) < n ∧ p.1 = s.lim1 + (k : ℝ) / ((n - 1 : ℤ) : ℝ) * (s.lim2 - s.lim1)) ∨
    (∃ l ∈ s.lls, p.1 = l.coord - 0.001) ∨ ∃ u ∈ s.udls, p.1 = u.left - 0.001)

/-- Specification: the exit points of the search: an even spread over the range of exit points, without its left end. -/
def IsExit (s : Slope ℝ) (p : ℝ × ℝ) : Prop :=
  ∃ k < numPointsBot s.iterations.toNat, p.1 = s.lim3 + ((k : ℝ) + 1) / numPointsBot s.iterations.toNat * (s.lim4 - s.lim3) ∧
    p.2 = groundY s p.1

/-- Specification: no coincidences in the search: the exit points are inside the model, no entry point is an exit point, no two
are exactly as far from one another as the least length of a failure, and the circles of those farther apart have none. -/
structure NoTiesSearch (s : Slope ℝ) : Prop where
  inside : ∀ q, IsExit s q → 0 < q.1 ∧ q.1 < s.extL
  distinct : ∀ p q, IsEntry s p → IsExit s q → p.1 ≠ q.1
  apart : ∀ p q, IsEntry s p → IsExit s q → √((p.1 - q.1) ^ 2 + (p.2 - q.2) ^ 2) ≠ s.minFailureDist
  circles : ∀ p q, IsEntry s p → IsExit s q → s.minFailureDist < √((p.1 - q.1) ^ 2 + (p.2 - q.2) ^ 2) →
    NoTiesChord s p q (numCircles s.iterations.toNat)

/-- Specification: no coincidences in a call: numbers that must not be negative are positive, no two materials are equally
deep, none is exactly as deep as the model, no load needs exactly the length the model has or another load needs, entry
and exit points are inside the model, and circles meet the ground without coincidences. -/
def NoTiesCall (s : Slope ℝ) : Op ℝ → Prop
  | .setExternalBoundary h a l => ProperBoundary h a l
  | .setWaterTable d => Within (0 < ·) d
  | .setUdls us => (∀ u, some u ∈ us → 0 < u.magnitude ∧ (∀ x, u.length = some x → 0 < x)) ∧
      (s.minExtL :: us.map fun u => u.elim 0 Udl.minLength).Nodup
  | .setLls ls => (∀ u, some u ∈ ls → 0 < u.magnitude) ∧ (s.minExtL :: ls.map fun u => u.elim 0 fun u => u.offset * 3).Nodup
  | .setMaterials ms => none ∉ ms ∧ (s.extH :: (ms.filterMap id ++ s.materials.map Layer.mat).map Material.depth).Nodup
  | .updateBoundaryOptions l h => Within (0 < ·) l ∧ Within (0 < ·) h
  | .setAnalysisLimits a b c d => Within (0 < ·) a ∧ Within (0 < ·) b ∧ Within (0 < ·) c ∧ Within (0 < ·) d
  | .addSingleEntryExitPlane l r m => (0 < l ∧ l < s.extL) ∧ (0 < r ∧ r < s.extL) ∧
      NoTiesChord s (l, groundY s l) (r, groundY s r) m.toNat
  | .addSingleCircularPlane x y r => NoTiesEnds s x y r
  | _ => True

/-- Specification: a history of calls without coincidences, none of which raises. -/
def NoTiesRun : List (Op ℝ) → Slope ℝ → Prop
  | [], _ => True
  | o :: os, s => NoTiesCall s o ∧ (o.run s).2 = .ok () ∧ NoTiesRun os (o.run s).1

/-- Specification: no call of a history raises. -/
def NoRaise [PyNum K] : List (Op K) → Slope K → Prop
  | [], _ => True
  | o :: os, s => (o.run s).2 = .ok () ∧ NoRaise os (o.run s).1

/-- Specification: the errors of the tangent, between -90 and 90 degrees, and of the constant `pi`. -/
structure AccurateTan (ε : ℝ) [PyNum K] (val : K → ℝ) : Prop where
  pi : |val (PyNum.pi : K) - Real.pi| ≤ ε
  tan : ∀ a : K, |val a| < Real.pi / 2 → |val (PyNum.tan a) - Real.tan (val a)| ≤ ε * |Real.tan (val a)|

end PySlope
