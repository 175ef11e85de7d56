import Verif.Model.Search
import Verif.Lemmas.Real

/-! # Specification: circles, and their crossings with the ground -/

namespace PySlope

/-- Specification: `p` is on the circle. -/
def OnCircle (cx cy r : ℝ) (p : ℝ × ℝ) : Prop := (p.1 - cx) ^ 2 + (p.2 - cy) ^ 2 = r ^ 2

/-- Specification: `p` is on the line through `a` and `b` (`a ≠ b`). -/
def OnLine (a b p : ℝ × ℝ) : Prop := (p.1 - a.1) * (b.2 - a.2) = (p.2 - a.2) * (b.1 - a.1)

/-- Specification: recorded crossings of a circle with the ground: on the level ground left of
the slope those left of the centre, on the level ground right of it those right of the centre, on the face all. -/
def Crossing (s : Slope ℝ) (cx cy r : ℝ) (p : ℝ × ℝ) : Prop :=
  OnCircle cx cy r p ∧
  ((p.2 = s.topY ∧ 0 ≤ p.1 ∧ p.1 ≤ s.topX ∧ p.1 ≤ cx) ∨
   (p.2 = s.botY ∧ s.botX ≤ p.1 ∧ p.1 ≤ s.extL ∧ cx ≤ p.1) ∨
   (OnLine (s.topX, s.topY) (s.botX, s.botY) p ∧ s.topX ≤ p.1 ∧ p.1 ≤ s.botX))

/-- Specification: `l` is the leftmost crossing and `rt` the next one, up to 3 cm: crossings that close
to one another count as one. -/
def FirstCrossings (s : Slope ℝ) (cx cy r : ℝ) (l rt : ℝ × ℝ) : Prop :=
  Crossing s cx cy r l ∧ Crossing s cx cy r rt ∧ 0.01 < rt.1 - l.1 ∧
  ∀ p, Crossing s cx cy r p → l.1 ≤ p.1 ∧ (p.1 ≤ l.1 + 0.03 ∨ rt.1 ≤ p.1)

/-- Specification: the end points of a plane are on its circle and on the ground, from left to
right. -/
structure EndsOk (s : Slope ℝ) (p : Plane ℝ) : Prop where
  lOn : OnCircle p.cx p.cy p.radius p.lc
  rOn : OnCircle p.cx p.cy p.radius p.rc
  lGround : s.getExternalY p.lc.1 = some p.lc.2
  rGround : s.getExternalY p.rc.1 = some p.rc.2
  order : p.lc.1 + 0.01 < p.rc.1

/-- Specification: the circle of the plane goes through both points. -/
def Through (p : Plane ℝ) (a b : ℝ × ℝ) : Prop :=
  OnCircle p.cx p.cy p.radius a ∧ OnCircle p.cx p.cy p.radius b

end PySlope
