import Verif.Model.Analysis

/-! # Specification: taking something away again -/

namespace PySlope

/-- Specification: `t` behaves as `s`. The crest and the toe are in the same place, every circle has the
same factor of safety of either method, and an analysis succeeds or fails in the same way, lists the same
planes and reports the same lowest factor. -/
structure ActsAs (s t : Slope ℝ) : Prop where
  crest : (t.topX, t.topY) = (s.topX, s.topY)
  toe : (t.botX, t.botY) = (s.botX, s.botY)
  ordinary : ∀ cx cy r, t.ordinary cx cy r none none = s.ordinary cx cy r none none
  bishop : ∀ cx cy r, t.bishop cx cy r none none = s.bishop cx cy r none none
  outcome : ∀ m, (t.analyseSlope m).2 = (s.analyseSlope m).2
  results : ∀ m, (s.analyseSlope m).2 = .ok () →
    (t.analyseSlope m).1.search = (s.analyseSlope m).1.search ∧
    (t.analyseSlope m).1.getMinFos = (s.analyseSlope m).1.getMinFos

/-- Specification: a distributed load that needs no longer model than the slope asks for. A continuous
load counts as 3 m long. -/
def UdlNear (s : Slope ℝ) (u : Udl ℝ) : Prop :=
  (∀ l, u.length = some l → l ≠ 0 → (u.offset + l) * 2.5 ≤ s.minExtL) ∧
  ((u.length = none ∨ u.length = some 0) → (u.offset + 3) * 2.5 ≤ s.minExtL)

/-- Specification: a line load that needs no longer model than the slope asks for. -/
def LlNear (s : Slope ℝ) (l : LineLoad ℝ) : Prop := l.offset * 3 ≤ s.minExtL

/-- Specification: the search is not limited. -/
def Unlimited (s : Slope ℝ) : Prop :=
  s.lim1 = 0 ∧ s.lim2 = s.topX ∧ s.lim3 = s.topX ∧ s.lim4 = s.extL

/-- Specification: the model has the size the slope and the options ask for, no more and no less. -/
structure Sized (s : Slope ℝ) : Prop where
  high : s.extH = max (max (3 * s.height) s.minExtH) (5 * s.length / 2)
  long : s.extL = max (max (5 * s.length) s.minExtL) (4 * s.height)

/-- Specification: `t` behaves as `s` seen from the crest. It has the loads of `s`; the crest is at the same
level and not further left, with as much more room on either side; and Bishop's method has the same outcome for
every circle inside the model of `s`, given by its centre `(cx, cy)` from the crest. -/
structure ActsAsFromCrest (s t : Slope ℝ) : Prop where
  udls : t.udls.map (·.load) = s.udls.map (·.load)
  lls : t.lls.map (·.load) = s.lls.map (·.load)
  level : t.topY = s.topY
  behind : s.topX ≤ t.topX
  front : t.extL - t.botX = s.extL - s.botX + (t.topX - s.topX)
  bishop : ∀ cx cy r, 0 ≤ r → 0 ≤ s.topX + cx - r → s.topX + cx + r ≤ s.extL → 0 ≤ s.topY + cy →
    t.bishop (t.topX + cx) (t.topY + cy) r none none = s.bishop (s.topX + cx) (s.topY + cy) r none none

end PySlope
