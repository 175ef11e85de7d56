import Verif.Spec.RoundingCalls
import Verif.Spec.Dynamic

/-! # Specification: a dynamic analysis without coincidences -/

namespace PySlope

variable {K : Type} [PyNum K]

/-- Specification: the calls by which all dynamic loads are moved: all loads are removed and set again, one by one. -/
noncomputable def offsetCalls (s : Slope K) (o : K) : List (Op K) :=
  .removeUdls [] true :: .removeLls [] true ::
    (s.udls.map (fun p => .setUdls [some (p.load.movedTo o)]) ++ s.lls.map (fun p => .setLls [some (p.load.movedTo o)]))

/-- Specification: no coincidences in the analysis of a slope: some circle is analysed, every analysed circle has a factor of
safety, and neither the circles nor, if it is made, the search for them has a coincidence. -/
def NoTiesAnalysis (s : Slope ℝ) : Prop :=
  ∃ ps, ps ≠ [] ∧ ((s.individual ≠ [] ∧ ps = s.individual) ∨ (s.individual = [] ∧ s.entryExitPlanes = .ok ps ∧ NoTiesSearch s)) ∧
    ∀ p ∈ ps, (∃ F, s.bishop p.cx p.cy p.radius none none = .ok F) ∧ NoTiesEnds s p.cx p.cy p.radius ∧
      ∀ l q, FirstCrossings s p.cx p.cy p.radius l q → NoTiesBishop s p.cx p.cy p.radius l.1 q.1

/-- Specification: no coincidences when the loads are moved to `o` and the slope is analysed. The moved loads are loads that
can be built. -/
def NoTiesOffset (s : Slope ℝ) (o : ℝ) : Prop :=
  (∀ c ∈ offsetCalls s o, c.Valid) ∧ NoTiesRun (offsetCalls s o) s ∧ NoTiesAnalysis (runAll (offsetCalls s o) s)

/-- Specification: the state and the factor of safety after the loads are moved to `o` and the slope is analysed; the
result is noted under the offset. -/
def AfterOffset (s : Slope ℝ) (o : ℝ) (s' : Slope ℝ) (F : ℝ) : Prop :=
  ((runAll (offsetCalls s o) s).analyseSlope none).1.getMinFos = .ok (some F) ∧
  s' = { ((runAll (offsetCalls s o) s).analyseSlope none).1 with dynResults := s.dynResults ++ [(o, F)] }

/-- Specification: no coincidences in at most `k` further turns between the offsets `left` and `right`, which have the
factors of safety `lf` and `rf`; `prev` is the factor of safety of the turn before. The offset of a turn is the one at which
a straight line through the two has the critical factor of safety. No offset is tried twice, no factor of safety is
critical or 0.01 from the critical one or from the one before, or the same as the one before, none is halfway between two
numbers with three decimals, and, rounded to three decimals, none is critical. -/
def NoTiesTurns (crit : ℝ) : ℕ → (left lf right rf prev : ℝ) → Slope ℝ → Prop
  | 0, _, _, _, _, _, _ => True
  | k + 1, left, lf, right, rf, prev, s =>
    let mid := right + (crit - rf) * (left - right) / (lf - rf)
    (∀ e ∈ s.dynResults, e.1 ≠ mid) ∧ NoTiesOffset s mid ∧
    ∀ s' F, AfterOffset s mid s' F →
      F ≠ prev ∧ |prev - F| ≠ 0.01 ∧ |F - crit| ≠ 0.01 ∧ F ≠ crit ∧
      ∃ z : ℤ, |F * 1000 - z| < 1 / 2 ∧ (z : ℝ) / 1000 ≠ crit ∧
        (¬ ((|prev - F| < 0.01 ∨ |F - crit| < 0.01) ∧ crit < (z : ℝ) / 1000) →
          (F < crit → NoTiesTurns crit k left lf mid F F s') ∧ (crit < F → NoTiesTurns crit k mid F right rf F s'))

/-- Specification: the greatest offset tried: 1 cm less than the length of the face, or, if that is more, than the distance
from the left end of the model to the crest that is left of a dynamic load. -/
noncomputable def farthest (s : Slope ℝ) : ℝ :=
  (s.udls.filter (·.load.dynamic)).foldl (fun m p => max m (s.topX - p.load.length.getD 0)) s.length - 0.01

/-- Specification: no coincidences in a dynamic analysis. -/
structure NoTiesDynamic (s : Slope ℝ) (crit : ℝ) : Prop where
  finite : ∀ p ∈ s.udls, p.load.dynamic = true → p.load.length ≠ none
  first : NoTiesOffset { s with dynResults := [] } 0
  turns : ∀ s1 F1, AfterOffset { s with dynResults := [] } 0 s1 F1 → F1 ≠ crit ∧ (F1 < crit →
    farthest s ≠ 0 ∧ NoTiesOffset s1 (farthest s) ∧ ∀ s2 F2, AfterOffset s1 (farthest s) s2 F2 → F2 ≠ crit ∧ (crit < F2 →
      NoTiesTurns crit 10 (farthest s) F2 0 F1 0 s2))

/-- Specification: rounding down is exact. -/
def AccurateFloor (val : K → ℝ) : Prop := ∀ a : K, PyNum.floor a = ⌊val a⌋

end PySlope
