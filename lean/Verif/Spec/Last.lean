import Verif.Spec.Ops

/-! # Specification: a later setting replaces an earlier one -/

namespace PySlope

/-- Specification: an integer option is given, and not as 0, which the program takes as not given. -/
def GivenInt (n : Option Int) : Prop := ∃ k, n = some k ∧ k ≠ 0

/-- Specification: the call `b` sets everything the call `a` sets. -/
def Op.Replaces (b a : Op ℝ) : Prop :=
  match b, a with
  | .setExternalBoundary .., .setExternalBoundary .. => True
  | .setWaterTable .., .setWaterTable .. => True
  | .setWaterTable .., .removeWaterTable => True
  | .removeWaterTable, .setWaterTable .. => True
  | .removeWaterTable, .removeWaterTable => True
  | .updateWaterAnalysisOptions .., .updateWaterAnalysisOptions .. => True
  | .updateAnalysisOptions n i f t m, .updateAnalysisOptions n' i' f' t' m' =>
    (GivenInt n' → GivenInt n) ∧ (GivenInt i' → GivenInt i) ∧ (f' ≠ none → f ≠ none) ∧ (t' ≠ none → t ≠ none) ∧
      (m' ≠ none → m ≠ none)
  | .updateBoundaryOptions l h, .updateBoundaryOptions l' h' =>
    (l'.truthy = true → l.truthy = true) ∧ (h'.truthy = true → h.truthy = true)
  | .setAnalysisLimits a b c d, .setAnalysisLimits a' b' c' d' =>
    (a' ≠ .none → a ≠ .none) ∧ (b' ≠ .none → b ≠ .none) ∧ (c' ≠ .none → c ≠ .none) ∧ (d' ≠ .none → d ≠ .none)
  | .removeAnalysisLimits, .setAnalysisLimits .. => True
  | .removeAnalysisLimits, .removeAnalysisLimits => True
  | .setAnalysisLimits a b c d, .removeAnalysisLimits => a ≠ .none ∧ b ≠ .none ∧ c ≠ .none ∧ d ≠ .none
  | _, _ => False

end PySlope
