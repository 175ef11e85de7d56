import Verif.Spec.Order

/-! # Specification: a history without its analyses -/

namespace PySlope

/-- Specification: the call is an ordinary analysis. -/
def Op.isPlainAnalysis : Op ℝ → Bool
  | .analyseSlope _ => true
  | _ => false

/-- Specification: the history with its ordinary analyses left out. -/
def withoutAnalyses (os : List (Op ℝ)) : List (Op ℝ) := os.filter fun o => !o.isPlainAnalysis

end PySlope
