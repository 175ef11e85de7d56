import Verif.Spec.Ops
import Verif.Spec.Dynamic

/-! # Specification: histories whatever the arithmetic

`K` is any type of numbers with the operations the code uses. No law is assumed of them, so a
statement about every `K` holds for exact numbers and for floating point numbers alike. -/

namespace PySlope

variable {K : Type} [PyNum K]

/-- Every call of the history returns. -/
def AllReturn : List (Op K) → Slope K → Prop
  | [], _ => True
  | o :: os, s => (o.run s).2 = .ok () ∧ AllReturn os (o.run s).1

/-- Every number of slices is in [10, 500], every number of iterations in [500, 100000]. -/
def OptionsInRange (s : Slope K) : Prop :=
  (10 ≤ s.slices ∧ s.slices ≤ 500) ∧ (500 ≤ s.iterations ∧ s.iterations ≤ 100000)

end PySlope
