import Verif.Model.Py

/-! # Specification: which arguments are numbers -/

namespace PySlope

/-- The number an argument is, if it is one (a `bool` or `numpy.float64` counts). -/
def PyVal.asNum : PyVal ℝ → Option ℝ
  | .num x => some x
  | .numSub x => some x
  | .none => Option.none
  | .other _ => Option.none

/-- The number an argument is, if its type is exactly `int` or `float`. -/
def PyVal.asPlain : PyVal ℝ → Option ℝ
  | .num x => some x
  | _ => Option.none

/-- The argument is `None`. -/
def PyVal.isNone : PyVal ℝ → Prop
  | .none => True
  | _ => False

end PySlope
