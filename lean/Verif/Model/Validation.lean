import Verif.Model.Py

/-! # `/repo/pyslope/data_validation.py`

Each `assert_*` function either returns (`.ok ()`) or raises `ValueError`.
They are stated for any type `N` with comparisons, so that they can also be read at IEEE values
with NaN (`Verif.Props`). -/

namespace PySlope

/-- The comparisons a validator asks of a number. -/
class PyCmp (N : Type) where
  ltb : N → N → Bool
  eqb : N → N → Bool

instance {K : Type} [PyNum K] : PyCmp K where
  ltb a b := decide (a < b)
  eqb a b := pyEq a b

variable {N : Type} [PyCmp N]

/-- `/repo/pyslope/data_validation.py:12-20` `assert_positive_number`.
`zero` is the literal `0` of the comparison. -/
def assertPositiveNumber (zero : N) (v : PyVal N) : Except PyErr Unit :=
  match v with
  | .num x | .numSub x => if PyCmp.ltb x zero then .error .valueError else .ok ()
  | .none | .other _ => .error .valueError

/-- `/repo/pyslope/data_validation.py:23-31` `assert_strictly_positive_number`.
The test in the code is `n < 0`, the same as in `assert_positive_number`. -/
def assertStrictlyPositiveNumber (zero : N) (v : PyVal N) : Except PyErr Unit :=
  match v with
  | .num x | .numSub x => if PyCmp.ltb x zero then .error .valueError else .ok ()
  | .none | .other _ => .error .valueError

/-- `/repo/pyslope/data_validation.py:34-40` `assert_number`: the exact type must be `int` or
`float` (so `bool` and `numpy.float64` are rejected). -/
def assertNumber (v : PyVal N) : Except PyErr Unit :=
  match v with
  | .num _ => .ok ()
  | .numSub _ | .none | .other _ => .error .valueError

/-- `/repo/pyslope/data_validation.py:43-75` `assert_range`. The two bounds are number literals in
every call, so the type test on them (50-54) always passes and is left out. -/
def assertRange (v : PyVal N) (low high : N) (notLow notHigh : Bool) : Except PyErr Unit :=
  match v with
  | .num x | .numSub x =>
    if PyCmp.ltb x low then .error .valueError
    else if PyCmp.ltb high x then .error .valueError
    else if notLow && PyCmp.eqb x low then .error .valueError
    else if notHigh && PyCmp.eqb x high then .error .valueError
    else .ok ()
  | .none | .other _ => .error .valueError

end PySlope
