import Mathlib.Analysis.SpecialFunctions.Trigonometric.Arctan

/-!
# Numbers

Every definition of the model is written once, for an arbitrary type `K` of numbers that has the
operations Python's `float` has (`PyNum`).  No law is assumed by the class.

* At `K = Float` (IEEE doubles) the model is executable; `tools/float_check` runs it on the
  examples of the repository (see DESIGN.md).
* At `K = ℝ` the theorems about geometry and mechanics are proved.
* Theorems about bookkeeping (C25, C26, C27, C87) are proved for every `K`, without any law.
* At `K = F64 A` (`Spec/Ieee.lean`) theorems about rounding are proved.
* At `K = X64 A` (`Spec/Ieee754.lean`) theorems about NaN are proved.
-/

namespace PySlope

/-- The operations the Python code uses on `int`/`float` values.
Models the builtin numeric tower and `math` (`/repo/pyslope/pyslope.py:2`,
`/repo/pyslope/utilities.py:2`).  Simplification: `int` and `float` are one type. -/
class PyNum (K : Type) extends Add K, Sub K, Mul K, Div K, Neg K, LT K, LE K, NatCast K,
    OfScientific K where
  decLt : DecidableRel (α := K) (· < ·)
  decLe : DecidableRel (α := K) (· ≤ ·)
  /-- `math.sqrt` / `np.sqrt` -/
  sqrt : K → K
  /-- `math.sin` / `np.sin` -/
  sin : K → K
  /-- `math.cos` / `np.cos` -/
  cos : K → K
  /-- `math.tan` -/
  tan : K → K
  /-- `math.atan` / `np.arctan` -/
  atan : K → K
  /-- `math.pi`, used by `math.radians` -/
  pi : K
  /-- `math.floor`, used to model `round` and `int` -/
  floor : K → Int

attribute [instance_reducible, instance] PyNum.decLt PyNum.decLe

namespace Lit
/-- Numeric literals of the model at an arbitrary `K`. Scoped: opened only in model files. -/
scoped instance (priority := low) natLit {K : Type} [PyNum K] (n : Nat) : OfNat K n :=
  ⟨((n : Nat) : K)⟩
end Lit

noncomputable instance : PyNum ℝ where
  decLt := inferInstance
  decLe := inferInstance
  sqrt := Real.sqrt
  sin := Real.sin
  cos := Real.cos
  tan := Real.tan
  atan := Real.arctan
  pi := Real.pi
  floor := fun x => ⌊x⌋

instance : PyNum Float where
  natCast := Float.ofNat
  decLt := fun a b => inferInstanceAs (Decidable (a < b))
  decLe := fun a b => inferInstanceAs (Decidable (a ≤ b))
  sqrt := Float.sqrt
  sin := Float.sin
  cos := Float.cos
  tan := Float.tan
  atan := Float.atan
  pi := 3.141592653589793
  floor := fun x => (Float.floor x).toInt64.toInt

open Lit

variable {K : Type} [PyNum K]

/-- Python `a == b` on numbers. On IEEE doubles `a ≤ b ∧ b ≤ a` is exactly `a == b`
(false as soon as one side is NaN, and `-0.0 == 0.0`); on `ℝ` it is equality. -/
def pyEq (a b : K) : Bool := decide (a ≤ b) && decide (b ≤ a)

/-- Python `max(a, b)`: keeps the first argument unless the second is greater. -/
def pyMax (a b : K) : K := if a < b then b else a

/-- Python `min(a, b)`: keeps the first argument unless the second is smaller. -/
def pyMin (a b : K) : K := if b < a then b else a

/-- Python `abs(a)`. -/
def pyAbs (a : K) : K := if a < 0 then -a else a

/-- Python `a ** 2`. -/
def sq (a : K) : K := a * a

/-- `math.radians(a)` -/
def radians (a : K) : K := a * (PyNum.pi / 180)

/-- Python numbers as `K` from an integer. -/
def ofInt (i : Int) : K :=
  match i with
  | .ofNat n => ((n : Nat) : K)
  | .negSucc n => -(((n + 1 : Nat)) : K)

/-- The integer nearest to `y`, ties to even: the rounding rule of Python's `round`. -/
def roundInt (y : K) : Int :=
  let f := PyNum.floor y
  let r := y - ofInt f
  if r < 0.5 then f else if 0.5 < r then f + 1 else if f % 2 = 0 then f else f + 1

/-- Python `round(x, n)`; on doubles the real function rounds the exact binary value, which this
definition agrees with up to the representation error of `x * 10^n`. -/
def pyRound (x : K) (n : Nat) : K :=
  ofInt (roundInt (x * ((10 ^ n : Nat) : K))) / ((10 ^ n : Nat) : K)

end PySlope
