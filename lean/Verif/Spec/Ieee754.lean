import Verif.Spec.Ieee

/-! # Doubles with infinities and NaN

`X64 A` is the type of the values of Python's `float` on the machine `A`: a number with 53 significant
bits (`F64 A`), an infinity, or NaN. The model of the code can be read at it.

Simplifications: there is one zero and no underflow, and the library functions, which IEEE 754 leaves open,
return any number with 53 significant bits. `sin`, `cos`, `tan` and `atan` of an infinity are NaN,
as in numpy (`math.tan(inf)` raises `ValueError`), and so is the quotient `0 / 0` (Python raises; the
model uses `pyDiv` where Python divides). `floor` of NaN or an infinity is 0 (Python raises). numpy's
`maximum` is not Python's `max` when its second argument is NaN, and the model has Python's: what is said
here of the methods of slices is said of slices in which only the cohesion is NaN, which `maximum` does
not see. -/

namespace PySlope

/-- A value of type `float`. -/
inductive X64 (A : Machine) where
  | nan
  | inf (negative : Bool)
  | fin (x : F64 A)

namespace X64

variable {A : Machine}

/-- The double of a real number: the nearest number with 53 significant bits, or an infinity if that is
`2^1024` or more in size. -/
noncomputable def ofReal (x : ℝ) : X64 A :=
  if |A.rnd x| < 2 ^ 1024 then .fin (F64.mk x) else .inf (decide (x < 0))

/-- `a + b`. -/
noncomputable def add : X64 A → X64 A → X64 A
  | .fin a, .fin b => ofReal (a.val + b.val)
  | .inf m, .inf n => if m = n then .inf m else .nan
  | .inf m, .fin _ => .inf m
  | .fin _, .inf n => .inf n
  | _, _ => .nan

/-- `-a`. -/
def neg : X64 A → X64 A
  | .nan => .nan
  | .inf m => .inf (!m)
  | .fin a => .fin ⟨- a.val, Binary53.neg a.2⟩

/-- `a * b`. -/
noncomputable def mul : X64 A → X64 A → X64 A
  | .fin a, .fin b => ofReal (a.val * b.val)
  | .inf m, .inf n => .inf (m != n)
  | .inf m, .fin b => if b.val = 0 then .nan else .inf (m != decide (b.val < 0))
  | .fin a, .inf n => if a.val = 0 then .nan else .inf (n != decide (a.val < 0))
  | _, _ => .nan

/-- `a / b`. -/
noncomputable def div : X64 A → X64 A → X64 A
  | .fin a, .fin b =>
    if b.val = 0 then (if a.val = 0 then .nan else .inf (decide (a.val < 0))) else ofReal (a.val / b.val)
  | .inf m, .fin b => .inf (m != decide (b.val < 0))
  | .fin _, .inf _ => ofReal 0
  | _, _ => .nan

/-- `a < b`. -/
def lt : X64 A → X64 A → Prop
  | .fin a, .fin b => a.val < b.val
  | .inf m, .inf n => m = true ∧ n = false
  | .inf m, .fin _ => m = true
  | .fin _, .inf n => n = false
  | _, _ => False

/-- `a <= b`. -/
def le : X64 A → X64 A → Prop
  | .fin a, .fin b => a.val ≤ b.val
  | .inf m, .inf n => m = true ∨ n = false
  | .inf m, .fin _ => m = true
  | .fin _, .inf n => n = false
  | _, _ => False

/-- A number: not NaN, not infinite. -/
def IsNumber (x : X64 A) : Prop := ∃ a, x = .fin a

/-- A number that is not negative and not above a bound. -/
def UpTo (bound : ℝ) (x : X64 A) : Prop := ∃ a : F64 A, x = .fin a ∧ 0 ≤ a.val ∧ a.val ≤ bound

/-- A library function. -/
def lib (f : B64 → B64) : X64 A → X64 A
  | .fin a => .fin (f a)
  | _ => .nan

end X64

/-- The operations of Python's `float` and of numpy's `float64` (`/repo/pyslope/pyslope.py`,
everywhere). -/
noncomputable instance (A : Machine) : PyNum (X64 A) where
  add := X64.add
  sub a b := X64.add a b.neg
  mul := X64.mul
  div := X64.div
  neg := X64.neg
  lt := X64.lt
  le := X64.le
  natCast n := X64.ofReal (n : ℝ)
  ofScientific m s e := X64.ofReal (OfScientific.ofScientific m s e : ℝ)
  decLt := fun a b => Classical.dec (X64.lt a b)
  decLe := fun a b => Classical.dec (X64.le a b)
  sqrt
    | .nan => .nan
    | .inf m => if m then .nan else .inf false
    | .fin a => if a.val < 0 then .nan else X64.ofReal (Real.sqrt a.val)
  sin := X64.lib A.sin
  cos := X64.lib A.cos
  tan := X64.lib A.tan
  atan := X64.lib A.atan
  pi := .fin A.pi
  floor
    | .fin a => ⌊a.val⌋
    | _ => 0

end PySlope
