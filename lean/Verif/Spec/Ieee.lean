import Verif.Model.Num
import Mathlib.Data.Int.Log
import Mathlib.Algebra.Order.Round

/-! # Double precision arithmetic

What IEEE 754 says of `+ - * / sqrt` on binary64 numbers, apart from overflow and underflow: the
result is the exact one, rounded to the nearest number with 53 significant bits, ties to even.
`F64 A` is the type of numbers of a machine that works this way; the model of the code can be read
at it. What `sin`, `cos`, `tan` and `atan` return is left open, as IEEE 754 does not fix it.

Simplifications: exponents are unbounded (no infinity, no subnormal number), no NaN; a quotient by
zero is zero, where Python raises. -/

namespace PySlope

/-- A number with at most 53 significant bits. -/
def Binary53 (x : ℝ) : Prop := ∃ m e : ℤ, |m| < 2 ^ 53 ∧ x = m * (2 : ℝ) ^ e

/-- Round to nearest, ties to even. -/
structure RoundsToEven (rnd : ℝ → ℝ) : Prop where
  /-- the result has 53 significant bits -/
  rep : ∀ x, Binary53 (rnd x)
  /-- no number with 53 significant bits is nearer -/
  nearest : ∀ x y, Binary53 y → |x - rnd x| ≤ |x - y|
  /-- of two that are equally near, the one with the even significand is taken -/
  even : ∀ x y, Binary53 y → y ≠ rnd x → |x - y| = |x - rnd x| →
    ∃ m e : ℤ, Even m ∧ 2 ^ 52 ≤ |m| ∧ |m| < 2 ^ 53 ∧ rnd x = m * (2 : ℝ) ^ e

/-- The numbers with 53 significant bits. -/
def B64 : Type := { x : ℝ // Binary53 x }

/-- A machine: how it rounds, and its mathematical library. -/
structure Machine where
  rnd : ℝ → ℝ
  rounds : RoundsToEven rnd
  sin : B64 → B64
  cos : B64 → B64
  tan : B64 → B64
  atan : B64 → B64
  pi : B64

/-- The numbers of a machine. -/
def F64 (_ : Machine) : Type := B64

namespace F64

variable {A : Machine}

/-- The exact value of a number of the machine. -/
def val (x : F64 A) : ℝ := x.1

/-- The number of the machine nearest to a real number. -/
def mk (x : ℝ) : F64 A := ⟨A.rnd x, A.rounds.rep x⟩

end F64

theorem Binary53.neg {x : ℝ} (h : Binary53 x) : Binary53 (-x) := by
  obtain ⟨m, e, h1, h2⟩ := h
  exact ⟨-m, e, by rwa [abs_neg], by rw [h2]; push_cast; ring⟩

/-- The operations of Python's `float` on the machine: `+ - * / sqrt` are the exact ones, rounded;
negation and the comparisons are exact; a literal is rounded. Models the arithmetic Python does on
`float` (`/repo/pyslope/pyslope.py`, everywhere). -/
noncomputable instance (A : Machine) : PyNum (F64 A) where
  add a b := F64.mk (a.val + b.val)
  sub a b := F64.mk (a.val - b.val)
  mul a b := F64.mk (a.val * b.val)
  div a b := F64.mk (a.val / b.val)
  neg a := ⟨- a.val, Binary53.neg a.2⟩
  lt a b := a.val < b.val
  le a b := a.val ≤ b.val
  natCast n := F64.mk (n : ℝ)
  ofScientific m s e := F64.mk (OfScientific.ofScientific m s e : ℝ)
  decLt := fun a b => inferInstanceAs (Decidable ((a.val : ℝ) < b.val))
  decLe := fun a b => inferInstanceAs (Decidable ((a.val : ℝ) ≤ b.val))
  sqrt a := F64.mk (Real.sqrt a.val)
  sin a := A.sin a
  cos a := A.cos a
  tan a := A.tan a
  atan a := A.atan a
  pi := A.pi
  floor a := ⌊a.val⌋

end PySlope
