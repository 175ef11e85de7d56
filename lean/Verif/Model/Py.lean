import Verif.Model.Num

/-! # Python values, exceptions and raising computations -/

namespace PySlope
open Lit

/-- The exceptions the modelled code can raise. -/
inductive PyErr where
  | valueError
  | typeError
  | zeroDivision
  | indexError
  | keyError
  | assertionError
  | attributeError
  /-- Not an exception: at this point the real code goes on with NaN or ±inf (numpy float
  arithmetic does not raise on a zero division). The model stops here. -/
  | nonreal
  deriving DecidableEq, Repr

/-- How a calculation that is going to give a factor of safety can stop early:
`return None`, or an exception. -/
inductive Stop where
  | retNone
  | raise (e : PyErr)
  deriving DecidableEq, Repr

/-- Outcome of a factor-of-safety calculation. -/
abbrev Calc (α : Type) := Except Stop α

/-- An argument passed by a caller where the API documents a number.
* `num x`    : `type(v)` is exactly `int` or `float`
* `numSub x` : an instance of a proper subclass of `int`/`float`: `bool` or `numpy.float64`
* `none`     : `None`
* `other t`  : anything else (a string, a list, a `Decimal`, ...), with truth value `t`. -/
inductive PyVal (N : Type) where
  | num (x : N)
  | numSub (x : N)
  | none
  | other (truthy : Bool)
  deriving Repr

/-- An argument where the API documents a string. -/
inductive PyStr where
  | str (s : String)
  | none
  | other
  deriving DecidableEq, Repr

variable {K : Type} [PyNum K]

/-- Truth value of a Python argument (`if v:`). -/
def PyVal.truthy : PyVal K → Bool
  | .num x => !(pyEq x 0)
  | .numSub x => !(pyEq x 0)
  | .none => false
  | .other t => t

/-- Python's `/` on Python floats: raises `ZeroDivisionError`. -/
def pyDiv (a b : K) : Except PyErr K :=
  if pyEq b 0 then .error .zeroDivision else .ok (a / b)

/-- Python's `<` on tuples of two floats (lexicographic). -/
def pairLt (p q : K × K) : Bool :=
  if pyEq p.1 q.1 then decide (p.2 < q.2) else decide (p.1 < q.1)

/-- Python's `list.sort()` / `sorted` driven by a `<` test: a stable sort that only asks `<`. -/
def pySort {α : Type} (lt : α → α → Bool) (l : List α) : List α :=
  l.mergeSort (fun a b => !(lt b a))

/-- `sorted(l, key=k)` for a numeric key. -/
def sortByKey {α : Type} (key : α → K) (l : List α) : List α :=
  pySort (fun a b => decide (key a < key b)) l

/-- `len(set(l))` for a list of points: the number of distinct values. -/
def setSize (l : List (K × K)) : Nat :=
  (l.foldl (fun acc p =>
    if acc.any (fun q => pyEq p.1 q.1 && pyEq p.2 q.2) then acc else acc ++ [p]) []).length

/-- `len(set(l))` for a list of numbers. -/
def setSizeNum (l : List K) : Nat :=
  (l.foldl (fun acc p => if acc.any (fun q => pyEq p q) then acc else acc ++ [p]) []).length

/-- Sum of a list, as `np.sum` (the order of summation differs on doubles). -/
def lsum (l : List K) : K := l.foldl (· + ·) 0

end PySlope
