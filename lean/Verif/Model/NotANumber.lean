import Verif.Model.Analysis

/-! # The analysis with "not a number" (`/repo/pyslope/pyslope.py:1232-1259`, `1709-1731`, `2029-2037`)

`Slope.bishop` stops (`nonreal`) where numpy computes `0 / 0`. Here the same code is followed through:
a factor of safety is a number (`some x`) or NaN (`none`), every comparison with NaN is false, and the
results are sorted by a `list.sort` that compares NaN with numbers. -/

namespace PySlope
open Lit

variable {K : Type} [PyNum K]

/-- One turn of the Bishop iteration, `/repo/pyslope/pyslope.py:1711-1726`, with `none` for NaN.
`prev` NaN: `denom` and `resisting` are NaN, `denom == 0` and `resisting < 0` are false. `prev` 0: on a
slice with `sin_alpha * tan_phi = 0` `denom` is NaN, and so is the sum; if there is no such slice
`denom` is infinite on every slice, and the sum is 0. (There is at least one slice.) -/
def bishopStepN (w : K) (fs : List (SliceForces K)) : (prev : Option K) → Calc (Option K)
  | none => if drivingSum fs ≤ 0 then .error .retNone else .ok none
  | some F =>
    if pyEq F 0 then
      if drivingSum fs ≤ 0 then .error .retNone
      else if fs.any (fun f => pyEq (f.sinA * f.tanPhi) 0) then .ok none
      else .ok (some 0)
    else
      if fs.any (fun f => pyEq (bishopDenom F f) 0) then .error .retNone
      else
        let resisting := lsum (fs.map (bishopTerm w F))
        let driving := drivingSum fs
        if driving ≤ 0 ∨ resisting < 0 then .error .retNone
        else .ok (some (resisting / driving))

/-- `abs(FS - prev_FS) < self._tolerance`, `/repo/pyslope/pyslope.py:1727`: false if one is NaN. -/
def settled (tol : K) : Option K → Option K → Bool
  | some F, some prev => decide (pyAbs (F - prev) < tol)
  | _, _ => false

/-- `for _ in range(max_iterations)`, `/repo/pyslope/pyslope.py:1710-1731`. -/
def bishopLoopN (w tol : K) (fs : List (SliceForces K)) :
    (todo : Nat) → (prev : Option K) → Calc (Option K)
  | 0, prev => .ok prev
  | todo + 1, prev =>
    match bishopStepN w fs prev with
    | .error e => .error e
    | .ok F => if settled tol F prev then .ok F else bishopLoopN w tol fs todo F

/-- `/repo/pyslope/pyslope.py:1506-1731` `_analyse_circular_failure_bishop`. -/
def Slope.bishopN (s : Slope K) (cx cy r : K) : Calc (Option K) := do
  let (l, rt) ← s.bishopEnds cx cy r none none
  let F0 ← s.ordinary cx cy r (some l) (some rt)
  let w := (rt.1 - l.1) / ofInt s.slices
  let rows ← s.sliceRows cx cy r l.1 rt.1
  let fs ← s.sliceForces w rows
  bishopLoopN w s.tolerance fs s.maxIterations.toNat (some F0)

/-- A circle with the factor of safety under `"FOS"`: a number, or `none` for NaN. -/
structure Found (K : Type) where
  plane : Plane K
  fos : Option K

/-- Loop of `analyse_slope`, `/repo/pyslope/pyslope.py:1245-1253`: the factor of safety of every plane;
those with `None` are dropped. -/
def Slope.foundN (s : Slope K) : List (Plane K) → Except PyErr (List (Found K))
  | [] => .ok []
  | p :: rest =>
    match s.bishopN p.cx p.cy p.radius with
    | .error (.raise e) => .error e
    | .error .retNone => s.foundN rest
    | .ok v =>
      match s.foundN rest with
      | .error e => .error e
      | .ok l => .ok ({ plane := p, fos := v } :: l)

/-- `<` on the keys of the sort: false if one is NaN. -/
def foundLt (a b : Found K) : Bool :=
  match a.fos, b.fos with
  | some x, some y => decide (x < y)
  | _, _ => false

/-- `x["FOS"] <= max_fos`: false for NaN. -/
def foundLe (m : K) (a : Found K) : Bool :=
  match a.fos with
  | some x => decide (x ≤ m)
  | none => false

/-- `/repo/pyslope/pyslope.py:1232-1259` `analyse_slope`, the results it leaves in `_search`. `sort` is
`list.sort` of the interpreter, driven by `<` (see `ListSort` for what is assumed of it). -/
def Slope.analyseN (s : Slope K)
    (sort : (Found K → Found K → Bool) → List (Found K) → List (Found K)) (maxFos : Option K) :
    Except PyErr (List (Found K)) := do
  let planes ← match s.individual with
    | _ :: _ => .ok s.individual
    | [] => s.entryExitPlanes
  let search ← s.foundN planes
  let search := sort foundLt search
  match maxFos with
  | none => pure search
  | some m => if pyEq m 0 then pure search else pure (search.filter (foundLe m))

/-- `/repo/pyslope/pyslope.py:2029-2037` `get_min_FOS` of these results. -/
def minFosN : List (Found K) → Except PyErr (Option K)
  | [] => .error .indexError
  | f :: _ => .ok f.fos

end PySlope
