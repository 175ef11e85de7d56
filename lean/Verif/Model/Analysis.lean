import Verif.Model.Search

/-! # Factor of safety of one circle (`/repo/pyslope/pyslope.py:1261-1731`, `1920-2014`)

numpy arrays over the slices are lists with one entry per slice; masks become conditions. The two
methods repeat the same slice geometry word for word, which is modelled once (`sliceRows`,
`rowWeight`, `waterHead`, `rowStrength`). -/

namespace PySlope
open Lit

variable {K : Type} [PyNum K]

/-- One slice: centre, bottom, top, and the cosine and sine of the inclination of its base. -/
structure Row (K : Type) where
  x : K
  yb : K
  yt : K
  cosA : K
  sinA : K

/-- `np.linspace(start, stop, num)[i]`. -/
def linspace (start stop : K) (num : Int) (i : Nat) : K :=
  start + ((i : Nat) : K) * ((stop - start) / ofInt (num - 1))

/-- Ground level used for the top of a slice, `/repo/pyslope/pyslope.py:1380-1388`, `1608-1616`. -/
def Slope.sliceTop (s : Slope K) (x : K) : K :=
  if x ≤ s.topX then s.topY
  else if s.botX ≤ x then s.botY
  else s.topY - (x - s.topX) * s.gradient

/-- Geometry of the slice with centre `x`, `/repo/pyslope/pyslope.py:1367-1404`, `1596-1626`.
`dy = 0` (a slice centre at the very side of the circle) makes numpy divide by zero. -/
def Slope.row (s : Slope K) (cx cy r : K) (x : K) : Calc (Row K) :=
  let dxSq := sq (x - cx)
  let yb := cy - PyNum.sqrt (sq r - dxSq)
  let yt0 := s.sliceTop x
  -- np.maximum(slice_yt, slice_yb)
  let yt := pyMax yt0 yb
  let dy := cy - yb
  if pyEq dy 0 then .error (.raise .nonreal)
  else
    let alpha := PyNum.atan ((cx - x) / dy)
    .ok { x := x, yb := yb, yt := yt, cosA := PyNum.cos alpha, sinA := PyNum.sin alpha }

/-- Slice geometry, `/repo/pyslope/pyslope.py:1351-1407`, `1577-1628`: the centres, the check that
they are in the circle, the rows, the check on the cosines. -/
def Slope.sliceRows (s : Slope K) (cx cy r xLeft xRight : K) : Calc (List (Row K)) := do
  let w := (xRight - xLeft) / ofInt s.slices
  let half := w / 2
  let xs := (List.range s.slices.toNat).map
    (linspace (xLeft + half) (xRight - half) s.slices)
  if xs.any (fun x => decide (sq r < sq (x - cx))) then throw .retNone
  let rows ← xs.mapM (s.row cx cy r)
  if rows.any (fun q => pyEq q.cosA 0) then throw .retNone
  pure rows

/-- `np.clip(x, 0.0, None)`, and `overlap[overlap < 0.0] = 0.0`. -/
def clip0 (x : K) : K := if x < 0 then 0 else x

/-- Loop over the layers in `_calculate_strip_weights`, `/repo/pyslope/pyslope.py:1965-1990`.
`top` is the top of the first layer of the list; the last layer has no bottom (`-inf`). -/
def stripColumn (yt yb : K) : (top : K) → List (Layer K) → K
  | _, [] => 0
  | top, [l] => l.mat.unitWeight * clip0 (pyMin yt top - yb)
  | top, l :: rest =>
    l.mat.unitWeight * clip0 (pyMin yt top - pyMax yb l.rl) + stripColumn yt yb l.rl rest

/-- `/repo/pyslope/pyslope.py:1920-1993` `_calculate_strip_weights`, for one slice of width `b`. -/
def Slope.stripWeight (s : Slope K) (b yt yb : K) : K :=
  stripColumn yt yb s.extH s.materials * b

/-- Weight of a slice with the loads on it, `/repo/pyslope/pyslope.py:1412-1441`, `1631-1659`. -/
def Slope.rowWeight (s : Slope K) (w : K) (q : Row K) : K :=
  let half := w / 2
  let xl := q.x - half
  let xr := q.x + half
  let W := s.stripWeight w q.yt q.yb
  let W := s.udls.foldl
    (fun W u => W + clip0 (pyMin xr u.right - pyMax xl u.left) * u.load.magnitude) W
  s.lls.foldl
    (fun W l => if xl ≤ l.coord ∧ l.coord < xr then W + l.load.magnitude else W) W

/-- The abscissa where the water table meets the ground, asked once per circle
(`/repo/pyslope/pyslope.py:1444-1446`, `1662-1664`): `none` when there is no water (`if
self._water_RL:` is also false for a water level of 0), an exception when the level is above the
model (`None < slice_x`). -/
def Slope.waterX (s : Slope K) : Except PyErr (Option (K × K)) :=
  match s.waterRL with
  | none => .ok none
  | some rl =>
    if pyEq rl 0 then .ok none
    else
      match s.getExternalX rl with
      | .error e => .error e
      | .ok none => .error .typeError
      | .ok (some x) => .ok (some (rl, x))

/-- Head of water on the base of a slice times its factor, `/repo/pyslope/pyslope.py:1445-1464`,
`1663-1682` without the base length. -/
def Slope.waterHead (s : Slope K) (water : Option (K × K)) (q : Row K) : K :=
  match water with
  | none => 0
  | some (rl, xw) =>
    let inside := decide (xw < q.x) && decide (q.x < s.botX)
    let head := pyMax (pyMin rl q.yt - q.yb) 0
    head * 9.81 * (if inside then s.waterH else 1)

/-- Strength at the base of a slice, `/repo/pyslope/pyslope.py:1472-1488`, `1690-1707`: the arrays
start with the last material, and every material in turn overwrites the slices not yet assigned
whose base is above its bottom. The state is `(cohesion, tan_phi, assigned)`. -/
def strengthLoop (yb : K) : List (Layer K) → (K × K × Bool) → (K × K × Bool)
  | [], acc => acc
  | m :: rest, (c, t, assigned) =>
    if !assigned && decide (m.rl < yb) then
      strengthLoop yb rest (m.mat.cohesion, m.mat.tanPhi, true)
    else strengthLoop yb rest (c, t, assigned)

/-- Cohesion and `tan phi` at the base of a slice; `none` when there is no material. -/
def Slope.rowStrength (s : Slope K) (yb : K) : Option (K × K) :=
  match s.materials.getLast? with
  | none => none
  | some last =>
    let a := strengthLoop yb s.materials (last.mat.cohesion, last.mat.tanPhi, false)
    some (a.1, a.2.1)

/-- `/repo/pyslope/pyslope.py:1995-2014` `_get_material_at_depth`. -/
def Slope.getMaterialAtDepth (s : Slope K) (yb : K) : Except PyErr (Layer K) :=
  match s.materials.find? (fun m => decide (m.rl < yb)) with
  | some m => .ok m
  | none =>
    match s.materials.getLast? with
    | some m => .ok m
    | none => .error .indexError

/-- What enters the sums for one slice. -/
structure SliceForces (K : Type) where
  W : K
  /-- water pressure on the base times its factor (per unit of base length) -/
  u : K
  c : K
  tanPhi : K
  cosA : K
  sinA : K

/-- Weight, water and strength of every slice. The order of the exits is the one of the code:
water (`TypeError`), then no materials (`return None`). -/
def Slope.sliceForces (s : Slope K) (w : K) (rows : List (Row K)) :
    Calc (List (SliceForces K)) := do
  let water ← (match s.waterX with
    | .ok v => Except.ok v
    | .error e => .error (.raise e))
  rows.mapM fun q =>
    match s.rowStrength q.yb with
    | none => .error .retNone
    | some (c, t) => .ok {
        W := s.rowWeight w q, u := s.waterHead water q, c := c, tanPhi := t,
        cosA := q.cosA, sinA := q.sinA }

/-- Resisting term of a slice, ordinary method, `/repo/pyslope/pyslope.py:1409`, `1455-1464`,
`1491-1498`. -/
def ordinaryTerm (w : K) (f : SliceForces K) : K :=
  let lengthBase := w / f.cosA
  let U := f.u * lengthBase
  f.c * lengthBase + pyMax 0 (f.W * f.cosA - U) * f.tanPhi

/-- Driving moment over the radius, `/repo/pyslope/pyslope.py:1499`, `1721`. -/
def drivingSum (fs : List (SliceForces K)) : K := lsum (fs.map fun f => f.W * f.sinA)

/-- `/repo/pyslope/pyslope.py:1297-1336`: end points of the ordinary method. -/
def Slope.ordinaryEnds (s : Slope K) (cx cy r : K) (left right : Option (K × K)) :
    Calc ((K × K) × (K × K)) :=
  match left, right with
  | some l, some r => .ok (l, r)
  | _, _ =>
    match s.circleExternalIntersection cx cy r with
    | .error e => .error (.raise e)
    | .ok iList =>
      if setSize iList ≠ 2 then .error .retNone
      else match iList with
        | l :: r :: _ => .ok (l, r)
        | _ => .error (.raise .indexError)

/-- `/repo/pyslope/pyslope.py:1261-1504` `_analyse_circular_failure_ordinary`. -/
def Slope.ordinary (s : Slope K) (cx cy r : K) (left right : Option (K × K)) : Calc K := do
  -- 1298-1318
  if cx < 0 ∨ cy < 0 ∨ r < 0 then throw (.raise .valueError)
  let (l, rt) ← s.ordinaryEnds cx cy r left right
  -- 1347-1349
  if rt.1 - l.1 ≤ 1e-6 then throw .retNone
  let w := (rt.1 - l.1) / ofInt s.slices
  let rows ← s.sliceRows cx cy r l.1 rt.1
  let fs ← s.sliceForces w rows
  let resisting := lsum (fs.map (ordinaryTerm w))
  let driving := drivingSum fs
  if driving ≤ 0 then throw .retNone
  pure (resisting / driving)

/-- `m_alpha` of a slice, `/repo/pyslope/pyslope.py:1714`. -/
def bishopDenom (F : K) (f : SliceForces K) : K := f.cosA + f.sinA * f.tanPhi / F

/-- Resisting term of a slice, Bishop, `/repo/pyslope/pyslope.py:1673-1682`, `1718-1720`. -/
def bishopTerm (w F : K) (f : SliceForces K) : K :=
  let U := f.u * w
  (f.c * w + (f.W - U) * f.tanPhi) / bishopDenom F f

/-- One turn of the Bishop iteration, `/repo/pyslope/pyslope.py:1714-1726`. When the previous
factor of safety is 0, numpy does not raise: `sin_alpha * tan_phi / 0` is infinite, every term of
the sum is 0 and so is the new factor of safety, unless `sin_alpha * tan_phi = 0` on some slice,
which gives NaN (`nonreal`). -/
def bishopStep (w : K) (fs : List (SliceForces K)) (prev : K) : Calc K := do
  if pyEq prev 0 then
    if fs.any (fun f => pyEq (f.sinA * f.tanPhi) 0) then throw (.raise .nonreal)
    if drivingSum fs ≤ 0 then throw .retNone
    pure 0
  else
    if fs.any (fun f => pyEq (bishopDenom prev f) 0) then throw .retNone
    let resisting := lsum (fs.map (bishopTerm w prev))
    let driving := drivingSum fs
    if driving ≤ 0 ∨ resisting < 0 then throw .retNone
    pure (resisting / driving)

/-- `for _ in range(max_iterations)`, `/repo/pyslope/pyslope.py:1710-1731`. -/
def bishopLoop (w tol : K) (fs : List (SliceForces K)) : (todo : Nat) → (prev : K) → Calc K
  | 0, prev => pure prev
  | todo + 1, prev => do
    let F ← bishopStep w fs prev
    if pyAbs (F - prev) < tol then pure F
    else bishopLoop w tol fs todo F

/-- `/repo/pyslope/pyslope.py:1543-1562`: end points of the Bishop method. -/
def Slope.bishopEnds (s : Slope K) (cx cy r : K) (left right : Option (K × K)) :
    Calc ((K × K) × (K × K)) :=
  match left, right with
  | some l, some r => .ok (l, r)
  | _, _ =>
    match s.circleExternalIntersection cx cy r with
    | .error e => .error (.raise e)
    | .ok iList =>
      if setSize iList < 2 then .error .retNone
      else match iList with
        | l :: r :: _ => .ok (l, r)
        | _ => .error (.raise .indexError)

/-- `/repo/pyslope/pyslope.py:1506-1731` `_analyse_circular_failure_bishop`. -/
def Slope.bishop (s : Slope K) (cx cy r : K) (left right : Option (K × K)) : Calc K := do
  let (l, rt) ← s.bishopEnds cx cy r left right
  let F0 ← s.ordinary cx cy r (some l) (some rt)
  let w := (rt.1 - l.1) / ofInt s.slices
  let rows ← s.sliceRows cx cy r l.1 rt.1
  let fs ← s.sliceForces w rows
  bishopLoop w s.tolerance fs s.maxIterations.toNat F0

/-- Value stored under `"FOS"`: a number or `None`; an exception goes through. -/
def toFos : Calc K → Except PyErr (Option K)
  | .ok x => .ok (some x)
  | .error .retNone => .ok none
  | .error (.raise e) => .error e

/-- Loop of `analyse_slope`, `/repo/pyslope/pyslope.py:1245-1250`: fills in `"FOS"` plane by plane.
If one raises, the planes before it are filled and the others are left as they were. -/
def Slope.fillFos (s : Slope K) : List (Plane K) → List (Plane K) × Option PyErr
  | [] => ([], none)
  | p :: rest =>
    match toFos (s.bishop p.cx p.cy p.radius none none) with
    | .error e => (p :: rest, some e)
    | .ok v =>
      let (rest', e) := s.fillFos rest
      ({ p with fos := some v } :: rest', e)

/-- The number under `"FOS"`, for sorting: `none` when it is absent or `None`. -/
def Plane.fosVal (p : Plane K) : Option K := p.fos.join

/-- `search.sort(key=lambda x: x["FOS"])`. -/
def fosLt (p q : Plane K) : Bool :=
  match p.fosVal, q.fosVal with
  | some a, some b => decide (a < b)
  | _, _ => false

/-- End of `analyse_slope`, `/repo/pyslope/pyslope.py:1252-1259`. -/
def tidySearch (maxFos : Option K) (ps : List (Plane K)) : List (Plane K) :=
  let search := pySort fosLt (ps.filter (fun p => p.fosVal.isSome))
  match maxFos with
  | none => search
  | some m =>
    if pyEq m 0 then search
    else search.filter (fun p => match p.fosVal with
      | some f => decide (f ≤ m)
      | none => false)

/-- `/repo/pyslope/pyslope.py:1232-1259` `analyse_slope`. With individual planes `_search` and
`_individual_planes` are the same list of the same dictionaries while the loop runs, so the
individual planes keep the factors of safety. -/
def Slope.analyseSlope (s : Slope K) (maxFos : Option K) : Out K Unit :=
  match s.individual with
  | _ :: _ =>
    let (ps, e) := s.fillFos s.individual
    match e with
    | some e => ({ s with search := ps, individual := ps }, .error e)
    | none => ({ s with search := tidySearch maxFos ps, individual := ps }, .ok ())
  | [] =>
    match s.entryExitPlanes with
    | .error e => (s, .error e)
    | .ok planes =>
      let (ps, e) := s.fillFos planes
      match e with
      | some e => ({ s with search := ps }, .error e)
      | none => ({ s with search := tidySearch maxFos ps }, .ok ())

/-- `/repo/pyslope/pyslope.py:2029-2037` `get_min_FOS`. After a failed analysis the entry may have
no `"FOS"` (`KeyError`) or hold `None`. -/
def Slope.getMinFos (s : Slope K) : Except PyErr (Option K) :=
  match s.search with
  | [] => .error .indexError
  | p :: _ =>
    match p.fos with
    | none => .error .keyError
    | some v => .ok v

/-- `/repo/pyslope/pyslope.py:2039-2052` `get_min_FOS_circle`. -/
def Slope.getMinFosCircle (s : Slope K) : Except PyErr (K × K × K) :=
  match s.search with
  | [] => .error .indexError
  | p :: _ => .ok (p.cx, p.cy, p.radius)

/-- `/repo/pyslope/pyslope.py:2054-2065` `get_min_FOS_end_points`. -/
def Slope.getMinFosEndPoints (s : Slope K) : Except PyErr ((K × K) × (K × K)) :=
  match s.search with
  | [] => .error .indexError
  | p :: _ => .ok (p.lc, p.rc)

end PySlope
