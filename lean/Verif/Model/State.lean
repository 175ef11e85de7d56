import Verif.Model.Objects
import Verif.Model.Util

/-! # The `Slope` object: state and configuration methods (`/repo/pyslope/pyslope.py:241-1013`)

A method of `Slope` becomes a function from the state to `Out`: the state after the call and
either the value returned or the exception raised.  Mutations made before a `raise` are kept, as
in Python.  Simplification (value semantics): the `Material`, `Udl` and `LineLoad` objects held by
a slope are values; Python shares them by reference, so two slopes holding the same object also
share the coordinates written into it (that aliasing is modelled in
`Model/Heap.lean`). -/

namespace PySlope
open Lit

variable {K : Type} [PyNum K]

/-- A `Material` assigned to a slope: the attributes `RL` and `color` written by `set_materials`
(`/repo/pyslope/pyslope.py:694-703`). -/
structure Layer (K : Type) where
  mat : Material K
  rl : K
  color : String

/-- A `Udl` assigned to a slope, with the coordinates written by `_update_udl_coordinates`
(`/repo/pyslope/pyslope.py:491-503`). -/
structure PUdl (K : Type) where
  load : Udl K
  left : K
  right : K

/-- A `LineLoad` assigned to a slope, with the coordinate written by `_update_ll_coordinates`
(`/repo/pyslope/pyslope.py:583-590`). -/
structure PLl (K : Type) where
  load : LineLoad K
  coord : K

/-- A failure plane: the dictionaries of `_search` and `_individual_planes`
(`/repo/pyslope/pyslope.py:1160-1166`). `fos` is `none` while the key `"FOS"` is absent; the key
holds `None` (`some none`) or a number (`some (some x)`). -/
structure Plane (K : Type) where
  lc : K × K
  rc : K × K
  cx : K
  cy : K
  radius : K
  fos : Option (Option K)

/-- The attribute `_udl_max`: not there before the first `set_udls` of a load, a number after
`set_udls`, a `Udl` object after a `remove_udls` that leaves loads
(`/repo/pyslope/pyslope.py:484,539,542`). -/
inductive UdlMax (K : Type) where
  | unset
  | num (x : K)
  | obj (u : Udl K)

/-- The attributes of a `Slope` (`/repo/pyslope/pyslope.py:268-313`, `387-396`). Left out:
`_min_FOS`, `_min_FOS_location`, `_min_FOS_dict`, which are written by `_reset_results` and never
read. -/
structure Slope (K : Type) where
  minExtH : K
  minExtL : K
  extBoundary : Option (List (K × K))
  height : K
  length : K
  gradient : K
  topX : K
  topY : K
  botX : K
  botY : K
  extL : K
  extH : K
  /-- `_limits[0..3]` -/
  lim1 : K
  lim2 : K
  lim3 : K
  lim4 : K
  materials : List (Layer K)
  udls : List (PUdl K)
  lls : List (PLl K)
  udlMax : UdlMax K
  waterRL : Option K
  waterDepth : Option K
  waterH : K
  slices : Int
  iterations : Int
  minFailureDist : K
  tolerance : K
  maxIterations : Int
  search : List (Plane K)
  individual : List (Plane K)
  dynResults : List (K × K)

/-- State after a call, with the value returned or the exception raised. -/
abbrev Out (K : Type) (α : Type) := Slope K × Except PyErr α

/-- Sequencing of two calls on the same object. -/
def Out.andThen {α β : Type} (o : Out K α) (f : Slope K → α → Out K β) : Out K β :=
  match o.2 with
  | .ok a => f o.1 a
  | .error e => (o.1, .error e)

/-- `/repo/pyslope/pyslope.py:300-313` `_reset_results`. -/
def Slope.resetResults (s : Slope K) : Slope K := { s with search := [] }

/-- Left and right end of a load, `/repo/pyslope/pyslope.py:496-503`. -/
def placeUdl (topX : K) (u : Udl K) : PUdl K :=
  let rightX := topX - u.offset
  let leftX : K :=
    match u.length with
    | some l => if pyEq l 0 then 0 else pyMax 0 (rightX - l)
    | none => 0
  { load := u, left := leftX, right := rightX }

/-- `/repo/pyslope/pyslope.py:491-503` `_update_udl_coordinates`. -/
def Slope.updateUdlCoordinates (s : Slope K) : Slope K :=
  { s with udls := s.udls.map (fun p => placeUdl s.topX p.load) }

/-- Position of a line load, `/repo/pyslope/pyslope.py:588-590`. -/
def placeLl (topX : K) (l : LineLoad K) : PLl K :=
  { load := l, coord := pyMax 0 (topX - l.offset) }

/-- `/repo/pyslope/pyslope.py:583-590` `_update_ll_coordinates`. -/
def Slope.updateLlCoordinates (s : Slope K) : Slope K :=
  { s with lls := s.lls.map (fun p => placeLl s.topX p.load) }

/-- `/repo/pyslope/pyslope.py:938-1013` `set_analysis_limits`. Lines 992-996 cannot run (both
values are already set) and are left out. A `right_x` that is not a number passes the tests of
975-987 when `right_x_left` is not given and then fails in `min`: `TypeError` (a `Decimal` would
compare with a float and go through; that case is not modelled). -/
def Slope.setAnalysisLimits (s : Slope K) (leftX rightX leftXRight rightXLeft : PyVal K) :
    Out K Unit :=
  let go : Except PyErr (Slope K) := do
    -- 963-966
    let lx ← (match leftX with
      | .none => pure s.lim1
      | v => do assertPositiveNumber (0 : K) v; pure v.get!)
    -- 968-973
    let lxr ← (match leftXRight with
      | .none => pure s.lim2
      | v => do assertStrictlyPositiveNumber (0 : K) v; pure v.get!)
    -- 975-980: the value tested is `right_x`
    let rxl ← (match rightXLeft with
      | .none => pure (PyVal.num s.lim3)
      | v => do assertStrictlyPositiveNumber (0 : K) rightX; pure v)
    -- 982-987: the value tested is `right_x_left`
    let rx ← (match rightX with
      | .none => pure (PyVal.num s.lim4)
      | v => do assertStrictlyPositiveNumber (0 : K) rxl; pure v)
    -- 999-1002
    let lx := pyMax lx 0
    let lxr := pyMin lxr s.topX
    let rx ← (match rx with
      | .num x | .numSub x => pure (pyMin x s.extL)
      | _ => throw .typeError)
    let rxl := pyMax rxl.get! s.topX
    -- 1005-1008
    if lxr ≤ lx ∨ rx ≤ rxl then throw .valueError
    pure { s with lim1 := lx, lim2 := lxr, lim3 := rxl, lim4 := rx }
  match go with
  | .ok s' => (s'.resetResults, .ok ())
  | .error e => (s, .error e)

/-- `/repo/pyslope/pyslope.py:926-936` `remove_analysis_limits`. -/
def Slope.removeAnalysisLimits (s : Slope K) : Out K Unit :=
  (s.setAnalysisLimits (.num 0) (.num s.extL) (.num s.topX) (.num s.topX)).andThen
    fun s _ => (s.resetResults, .ok ())

/-- The part of `set_external_boundary` before the assignments to `self`: the validation and the
model length (`/repo/pyslope/pyslope.py:346-363`). `height = None` passes the validation and makes
the arithmetic raise `TypeError`. At 90 degrees the double `tan` is about 1.6e16 and the length
becomes 0.001; over the reals `tan` has the value 0 there, the quotient is 0, and the length is
0.001 as well. -/
def boundaryInputs (height angle length : PyVal K) : Except PyErr (K × K) := do
  match height with
  | .none => pure ()
  | v => assertStrictlyPositiveNumber (0 : K) v
  match angle with
  | .none => pure ()
  | v => assertRange v (0 : K) 90 true false
  match length with
  | .none => pure ()
  | v => assertPositiveNumber (0 : K) v
  let len ← (match length with
    | .none =>
      if !angle.truthy then throw .valueError
      else match height with
        | .none => throw .typeError
        | h => pure (h.get! / PyNum.tan (radians angle.get!))
    | l => pure l.get!)
  let len := pyMax len 0.001
  match height with
  | .none => throw .typeError
  | h => pure (h.get!, len)

/-- `/repo/pyslope/pyslope.py:365-407`: the geometry from a height and a length, then the load
coordinates, the limits and the results. -/
def Slope.applyBoundary (s : Slope K) (height length : K) : Out K Unit :=
  let totH := pyMax (pyMax (3 * height) s.minExtH) (5 * length / 2)
  let totL := pyMax (pyMax (5 * length) s.minExtL) (4 * height)
  let dx := (totL - length) / 2
  let top : K × K := (dx, totH)
  let bot : K × K := (dx + length, totH - height)
  let s : Slope K := { s with
    extBoundary := some [(0, 0), (0, top.2), top, bot, (totL, bot.2), (totL, 0), (0, 0)]
    length := length
    height := height
    gradient := height / length
    topX := top.1
    topY := top.2
    botX := bot.1
    botY := bot.2
    extL := totL
    extH := totH }
  let s := s.updateUdlCoordinates
  let s := s.updateLlCoordinates
  s.removeAnalysisLimits.andThen fun s _ => (s.resetResults, .ok ())

/-- `/repo/pyslope/pyslope.py:315-407` `set_external_boundary`. -/
def Slope.setExternalBoundary (s : Slope K) (height angle length : PyVal K) : Out K Unit :=
  match boundaryInputs height angle length with
  | .error e => (s, .error e)
  | .ok (h, l) => s.applyBoundary h l

/-- `/repo/pyslope/pyslope.py:409-433` `set_water_table`, with `remove_water_table` (435-450) for
`None`. -/
def Slope.setWaterTable (s : Slope K) (depth : PyVal K) : Out K Unit :=
  match depth with
  | .none => (({ s with waterRL := none, waterDepth := none } : Slope K).resetResults, .ok ())
  | v =>
    match assertPositiveNumber (0 : K) v with
    | .error e => (s, .error e)
    | .ok () =>
      let d := v.get!
      (({ s with waterRL := some (pyMax 0 (s.topY - d)), waterDepth := some d } :
        Slope K).resetResults, .ok ())

/-- `/repo/pyslope/pyslope.py:435-450` `remove_water_table`. -/
def Slope.removeWaterTable (s : Slope K) : Out K Unit :=
  (({ s with waterRL := none, waterDepth := none } : Slope K).resetResults, .ok ())

/-- `/repo/pyslope/pyslope.py:878-924` `update_boundary_options`. The check on
`_external_boundary` (918) tells a call from `__init__`, before there is a geometry. -/
def Slope.updateBoundaryOptions (s : Slope K) (minExtL minExtH : PyVal K) : Out K Unit :=
  let step1 : Out K Unit :=
    if minExtH.truthy then
      match assertStrictlyPositiveNumber (0 : K) minExtH with
      | .error e => (s, .error e)
      | .ok () => ({ s with minExtH := minExtH.get! }, .ok ())
    else (s, .ok ())
  step1.andThen fun s _ =>
  let step2 : Out K Unit :=
    if minExtL.truthy then
      match assertStrictlyPositiveNumber (0 : K) minExtL with
      | .error e => (s, .error e)
      | .ok () => ({ s with minExtL := minExtL.get! }, .ok ())
    else (s, .ok ())
  step2.andThen fun s _ =>
  let step3 : Out K Unit :=
    match s.extBoundary with
    | some _ => s.setExternalBoundary (.num s.height) (.num 30) (.num s.length)
    | none => (s, .ok ())
  step3.andThen fun s _ => (s.resetResults, .ok ())

/-- An argument of `set_udls`: a `Udl`, or some other object (ignored). -/
abbrev UdlArg (K : Type) := Option (Udl K)

/-- The largest magnitude of a non-empty list of loads, `/repo/pyslope/pyslope.py:484`. -/
def maxMagnitude (us : List (PUdl K)) : UdlMax K → UdlMax K := fun old =>
  match us with
  | [] => old
  | u :: rest => .num (rest.foldl (fun m v => pyMax m v.load.magnitude) u.load.magnitude)

/-- `(udl.offset + (udl.length or 3)) * 2.5`, `/repo/pyslope/pyslope.py:477`. -/
def Udl.minLength (u : Udl K) : K :=
  let len : K := match u.length with
    | some l => if pyEq l 0 then 3 else l
    | none => 3
  (u.offset + len) * 2.5

/-- One turn of the loop of `set_udls`, `/repo/pyslope/pyslope.py:471-479`. A load is appended
before it has coordinates; `placeUdl` stands for the ones it gets at 481. -/
def Slope.addUdl (s : Slope K) (u : UdlArg K) : Out K Unit :=
  match u with
  | none => (s, .ok ())
  | some u =>
    if 0 < u.magnitude then
      let s : Slope K := { s with udls := s.udls ++ [placeUdl s.topX u] }
      if s.minExtL < u.minLength then s.updateBoundaryOptions (.num u.minLength) .none
      else (s, .ok ())
    else (s, .ok ())

/-- A loop `for a in args: f(a)` over calls on the object. -/
def Slope.forEach {α : Type} (f : Slope K → α → Out K Unit) : List α → Slope K → Out K Unit
  | [], s => (s, .ok ())
  | a :: rest, s => (f s a).andThen fun s _ => Slope.forEach f rest s

/-- `/repo/pyslope/pyslope.py:452-487` `set_udls`. -/
def Slope.setUdls (s : Slope K) (us : List (UdlArg K)) : Out K Unit :=
  (Slope.forEach Slope.addUdl us s).andThen fun s _ =>
    let s := s.updateUdlCoordinates
    let s : Slope K := { s with udlMax := maxMagnitude s.udls s.udlMax }
    (s.resetResults, .ok ())

/-- `==` on two optional numbers (`None` or a number). -/
def optEq (a b : Option K) : Bool :=
  match a, b with
  | none, none => true
  | some x, some y => pyEq x y
  | _, _ => false

/-- Dataclass equality of two `Udl`, used by `list.remove`. -/
def Udl.eq (a b : Udl K) : Bool :=
  pyEq a.magnitude b.magnitude && pyEq a.offset b.offset && optEq a.length b.length
    && a.color == b.color && a.dynamic == b.dynamic

/-- The test of `remove_udls`, `/repo/pyslope/pyslope.py:530-534`. -/
def Udl.matches (check u : Udl K) : Bool :=
  pyEq check.offset u.offset && pyEq check.magnitude u.magnitude && optEq check.length u.length

/-- `list.remove(x)`: removes the first element equal to `x`. -/
def removeFirst {α : Type} (eq : α → Bool) : List α → List α
  | [] => []
  | a :: l => if eq a then l else a :: removeFirst eq l

/-- `for c in l: if test(c): l.remove(c)`: the list iterator goes on with the next index of the
list being modified (`/repo/pyslope/pyslope.py:529-535`, `618-623`). `fuel` bounds the number of
turns; the length of the list is enough since every turn moves the index. -/
def removeLoop {α : Type} (test : α → Bool) (eq : α → α → Bool) :
    (fuel : Nat) → (i : Nat) → List α → List α
  | 0, _, l => l
  | fuel + 1, i, l =>
    match l[i]? with
    | none => l
    | some c =>
      if test c then removeLoop test eq fuel (i + 1) (removeFirst (eq c) l)
      else removeLoop test eq fuel (i + 1) l

/-- `max(self._udls, key=lambda x: x.magnitude)`: the first load of greatest magnitude. -/
def maxUdl (u : Udl K) : List (PUdl K) → Udl K
  | [] => u
  | v :: rest => maxUdl (if u.magnitude < v.load.magnitude then v.load else u) rest

/-- `/repo/pyslope/pyslope.py:505-545` `remove_udls`. -/
def Slope.removeUdls (s : Slope K) (us : List (Udl K)) (removeAll : Bool) : Out K Unit :=
  let l := us.foldl (fun l u =>
    removeLoop (fun (c : PUdl K) => c.load.matches u) (fun a b => a.load.eq b.load)
      l.length 0 l) s.udls
  let s : Slope K := { s with udls := l }
  let s : Slope K := if removeAll then { s with udls := [], udlMax := .num 0 } else s
  let s : Slope K := match s.udls with
    | [] => s
    | u :: rest => { s with udlMax := .obj (maxUdl u.load rest) }
  (s.resetResults, .ok ())

/-- One turn of the loop of `set_lls`, `/repo/pyslope/pyslope.py:566-574`. -/
def Slope.addLl (s : Slope K) (l : Option (LineLoad K)) : Out K Unit :=
  match l with
  | none => (s, .ok ())
  | some l =>
    if 0 < l.magnitude then
      let s : Slope K := { s with lls := s.lls ++ [placeLl s.topX l] }
      let minLength := l.offset * 3
      if s.minExtL < minLength then s.updateBoundaryOptions (.num minLength) .none
      else (s, .ok ())
    else (s, .ok ())

/-- `/repo/pyslope/pyslope.py:547-579` `set_lls`. -/
def Slope.setLls (s : Slope K) (ls : List (Option (LineLoad K))) : Out K Unit :=
  (Slope.forEach Slope.addLl ls s).andThen fun s _ =>
    (s.updateLlCoordinates.resetResults, .ok ())

/-- Dataclass equality of two `LineLoad`. -/
def LineLoad.eq (a b : LineLoad K) : Bool :=
  pyEq a.magnitude b.magnitude && pyEq a.offset b.offset && a.color == b.color
    && a.dynamic == b.dynamic

/-- The test of `remove_lls`, `/repo/pyslope/pyslope.py:619-622`. -/
def LineLoad.matches (check l : LineLoad K) : Bool :=
  pyEq check.offset l.offset && pyEq check.magnitude l.magnitude

/-- `/repo/pyslope/pyslope.py:592-629` `remove_lls`. -/
def Slope.removeLls (s : Slope K) (ls : List (LineLoad K)) (removeAll : Bool) : Out K Unit :=
  let l := ls.foldl (fun acc u =>
    removeLoop (fun (c : PLl K) => c.load.matches u) (fun a b => a.load.eq b.load)
      acc.length 0 acc) s.lls
  let s : Slope K := { s with lls := l }
  let s : Slope K := if removeAll then { s with lls := [] } else s
  (s.resetResults, .ok ())

/-- `MATERIAL_COLORS`, `/repo/pyslope/utilities.py:5-16`. -/
def materialColors : List String :=
  ["#efa59c", "#77e1ca", "#cdacfc", "#f2c6a7", "#7edff4", "#f2a8c3", "#cde9ba", "#f2c1fa",
   "#f1dba3", "#a3acf7"]

/-- Body of the loop of `set_materials`, `/repo/pyslope/pyslope.py:694-705`. -/
def mkLayer (extH : K) (i : Nat) (m : Material K) : Layer K :=
  { mat := m
    rl := extH - m.depth
    color := match m.userColor with
      | some c => c
      | none => materialColors.getD (i % 10) "" }

/-- Loop of `set_materials` over the sorted materials, `/repo/pyslope/pyslope.py:694-705`. -/
def mkLayers (extH : K) : Nat → List (Material K) → List (Layer K)
  | _, [] => []
  | i, m :: rest => mkLayer extH i m :: mkLayers extH (i + 1) rest

/-- `/repo/pyslope/pyslope.py:631-710` `set_materials`. An argument that is not a `Material` is
`none`. -/
def Slope.setMaterials (s : Slope K) (args : List (Option (Material K))) : Out K Unit :=
  -- 669-674
  if args.any (·.isNone) then (s, .error .valueError)
  else
    -- 679-682
    let ms := sortByKey Material.depth (args.filterMap id ++ s.materials.map Layer.mat)
    let depths := ms.map Material.depth
    match depths.getLast? with
    | none => (s, .error .indexError)
    | some deepest =>
      -- 685-686
      let o : Out K Unit :=
        if s.extH < deepest then s.updateBoundaryOptions .none (.num deepest) else (s, .ok ())
      o.andThen fun s _ =>
      -- 689-690
      if setSizeNum depths < depths.length then (s, .error .valueError)
      else
        -- 692-710
        (({ s with materials := mkLayers s.extH 0 ms } : Slope K).resetResults, .ok ())

/-- Dataclass equality of two materials, used by `list.remove`. The field `color` of an assigned
material is the colour the slope gave it. -/
def Layer.eq (a b : Layer K) : Bool :=
  pyEq a.mat.unitWeight b.mat.unitWeight && pyEq a.mat.frictionAngle b.mat.frictionAngle
    && pyEq a.mat.cohesion b.mat.cohesion && pyEq a.mat.depth b.mat.depth
    && a.mat.name == b.mat.name && a.color == b.color

/-- `/repo/pyslope/pyslope.py:712-772` `remove_material`. `material` is `none` for `None` or an
object that is not a `Material`; `depth` is the argument `depth`. -/
def Slope.removeMaterial (s : Slope K) (material : Option (Material K)) (depth : Option K)
    (removeAll : Bool) : Out K Unit :=
  -- 758-759
  let depth := match material with
    | some m => some m.depth
    | none => depth
  -- 762-766
  let ms := match depth with
    | none => s.materials
    | some d =>
      if pyEq d 0 then s.materials
      else match s.materials.find? (fun l => pyEq l.mat.depth d) with
        | none => s.materials
        | some m => removeFirst (m.eq ·) s.materials
  -- 768-769
  let ms := if removeAll then [] else ms
  (({ s with materials := ms } : Slope K).resetResults, .ok ())

/-- `/repo/pyslope/pyslope.py:774-810` `update_water_analysis_options`. -/
def Slope.updateWaterAnalysisOptions (s : Slope K) (auto : Bool) (H : PyVal K) : Out K Unit :=
  if auto then
    let a := PyNum.atan s.gradient
    (({ s with waterH := sq (PyNum.cos a) } : Slope K).resetResults, .ok ())
  else
    match assertNumber H with
    | .error e => (s, .error e)
    | .ok () =>
      let h := H.get!
      let h : K := if 1 < h then 1 else if h < 0 then 0 else h
      (({ s with waterH := h } : Slope K).resetResults, .ok ())

/-- `/repo/pyslope/pyslope.py:812-876` `update_analysis_options`. `slices`, `iterations` and
`max_iterations` are integers (a float would make `np.linspace` or `range` raise later). -/
def Slope.updateAnalysisOptions (s : Slope K) (slices iterations : Option Int)
    (minFailureDist tolerance : Option K) (maxIterations : Option Int) : Out K Unit :=
  let s : Slope K := match slices with
    | some n => if n = 0 then s else { s with slices := max (min 500 n) 10 }
    | none => s
  let s : Slope K := match iterations with
    | some n => if n = 0 then s else { s with iterations := max (min n 100000) 500 }
    | none => s
  let s : Slope K := match minFailureDist with
    | some d => { s with minFailureDist := pyMin d (s.extL * 0.9) }
    | none => s
  let s : Slope K := match tolerance with
    | some t => { s with tolerance := t }
    | none => s
  let s : Slope K := match maxIterations with
    | some n => { s with maxIterations := n }
    | none => s
  (s.resetResults, .ok ())

/-- A `Slope` before `__init__` has run: the attributes set at
`/repo/pyslope/pyslope.py:272-282`; the others do not exist yet and hold a dummy. -/
def Slope.blank : Slope K :=
  { minExtH := 0, minExtL := 0, extBoundary := none, height := 0, length := 0, gradient := 0,
    topX := 0, topY := 0, botX := 0, botY := 0, extL := 0, extH := 0,
    lim1 := 0, lim2 := 0, lim3 := 0, lim4 := 0,
    materials := [], udls := [], lls := [], udlMax := .unset,
    waterRL := none, waterDepth := none, waterH := 0,
    slices := 0, iterations := 0, minFailureDist := 0, tolerance := 0, maxIterations := 0,
    search := [], individual := [], dynResults := [] }

/-- `Slope(height, angle, length)`: `/repo/pyslope/pyslope.py:268-298` `Slope.__init__`. -/
def Slope.init (height angle length : PyVal K) : Out K Unit :=
  (Slope.updateBoundaryOptions (Slope.blank : Slope K) (.num 10) (.num 6)).andThen fun s _ =>
  (s.setExternalBoundary height angle length).andThen fun s _ =>
  (s.updateAnalysisOptions (some 25) (some 1000) (some 0) (some 0.005) (some 15)).andThen
    fun s _ =>
  (s.updateWaterAnalysisOptions true (.num 1)).andThen fun s _ =>
  s.removeAnalysisLimits

/-- `Slope(height, angle, length)` as the caller sees it: the object, or the exception. -/
def Slope.new (height angle length : PyVal K) : Except PyErr (Slope K) :=
  match (Slope.init height angle length : Out K Unit) with
  | (s, .ok ()) => .ok s
  | (_, .error e) => .error e

/-! ## Getters -/

/-- `/repo/pyslope/pyslope.py:2067-2080` `get_external_y_intersection`. -/
def Slope.getExternalY (s : Slope K) (x : K) : Option K :=
  if x < 0 ∨ s.extL < x then none
  else if x ≤ s.topX then some s.topY
  else if s.botX ≤ x then some s.botY
  else some (s.topY - (x - s.topX) * s.gradient)

/-- `/repo/pyslope/pyslope.py:2082-2101` `get_external_x_intersection`. -/
def Slope.getExternalX (s : Slope K) (y : K) : Except PyErr (Option K) :=
  if y < s.botY then .ok (some s.extL)
  else if y < s.extH then do
    let q ← pyDiv (s.topY - y) s.gradient
    pure (some (s.topX + q))
  else if pyEq y s.botY then .ok (some s.botX)
  else if pyEq y s.topY then .ok (some s.topX)
  else .ok none

end PySlope
