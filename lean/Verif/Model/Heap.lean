import Verif.Model.Dynamic

/-! # Objects shared by reference

`Udl`, `LineLoad` and `Material` are Python objects. A slope keeps references to the objects it is
given and writes into them: `left` and `right` of a `Udl` (`/repo/pyslope/pyslope.py:502-503`),
`coord` of a `LineLoad` (590), `RL` and `color` of a `Material` (695-703), `offset` of a dynamic
load (1834, 1839). `Verif.Model.State` has a slope hold the objects by value. Here the objects live
in a heap and a slope holds their addresses, so that several slopes, or several places in the lists
of one slope, can hold the same object. -/

namespace PySlope
open Lit

variable {K : Type} [PyNum K]

/-- The objects that exist. An address that no constructor has returned holds an arbitrary
object. -/
structure Heap (K : Type) where
  udl : Nat → PUdl K
  ll : Nat → PLl K
  mat : Nat → Layer K

/-- A `Slope` object (`/repo/pyslope/pyslope.py:268-313`): `us`, `ls` and `ms` are `_udls`, `_lls`
and `_materials`, the other attributes are those of `core`, whose own three lists are not used. -/
structure Obj (K : Type) where
  core : Slope K
  us : List Nat
  ls : List Nat
  ms : List Nat

/-- The objects that exist and the slope a call is made on. -/
structure HS (K : Type) where
  heap : Heap K
  obj : Obj K

/-- What a slope's own code sees: its attributes, with every reference followed. -/
def Obj.view (σ : Obj K) (h : Heap K) : Slope K :=
  { σ.core with udls := σ.us.map h.udl, lls := σ.ls.map h.ll, materials := σ.ms.map h.mat }

/-- What the slope a call is made on sees. -/
def HS.view (s : HS K) : Slope K := s.obj.view s.heap

/-- State after a call, with the value returned or the exception raised. -/
abbrev HOut (K : Type) (α : Type) := HS K × Except PyErr α

/-- Sequencing of two calls. -/
def HOut.andThen {α β : Type} (o : HOut K α) (f : HS K → α → HOut K β) : HOut K β :=
  match o.2 with
  | .ok a => f o.1 a
  | .error e => (o.1, .error e)

/-- A loop `for a in args: f(a)`. -/
def HS.forEach {α : Type} (f : HS K → α → HOut K Unit) : List α → HS K → HOut K Unit
  | [], s => (s, .ok ())
  | a :: rest, s => (f s a).andThen fun s _ => HS.forEach f rest s

/-- Assignment to attributes of the `Udl` at `r`. -/
def Heap.setUdl (h : Heap K) (r : Nat) (p : PUdl K) : Heap K :=
  { h with udl := fun q => if q = r then p else h.udl q }

/-- Assignment to attributes of the `LineLoad` at `r`. -/
def Heap.setLl (h : Heap K) (r : Nat) (p : PLl K) : Heap K :=
  { h with ll := fun q => if q = r then p else h.ll q }

/-- Assignment to attributes of the `Material` at `r`. -/
def Heap.setMat (h : Heap K) (r : Nat) (p : Layer K) : Heap K :=
  { h with mat := fun q => if q = r then p else h.mat q }

/-- `/repo/pyslope/pyslope.py:491-503` `_update_udl_coordinates`: `topX` is
`self._top_coord[0]`. -/
def Heap.placeUdls (topX : K) : List Nat → Heap K → Heap K
  | [], h => h
  | r :: rest, h => Heap.placeUdls topX rest (h.setUdl r (placeUdl topX (h.udl r).load))

/-- `/repo/pyslope/pyslope.py:583-590` `_update_ll_coordinates`. -/
def Heap.placeLls (topX : K) : List Nat → Heap K → Heap K
  | [], h => h
  | r :: rest, h => Heap.placeLls topX rest (h.setLl r (placeLl topX (h.ll r).load))

/-- Loop of `set_materials` over the sorted materials, `/repo/pyslope/pyslope.py:694-705`. -/
def Heap.writeLayers (extH : K) : Nat → List Nat → Heap K → Heap K
  | _, [], h => h
  | i, r :: rest, h =>
    Heap.writeLayers extH (i + 1) rest (h.setMat r (mkLayer extH i (h.mat r).mat))

/-- A method that assigns neither to the three lists nor to an object in them: it runs on what the
slope sees, and what it leaves is in the slope's own attributes. -/
def HS.own {α : Type} (f : Slope K → Out K α) (s : HS K) : HOut K α :=
  let o := f s.view
  ({ s with obj := { s.obj with core := o.1 } }, o.2)

/-- `/repo/pyslope/pyslope.py:365-407`. The coordinates of the loads (402-403) are written at the
end here; 406-407 between do not read them. -/
def HS.applyBoundary (s : HS K) (height length : K) : HOut K Unit :=
  let o := s.view.applyBoundary height length
  ({ heap := (s.heap.placeUdls o.1.topX s.obj.us).placeLls o.1.topX s.obj.ls
     obj := { s.obj with core := o.1 } }, o.2)

/-- `/repo/pyslope/pyslope.py:315-407` `set_external_boundary`. -/
def HS.setExternalBoundary (s : HS K) (height angle length : PyVal K) : HOut K Unit :=
  match boundaryInputs height angle length with
  | .error e => (s, .error e)
  | .ok (h, l) => s.applyBoundary h l

/-- `/repo/pyslope/pyslope.py:300-313` `_reset_results`. -/
def HS.resetResults (s : HS K) : HS K :=
  { s with obj := { s.obj with core := s.obj.core.resetResults } }

/-- `/repo/pyslope/pyslope.py:878-924` `update_boundary_options`. -/
def HS.updateBoundaryOptions (s : HS K) (minExtL minExtH : PyVal K) : HOut K Unit :=
  let step1 : HOut K Unit :=
    if minExtH.truthy then
      match assertStrictlyPositiveNumber (0 : K) minExtH with
      | .error e => (s, .error e)
      | .ok () =>
        ({ s with obj := { s.obj with core := { s.obj.core with minExtH := minExtH.get! } } },
          .ok ())
    else (s, .ok ())
  step1.andThen fun s _ =>
  let step2 : HOut K Unit :=
    if minExtL.truthy then
      match assertStrictlyPositiveNumber (0 : K) minExtL with
      | .error e => (s, .error e)
      | .ok () =>
        ({ s with obj := { s.obj with core := { s.obj.core with minExtL := minExtL.get! } } },
          .ok ())
    else (s, .ok ())
  step2.andThen fun s _ =>
  let step3 : HOut K Unit :=
    match s.obj.core.extBoundary with
    | some _ =>
      s.setExternalBoundary (.num s.obj.core.height) (.num 30) (.num s.obj.core.length)
    | none => (s, .ok ())
  step3.andThen fun s _ => (s.resetResults, .ok ())

/-- One turn of the loop of `set_udls`, `/repo/pyslope/pyslope.py:471-479`: the load is appended
with the coordinates it happens to have. An argument that is not a `Udl` is `none`. -/
def HS.addUdl (s : HS K) (r : Option Nat) : HOut K Unit :=
  match r with
  | none => (s, .ok ())
  | some r =>
    let u := (s.heap.udl r).load
    if 0 < u.magnitude then
      let s : HS K := { s with obj := { s.obj with us := s.obj.us ++ [r] } }
      if s.obj.core.minExtL < u.minLength then s.updateBoundaryOptions (.num u.minLength) .none
      else (s, .ok ())
    else (s, .ok ())

/-- `/repo/pyslope/pyslope.py:452-487` `set_udls`. -/
def HS.setUdls (s : HS K) (rs : List (Option Nat)) : HOut K Unit :=
  (HS.forEach HS.addUdl rs s).andThen fun s _ =>
    let h := s.heap.placeUdls s.obj.core.topX s.obj.us
    let m := maxMagnitude (s.obj.us.map h.udl) s.obj.core.udlMax
    let s : HS K := { heap := h, obj := { s.obj with core := { s.obj.core with udlMax := m } } }
    (s.resetResults, .ok ())

/-- `/repo/pyslope/pyslope.py:505-545` `remove_udls`. The attribute `_udl_max` can become a
reference to one of the loads (542); the model keeps a copy of that load. -/
def HS.removeUdls (s : HS K) (rs : List Nat) (removeAll : Bool) : HOut K Unit :=
  let at' := fun r => (s.heap.udl r).load
  let l := rs.foldl (fun l r =>
    removeLoop (fun c => (at' c).matches (at' r)) (fun a b => (at' a).eq (at' b))
      l.length 0 l) s.obj.us
  let σ : Obj K := { s.obj with us := l }
  let σ : Obj K :=
    if removeAll then { σ with us := [], core := { σ.core with udlMax := .num 0 } } else σ
  let σ : Obj K := match σ.us with
    | [] => σ
    | r :: rest =>
      { σ with core := { σ.core with udlMax := .obj (maxUdl (at' r) (rest.map s.heap.udl)) } }
  (({ s with obj := σ } : HS K).resetResults, .ok ())

/-- One turn of the loop of `set_lls`, `/repo/pyslope/pyslope.py:566-574`. -/
def HS.addLl (s : HS K) (r : Option Nat) : HOut K Unit :=
  match r with
  | none => (s, .ok ())
  | some r =>
    let l := (s.heap.ll r).load
    if 0 < l.magnitude then
      let s : HS K := { s with obj := { s.obj with ls := s.obj.ls ++ [r] } }
      let minLength := l.offset * 3
      if s.obj.core.minExtL < minLength then s.updateBoundaryOptions (.num minLength) .none
      else (s, .ok ())
    else (s, .ok ())

/-- `/repo/pyslope/pyslope.py:547-579` `set_lls`. -/
def HS.setLls (s : HS K) (rs : List (Option Nat)) : HOut K Unit :=
  (HS.forEach HS.addLl rs s).andThen fun s _ =>
    let s : HS K := { s with heap := s.heap.placeLls s.obj.core.topX s.obj.ls }
    (s.resetResults, .ok ())

/-- `/repo/pyslope/pyslope.py:592-629` `remove_lls`. -/
def HS.removeLls (s : HS K) (rs : List Nat) (removeAll : Bool) : HOut K Unit :=
  let at' := fun r => (s.heap.ll r).load
  let l := rs.foldl (fun l r =>
    removeLoop (fun c => (at' c).matches (at' r)) (fun a b => (at' a).eq (at' b))
      l.length 0 l) s.obj.ls
  let σ : Obj K := { s.obj with ls := l }
  let σ : Obj K := if removeAll then { σ with ls := [] } else σ
  (({ s with obj := σ } : HS K).resetResults, .ok ())

/-- `/repo/pyslope/pyslope.py:631-710` `set_materials`. An argument that is not a `Material` is
`none`. -/
def HS.setMaterials (s : HS K) (args : List (Option Nat)) : HOut K Unit :=
  if args.any (·.isNone) then (s, .error .valueError)
  else
    let depth := fun r => (s.heap.mat r).mat.depth
    let rs := sortByKey depth (args.filterMap id ++ s.obj.ms)
    let depths := rs.map depth
    match depths.getLast? with
    | none => (s, .error .indexError)
    | some deepest =>
      let o : HOut K Unit :=
        if s.obj.core.extH < deepest then s.updateBoundaryOptions .none (.num deepest)
        else (s, .ok ())
      o.andThen fun s _ =>
      if setSizeNum depths < depths.length then (s, .error .valueError)
      else
        (({ heap := s.heap.writeLayers s.obj.core.extH 0 rs, obj := { s.obj with ms := rs } } :
          HS K).resetResults, .ok ())

/-- `/repo/pyslope/pyslope.py:712-772` `remove_material`. -/
def HS.removeMaterial (s : HS K) (material : Option Nat) (depth : Option K) (removeAll : Bool) :
    HOut K Unit :=
  let depth := match material with
    | some r => some (s.heap.mat r).mat.depth
    | none => depth
  let ms := match depth with
    | none => s.obj.ms
    | some d =>
      if pyEq d 0 then s.obj.ms
      else match s.obj.ms.find? (fun r => pyEq (s.heap.mat r).mat.depth d) with
        | none => s.obj.ms
        | some r => removeFirst (fun q => (s.heap.mat r).eq (s.heap.mat q)) s.obj.ms
  let ms := if removeAll then [] else ms
  (({ s with obj := { s.obj with ms := ms } } : HS K).resetResults, .ok ())

/-- `if udl.dynamic: udl.offset = offset`, `/repo/pyslope/pyslope.py:1833-1834`. -/
def Heap.moveUdl (h : Heap K) (r : Nat) (offset : K) : Heap K :=
  if (h.udl r).load.dynamic then
    h.setUdl r { h.udl r with load := { (h.udl r).load with offset := offset } }
  else h

/-- `if ll.dynamic: ll.offset = offset`, `/repo/pyslope/pyslope.py:1838-1839`. -/
def Heap.moveLl (h : Heap K) (r : Nat) (offset : K) : Heap K :=
  if (h.ll r).load.dynamic then
    h.setLl r { h.ll r with load := { (h.ll r).load with offset := offset } }
  else h

/-- `/repo/pyslope/pyslope.py:1823-1841` `_set_dynamic_offset`. -/
def HS.setDynamicOffset (s : HS K) (offset : K) : HOut K Unit :=
  let us := s.obj.us
  let ls := s.obj.ls
  (s.removeUdls [] true).andThen fun s _ =>
  (s.removeLls [] true).andThen fun s _ =>
  (HS.forEach (fun s r =>
    ({ s with heap := s.heap.moveUdl r offset } : HS K).setUdls [some r]) us s).andThen fun s _ =>
  HS.forEach (fun s r =>
    ({ s with heap := s.heap.moveLl r offset } : HS K).setLls [some r]) ls s

/-- `/repo/pyslope/pyslope.py:1757-1760`, `1767-1770`, `1796-1799`. -/
def HS.tryOffset (s : HS K) (o : K) : HOut K K :=
  (s.setDynamicOffset o).andThen fun s _ =>
  (s.own (·.analyseSlope none)).andThen fun s _ =>
  match s.view.getMinFos with
  | .error e => (s, .error e)
  | .ok none => (s, .error .typeError)
  | .ok (some f) =>
    ({ s with obj := { s.obj with core :=
        { s.obj.core with dynResults := dictSet s.obj.core.dynResults o f } } }, .ok f)

/-- The loop `for _ in range(10)`, `/repo/pyslope/pyslope.py:1785-1817`. -/
def HS.dynLoop (crit : K) (decimal : Bool) :
    (todo : Nat) → (left right prevFos : K) → HS K → HOut K Unit
  | 0, _, _, _, s => (s, .ok ())
  | todo + 1, left, right, prevFos, s =>
    let mid : Except PyErr K := do
      let lf ← dictGet s.obj.core.dynResults left
      let rf ← dictGet s.obj.core.dynResults right
      let m ← pyDiv (lf - rf) (left - right)
      if decimal then throw .typeError
      let q ← pyDiv (crit - rf) m
      pure (right + q)
    match mid with
    | .error e => (s, .error e)
    | .ok midpoint =>
      (s.tryOffset midpoint).andThen fun s fos =>
      if !(pyEq prevFos fos)
          && (decide (pyAbs (prevFos - fos) ≤ 0.01) || decide (pyAbs (fos - crit) ≤ 0.01))
          && decide (crit ≤ pyRound fos 3) then (s, .ok ())
      else if fos < crit then s.dynLoop crit decimal todo left midpoint fos
      else s.dynLoop crit decimal todo midpoint right fos

/-- `/repo/pyslope/pyslope.py:1733-1821` `analyse_dynamic`. -/
def HS.analyseDynamic (s : HS K) (crit : K) (decimal : Bool) : HOut K (Option Nat) :=
  let s : HS K := { s with obj := { s.obj with core := { s.obj.core with dynResults := [] } } }
  match maxOffset s.obj.core.topX s.view.udls s.obj.core.length with
  | .error e => (s, .error e)
  | .ok left =>
    let left := left - 0.01
    (s.tryOffset 0).andThen fun s fos =>
    if crit < fos then (s, .ok (some 0))
    else
      (s.tryOffset left).andThen fun s fos =>
      if fos < crit then (s, .ok (some 1))
      else
        (s.dynLoop crit decimal 10 left 0 0).andThen fun s _ =>
        ({ s with obj := { s.obj with core := s.obj.core.sortDynResults } }, .ok none)

end PySlope
