import Verif.Model.State

/-! # Failure planes (`/repo/pyslope/pyslope.py:1015-1230`, `1843-1918`) -/

namespace PySlope
open Lit

variable {K : Type} [PyNum K]

/-- Loop that drops close points, `/repo/pyslope/pyslope.py:1911-1916`. `x` is the abscissa of the
point before, dropped or not. -/
def dropClose (x : K) : List (K × K) → List (K × K)
  | [] => []
  | p :: rest =>
    if 0.01 < pyAbs (p.1 - x) then p :: dropClose p.1 rest else dropClose p.1 rest

/-- `/repo/pyslope/pyslope.py:1843-1918` `_get_circle_external_intersection`. -/
def Slope.circleExternalIntersection (s : Slope K) (cx cy r : K) :
    Except PyErr (List (K × K)) := do
  -- 1865-1878
  let top ← circleLine (0, s.topY) (s.topX, s.topY) cx cy r
  let i1 := match pySort pairLt top with
    | [] => []
    | p :: _ => if 0 ≤ p.1 ∧ p.1 ≤ s.topX then [p] else []
  -- 1880-1899
  let bot ← circleLine (s.botX, s.botY) (s.extL, s.botY) cx cy r
  let i2 := match (pySort pairLt bot).getLast? with
    | none => []
    | some p => if s.botX ≤ p.1 ∧ p.1 ≤ s.extL then [p] else []
  -- 1901-1907
  let mid ← circleLine (s.topX, s.topY) (s.botX, s.botY) cx cy r
  let i3 := mid.filter (fun p => decide (s.topX ≤ p.1) && decide (p.1 ≤ s.botX))
  -- 1910-1918
  pure (dropClose (-1) (sortByKey Prod.fst (i1 ++ i2 ++ i3)))

/-- Loop of `_generate_planes` over the circles, `/repo/pyslope/pyslope.py:1138-1167`, for
`i = num - todo, ..., num - 1`. The end points `lc`, `rc` are overwritten by those of the last
circle kept (1156-1157), and the middle of the chord is taken from them. -/
def Slope.planeLoop (s : Slope K) (beta startChordToEdge C : K) (num : Nat) :
    (todo : Nat) → (lc rc : K × K) → Except PyErr (List (Plane K))
  | 0, _, _ => pure []
  | todo + 1, lc, rc => do
    let chordToEdge := startChordToEdge * ((todo + 1 : Nat) : K) / ((num : Nat) : K)
    let radius ← circleRadiusFromAbcd chordToEdge C
    let centre := circleCentre beta (midCoord lc rc) (radius - chordToEdge)
    let iList ← s.circleExternalIntersection centre.1 centre.2 radius
    if setSize iList < 2 then s.planeLoop beta startChordToEdge C num todo lc rc
    else
      match iList with
      | lc' :: rc' :: _ => do
        let rest ← s.planeLoop beta startChordToEdge C num todo lc' rc'
        pure ({ lc := lc', rc := rc', cx := centre.1, cy := centre.2, radius := radius,
                fos := none } :: rest)
      | _ => throw .indexError

/-- `/repo/pyslope/pyslope.py:1083-1169` `_generate_planes`. `range(0, n)` is empty for `n ≤ 0`. -/
def Slope.generatePlanes (s : Slope K) (lc rc : K × K) (numCircles : Int) :
    Except PyErr (List (Plane K)) := do
  -- 1118-1136
  let q ← pyDiv (lc.2 - rc.2) (rc.1 - lc.1)
  let beta := PyNum.atan q
  let halfCoord := PyNum.sqrt (sq (lc.2 - rc.2) + sq (rc.1 - lc.1)) / 2
  let startRadius := halfCoord / PyNum.cos beta * 1.1
  let startChordToCentre := PyNum.sqrt (sq startRadius - sq halfCoord)
  let startChordToEdge := startRadius - startChordToCentre
  let C := sq halfCoord
  s.planeLoop beta startChordToEdge C numCircles.toNat numCircles.toNat lc rc

/-- `/repo/pyslope/pyslope.py:1171-1194` `add_single_entry_exit_plane`. A point outside the model
has ordinate `None`, and the subtraction at 1118 raises `TypeError`. -/
def Slope.addSingleEntryExitPlane (s : Slope K) (lx rx : K) (numCircles : Int) : Out K Unit :=
  match s.getExternalY lx, s.getExternalY rx with
  | some ly, some ry =>
    match s.generatePlanes (lx, ly) (rx, ry) numCircles with
    | .error e => (s, .error e)
    | .ok ps =>
      (({ s with individual := s.individual ++ ps } : Slope K).resetResults, .ok ())
  | _, _ => (s, .error .typeError)

/-- `/repo/pyslope/pyslope.py:1196-1223` `add_single_circular_plane`. With fewer than two
intersections the method returns before the reset. -/
def Slope.addSingleCircularPlane (s : Slope K) (cx cy r : K) : Out K Unit :=
  match s.circleExternalIntersection cx cy r with
  | .error e => (s, .error e)
  | .ok iList =>
    if setSize iList < 2 then (s, .ok ())
    else
      match iList with
      | lc :: rc :: _ =>
        (({ s with individual := s.individual ++
            [{ lc := lc, rc := rc, cx := cx, cy := cy, radius := r, fos := none }] } :
          Slope K).resetResults, .ok ())
      | _ => (s, .error .indexError)

/-- `/repo/pyslope/pyslope.py:1225-1230` `remove_individual_planes`. -/
def Slope.removeIndividualPlanes (s : Slope K) : Out K Unit :=
  (({ s with individual := [] } : Slope K).resetResults, .ok ())

/-- `num_circles`, `/repo/pyslope/pyslope.py:1021`: `max(5, int(iterations / 800))`. -/
def numCircles (iterations : Nat) : Nat := max 5 (iterations / 800)

/-- `num_points_top` before loads are taken off, `/repo/pyslope/pyslope.py:1024-1029`:
`int(sqrt(iterations / num_circles))`. On integers below 100000 the double computation gives the
same integer as this exact one. -/
def numPointsTop (iterations : Nat) : Nat := Nat.sqrt (iterations / numCircles iterations)

/-- The loop `while top * bot * circles < iterations: bot += 1`,
`/repo/pyslope/pyslope.py:1032-1033`. `fuel` bounds the turns; `numPointsBot` gives enough. -/
def botLoop (top circles iterations : Nat) : (fuel : Nat) → (bot : Nat) → Nat
  | 0, bot => bot
  | fuel + 1, bot =>
    if top * bot * circles < iterations then botLoop top circles iterations fuel (bot + 1)
    else bot

/-- `num_points_bot`, `/repo/pyslope/pyslope.py:1030-1033`. -/
def numPointsBot (iterations : Nat) : Nat :=
  botLoop (numPointsTop iterations) (numCircles iterations) iterations iterations
    (numPointsTop iterations)

/-- Evenly spread entry points, `/repo/pyslope/pyslope.py:1046-1049`. With exactly one point the
division by `num_points_top - 1` raises `ZeroDivisionError`. -/
def leftCoords (n : Int) (x1 x2 y : K) : Except PyErr (List (K × K)) :=
  if n = 1 then .error .zeroDivision
  else .ok ((List.range n.toNat).map fun k =>
    (x1 + (((k : Nat) : K) / ofInt (n - 1)) * (x2 - x1), y))

/-- Exit points, `/repo/pyslope/pyslope.py:1054-1061`, with the ordinate `None` for an abscissa
outside the model. -/
def Slope.rightCoords (s : Slope K) (n : Nat) (x3 x4 : K) : List (K × Option K) :=
  (List.range n).map fun k =>
    let x := x3 + (((k + 1 : Nat) : K) / ((n : Nat) : K)) * (x4 - x3)
    (x, s.getExternalY x)

/-- Inner loop of the search, `/repo/pyslope/pyslope.py:1074-1079`. With an ordinate `None`,
`dist_points` raises `TypeError`. -/
def Slope.planesFrom (s : Slope K) (lc : K × K) (num : Nat) :
    List (K × Option K) → Except PyErr (List (Plane K))
  | [] => pure []
  | (_, none) :: _ => throw .typeError
  | (x, some y) :: rest => do
    let here ← (if s.minFailureDist < distPoints lc (x, y)
      then s.generatePlanes lc (x, y) (num : Int) else pure [])
    let others ← s.planesFrom lc num rest
    pure (here ++ others)

/-- Outer loop of the search, `/repo/pyslope/pyslope.py:1073-1079`. -/
def Slope.planesAll (s : Slope K) (num : Nat) (rights : List (K × Option K)) :
    List (K × K) → Except PyErr (List (Plane K))
  | [] => pure []
  | lc :: rest => do
    let here ← s.planesFrom lc num rights
    let others ← s.planesAll num rights rest
    pure (here ++ others)

/-- All the entry points of the search: the even spread, then one point next to every load
(`/repo/pyslope/pyslope.py:1037-1049`, `1066-1070`). -/
def Slope.entryPoints (s : Slope K) : Except PyErr (List (K × K)) := do
  let nTop : Int :=
    (numPointsTop s.iterations.toNat : Int) - (s.lls.length : Int) - (s.udls.length : Int)
  let even ← leftCoords nTop s.lim1 s.lim2 s.topY
  pure (even ++ s.lls.map (fun l => (l.coord - 0.001, s.topY))
    ++ s.udls.map (fun u => (u.left - 0.001, s.topY)))

/-- All the exit points of the search (`/repo/pyslope/pyslope.py:1054-1061`). -/
def Slope.exitPoints (s : Slope K) : List (K × Option K) :=
  s.rightCoords (numPointsBot s.iterations.toNat) s.lim3 s.lim4

/-- `/repo/pyslope/pyslope.py:1015-1081` `_set_entry_exit_planes`: the planes it puts in
`_search`. -/
def Slope.entryExitPlanes (s : Slope K) : Except PyErr (List (Plane K)) := do
  let lefts ← s.entryPoints
  s.planesAll (numCircles s.iterations.toNat) s.exitPoints lefts

end PySlope
