import Verif.Model.Analysis

/-! # What the plots show (`/repo/pyslope/pyslope.py:2123-2925`, `/repo/pyslope/utilities.py:86-146`)

Only the data handed to plotly is modelled: the coordinates of the lines, the colour keys and the
lengths that are computed, and the exceptions raised on the way. The figure, its layout, texts and
annotations are not. -/

namespace PySlope
open Lit

variable {K : Type} [PyNum K]

/-- `/repo/pyslope/utilities.py:86-113` `generate_circle_coordinates` with its default of 90 points:
the degrees 1, 3, ..., 179. -/
def circleCoordinates (cx cy radius : K) : List (K × K) :=
  (List.range 90).map fun i =>
    let a : K := radians ((2 * i + 1 : Nat) : K)
    (pyRound (cx - PyNum.cos a * radius) 3, pyRound (cy - PyNum.sin a * radius) 3)

/-- The keys of `COLOUR_FOS_DICT`, `/repo/pyslope/utilities.py:116-146`: the colours go from 0 to 5
in steps of one, each step in tenths. The colours themselves come from the package `colour`. -/
def colourKeys : List K :=
  (List.range 5).flatMap fun p => (List.range 11).map fun f =>
    pyRound (((f : Nat) : K) / 10 + ((p : Nat) : K)) 1

/-- `COLOUR_FOS_DICT[k]`: the key found, or `KeyError`. -/
def colourAt (k : K) : Except PyErr K :=
  match (colourKeys : List K).find? (fun c => pyEq c k) with
  | some c => .ok c
  | none => .error .keyError

/-- `COLOUR_FOS_DICT[min(round(FOS, 1), MAX_COLOUR_KEY)]`,
`/repo/pyslope/pyslope.py:2297,2360`, with `MAX_COLOUR_KEY = 5.0` (26). -/
def colourOf (fos : K) : Except PyErr K := colourAt (pyMin (pyRound fos 1) 5)

/-- The points of a circle kept for a plot, `/repo/pyslope/pyslope.py:2309-2316`, `2884-2893`. -/
def arcPoints (lc rc : K × K) (pts : List (K × K)) : List (K × K) :=
  pts.filter fun p => decide (p.1 ≤ rc.1) && decide (lc.1 ≤ p.1) && decide (p.2 ≤ lc.2)

/-- The line drawn for a plane by `plot_all_planes`, `/repo/pyslope/pyslope.py:2299-2319`
(and by the web application, `/repo/slope/views.py:75-96`). -/
def planeTrace (p : Plane K) : List (K × K) :=
  p.lc :: arcPoints p.lc p.rc (circleCoordinates p.cx p.cy p.radius) ++ [p.rc]

/-- The line drawn by `_plot_failure_plane` with `show_center=True` and the key of its colour,
`/repo/pyslope/pyslope.py:2871-2899`, then the colour of the annotation (2360). With no point of the
circle between the ends, `x_[0]` raises `IndexError`. -/
def failurePlane (p : Plane K) (fos : K) : Except PyErr (List (K × K) × K) := do
  let cx := pyRound p.cx 3
  let cy := pyRound p.cy 3
  let radius := pyRound p.radius 3
  let fos := pyRound fos 3
  let color ← (if 5 < fos then colourAt 5 else colourAt (pyRound fos 1))
  match arcPoints p.lc p.rc (circleCoordinates cx cy radius) with
  | [] => throw .indexError
  | q :: arc => do
    let _ ← colourOf fos
    pure ((q :: arc) ++ [p.rc, (cx, cy), p.lc, q], color)

/-- `sorted(bot, reverse=True)` on the bottom line `[(0, y), (x, y)]` of a layer,
`/repo/pyslope/pyslope.py:2167-2187`. `x` is `None` when the level is not on the slope, and
comparing it with 0 raises `TypeError`. -/
def bottomLine (x : Option K) (y : K) : Except PyErr (List (K × K)) :=
  match x with
  | none => .error .typeError
  | some x => .ok ((pySort pairLt [((0 : K), y), (x, y)]).reverse)

/-- One turn of the loop over the materials, `/repo/pyslope/pyslope.py:2163-2211`: the outline of
the layer, and the line its successor starts from. `top[1][1]` is the level of the second point of
the line above. Python's `sorted(.., reverse=True)` keeps equal points in order; the two points are
equal only if they are the same point. -/
def Slope.layerOutline (s : Slope K) (top : List (K × K)) (rl : K) (isLast : Bool) :
    Except PyErr (List (K × K) × List (K × K)) := do
  let x ← s.getExternalX rl
  let level ← (match top with
    | _ :: q :: _ => pure q.2
    | _ => throw .indexError)
  let top :=
    if (s.botY ≤ level ∧ rl < s.botY) ∨ (isLast = true ∧ s.botY < level)
    then top ++ [(s.botX, s.botY), (s.extL, s.botY)] else top
  let bot ← (if isLast then pure ((pySort pairLt [(s.extL, (0 : K)), (0, 0)]).reverse)
    else bottomLine x rl)
  pure (top ++ bot, pySort pairLt bot)

/-- The loop over the materials, `/repo/pyslope/pyslope.py:2163-2216`. -/
def Slope.outlinesFrom (s : Slope K) : List (Layer K) → (top : List (K × K)) →
    Except PyErr (List (List (K × K)))
  | [], _ => pure []
  | m :: rest, top => do
    let (o, top) ← s.layerOutline top m.rl rest.isEmpty
    let others ← s.outlinesFrom rest top
    pure (o :: others)

/-- The outlines of the layers, `/repo/pyslope/pyslope.py:2154-2216`. -/
def Slope.outlines (s : Slope K) : Except PyErr (List (List (K × K))) :=
  s.outlinesFrom s.materials [(0, s.topY), (s.topX, s.topY)]

/-- The arrow lengths of the uniform loads, `/repo/pyslope/pyslope.py:2524-2568`: each is divided by
`_udl_max`. -/
def Slope.arrowLengths (s : Slope K) : List (PUdl K) → Except PyErr (List K)
  | [] => pure []
  | u :: rest => do
    let q ← (match s.udlMax with
      | .unset => throw .attributeError
      | .num m => pyDiv u.load.magnitude m
      | .obj _ => throw .typeError)
    let others ← s.arrowLengths rest
    pure (100 * q :: others)

/-- The line of the water table, `/repo/pyslope/pyslope.py:2227-2228`, `2382-2402`. -/
def Slope.waterLine (s : Slope K) : Except PyErr (List (K × K)) :=
  match s.waterRL with
  | none => pure []
  | some y =>
    if pyEq y 0 then pure []
    else do
      let x ← s.getExternalX y
      match x with
      | none => throw .typeError
      | some x =>
        if x ≤ s.botX then pure [(0, y), (x, y), (s.botX, s.botY), (s.extL, s.botY)]
        else pure [(0, y), (x, y)]

/-- What `plot_boundary` draws: `/repo/pyslope/pyslope.py:2123-2239`. -/
structure BoundaryPlot (K : Type) where
  outlines : List (List (K × K))
  arrows : List K
  water : List (K × K)

/-- `/repo/pyslope/pyslope.py:2123-2239` `plot_boundary`. Without materials only the boundary is
drawn. -/
def Slope.plotBoundary (s : Slope K) : Except PyErr (BoundaryPlot K) :=
  if s.materials.isEmpty then pure { outlines := [], arrows := [], water := [] }
  else do
    let o ← s.outlines
    let a ← s.arrowLengths s.udls
    let w ← s.waterLine
    pure { outlines := o, arrows := a, water := w }

/-- `/repo/pyslope/pyslope.py:2241-2260` `plot_critical`. -/
def Slope.plotCritical (s : Slope K) : Except PyErr (BoundaryPlot K × List (K × K) × K) := do
  let b ← s.plotBoundary
  match s.search with
  | [] => throw .indexError
  | p :: _ =>
    match p.fos with
    | none => throw .keyError
    | some none => throw .typeError
    | some (some f) => do
      let t ← failurePlane p f
      pure (b, t)

/-- The loop of `plot_all_planes`, `/repo/pyslope/pyslope.py:2286-2332`. `max_fos` is `none` for
`None`. -/
def planeTraces (maxFos : Option K) : List (Plane K) → Except PyErr (List (List (K × K) × K))
  | [] => pure []
  | p :: rest => do
    let here ← (match p.fos with
      | none => throw .keyError
      | some none =>
        match maxFos with
        | none => throw .typeError
        | some _ => throw .typeError
      | some (some f) =>
        let shown := match maxFos with
          | none => true
          | some m => decide (f < m)
        if shown then do
          let c ← colourOf f
          pure [(planeTrace p, c)]
        else pure [])
    let others ← planeTraces maxFos rest
    pure (here ++ others)

/-- `/repo/pyslope/pyslope.py:2262-2338` `plot_all_planes`; the traces are drawn in reverse. -/
def Slope.plotAllPlanes (s : Slope K) (maxFos : Option K) :
    Except PyErr ((BoundaryPlot K × List (K × K) × K) × List (List (K × K) × K)) := do
  let c ← s.plotCritical
  let ts ← planeTraces maxFos s.search
  pure (c, ts.reverse)

end PySlope
