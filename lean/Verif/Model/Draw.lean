import Verif.Model.Plot

/-! # The marks of a plot (`/repo/pyslope/pyslope.py:2435-2752`, `/repo/pyslope/utilities.py:148-441`)

What `plot_boundary` draws beside the outlines: loads, their labels, the marks of the limits and the
table of materials. Fonts, hover texts and line styles other than widths and colours are not modelled. -/

namespace PySlope
open Lit

variable {K : Type} [PyNum K]

/-- Python `int(x)`: towards zero. -/
def pyInt (x : K) : Int := if x < 0 then -PyNum.floor (-x) else PyNum.floor x

/-- The part of a text after its first point and before the next one, `mag.split(".")[1]`,
`/repo/pyslope/utilities.py:150-154`; `none` without a point. -/
def afterPoint (mag : List Char) : Option (List Char) :=
  match mag.dropWhile (· ≠ '.') with
  | [] => none
  | _ :: rest => some (rest.takeWhile (· ≠ '.'))

/-- `decimals[i] == decimals[i + 1] == decimals[i + 2] == "0"`, `/repo/pyslope/utilities.py:156`. -/
def threeZeros (d : List Char) (i : Nat) : Bool :=
  d[i]? == some '0' && d[i + 1]? == some '0' && d[i + 2]? == some '0'

/-- `/repo/pyslope/utilities.py:148-159` `get_precision`, of the text `str(n)`. -/
def getPrecision (mag : List Char) : Nat :=
  match afterPoint mag with
  | none => 0
  | some d =>
    match (List.range (d.length - 3)).find? (threeZeros d) with
    | some i => i
    | none => d.length

/-- A line from the point `(x, y)` of the figure to a point `(dx, dy)` pixels away. -/
structure Stroke (K : Type) where
  x : K
  y : K
  dx : K
  dy : K
  color : String
  width : Nat

/-- A text beside the point `(x, y)`: a number written with so many digits, and a unit. -/
structure Note (K : Type) where
  x : K
  y : K
  xshift : K
  yshift : K
  shown : K
  digits : Nat
  units : String

/-- A rectangle over the stretch from `x0` to `x1`, standing on the level `y`, so many pixels high. -/
structure Bar (K : Type) where
  x0 : K
  x1 : K
  y : K
  height : K
  color : String

/-- What is drawn for loads: strokes, rectangles, the lines along their tops and texts. -/
structure LoadDrawing (K : Type) where
  strokes : List (Stroke K)
  bars : List (Bar K)
  tops : List (Bar K)
  notes : List (Note K)

/-- `/repo/pyslope/utilities.py:162-227` `draw_line` with no offsets. -/
def drawLine (x y angle length : K) (color : String) (width : Nat) : Stroke K :=
  { x := x, y := y
    dx := ofInt (pyInt (length * PyNum.cos (radians angle)))
    dy := ofInt (pyInt (length * PyNum.sin (radians angle)))
    color := color, width := width }

/-- `/repo/pyslope/utilities.py:230-310` `draw_arrowhead`. -/
def drawArrowhead (x y angle length : K) (color : String) (width : Nat) : List (Stroke K) :=
  [drawLine x y (225 + angle) length color width, drawLine x y (135 + angle) length color width]

/-- `/repo/pyslope/utilities.py:313-441` `draw_arrow`; `label` is the precision and the units if
`show_values` is set. The text is `f"{force:.{p}f} {units}"`: the force rounded to `p` digits. -/
def drawArrow (angle force x y : K) (color : String) (width : Nat) (arrowhead arrowlength : K)
    (label : Option (Nat × String)) : List (Stroke K) × List (Note K) :=
  if 0 < force ∨ force < 0 then
    let d : K := if 0 < force then 1 else -1
    let strokes := drawArrowhead x y angle (arrowhead * d) color width ++
      [drawLine x y angle (-1 * arrowlength * d) color width]
    match label with
    | none => (strokes, [])
    | some (p, units) =>
      let x1 : K := ofInt (pyInt (-arrowlength * d * PyNum.cos (radians angle))) * 1.1
      let y1 : K := ofInt (pyInt (-arrowlength * d * PyNum.sin (radians angle))) * 1.3
      let y1 : K := if pyAbs y1 < 5 then (if 0 ≤ y1 then 10 else -10) else y1
      (strokes, [{ x := x, y := y, xshift := x1, yshift := y1, shown := pyRound force p, digits := p,
                   units := units }])
  else ([], [])

/-- `/repo/pyslope/pyslope.py:2524-2608` `_plot_udl`; `len` is `100 * (udl.magnitude / self._udl_max)`
and `digits` the precision of the load (168). -/
def Slope.drawUdl (s : Slope K) (digits : Nat) (u : PUdl K) (len : K) : LoadDrawing K :=
  let a := drawArrow (-90) u.load.magnitude u.left s.topY u.load.color 2 10 len none
  let b := drawArrow (-90) u.load.magnitude ((u.left + u.right) / 2) s.topY "black" 0 0 (len + 10)
    (some (digits, "kPa"))
  let c := drawArrow (-90) u.load.magnitude u.right s.topY u.load.color 2 10 len none
  let bar : Bar K := { x0 := u.left, x1 := u.right, y := s.topY, height := len, color := u.load.color }
  { strokes := a.1 ++ b.1 ++ c.1, bars := [bar], tops := [bar], notes := a.2 ++ b.2 ++ c.2 }

/-- `/repo/pyslope/pyslope.py:2492-2522` `_plot_ll`. -/
def Slope.drawLl (s : Slope K) (digits : Nat) (l : PLl K) : LoadDrawing K :=
  let a := drawArrow (-90) l.load.magnitude l.coord s.topY "black" 2 10 150 (some (digits, "kN/m"))
  let b := drawArrow (-90) l.load.magnitude l.coord s.topY l.load.color 2 10 150 none
  { strokes := a.1 ++ b.1, bars := [], tops := [], notes := a.2 ++ b.2 }

/-- A mark of a limit: its glyph at a point; the ordinate is `None` off the model. -/
structure LimitMark (K : Type) where
  glyph : String
  x : K
  y : Option K

/-- `/repo/pyslope/pyslope.py:2435-2490` `_plot_limits`. -/
def Slope.limitMarks (s : Slope K) : List (LimitMark K) :=
  let at_ (g : String) (x : K) : LimitMark K := { glyph := g, x := x, y := s.getExternalY x }
  let inner := !(pyEq s.lim2 s.lim3)
  let right := if inner then [s.lim1, s.lim3] else [s.lim1]
  let left := if inner then [s.lim4, s.lim2] else [s.lim4]
  right.map (at_ "▶") ++ left.map (at_ "◀") ++ (left ++ right).map (at_ "|")

/-- A row of the table of materials: the ordinate of its texts, as a part of the height of the plot,
and what they say. -/
structure TableRow (K : Type) where
  y : K
  name : String
  color : String
  unitWeight : K
  cohesion : K
  frictionAngle : K

/-- The rows of `/repo/pyslope/pyslope.py:2716-2750`, from the ordinate of the row above. -/
def tableRows : List (Layer K) → (y : K) → List (TableRow K)
  | [], _ => []
  | m :: rest, y =>
    let y := y - 0.05
    { y := y, name := m.mat.name, color := m.color, unitWeight := m.mat.unitWeight,
      cohesion := m.mat.cohesion, frictionAngle := m.mat.frictionAngle } :: tableRows rest y

/-- The top of the table, `/repo/pyslope/pyslope.py:2613-2622`. -/
def Slope.tableTop (s : Slope K) : K := 0.1 + 0.05 * ((s.materials.length + 1 : Nat) : K)

/-- The lines under the header and between the rows, `/repo/pyslope/pyslope.py:2702-2714`. -/
def Slope.tableLines (s : Slope K) : List K :=
  (List.range s.materials.length).map fun r => s.tableTop - 0.05 - ((r : Nat) : K) * 0.05

/-- Everything `plot_boundary` draws. -/
structure FullPlot (K : Type) where
  ground : BoundaryPlot K
  loads : List (LoadDrawing K)
  limits : List (LimitMark K)
  tableLines : List K
  table : List (TableRow K)

/-- `/repo/pyslope/pyslope.py:2123-2239` `plot_boundary(material_table)`, with all it draws. `str` is
Python's `str` of a magnitude. The exceptions are those of `Slope.plotBoundary`: what is added here
raises none. -/
def Slope.plotFull (s : Slope K) (str : K → List Char) (materialTable : Bool) :
    Except PyErr (FullPlot K) := do
  let b ← s.plotBoundary
  if s.materials.isEmpty then pure { ground := b, loads := [], limits := [], tableLines := [], table := [] }
  else
    pure
      { ground := b
        loads := (s.udls.zip b.arrows).map (fun p =>
            s.drawUdl (getPrecision (str p.1.load.magnitude)) p.1 p.2) ++
          s.lls.map fun l => s.drawLl (getPrecision (str l.load.magnitude)) l
        limits := s.limitMarks
        tableLines := if materialTable then s.tableLines else []
        table := if materialTable then tableRows s.materials (s.tableTop - 0.05 / 2) else [] }

end PySlope
