import Verif.Model.Plot

/-! # The texts of the plots (`/repo/pyslope/pyslope.py:2340-2380`, `2754-2833`, `2866-2925`)

The note on the critical failure and the legend of the colours: what they say and where they are.
Fonts, line widths and the white box behind the legend are left out. -/

namespace PySlope
open Lit

variable {K : Type} [PyNum K]

/-- The note written by `_plot_annotate_FOS`, `/repo/pyslope/pyslope.py:2340-2380`. The texts are
`f"{FOS:.3f}"` and, when hovering, `Centre: (.., ..)`, `Radius: ..`, `FOS: ..`, all with three
digits; the numbers printed are kept. -/
structure FosNote (K : Type) where
  /-- `x=[c_x]`, and the first number of the centre. -/
  x : K
  /-- `y=[c_y]`, and the second number of the centre. -/
  y : K
  radius : K
  /-- The number of the text. -/
  fos : K
  /-- The key of the colour of the text. -/
  colour : K

/-- The note on a plane, `/repo/pyslope/pyslope.py:2871-2874` (the rounding before the call), `2360`
(the colour) and `2362-2378` (the text). -/
def noteOf (p : Plane K) (fos : K) : Except PyErr (FosNote K) := do
  let fos := pyRound fos 3
  let c ← colourOf fos
  pure { x := pyRound p.cx 3, y := pyRound p.cy 3, radius := pyRound p.radius 3, fos := fos, colour := c }

/-- The note on the figure of `plot_critical`, `/repo/pyslope/pyslope.py:2241-2260`, `2919-2923`. -/
def Slope.criticalNote (s : Slope K) : Except PyErr (FosNote K) := do
  let _ ← s.plotCritical
  match s.search with
  | [] => throw .indexError
  | p :: _ =>
    match p.fos with
    | none => throw .keyError
    | some none => throw .typeError
    | some (some f) => noteOf p f

/-- Insertion order of the keys of a dict: a key set again keeps its place. -/
def dictOrder {α : Type} (eq : α → α → Bool) (l : List α) : List α :=
  l.foldl (fun acc k => if acc.any (fun a => eq a k) then acc else acc ++ [k]) []

/-- `COLOUR_FOS_DICT.items()`, the keys only: `/repo/pyslope/utilities.py:131-146`, iterated at
`/repo/pyslope/pyslope.py:2774`. -/
def colourItems : List K := dictOrder pyEq colourKeys

/-- The boxes of the legend, `/repo/pyslope/pyslope.py:2757-2758`, `2774-2789`: the key of the fill
colour, `y0` and `y1` (in fractions of the height of the figure). -/
def legendBoxes : List (K × K × K) :=
  colourItems.map fun k => (k, 0.9 + k * (0.5 - 0.9) / 5, 0.9 + (k + 0.1) * (0.5 - 0.9) / 5)

/-- The numbers beside the legend, `/repo/pyslope/pyslope.py:2791-2819`: the text `f"{k}"` and the
level. `k % 1` is `k` minus its floor. -/
def legendLabels : List (K × K) :=
  (colourItems.filter fun k : K => pyEq (pyRound k 1 - ofInt (PyNum.floor (pyRound k 1))) 0).map fun k =>
    (k, if k < 2.5 then 0.9 + (k - 0.15) * (0.5 - 0.9) / 5
      else if 4.5 < k then 0.9 + k * (0.5 - 0.9) / 5
      else 0.9 + (k + 0.1) * (0.5 - 0.9) / 5)

end PySlope
