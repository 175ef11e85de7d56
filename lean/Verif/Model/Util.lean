import Verif.Model.Py

/-! # Geometry helpers of `/repo/pyslope/utilities.py` -/

namespace PySlope
open Lit

variable {K : Type} [PyNum K]

/-- `/repo/pyslope/utilities.py:27-28` `mid_coord`. -/
def midCoord (p q : K × K) : K × K := ((p.1 + q.1) / 2, (p.2 + q.2) / 2)

/-- `/repo/pyslope/utilities.py:31-32` `dist_points`. -/
def distPoints (p q : K × K) : K :=
  PyNum.sqrt (sq (pyAbs (p.1 - q.1)) + sq (pyAbs (p.2 - q.2)))

/-- `/repo/pyslope/utilities.py:35-42` `circle_radius_from_abcd`. -/
def circleRadiusFromAbcd (cToE C : K) : Except PyErr K := pyDiv (C + sq cToE) (2 * cToE)

/-- `/repo/pyslope/utilities.py:45-49` `circle_centre`. -/
def circleCentre (beta : K) (chordIntersection : K × K) (chordToCentre : K) : K × K :=
  let dy := PyNum.cos beta * chordToCentre
  let dx := PyNum.sin beta * chordToCentre
  (chordIntersection.1 + dx, chordIntersection.2 + dy)

/-- `/repo/pyslope/utilities.py:52-83` `cirle_line_intersection`: intersections of the circle
`(cx, cy, r)` with the line through `top` and `bot`. -/
def circleLine (top bot : K × K) (cx cy r : K) : Except PyErr (List (K × K)) :=
  let tx := top.1 - cx
  let ty := top.2 - cy
  let bx := bot.1 - cx
  let by' := bot.2 - cy
  let dx := bx - tx
  let dy := by' - ty
  let dr := PyNum.sqrt (sq dx + sq dy)
  let D := tx * by' - bx * ty
  let disc := pyAbs (sq r * sq dr) - pyAbs (sq D)
  if disc < 0 then .ok []
  else if pyEq (sq dr) 0 then .error .zeroDivision
  else
    let m : K := if dy < 0 then -1 else 1
    let x1 := (D * dy + m * dx * PyNum.sqrt disc) / sq dr + cx
    let x2 := (D * dy - m * dx * PyNum.sqrt disc) / sq dr + cx
    let y1 := (-(D * dx) + pyAbs dy * PyNum.sqrt disc) / sq dr + cy
    let y2 := (-(D * dx) - pyAbs dy * PyNum.sqrt disc) / sq dr + cy
    if pyEq disc 0 then .ok [(x1, y1)]
    else .ok [(x1, y1), (x2, y2)]

end PySlope
