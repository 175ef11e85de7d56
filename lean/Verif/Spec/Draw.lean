import Verif.Model.Draw
import Verif.Spec.Method
import Verif.Spec.Reachable

/-! # Specification: loads, limits and materials in a plot -/

namespace PySlope

/-- The number a text of decimal digits stands for. -/
def digitsVal (ds : List Char) : ℕ := ds.foldl (fun a c => 10 * a + (c.toNat - '0'.toNat)) 0

/-- A text of decimal digits. -/
def IsDigits (ds : List Char) : Prop := ∀ c ∈ ds, '0' ≤ c ∧ c ≤ '9'

/-- Python's `str` of a number that is not negative: digits for an `int`; digits with a point for a
`float`; and some other text, with an exponent, for a `float` under 0.0001 or from 10^16 on, where
every `float` is an integer. -/
inductive StrOf : ℝ → List Char → Prop
  | int (ds) : IsDigits ds → StrOf (digitsVal ds) ds
  | point (ds fs) : IsDigits ds → IsDigits fs →
      StrOf (digitsVal ds + digitsVal fs / 10 ^ fs.length) (ds ++ '.' :: fs)
  | small (n t) : 0 ≤ n → n < 0.0001 → StrOf n t
  | large (n : ℕ) (t) : StrOf n t

/-- The visible strokes, as points with offsets. -/
def visible (ss : List (Stroke ℝ)) : List (ℝ × ℝ × ℝ × ℝ) :=
  (ss.filter fun k => k.width ≠ 0).map fun k => (k.x, k.y, k.dx, k.dy)

/-- An arrow pointing down at `(x, y)`: two short strokes that meet there and a shaft over it, so many
pixels high. -/
def arrowDown (x y : ℝ) (h : ℤ) : List (ℝ × ℝ × ℝ × ℝ) := [(x, y, -7, 7), (x, y, 7, 7), (x, y, 0, h)]

/-- The text says `m` to within a thousandth, in the given units, beside `(x, y)`. -/
def Says (n : Note ℝ) (x y m : ℝ) (units : String) : Prop :=
  n.x = x ∧ n.y = y ∧ n.units = units ∧ |n.shown - m| < 0.001

/-- A uniform load is shown: one rectangle over the stretch it loads, standing on
the level of the crest, of height `100 * magnitude / most`,
an arrow down at each end and one text, straight above the rectangle. -/
def UdlShown (s : Slope ℝ) (most : ℝ) (u : PUdl ℝ) (d : LoadDrawing ℝ) : Prop :=
  d.bars = [{ x0 := u.left, x1 := u.right, y := s.extH, height := 100 * u.load.magnitude / most,
              color := u.load.color }] ∧
    d.tops = d.bars ∧
    visible d.strokes = arrowDown u.left s.extH ⌊100 * u.load.magnitude / most⌋ ++
      arrowDown u.right s.extH ⌊100 * u.load.magnitude / most⌋ ∧
    ∃ n, d.notes = [n] ∧ Says n ((u.left + u.right) / 2) s.extH u.load.magnitude "kPa" ∧
      n.xshift = 0 ∧ 100 * u.load.magnitude / most < n.yshift

/-- A line load is shown: an arrow down where it acts, drawn twice, and one text, straight above
the arrow. -/
def LlShown (s : Slope ℝ) (l : PLl ℝ) (d : LoadDrawing ℝ) : Prop :=
  d.bars = [] ∧ d.tops = [] ∧
    visible d.strokes = arrowDown l.coord s.extH 150 ++ arrowDown l.coord s.extH 150 ∧
    ∃ n, d.notes = [n] ∧ Says n l.coord s.extH l.load.magnitude "kN/m" ∧
      n.xshift = 0 ∧ 150 < n.yshift

end PySlope
