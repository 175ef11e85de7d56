import Verif.Model.DynPrint
import Verif.Spec.Dynamic
import Verif.Spec.Draw

/-! # Specification: the printed results of a dynamic analysis -/

namespace PySlope

/-- `t` is the number `x` written out: digits, a point, digits. -/
def Decimal (x : ℝ) (t : List Char) : Prop :=
  ∃ ds fs, IsDigits ds ∧ IsDigits fs ∧ t = ds ++ '.' :: fs ∧ x = digitsVal ds + digitsVal fs / 10 ^ fs.length

/-- What is assumed of Python's `str` on floats: a number of thousandths from 0 to 10^16 is written out
(smaller than 0.0001 and not 0, or greater, and it is written with an exponent). -/
def PythonStr (str : ℝ → List Char) : Prop :=
  ∀ n : ℕ, (n : ℝ) / 1000 < 10 ^ 16 → Decimal ((n : ℝ) / 1000) (str ((n : ℝ) / 1000))

/-- A printed line: `Offset: x m, FOS: y`, where `x` and `y` are numbers within 0.0005 of the offset and
the factor of safety, in at least five characters. -/
def LineSays (line : List Char) (o f : ℝ) : Prop :=
  ∃ x y X Y, line = "Offset: ".toList ++ X ++ " m, FOS: ".toList ++ Y ∧ Decimal x X ∧ Decimal y Y ∧
    5 ≤ X.length ∧ 5 ≤ Y.length ∧ |x - o| ≤ 0.0005 ∧ |y - f| ≤ 0.0005

end PySlope
