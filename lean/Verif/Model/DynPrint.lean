import Verif.Model.Dynamic

/-! # `print_dynamic_results` and the last getters (`/repo/pyslope/pyslope.py:2016-2027`, `2103-2121`) -/

namespace PySlope
open Lit

variable {K : Type} [PyNum K]

/-- `/repo/pyslope/pyslope.py:2016-2017` `get_dynamic_results`: the dictionary, as its items. -/
def Slope.getDynamicResults (s : Slope K) : List (K × K) := s.dynResults

/-- `x + "0" * (5 - len(x))`, `/repo/pyslope/pyslope.py:2022`, `2025`. -/
def padZeros (x : List Char) : List Char := x ++ List.replicate (5 - x.length) '0'

/-- `/repo/pyslope/pyslope.py:2019-2027` `print_dynamic_results`: the lines printed. `str` is Python's
`str` on numbers. -/
def Slope.printDynamicResults (str : K → List Char) (s : Slope K) : List (List Char) :=
  s.getDynamicResults.map fun (k, v) =>
    "Offset: ".toList ++ padZeros (str (pyRound k 3)) ++ " m, FOS: ".toList ++ padZeros (str (pyRound v 3))

/-- `/repo/pyslope/pyslope.py:2103-2111` `get_top_coordinates`. -/
def Slope.getTopCoordinates (s : Slope K) : K × K := (s.topX, s.topY)

/-- `/repo/pyslope/pyslope.py:2113-2121` `get_bottom_coordinates`. -/
def Slope.getBottomCoordinates (s : Slope K) : K × K := (s.botX, s.botY)

end PySlope
