import Verif.Model.Validation

/-! # `Material`, `Udl`, `LineLoad` (`/repo/pyslope/pyslope.py:29-238`) -/

namespace PySlope
open Lit

variable {K : Type} [PyNum K]

/-- A constructed `Material` (`/repo/pyslope/pyslope.py:67-101`).
`userColor` is `user_defined_color` when it is a colour and not empty, the only way it is used
(`pyslope.py:697-703`). The attribute `RL` set later by a slope is in `Layer`. -/
structure Material (K : Type) where
  unitWeight : K
  frictionAngle : K
  cohesion : K
  depth : K
  tanPhi : K
  name : String
  userColor : Option String

/-- A constructed `Udl` (`/repo/pyslope/pyslope.py:148-171`). `precision` is left out (plot text
only; `get_precision` is modelled separately). -/
structure Udl (K : Type) where
  magnitude : K
  offset : K
  length : Option K
  color : String
  dynamic : Bool

/-- A constructed `LineLoad` (`/repo/pyslope/pyslope.py:220-235`). -/
structure LineLoad (K : Type) where
  magnitude : K
  offset : K
  color : String
  dynamic : Bool

/-- The number in an argument that passed a validator. -/
def PyVal.get! : PyVal K → K
  | .num x => x
  | .numSub x => x
  | .none => 0
  | .other _ => 0

/-- `if self.name is None: self.name = ""`, then `assert isinstance(self.name, str)`
(`/repo/pyslope/pyslope.py:88-94`). -/
def strArg (v : PyStr) : Except PyErr String :=
  match v with
  | .str s => .ok s
  | .none => .ok ""
  | .other => .error .assertionError

/-- `Material(...)`: `/repo/pyslope/pyslope.py:74-101` `Material.__post_init__`.
`isColor` is `utilities.is_color`, which asks the third-party `colour` package. -/
def Material.new (isColor : String → Bool) (unitWeight frictionAngle cohesion depth : PyVal K)
    (name color : PyStr) : Except PyErr (Material K) := do
  assertRange unitWeight (1 : K) 50 false false
  assertPositiveNumber (0 : K) frictionAngle
  assertNumber cohesion
  assertNumber depth
  let c := pyAbs cohesion.get!
  let d := pyAbs depth.get!
  let t := PyNum.tan (radians frictionAngle.get!)
  let nm ← strArg name
  let col ← strArg color
  pure {
    unitWeight := unitWeight.get!
    frictionAngle := frictionAngle.get!
    cohesion := c
    depth := d
    tanPhi := t
    name := nm
    userColor := if isColor col && col != "" then some col else none }

/-- `Udl(...)`: `/repo/pyslope/pyslope.py:154-171` `Udl.__post_init__`. -/
def Udl.new (isColor : String → Bool) (magnitude offset length : PyVal K) (color : String)
    (dynamic : Bool) : Except PyErr (Udl K) := do
  assertNumber magnitude
  assertNumber offset
  let len ← (if length.truthy then do
      assertNumber length
      pure (some (pyAbs length.get!))
    else pure none)
  pure {
    magnitude := pyAbs magnitude.get!
    offset := pyAbs offset.get!
    length := len
    color := if isColor color then color else "red"
    dynamic := dynamic }

/-- `LineLoad(...)`: `/repo/pyslope/pyslope.py:225-235` `LineLoad.__post_init__`. -/
def LineLoad.new (isColor : String → Bool) (magnitude offset : PyVal K) (color : String)
    (dynamic : Bool) : Except PyErr (LineLoad K) := do
  assertNumber magnitude
  assertNumber offset
  pure {
    magnitude := pyAbs magnitude.get!
    offset := pyAbs offset.get!
    color := if isColor color then color else "blue"
    dynamic := dynamic }

end PySlope
