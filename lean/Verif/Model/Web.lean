import Verif.Model.Dynamic

/-! # The web form

`create_slope` of `/repo/slope/views.py:349-489`: it turns the cleaned data of the forms
(`/repo/slope/forms.py`) into a slope and analyses it. -/

namespace PySlope
open Lit

variable {K : Type} [PyNum K]

/-- A filled material form (`/repo/slope/models.py:6-12`). -/
structure WebMat (K : Type) where
  unitWeight : K
  frictionAngle : K
  cohesion : K
  depth : K
  name : String
  color : String

/-- A filled uniform load form (`/repo/slope/models.py:15-20`). A colour left out is `""`; in Python
it is `None`. Both are taken for no colour or the default one. -/
structure WebUdl (K : Type) where
  magnitude : K
  offset : K
  length : K
  color : String
  dynamic : Bool

/-- A filled line load form (`/repo/slope/models.py:23-27`). -/
structure WebLl (K : Type) where
  magnitude : K
  offset : K
  color : String
  dynamic : Bool

/-- The cleaned data of the forms of the page, `/repo/slope/forms.py:14-189`. `none` in a list is a
form that was left as it was: its cleaned data is empty. -/
structure WebForm (K : Type) where
  /-- `slope_choice == "length"` -/
  byLength : Bool
  height : K
  angle : K
  length : K
  slices : Int
  iterations : Int
  materials : List (Option (WebMat K))
  lls : List (Option (WebLl K))
  udls : List (Option (WebUdl K))
  considerWater : Bool
  waterDepth : K
  considerLimits : Bool
  considerInternal : Bool
  leftX : K
  rightX : K
  leftXRight : K
  rightXLeft : K
  /-- `analysis_choice == "normal"` -/
  normal : Bool
  critical : K

/-- The defaults of the material form, `/repo/slope/models.py:7-12`. -/
def WebMat.default : WebMat K :=
  { unitWeight := 20, frictionAngle := 35, cohesion := 2, depth := 5, name := "", color := "" }

/-- The defaults of the uniform load form, `/repo/slope/models.py:16-20`. -/
def WebUdl.default : WebUdl K :=
  { magnitude := 0, offset := 0, length := 0, color := "red", dynamic := false }

/-- The defaults of the line load form, `/repo/slope/models.py:24-27`. -/
def WebLl.default : WebLl K := { magnitude := 0, offset := 0, color := "blue", dynamic := false }

/-- The slope after a call whose exception nobody catches. -/
def Out.get (o : Out K Unit) : Except PyErr (Slope K) :=
  match o with
  | (s, .ok ()) => .ok s
  | (_, .error e) => .error e

/-- `Slope(...)`, `/repo/slope/views.py:359-370`. -/
def WebForm.newSlope (f : WebForm K) : Except PyErr (Slope K) :=
  if f.byLength then Slope.new (.num f.height) (.num 30) (.num f.length)
  else Slope.new (.num f.height) (.num f.angle) .none

/-- One turn of the loop over the material forms, `/repo/slope/views.py:378-407`. -/
def Slope.webMaterial (isColor : String → Bool) (s : Slope K) (e : Option (WebMat K)) :
    Except PyErr (Slope K) := do
  let e := e.getD .default
  let m ← Material.new isColor (.num e.unitWeight) (.num e.frictionAngle) (.num e.cohesion)
    (.num e.depth) (.str e.name) (.str e.color)
  (s.setMaterials [some m]).get

/-- One turn of the loop over the line load forms, `/repo/slope/views.py:409-430`. -/
def Slope.webLl (isColor : String → Bool) (s : Slope K) (e : Option (WebLl K)) :
    Except PyErr (Slope K) := do
  let e := e.getD .default
  let u ← LineLoad.new isColor (.num e.magnitude) (.num e.offset) e.color e.dynamic
  (s.setLls [some u]).get

/-- One turn of the loop over the uniform load forms, `/repo/slope/views.py:432-455`. -/
def Slope.webUdl (isColor : String → Bool) (s : Slope K) (e : Option (WebUdl K)) :
    Except PyErr (Slope K) := do
  let e := e.getD .default
  let u ← Udl.new isColor (.num e.magnitude) (.num e.offset) (.num e.length) e.color e.dynamic
  (s.setUdls [some u]).get

/-- The water table, `/repo/slope/views.py:457-459`. -/
def Slope.webWater (s : Slope K) (f : WebForm K) : Except PyErr (Slope K) :=
  if f.considerWater then (s.setWaterTable (.num f.waterDepth)).get else .ok s

/-- The limits, `/repo/slope/views.py:461-475`. -/
def Slope.webLimits (s : Slope K) (f : WebForm K) : Except PyErr (Slope K) :=
  if f.considerLimits then
    if f.considerInternal then
      (s.setAnalysisLimits (.num f.leftX) (.num f.rightX) (.num f.leftXRight)
        (.num f.rightXLeft)).get
    else (s.setAnalysisLimits (.num f.leftX) (.num f.rightX) .none .none).get
  else .ok s

/-- The analysis, `/repo/slope/views.py:477-487`. The critical factor of safety is a `Decimal`
(`/repo/slope/forms.py:101-116`). `nonreal` is no exception of Python: it is passed on. -/
def Slope.webAnalyse (s : Slope K) (f : WebForm K) : Except PyErr (Slope K) :=
  if f.normal then (s.analyseSlope (some 5)).get
  else
    match s.analyseDynamic f.critical true with
    | (t, .ok _) => .ok t
    | (_, .error .nonreal) => .error .nonreal
    | (t, .error _) => (t.analyseSlope (some 5)).get

/-- `/repo/slope/views.py:349-489` `create_slope`, without the analysis at its end. -/
def WebForm.prepare (isColor : String → Bool) (f : WebForm K) : Except PyErr (Slope K) := do
  let s ← f.newSlope
  let s ← (s.updateAnalysisOptions (some f.slices) (some f.iterations) none none none).get
  let s ← f.materials.foldlM (Slope.webMaterial isColor) s
  let s ← f.lls.foldlM (Slope.webLl isColor) s
  let s ← f.udls.foldlM (Slope.webUdl isColor) s
  let s ← s.webWater f
  s.webLimits f

/-- `/repo/slope/views.py:349-489` `create_slope`. -/
def WebForm.createSlope (isColor : String → Bool) (f : WebForm K) : Except PyErr (Slope K) := do
  let s ← f.prepare isColor
  s.webAnalyse f

end PySlope
