import Verif.Model.Web
import Verif.Spec.Dynamic

/-! # Specification: what was entered in the web form -/

namespace PySlope

/-- What the forms check (`/repo/slope/forms.py:101-150`). -/
structure WebForm.Valid (f : WebForm ℝ) : Prop where
  slices : 10 ≤ f.slices ∧ f.slices ≤ 50
  iterations : 500 ≤ f.iterations ∧ f.iterations ≤ 5000
  critical : 0 ≤ f.critical ∧ f.critical ≤ 5

/-- The horizontal length of the face: the one entered, or the one of the angle entered. -/
noncomputable def WebForm.faceLength (f : WebForm ℝ) : ℝ :=
  if f.byLength then max f.length 0.001
  else max (f.height / Real.tan (f.angle * (Real.pi / 180))) 0.001

/-- A material form left as it was. -/
noncomputable def blankMaterial : WebMat ℝ :=
  { unitWeight := 20, frictionAngle := 35, cohesion := 2, depth := 5, name := "", color := "" }

/-- A uniform load form left as it was: no load. -/
noncomputable def blankUdl : WebUdl ℝ :=
  { magnitude := 0, offset := 0, length := 0, color := "red", dynamic := false }

/-- A line load form left as it was: no load. -/
noncomputable def blankLl : WebLl ℝ := { magnitude := 0, offset := 0, color := "blue", dynamic := false }

/-- The slope has the geometry, options, materials and water of the form: a material for each
material form, with the values entered, its bottom at the depth entered below the crest; the water
at the depth entered below the crest, but not below the model. -/
structure WebForm.Ground (f : WebForm ℝ) (s : Slope ℝ) : Prop where
  height : s.height = f.height
  length : s.length = f.faceLength
  slices : s.slices = f.slices
  iterations : s.iterations = f.iterations
  materials : (s.materials.map fun l =>
      (l.mat.unitWeight, l.mat.frictionAngle, l.mat.cohesion, l.mat.depth)).Perm
    ((f.materials.map fun e => e.getD blankMaterial).map fun e =>
      (e.unitWeight, e.frictionAngle, |e.cohesion|, |e.depth|))
  levels : ∀ l ∈ s.materials, l.rl = s.topY - l.mat.depth
  water : s.waterRL = if f.considerWater then some (max 0 (s.topY - f.waterDepth)) else none
  planes : s.individual = []

/-- The uniform loads entered, those of magnitude 0 left out: magnitude, offset, length and kind. -/
noncomputable def WebForm.udlsEntered (f : WebForm ℝ) : List (ℝ × ℝ × Option ℝ × Bool) :=
  ((f.udls.map fun e => e.getD blankUdl).filter fun e => decide (e.magnitude ≠ 0)).map fun e =>
    (|e.magnitude|, |e.offset|, if e.length = 0 then none else some |e.length|, e.dynamic)

/-- The line loads entered, those of magnitude 0 left out: magnitude, offset and kind. -/
noncomputable def WebForm.llsEntered (f : WebForm ℝ) : List (ℝ × ℝ × Bool) :=
  ((f.lls.map fun e => e.getD blankLl).filter fun e => decide (e.magnitude ≠ 0)).map fun e =>
    (|e.magnitude|, |e.offset|, e.dynamic)

/-- The slope has the loads entered, the dynamic ones moved by `g`. -/
structure WebForm.Loads (f : WebForm ℝ) (g : ℝ → ℝ) (s : Slope ℝ) : Prop where
  udls : (s.udls.map fun p => (p.load.magnitude, p.load.offset, p.load.length, p.load.dynamic)) =
    f.udlsEntered.map fun e => (e.1, if e.2.2.2 then g e.2.1 else e.2.1, e.2.2)
  lls : (s.lls.map fun p => (p.load.magnitude, p.load.offset, p.load.dynamic)) =
    f.llsEntered.map fun e => (e.1, if e.2.2 then g e.2.1 else e.2.1, e.2.2)

/-- The search keeps to the limits entered, cut to the model and to their side of the crest, or to
the whole model if none are considered. -/
def WebForm.Limits (f : WebForm ℝ) (s : Slope ℝ) : Prop :=
  s.lim1 = (if f.considerLimits then f.leftX else 0) ∧
  s.lim2 = (if f.considerLimits && f.considerInternal then min f.leftXRight s.topX else s.topX) ∧
  s.lim3 = (if f.considerLimits && f.considerInternal then max f.rightXLeft s.topX else s.topX) ∧
  s.lim4 = (if f.considerLimits then min f.rightX s.extL else s.extL)

/-- The form describes a slope: nothing negative where that has no meaning, unit weights the library
takes, and no two layers with their bottom at the same depth. -/
structure WebForm.Sensible (f : WebForm ℝ) : Prop where
  height : 0 ≤ f.height
  byLength : f.byLength = true → 0 ≤ f.length
  byAngle : f.byLength = false → 0 < f.angle ∧ f.angle ≤ 90
  materials : ∀ e ∈ f.materials.map fun e => e.getD blankMaterial,
    1 ≤ e.unitWeight ∧ e.unitWeight ≤ 50 ∧ 0 ≤ e.frictionAngle
  depths : ((f.materials.map fun e => e.getD blankMaterial).map fun e => |e.depth|).Nodup
  water : f.considerWater = true → 0 ≤ f.waterDepth

/-- The form with the limits switched off. -/
def WebForm.unlimited (f : WebForm ℝ) : WebForm ℝ := { f with considerLimits := false }

/-- The limits of the form fit a slope: the range of entry points is left of the crest's edge or ends
there, the range of exit points is right of it, both are in the model and neither is empty. -/
def WebForm.LimitsFit (f : WebForm ℝ) (s : Slope ℝ) : Prop :=
  0 ≤ f.leftX ∧ f.leftX < s.topX ∧ s.topX < f.rightX ∧
  (f.considerInternal = true → 0 ≤ f.rightXLeft ∧ f.leftX < f.leftXRight ∧ f.rightXLeft < f.rightX ∧
    f.rightXLeft < s.extL)

end PySlope
