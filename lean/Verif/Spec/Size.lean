import Verif.Spec.Method

/-! # Specification: the same design in models of different size -/

namespace PySlope

/-- Specification: the same slope, materials, loads and depth of water, with the same options of the
method. The sizes of the models, which `update_boundary_options` sets, may differ. -/
structure SameDesign (s t : Slope ℝ) : Prop where
  height : t.height = s.height
  length : t.length = s.length
  slices : t.slices = s.slices
  tolerance : t.tolerance = s.tolerance
  maxIterations : t.maxIterations = s.maxIterations
  mats : t.materials.map (·.mat) = s.materials.map (·.mat)
  udls : t.udls.map (·.load) = s.udls.map (·.load)
  lls : t.lls.map (·.load) = s.lls.map (·.load)
  water : t.waterRL.map (t.topY - ·) = s.waterRL.map (s.topY - ·)
  waterH : t.waterH = s.waterH

/-- Specification: the layers are at their depths, the line loads are inside the model, and the water is
not above the crest and not at the bottom of the model (level 0, which counts as no water). -/
structure InPlace (s : Slope ℝ) : Prop where
  levels : ∀ l ∈ s.materials, l.rl = s.topY - l.mat.depth
  lls : ∀ p ∈ s.lls, p.load.offset ≤ s.topX
  water : ∀ z, s.waterRL = some z → z ≤ s.topY ∧ z ≠ 0

/-- Specification: the circle is between the sides of the model, and its centre not under its bottom. -/
structure Holds (s : Slope ℝ) (cx cy r : ℝ) : Prop where
  rad : 0 ≤ r
  left : 0 ≤ cx - r
  right : cx + r ≤ s.extL
  up : 0 ≤ cy

/-- Specification: a plane moved by `(dx, dy)`. -/
def Plane.moved (dx dy : ℝ) (p : Plane ℝ) : Plane ℝ :=
  { p with lc := (p.lc.1 + dx, p.lc.2 + dy), rc := (p.rc.1 + dx, p.rc.2 + dy),
           cx := p.cx + dx, cy := p.cy + dy }

end PySlope
