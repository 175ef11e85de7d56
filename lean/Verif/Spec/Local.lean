import Verif.Spec.Alike

/-! # Specification: two slopes that are the same where a circle cuts -/

namespace PySlope

/-- Specification: the same geometry, options, limits and individual planes; the water may differ. -/
def SameButWater (s t : Slope ℝ) : Prop := SameFrame s { t with waterRL := s.waterRL, waterH := s.waterH }

/-- Specification: there is no water above the level `low`. -/
def DryAbove (s : Slope ℝ) (low : ℝ) : Prop := ∀ z, s.waterRL = some z → z ≤ low

/-- Specification: the same over the stretch from `xl` to `xr` and down to the level `low`: the same soil at every
level from `low` up, the same load on every part of the stretch, and the same water or none above `low`. -/
structure SameMass (s t : Slope ℝ) (xl xr low : ℝ) : Prop where
  soil : ∀ y, low ≤ y → soilAt t y = soilAt s y
  load : ∀ a b, xl ≤ a → a ≤ b → b ≤ xr → loadOn t a b = loadOn s a b
  water : (t.waterRL = s.waterRL ∧ t.waterH = s.waterH) ∨ (DryAbove s low ∧ DryAbove t low)

end PySlope
