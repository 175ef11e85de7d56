import Verif.Lemmas.WFCalls

/-! # A concrete slope for the non-vacuity examples

`Slope(height=3, length=3)`: a 15 by 9 model with crest (6, 9) and toe (9, 6). -/

namespace PySlope

/-- The object built by `Slope(height=3, length=3)`. -/
noncomputable def exSlope : Slope ℝ := freshSlope 3 3

theorem exSlope_new : Slope.new (.num 3) (.num 30) (.num 3) = .ok exSlope := by
  rw [new_eq]
  have e : boundaryInputs (.num 3) (.num 30) (.num 3) = .ok ((3 : ℝ), (3 : ℝ)) := by
    have h90 : ¬ ((@OfNat.ofNat ℝ 90 (Lit.natLit 90)) < 30) := not_lt.mpr (by
      change (30 : ℝ) ≤ 90; norm_num)
    have h1 : ¬ ((30 : ℝ) < 0) := by norm_num
    have h2 : ¬ ((3 : ℝ) < 0) := by norm_num
    simp [boundaryInputs, assertStrictlyPositiveNumber, assertPositiveNumber, assertRange,
      PyCmp.ltb, PyCmp.eqb, bind, Except.bind, pure, Except.pure, PyVal.get!, h90, h1, h2]
    norm_num
  rw [e]; rfl

theorem exSlope_reachable : Reachable exSlope := .init exSlope_new

@[simp] theorem exSlope_height : exSlope.height = 3 := rfl
@[simp] theorem exSlope_length : exSlope.length = 3 := rfl
@[simp] theorem exSlope_extL : exSlope.extL = 15 := by
  change max (max (5 * (3 : ℝ)) 10) (4 * 3) = 15
  rw [max_eq_left, max_eq_left] <;> norm_num
@[simp] theorem exSlope_extH : exSlope.extH = 9 := by
  change max (max (3 * (3 : ℝ)) 6) (5 * 3 / 2) = 9
  rw [max_eq_left, max_eq_left] <;> norm_num
@[simp] theorem exSlope_topX : exSlope.topX = 6 := by
  rw [exSlope_reachable.wf.geo.topX]; simp; norm_num
@[simp] theorem exSlope_topY : exSlope.topY = 9 := by
  rw [exSlope_reachable.wf.geo.topY]; simp
@[simp] theorem exSlope_botX : exSlope.botX = 9 := by
  rw [exSlope_reachable.wf.geo.botX]; simp; norm_num
@[simp] theorem exSlope_botY : exSlope.botY = 6 := by
  rw [exSlope_reachable.wf.geo.botY]; simp; norm_num
@[simp] theorem exSlope_gradient : exSlope.gradient = 1 := by
  rw [exSlope_reachable.wf.geo.grad]; simp
@[simp] theorem exSlope_minExtL : exSlope.minExtL = 10 := rfl
@[simp] theorem exSlope_minExtH : exSlope.minExtH = 6 := rfl
@[simp] theorem exSlope_udls : exSlope.udls = [] := rfl
@[simp] theorem exSlope_lls : exSlope.lls = [] := rfl
@[simp] theorem exSlope_materials : exSlope.materials = [] := rfl
@[simp] theorem exSlope_search : exSlope.search = [] := rfl
@[simp] theorem exSlope_individual : exSlope.individual = [] := rfl
@[simp] theorem exSlope_waterRL : exSlope.waterRL = none := rfl
@[simp] theorem exSlope_slices : exSlope.slices = 25 := rfl
@[simp] theorem exSlope_iterations : exSlope.iterations = 1000 := rfl

end PySlope
