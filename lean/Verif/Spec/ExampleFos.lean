import Verif.Lemmas.Method
import Verif.Props.Results

/-! # Examples of analyses with any material

The ground and the circle of `ExampleCircle`, with one material of any kind. -/

namespace PySlope
open Finset

/-- The ground of `Slope(height=3, length=3)` in one material `m`, without loads. -/
structure ExGround (t : Slope ℝ) (m : Material ℝ) : Prop where
  reach : Reachable t
  topX : t.topX = 6
  extH : t.extH = 9
  extL : t.extL = 15
  length : t.length = 3
  height : t.height = 3
  udls : t.udls = []
  lls : t.lls = []
  slices : t.slices = 25
  mats : ∃ e, t.materials = [mkLayer e 0 m]

/-- `s = Slope(height=3, length=3); s.set_materials(m)`. -/
noncomputable def exOf (m : Material ℝ) : Slope ℝ :=
  { exSlope with materials := [mkLayer exSlope.extH 0 m] }

theorem exOf_eq {m : Material ℝ} (hd : m.depth ≤ 9) :
    exSlope.setMaterials [some m] = (exOf m, .ok ()) := by
  rw [setMaterials_one exSlope_reachable.wf.geo rfl]
  have : exSlope.deepen m.depth = exSlope := by
    unfold Slope.deepen
    rw [if_neg]
    rw [exSlope_extH]; exact not_lt.mpr hd
  rw [this]
  rfl

theorem exOf_reachable {m : Material ℝ} (hc : Material.Constructed m) (hd : m.depth ≤ 9) :
    Reachable (exOf m) := by
  have := Reachable.call exSlope_reachable (.setMaterials exSlope [some m] (by
    intro m' hm; simp at hm; subst hm; exact hc))
  rwa [exOf_eq hd] at this

theorem exOf_ground {m : Material ℝ} (hc : Material.Constructed m) (hd : m.depth ≤ 9) :
    ExGround (exOf m) m where
  reach := exOf_reachable hc hd
  topX := exSlope_topX
  extH := exSlope_extH
  extL := exSlope_extL
  length := by rfl
  height := by rfl
  udls := rfl
  lls := rfl
  slices := rfl
  mats := ⟨_, rfl⟩

namespace ExGround
variable {t : Slope ℝ} {m : Material ℝ} (h : ExGround t m)
include h

theorem botX : t.botX = 9 := by rw [h.reach.wf.geo.botX, h.topX, h.length]; norm_num
theorem topY : t.topY = 9 := by rw [h.reach.wf.geo.topY, h.extH]
theorem botY : t.botY = 6 := by rw [h.reach.wf.geo.botY, h.extH, h.height]; norm_num
theorem gradient : t.gradient = 1 := by
  rw [h.reach.wf.geo.grad, h.length, h.height]; norm_num

theorem crossing (p : ℝ × ℝ) : Crossing t 9 (35 / 3) (17 / 3) p ↔ p = (4, 9) ∨ p = (9, 6) := by
  rw [← exCrossing p]
  unfold Crossing
  simp only [h.topX, h.topY, h.botX, h.botY, h.extL, exSoil_topX, exSoil_topY, exSoil_botX,
    exSoil_botY, exSoil_extL]

theorem intersections' :
    t.circleExternalIntersection 9 (35 / 3) (17 / 3) = .ok [(4, 9), (9, 6)] :=
  intersections_two h.reach.wf.geo h.crossing (by norm_num)

theorem ends : t.bishopEnds 9 (35 / 3) (17 / 3) none none = .ok ((4, 9), (9, 6)) := by
  unfold Slope.bishopEnds
  rw [h.intersections']
  simp only
  rw [setSize_nodup (by simp)]
  rfl

theorem inside : ∀ i < t.slices.toNat, (centre 4 9 t.slices i - 9) ^ 2 < (17 / 3 : ℝ) ^ 2 := by
  rw [h.slices]
  intro i hi
  obtain ⟨h1, h2⟩ := exCentre (by simpa using hi)
  nlinarith

theorem ground {x : ℝ} (h1 : 4 < x) (h2 : x < 9) :
    35 / 3 - √((17 / 3) ^ 2 - (x - 9) ^ 2) < groundY t x ∧ groundY t x ≤ 9 := by
  rw [← sliceTop_eq h.reach.wf.geo]
  have : t.sliceTop x = exSoil.sliceTop x := by
    unfold Slope.sliceTop
    simp only [h.topX, h.topY, h.botX, h.botY, h.gradient, exSoil_topX, exSoil_topY, exSoil_botX,
      exSoil_botY, exSoil_gradient]
  rw [this]
  exact exBelow h1 h2

theorem layer (y : ℝ) : ∃ l, layerAt t.materials y = some l ∧ l.mat = m := by
  obtain ⟨e, he⟩ := h.mats
  refine ⟨mkLayer e 0 m, ?_, rfl⟩
  rw [he]
  unfold layerAt
  simp only [List.find?_cons, List.find?_nil, List.getLast?_singleton]
  split <;> rfl

theorem ne : t.materials ≠ [] := by
  obtain ⟨e, he⟩ := h.mats; rw [he]; simp

/-- The slices of the circle. -/
theorem slice {i : ℕ} (hi : i < 25) :
    let q := sliceOf t 9 (35 / 3) (17 / 3) 4 9 i
    let x := centre 4 9 25 i
    let yb := 35 / 3 - √((17 / 3) ^ 2 - (x - 9) ^ 2)
    4 < x ∧ x < 9 ∧ yb < groundY t x ∧
    q.b = 1 / 5 ∧ q.c = m.cohesion ∧ q.φ = m.frictionAngle ∧ 0 < q.sin ∧ 0 < q.cos ∧
    q.W = 1 / 5 * (m.unitWeight * (groundY t x - yb)) ∧
    q.u = pressureAt t x yb (groundY t x) := by
  intro q x yb
  obtain ⟨h1, h2⟩ := exCentre hi
  obtain ⟨h3, h4⟩ := h.ground h1 h2
  have hx : x = 4 + ((i : ℝ) + 1 / 2) * ((9 - 4) / t.slices) := by rw [h.slices]; rfl
  have hyt : max (groundY t x) yb = groundY t x := max_eq_left h3.le
  obtain ⟨l, hl, hm⟩ := h.layer yb
  have hb : ((9 : ℝ) - 4) / (t.slices : ℝ) = 1 / 5 := by rw [h.slices]; norm_num
  have hd : 0 < (17 / 3 : ℝ) ^ 2 - (x - 9) ^ 2 := by nlinarith
  have hint : ∀ a b : ℝ, (∫ y in a..b, unitWeightAt t.materials y) = m.unitWeight * (b - a) := by
    intro a b
    have : ∀ y, unitWeightAt t.materials y = m.unitWeight := by
      intro y
      obtain ⟨l, hl, hm⟩ := h.layer y
      unfold unitWeightAt
      rw [hl, ← hm]
    simp only [this, intervalIntegral.integral_const, smul_eq_mul]
    ring
  refine ⟨h1, h2, h3, hb, ?_, ?_, ?_, ?_, ?_, ?_⟩
  · change (match layerAt t.materials (35 / 3 - √((17 / 3) ^ 2 -
      (4 + ((i : ℝ) + 1 / 2) * ((9 - 4) / t.slices) - 9) ^ 2)) with
      | some l => l.mat.cohesion
      | none => 0) = _
    rw [← hx]
    change (match layerAt t.materials yb with
      | some l => l.mat.cohesion
      | none => 0) = _
    rw [hl, ← hm]
  · change (match layerAt t.materials (35 / 3 - √((17 / 3) ^ 2 -
      (4 + ((i : ℝ) + 1 / 2) * ((9 - 4) / t.slices) - 9) ^ 2)) with
      | some l => l.mat.frictionAngle
      | none => 0) = _
    rw [← hx]
    change (match layerAt t.materials yb with
      | some l => l.mat.frictionAngle
      | none => 0) = _
    rw [hl, ← hm]
  · change 0 < (9 - (4 + ((i : ℝ) + 1 / 2) * ((9 - 4) / t.slices))) / (17 / 3)
    rw [← hx]
    have : 0 < 9 - x := by simp only [x]; linarith
    positivity
  · change 0 < √((17 / 3) ^ 2 - (4 + ((i : ℝ) + 1 / 2) * ((9 - 4) / t.slices) - 9) ^ 2) / (17 / 3)
    rw [← hx]
    have := Real.sqrt_pos.mpr hd
    positivity
  · change weightOn t (4 + (i : ℝ) * ((9 - 4) / t.slices)) (4 + ((i : ℝ) + 1) * ((9 - 4) / t.slices))
      (35 / 3 - √((17 / 3) ^ 2 - (4 + ((i : ℝ) + 1 / 2) * ((9 - 4) / t.slices) - 9) ^ 2))
      (max (groundY t (4 + ((i : ℝ) + 1 / 2) * ((9 - 4) / t.slices)))
        (35 / 3 - √((17 / 3) ^ 2 - (4 + ((i : ℝ) + 1 / 2) * ((9 - 4) / t.slices) - 9) ^ 2))) = _
    rw [← hx]
    change weightOn t _ _ yb (max (groundY t x) yb) = _
    rw [hyt]
    unfold weightOn
    rw [h.udls, h.lls, hint, hb]
    simp only [List.map_nil, List.sum_nil, add_zero]
    ring
  · change pressureAt t (4 + ((i : ℝ) + 1 / 2) * ((9 - 4) / t.slices))
      (35 / 3 - √((17 / 3) ^ 2 - (4 + ((i : ℝ) + 1 / 2) * ((9 - 4) / t.slices) - 9) ^ 2))
      (max (groundY t (4 + ((i : ℝ) + 1 / 2) * ((9 - 4) / t.slices)))
        (35 / 3 - √((17 / 3) ^ 2 - (4 + ((i : ℝ) + 1 / 2) * ((9 - 4) / t.slices) - 9) ^ 2))) = _
    rw [← hx]
    change pressureAt t x yb (max (groundY t x) yb) = _
    rw [hyt]

theorem weight_pos (hu : 0 < m.unitWeight) {i : ℕ} (hi : i < 25) :
    0 < (sliceOf t 9 (35 / 3) (17 / 3) 4 9 i).W := by
  obtain ⟨_, _, h3, _, _, _, _, _, h9, _⟩ := h.slice hi
  rw [h9]
  have := sub_pos.mpr h3
  positivity

theorem drives (hu : 0 < m.unitWeight) : 0 < driving 25 (sliceOf t 9 (35 / 3) (17 / 3) 4 9) := by
  unfold driving
  apply sum_pos
  · intro i hi
    have hi := mem_range.mp hi
    exact mul_pos (h.weight_pos hu hi) (h.slice hi).2.2.2.2.2.2.1
  · exact ⟨0, by simp⟩

theorem ordinary (hu : 0 < m.unitWeight) {water} (hw : t.waterX = .ok water) :
    t.ordinary 9 (35 / 3) (17 / 3) (some (4, 9)) (some (9, 6)) =
      .ok (fellenius 25 (sliceOf t 9 (35 / 3) (17 / 3) 4 9)) := by
  have hf := forces_eq (cy := 35 / 3) h.reach h.ne hw (by norm_num) h.inside
  have hf' : t.forces water 9 (35 / 3) (17 / 3) (4, (9 : ℝ)).1 (9, (6 : ℝ)).1 =
      listOf 25 (sliceOf t 9 (35 / 3) (17 / 3) 4 9) := by
    change t.forces water 9 (35 / 3) (17 / 3) 4 9 = _
    rw [hf, h.slices]; rfl
  have hd := h.drives hu
  rw [ordinary_eq (by rw [h.slices]; norm_num) (by norm_num) (by norm_num) h.inside h.ne hw, hf',
    listOf_driving, if_neg (not_le.mpr hd)]
  congr 1
  exact listOf_ordinary (fun i => rfl)

end ExGround

end PySlope
