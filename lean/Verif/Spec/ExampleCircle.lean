import Verif.Lemmas.Undrained
import Verif.Lemmas.Crossings
import Verif.Lemmas.Results
import Verif.Props.Materials

/-! # A concrete analysis for the non-vacuity examples

`Slope(height=3, length=3)` with one material (unit weight 20, cohesion 5, no friction) and the
circle with centre (9, 35/3) and radius 17/3, which enters the ground at (4, 9) and leaves it at
the toe (9, 6). -/

namespace PySlope

/-- `s = Slope(height=3, length=3); s.set_materials(Material(20, 0, 5, 2))`. -/
noncomputable def exSoil : Slope ℝ :=
  { exSlope with materials := [mkLayer exSlope.extH 0 (exMat 2)] }

theorem exSoil_eq : exSlope.setMaterials [some (exMat 2)] = (exSoil, .ok ()) := by
  rw [setMaterials_one exSlope_reachable.wf.geo rfl]
  have : exSlope.deepen (exMat 2).depth = exSlope := by
    unfold Slope.deepen
    rw [if_neg]
    simp [exMat]; norm_num
  rw [this]
  rfl

theorem exSoil_reachable : Reachable exSoil := by
  have := Reachable.call exSlope_reachable (.setMaterials exSlope [some (exMat 2)] (by
    intro m hm; simp at hm; subst hm; exact exMat_constructed _))
  rwa [exSoil_eq] at this

@[simp] theorem exSoil_topX : exSoil.topX = 6 := exSlope_topX
@[simp] theorem exSoil_topY : exSoil.topY = 9 := exSlope_topY
@[simp] theorem exSoil_botX : exSoil.botX = 9 := exSlope_botX
@[simp] theorem exSoil_botY : exSoil.botY = 6 := exSlope_botY
@[simp] theorem exSoil_extL : exSoil.extL = 15 := exSlope_extL
@[simp] theorem exSoil_extH : exSoil.extH = 9 := exSlope_extH
@[simp] theorem exSoil_gradient : exSoil.gradient = 1 := exSlope_gradient
@[simp] theorem exSoil_slices : exSoil.slices = 25 := rfl
@[simp] theorem exSoil_udls : exSoil.udls = [] := rfl
@[simp] theorem exSoil_lls : exSoil.lls = [] := rfl
@[simp] theorem exSoil_materials : exSoil.materials = [mkLayer exSlope.extH 0 (exMat 2)] := rfl

/-- The crossings of the circle. -/
theorem exCrossing (p : ℝ × ℝ) : Crossing exSoil 9 (35 / 3) (17 / 3) p ↔ p = (4, 9) ∨ p = (9, 6) := by
  obtain ⟨x, y⟩ := p
  simp only [Prod.mk.injEq]
  unfold Crossing OnCircle OnLine
  simp only [exSoil_topX, exSoil_topY, exSoil_botX, exSoil_botY, exSoil_extL]
  constructor
  · rintro ⟨h, ⟨rfl, h1, h2, h3⟩ | ⟨rfl, h1, h2, h3⟩ | ⟨h1, h2, h3⟩⟩
    · left
      have : (x - 4) * (x - 14) = 0 := by linarith
      rcases mul_eq_zero.mp this with h | h
      · exact ⟨by linarith, rfl⟩
      · exfalso; linarith
    · right
      have : (x - 9) * (x - 9) = 0 := by linarith
      rcases mul_eq_zero.mp this with h | h <;> exact ⟨by linarith, rfl⟩
    · right
      have hy : y = 15 - x := by linarith
      subst hy
      have : (x - 9) * (x - 10 / 3) = 0 := by linarith
      rcases mul_eq_zero.mp this with h | h
      · exact ⟨by linarith, by linarith⟩
      · exfalso; linarith
  · rintro (⟨rfl, rfl⟩ | ⟨rfl, rfl⟩)
    · norm_num
    · norm_num

theorem exIntersections :
    exSoil.circleExternalIntersection 9 (35 / 3) (17 / 3) = .ok [(4, 9), (9, 6)] :=
  intersections_two exSoil_reachable.wf.geo exCrossing (by norm_num)

/-- The plane `add_single_circular_plane(9, 35/3, 17/3)` records. -/
noncomputable def exPlane : Plane ℝ :=
  { lc := (4, 9), rc := (9, 6), cx := 9, cy := 35 / 3, radius := 17 / 3, fos := none }

/-- The object with that plane. -/
noncomputable def exReady : Slope ℝ := { exSoil with individual := [exPlane] }

theorem exReady_eq : exSoil.addSingleCircularPlane 9 (35 / 3) (17 / 3) = (exReady, .ok ()) := by
  unfold Slope.addSingleCircularPlane
  rw [exIntersections]
  simp only
  rw [setSize_nodup (by simp)]
  rfl

theorem exReady_reachable : Reachable exReady := by
  have := Reachable.call exSoil_reachable (.addSingleCircularPlane exSoil 9 (35 / 3) (17 / 3))
  rwa [exReady_eq] at this

/-- A slice centre of the circle. -/
theorem exCentre {i : ℕ} (hi : i < 25) : 4 < centre 4 9 25 i ∧ centre 4 9 25 i < 9 :=
  centre_mem (by norm_num) (by norm_num) (by simpa using hi)

theorem exBelow {x : ℝ} (h1 : 4 < x) (h2 : x < 9) :
    35 / 3 - √((17 / 3) ^ 2 - (x - 9) ^ 2) < exSoil.sliceTop x ∧ exSoil.sliceTop x ≤ 9 := by
  unfold Slope.sliceTop
  simp only [exSoil_topX, exSoil_topY, exSoil_botX, exSoil_botY, exSoil_gradient]
  by_cases h : x ≤ 6
  · rw [if_pos h]
    refine ⟨?_, le_refl _⟩
    have : 8 / 3 < √((17 / 3) ^ 2 - (x - 9) ^ 2) := by
      rw [Real.lt_sqrt (by norm_num)]
      nlinarith
    linarith
  · rw [if_neg h, if_neg (not_le.mpr h2)]
    push Not at h
    refine ⟨?_, by linarith⟩
    have : x - 10 / 3 < √((17 / 3) ^ 2 - (x - 9) ^ 2) := by
      rw [Real.lt_sqrt (by linarith)]
      nlinarith
    linarith

theorem exTan : (exMat 2).tanPhi = 0 := by simp [exMat]

/-- Strength anywhere in `exSoil`. -/
theorem exStrength (yb : ℝ) : exSoil.strengthAt yb = (5, 0) := by
  unfold Slope.strengthAt Slope.rowStrength
  simp only [exSoil_materials, List.getLast?_singleton, Option.getD_some, strengthLoop]
  have hc : (mkLayer exSlope.extH 0 (exMat 2)).mat.cohesion = 5 := rfl
  have ht : (mkLayer exSlope.extH 0 (exMat 2)).mat.tanPhi = 0 := exTan
  rw [hc, ht]
  split <;> rfl

/-- Weight of a slice of `exSoil` under the circle. -/
theorem exWeight (w : ℝ) {x : ℝ} (h1 : 4 < x) (h2 : x < 9) :
    exSoil.rowWeight w (exSoil.rowAt 9 (35 / 3) (17 / 3) x) =
      20 * (exSoil.sliceTop x - (35 / 3 - √((17 / 3) ^ 2 - (x - 9) ^ 2))) * w := by
  obtain ⟨h3, h4⟩ := exBelow h1 h2
  unfold Slope.rowWeight Slope.stripWeight
  simp only [exSoil_udls, exSoil_lls, List.foldl_nil, exSoil_materials, stripColumn, pyMin_real,
    clip0_real, exSoil_extH]
  have hy : (exSoil.rowAt 9 (35 / 3) (17 / 3) x).yt = exSoil.sliceTop x := max_eq_left h3.le
  have hb : (exSoil.rowAt 9 (35 / 3) (17 / 3) x).yb = 35 / 3 - √((17 / 3) ^ 2 - (x - 9) ^ 2) := rfl
  have hu : (mkLayer exSlope.extH 0 (exMat 2)).mat.unitWeight = 20 := rfl
  rw [hy, hb, hu, min_eq_left h4, max_eq_left (by linarith)]

theorem exWater : exSoil.waterX = .ok none := rfl

theorem exForces_mem {f : SliceForces ℝ}
    (h : f ∈ exSoil.forces none 9 (35 / 3) (17 / 3) 4 9) :
    f.c = 5 ∧ f.tanPhi = 0 ∧ 0 < f.cosA ∧ 0 < f.sinA ∧ 0 < f.W := by
  unfold Slope.forces Slope.forcesAt Slope.rowsAt at h
  rw [List.map_map] at h
  obtain ⟨i, hi, rfl⟩ := List.mem_map.mp h
  have hi : i < 25 := by simpa using hi
  obtain ⟨h1, h2⟩ := exCentre hi
  have hin : (centre 4 9 25 i - 9) ^ 2 < (17 / 3 : ℝ) ^ 2 := by nlinarith
  simp only [Function.comp, Slope.forceAt, exStrength, exSoil_slices]
  refine ⟨trivial, trivial, rowAt_cos_pos _ hin, ?_, ?_⟩
  · change 0 < (9 - centre 4 9 25 i) / |(17 / 3 : ℝ)|
    apply div_pos (by linarith); norm_num
  · rw [exWeight _ h1 h2]
    obtain ⟨h3, h4⟩ := exBelow h1 h2
    have hw : (0 : ℝ) < exSoil.width 4 9 := by unfold Slope.width; norm_num
    have : 0 < exSoil.sliceTop (centre 4 9 25 i) -
      (35 / 3 - √((17 / 3) ^ 2 - (centre 4 9 25 i - 9) ^ 2)) := by linarith
    positivity

theorem exForces_ne : exSoil.forces none 9 (35 / 3) (17 / 3) 4 9 ≠ [] := by
  intro h
  have := congrArg List.length h
  simp [Slope.forces, Slope.forcesAt, Slope.rowsAt] at this

theorem exDriving : 0 < drivingSum (exSoil.forces none 9 (35 / 3) (17 / 3) 4 9) := by
  rw [drivingSum_real]
  apply list_sum_pos _ _ exForces_ne
  intro f hf
  obtain ⟨_, _, _, h4, h5⟩ := exForces_mem hf
  positivity

/-- Its factor of safety. -/
noncomputable def exFos : ℝ :=
  ordinaryFos (exSoil.width 4 9) (exSoil.forces none 9 (35 / 3) (17 / 3) 4 9)

theorem exWidth : 0 < exSoil.width 4 9 := by unfold Slope.width; norm_num

theorem exFos_pos : 0 < exFos := by
  unfold exFos ordinaryFos
  rw [← drivingSum_real]
  apply div_pos _ exDriving
  apply list_sum_pos _ _ exForces_ne
  intro f hf
  obtain ⟨h1, h2, h3, h4, h5⟩ := exForces_mem hf
  have := exWidth
  unfold ordinaryTerm
  rw [h1, h2]
  simp only [mul_zero, add_zero]
  positivity

theorem exOrdinary : exSoil.ordinary 9 (35 / 3) (17 / 3) (some (4, 9)) (some (9, 6)) = .ok exFos := by
  rw [ordinary_eq (by norm_num) (by norm_num) (by norm_num) ?_ (by simp) exWater, if_neg]
  · rfl
  · exact not_le.mpr exDriving
  · intro i hi
    have hi : i < 25 := by simpa using hi
    obtain ⟨h1, h2⟩ := exCentre hi
    change (centre 4 9 25 i - 9) ^ 2 < (17 / 3 : ℝ) ^ 2
    nlinarith

theorem exBishop : exSoil.bishop 9 (35 / 3) (17 / 3) none none = .ok exFos := by
  have he : exSoil.bishopEnds 9 (35 / 3) (17 / 3) none none = .ok ((4, 9), (9, 6)) := by
    unfold Slope.bishopEnds
    rw [exIntersections]
    simp only
    rw [setSize_nodup (by simp)]
    rfl
  rw [bishop_eq (by norm_num) he exOrdinary exWater]
  apply bishopLoop_undrained rfl _ exWidth exDriving exFos_pos.ne'
  intro f hf
  obtain ⟨h1, h2, h3, h4, h5⟩ := exForces_mem hf
  exact ⟨h2, h3, by rw [h1]; norm_num⟩

theorem exReady_same : SameSetup exSoil exReady := by constructor <;> rfl

theorem exPlane_fos : fosOf exReady exPlane = some exFos := by
  rw [fosOf_some, exReady_same.bishop]; exact exBishop

/-- The analysis of `exReady` ends and finds `exFos`. -/
theorem exAnalyse (m : Option ℝ) :
    exReady.analyseSlope m = (exReady.analysedTo m [exPlane], .ok ()) := by
  apply analyseSlope_of (.inl ⟨by simp [exReady], rfl⟩)
  intro p hp e he
  have hp : p ∈ [exPlane] := hp
  rw [List.mem_singleton] at hp
  subst hp
  unfold FosRaises at he
  rw [fosOf_some.mp exPlane_fos] at he
  cases he

theorem exAnalyse_search : (exReady.analyseSlope none).1.search = [withFos exReady exPlane] := by
  rw [exAnalyse]
  change tidySearch none [withFos exReady exPlane] = _
  rw [tidySearch_eq]
  have : (withFos exReady exPlane).fosVal.isSome := by
    rw [fosVal_withFos, exPlane_fos]; rfl
  simp [this, sortByKey, pySort, keeps]

theorem exMinFos : (exReady.analyseSlope none).1.getMinFos = .ok (some exFos) := by
  unfold Slope.getMinFos
  rw [exAnalyse_search]
  simp only [withFos, exPlane_fos]

end PySlope
