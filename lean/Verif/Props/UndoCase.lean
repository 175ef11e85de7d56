import Verif.Props.Undo
import Verif.Spec.ExampleCircle

/-! # C121: cases -/

namespace PySlope

/-- The example with a line load 40 m behind the crest and a longer model, before the ground is moved. -/
noncomputable def exFarBase : Slope ℝ := { exReady with lls := [placeLl 6 (exLl 40)], minExtL := 120 }

/-- The example with a line load 40 m behind the crest put on and taken off again. -/
noncomputable def exFar : Slope ℝ :=
  ((exReady.setLls [some (exLl 40)]).1.removeLls [exLl 40] false).1

theorem exFar_reachable : Reachable exFar :=
  (exReady_reachable.call (.setLls exReady [some (exLl 40)] (by
    intro u hu; simp at hu; subst hu; exact exLl_constructed 40))).call (.removeLls _ _ _)

theorem exFar_set : exReady.setLls [some (exLl 40)] =
    ({ (exFarBase.withGeo 3 3) with
      lls := [placeLl (117 / 2) (exLl 40)] }, .ok ()) := by
  have e : exReady.addLl (some (exLl 40)) =
      (exFarBase.withGeo 3 3, .ok ()) := by
    unfold Slope.addLl
    simp only [lit_zero]
    rw [if_pos (by norm_num [exLl]), if_pos (by
      have : exReady.minExtL = 10 := rfl
      rw [this]; norm_num [exLl])]
    have h : (exLl 40).offset * 3 = 120 := by norm_num [exLl]
    rw [h, updateBoundaryOptions_L (by exact { exReady_reachable.wf.geo with }) 120 (by norm_num)]
    have : exReady.topX = 6 := exSlope_topX
    rw [this]
    rfl
  unfold Slope.setLls Slope.forEach
  rw [e]
  simp only [Out.andThen, Slope.forEach]
  have ht : totL exFarBase 3 3 = 120 := by
    unfold totL
    have : exFarBase.minExtL = 120 := rfl
    rw [this]
    norm_num
  have e : ((120 : ℝ) - 3) / 2 = 117 / 2 := by norm_num
  have hl : exFarBase.lls = [placeLl 6 (exLl 40)] := rfl
  unfold Slope.updateLlCoordinates Slope.resetResults Slope.withGeo
  simp only [ht, hl, e, List.map_cons, List.map_nil]
  rfl

theorem exFar_eq : exFar =
    { (exFarBase.withGeo 3 3) with lls := [] } := by
  unfold exFar
  rw [exFar_set]
  have hm : (exLl 40).matches (exLl 40) = true := (ll_matches _ _).mpr ⟨rfl, rfl⟩
  have he : (exLl 40).eq (exLl 40) = true := by simp [LineLoad.eq]
  unfold Slope.removeLls Slope.resetResults
  simp [removeLoop, removeFirst, placeLl, hm, he]
  rfl

theorem exFar_place : exFar.topX = 117 / 2 ∧ exFar.topY = 9 ∧ exFar.botX = 123 / 2 ∧ exFar.lls = exReady.lls ∧
    exFar.individual = [exPlane] := by
  have ht : totL exFarBase 3 3 = 120 := by
    unfold totL
    have : exFarBase.minExtL = 120 := rfl
    rw [this]
    norm_num
  have hh : totH exFarBase 3 3 = 9 := by
    have : exFarBase.minExtH = 6 := rfl
    unfold totH
    rw [this]
    norm_num
  rw [exFar_eq]
  refine ⟨?_, ?_, ?_, rfl, rfl⟩ <;> simp only [Slope.withGeo, ht, hh] <;> norm_num

/-- Where the circle of the example is, the ground is level now: it comes out nowhere. -/
theorem exFar_bishop : exFar.bishop 9 (35 / 3) (17 / 3) none none = .error .retNone := by
  obtain ⟨h1, h2, h3, -, -⟩ := exFar_place
  have g := exFar_reachable.wf.geo
  obtain ⟨l, e, hp, hc, -⟩ := intersections g 9 (35 / 3) (17 / 3)
  have only : ∀ p ∈ l, p.1 = 4 := by
    intro p hp
    obtain ⟨ho, hc⟩ := hc p hp
    unfold OnCircle at ho
    rw [h1, h2, h3] at hc
    have hx : p.1 ≤ 15 := by nlinarith [sq_nonneg (p.2 - 35 / 3)]
    rcases hc with ⟨a, b, c, d⟩ | ⟨a, b, c, d⟩ | ⟨a, b, c⟩
    · rw [a] at ho
      have : (p.1 - 4) * (p.1 - 14) = 0 := by nlinarith
      rcases mul_eq_zero.mp this with h | h <;> linarith
    · linarith
    · linarith
  have hs : setSize l < 2 := by
    rw [setSize_nodup (hp.imp (fun {a b} h e => by subst e; norm_num at h))]
    rcases l with _ | ⟨a, _ | ⟨b, l⟩⟩
    · simp
    · simp
    · have := (List.pairwise_cons.mp hp).1 b (by simp)
      rw [only a (by simp), only b (by simp)] at this
      norm_num at this
  unfold Slope.bishop Slope.bishopEnds
  simp only [e, if_pos hs]
  rfl

/-- C121 fails for a load far from the crest: a line load 40 m behind it, put on and taken off again, leaves
the same loads, but the model has grown, the ground has moved and the circle the user added has not. The
analysis listed that circle before; afterwards it lists nothing, and `get_min_FOS` raises `IndexError`. -/
theorem C121_far_load : ∃ (s : Slope ℝ) (u : LineLoad ℝ), Reachable s ∧ LineLoad.Constructed u ∧
    (∀ p ∈ s.lls, ¬ SameLl p.load u) ∧
    let a := s.setLls [some u]
    let t := a.1.removeLls [u] false
    a.2 = .ok () ∧ t.2 = .ok () ∧ t.1.lls = s.lls ∧ t.1.topX ≠ s.topX ∧
    (s.analyseSlope none).2 = .ok () ∧ (s.analyseSlope none).1.search ≠ [] ∧
    (t.1.analyseSlope none).2 = .ok () ∧ (t.1.analyseSlope none).1.search = [] ∧
    (t.1.analyseSlope none).1.getMinFos = .error .indexError ∧ ¬ ActsAs s t.1 := by
  refine ⟨exReady, exLl 40, exReady_reachable, exLl_constructed 40, (by intro p hp; cases hp), ?_⟩
  intro a t
  obtain ⟨h1, h2, h3, h4, h5⟩ := exFar_place
  have hne : exFar.topX ≠ exReady.topX := by
    have : exReady.topX = 6 := exSlope_topX
    rw [h1, this]; norm_num
  have ha : exFar.analyseSlope none = ({ exFar with search := [], individual := [{ exPlane with fos := some none }] }, .ok ()) := by
    unfold Slope.analyseSlope
    rw [h5]
    simp only [Slope.fillFos, exPlane, exFar_bishop, toFos]
    have : ∀ p : Plane ℝ, p.fos = some none → tidySearch none [p] = [] := by
      intro p hp
      simp [tidySearch, Plane.fosVal, hp, pySort]
    rw [this _ rfl]
  refine ⟨?_, rfl, h4, hne, by rw [exAnalyse], by rw [exAnalyse_search]; simp, ?_, ?_, ?_, fun h => hne ?_⟩
  · change (exReady.setLls [some (exLl 40)]).2 = _
    rw [exFar_set]
  · change (exFar.analyseSlope none).2 = _
    rw [ha]
  · change (exFar.analyseSlope none).1.search = _
    rw [ha]
  · change (exFar.analyseSlope none).1.getMinFos = _
    rw [ha]
    rfl
  · exact (Prod.ext_iff.mp h.crest).1

/-- Two equal distributed loads at the crest and one further away come and go. -/
example : UdlNear exReady (exUdl 0) ∧ UdlNear exReady (exUdl (1 / 2)) ∧
    (exReady.setUdls ([exUdl 0, exUdl 0, exUdl (1 / 2)].map some)).1.udls.length = 3 ∧
    ActsAs exReady ((exReady.setUdls ([exUdl 0, exUdl 0, exUdl (1 / 2)].map some)).1.removeUdls
      [exUdl 0, exUdl 0, exUdl (1 / 2)] false).1 := by
  have hn : ∀ o : ℝ, |o| ≤ 1 / 2 → UdlNear exReady (exUdl o) := by
    intro o ho
    have : exReady.minExtL = 10 := rfl
    unfold UdlNear
    rw [this]
    constructor
    · intro l hl _
      simp only [exUdl, Option.some.injEq] at hl
      subst hl
      norm_num [exUdl] at ho ⊢
      linarith
    · intro hl
      norm_num [exUdl] at ho ⊢
      linarith
  have hf : ∀ u ∈ [exUdl 0, exUdl 0, exUdl (1 / 2)], UdlNear exReady u := by
    intro u hu
    simp only [List.mem_cons, List.not_mem_nil, or_false] at hu
    rcases hu with rfl | rfl | rfl <;> exact hn _ (by norm_num [abs_of_pos])
  refine ⟨hn _ (by norm_num), hn _ (by norm_num [abs_of_pos]), ?_, ?_⟩
  · unfold Slope.setUdls
    rw [addUdl_near _ hf]
    simp [Out.andThen, Slope.updateUdlCoordinates, Slope.resetResults, exUdl, exReady, exSoil, exSlope, freshSlope,
      Slope.withGeo, Slope.blank]
  · refine (C121_udls_partial exReady exReady_reachable _ ?_ hf (by intro p hp; cases hp)).2.2.2
    intro u hu
    simp only [List.mem_cons, List.not_mem_nil, or_false] at hu
    rcases hu with rfl | rfl | rfl <;> exact exUdl_constructed _

/-- A line load beside another one comes and goes. -/
example : LlNear exReady (exLl 3) ∧ ∃ s : Slope ℝ, Reachable s ∧ s.lls.length = 1 ∧ s.minExtL = 10 ∧
    ActsAs s ((s.setLls [some (exLl 3)]).1.removeLls [exLl 3] false).1 := by
  have near : ∀ s : Slope ℝ, s.minExtL = 10 → ∀ o : ℝ, |o| ≤ 3 → LlNear s (exLl o) := by
    intro s hs o ho
    unfold LlNear
    rw [hs]
    simp only [exLl]
    linarith
  have e : exReady.setLls ([exLl 2].map some) =
      ({ exReady with lls := [placeLl 6 (exLl 2)] }, .ok ()) := by
    unfold Slope.setLls
    rw [addLl_near _ (by intro u hu; simp at hu; subst hu; exact near exReady rfl 2 (by norm_num))]
    have ht : exReady.topX = 6 := exSlope_topX
    have hl : exReady.lls = [] := rfl
    have hs : exReady.search = [] := rfl
    simp [Out.andThen, Slope.updateLlCoordinates, Slope.resetResults, exLl, ht, hl, hs, placeLl]
  have r := exReady_reachable.call (.setLls exReady ([exLl 2].map some) (by
    intro u hu; simp at hu; subst hu; exact exLl_constructed 2))
  rw [e] at r
  refine ⟨near _ rfl _ (by norm_num), _, r, rfl, rfl, ?_⟩
  refine (C121_lls_partial _ r [exLl 3] ?_ ?_ ?_).2.2.2
  · intro u hu; simp at hu; subst hu; exact exLl_constructed 3
  · intro u hu; simp at hu; subst hu; exact near _ rfl 3 (by norm_num)
  · intro p hp u hu
    simp at hu hp
    subst hu hp
    rintro ⟨h, -⟩
    norm_num [placeLl, exLl] at h

/-- Water and limits on the example, whose search is not limited and which has no water. -/
example : exReady.waterRL = none ∧ Unlimited exReady ∧
    ActsAs exReady (exReady.setWaterTable (.num 2)).1.removeWaterTable.1 ∧
    ActsAs exReady (exReady.setAnalysisLimits (.num 2) .none .none .none).1.removeAnalysisLimits.1 := by
  have hu : Unlimited exReady := ⟨rfl, rfl, rfl, rfl⟩
  exact ⟨rfl, hu, (C121_water exReady exReady_reachable rfl _).2,
    (C121_limits exReady exReady_reachable hu _ _ _ _).2⟩

/-- A circle that really is added comes and goes. -/
example : exSoil.individual = [] ∧ (exSoil.addSingleCircularPlane 9 (35 / 3) (17 / 3)).1.individual ≠ [] ∧
    ActsAs exSoil (exSoil.addSingleCircularPlane 9 (35 / 3) (17 / 3)).1.removeIndividualPlanes.1 := by
  refine ⟨rfl, ?_, ((C121_planes exSoil exSoil_reachable rfl).1 _ _ _).2⟩
  rw [exReady_eq]
  simp [exReady]

end PySlope
