import Verif.Props.DynamicLeaves
import Verif.Props.Limits
import Verif.Props.Assessed
import Verif.Props.UndoCase
import Verif.Props.Size

/-! # C124: a dynamic analysis tries every position of the loads on the same ground -/

namespace PySlope

/-- C124 (partial): if the model is long enough for the loads at the greatest offset, then however the dynamic
analysis ends, boundary, crest, toe, size of the model and limits are what they were. Missing: loads that need a
longer model, see `C124_ground_moves`. -/
theorem C124_same_ground_partial (s : Slope ℝ) (r : Reachable s) (c : ℝ) (dec : Bool)
    (h : ∀ left, GreatestOffset s left →
      (∀ p ∈ s.udls, UdlRoom s (p.load.movedTo (max left 0))) ∧
      (∀ p ∈ s.lls, LlRoom s (p.load.movedTo (max left 0)))) :
    let t := (s.analyseDynamic c dec).1
    t.extBoundary = s.extBoundary ∧ (t.topX, t.topY) = (s.topX, s.topY) ∧ (t.botX, t.botY) = (s.botX, s.botY) ∧
    (t.extL, t.extH) = (s.extL, s.extH) ∧
    (t.lim1, t.lim2, t.lim3, t.lim4) = (s.lim1, s.lim2, s.lim3, s.lim4) := by
  intro t
  have k : LimKept s t := by
    refine analyseDynamic_limits r.wfs c dec fun left hg o _ ho => ?_
    obtain ⟨h1, h2⟩ := h left hg
    constructor
    · intro p hp
      have := h1 p hp
      unfold UdlRoom Udl.movedTo at *
      split <;> simp_all
      norm_num at this ⊢
      rcases ho with ho | ho <;> nlinarith [le_max_left left 0, le_max_right left 0]
    · intro p hp
      have := h2 p hp
      unfold LlRoom LineLoad.movedTo at *
      split <;> simp_all
      rcases ho with ho | ho <;> nlinarith [le_max_left left 0, le_max_right left 0]
  have k1 := k.1
  simp only [Limits, GroundOf, Prod.mk.injEq] at k1
  simp only [Prod.mk.injEq]
  tauto

/-- After an attempt the model is as long as the loads need there, and no longer than it has to be. -/
theorem tryOffset_room {s : Slope ℝ} (h : WFS s) (z : Sized s) (o : ℝ) :
    Sized (s.tryOffset o).1 ∧ ∀ p ∈ s.udls, (p.load.movedTo o).minLength ≤ (s.tryOffset o).1.minExtL := by
  obtain ⟨a, e, -, -, -, -, -, hu, -⟩ := setDynamicOffset_spec h o
  have za := sized_setDynamicOffset h z o
  rw [e] at za
  obtain ⟨x, y, k, -⟩ := C25_configuration_untouched a none
  unfold Slope.tryOffset
  rw [e, andThen_done]
  refine andThen_inv (I := fun t => Sized t ∧ ∀ p ∈ s.udls, (p.load.movedTo o).minLength ≤ t.minExtL) _ _ ?_ ?_
  · rw [k]
    exact ⟨⟨za.1, za.2⟩, hu⟩
  · intro b _ hb
    split
    · exact hb
    · exact hb
    · exact ⟨⟨hb.1.1, hb.1.2⟩, hb.2⟩

theorem Attempts.long {s t : Slope ℝ} {l : List (ℝ × ℝ)} (hA : Attempts s l t) (hw : WFS s) (z : Sized s) :
    ∀ a ∈ l, ∀ p ∈ s.udls, (p.load.movedTo a.1).minLength ≤ t.minExtL := by
  induction hA with
  | nil d => simp
  | @snoc l t o f u h k ih =>
    obtain ⟨wt, -, hm⟩ := h.spec hw
    obtain ⟨-, gu, -⟩ := k.spec wt
    intro a ha p hp
    rcases List.mem_append.mp ha with ha | ha
    · exact (ih a ha p hp).trans gu.minExtL
    · rw [List.mem_singleton] at ha
      subst ha
      obtain ⟨v, e, hv⟩ := k.try
      have := (tryOffset_room wt (z.attempts hw h) o).2
      rw [e] at this
      rw [hv]
      rcases hm with ⟨-, e'⟩ | ⟨o', -, -, e', -⟩
      · rw [e'] at this
        exact this p hp
      · have hq : (p.load.movedTo o') ∈ t.udls.map PUdl.load := by
          rw [e']
          exact List.mem_map_of_mem (List.mem_map_of_mem hp)
        obtain ⟨q, hq, eq⟩ := List.mem_map.mp hq
        have := this q hq
        rwa [eq, movedTo_twice] at this

/-- C124 is violated, and not only now and then: take a slope in a model as big as it has to be, with the crest
further than twice the length of the slope (and 5 cm) from the side, and a dynamic distributed load. A dynamic
analysis that finds the slope not safe with the loads at the crest, and so goes on to the other offsets, moves
the crest, whatever it returns or raises after that. -/
theorem C124_crest_moves (s : Slope ℝ) (r : Reachable s) (z : Sized s) (far : 2 * s.length + 0.05 < s.topX)
    {p : PUdl ℝ} (hp : p ∈ s.udls) (hd : p.load.dynamic = true) (c : ℝ) (dec : Bool)
    (hf : ∃ f, (0, f) ∈ (s.analyseDynamic c dec).1.dynResults ∧ f ≤ c) :
    s.topX < (s.analyseDynamic c dec).1.topX := by
  have rt : Reachable (s.analyseDynamic c dec).1 := r.call (.analyseDynamic s c dec)
  obtain ⟨g, -⟩ := C47_only_dynamic_loads_move s r c dec
  generalize ht : (s.analyseDynamic c dec).1 = t at *
  generalize hx : (s.analyseDynamic c dec).2 = x at *
  -- it is enough that the model has grown
  suffices key : Sized t ∧ (s.topX - 0.01) * 2.5 ≤ t.minExtL by
    obtain ⟨zt, hm⟩ := key
    have g1 := r.wf.geo
    have g2 := rt.wf.geo
    have h1 := g1.topX
    have h2 := g2.topX
    have h3 := zt.long
    have h4 : t.minExtL ≤ t.extL := by
      rw [h3]
      exact (le_max_right _ _).trans (le_max_left _ _)
    have h5 : s.extL = 2 * s.topX + s.length := by linarith
    rw [h2, g.length]
    norm_num at hm far
    linarith
  rcases analyseDynamic_end r.wfs c dec (t := t) (r := x) (by rw [← ht, ← hx]) with ⟨h, _⟩ | ⟨left, hg, hE⟩
  · rw [h] at hf
    obtain ⟨f, hf, -⟩ := hf
    cases hf
  · obtain ⟨l, hl, hle⟩ := hg.2.2 p hp hd
    have l0 := (r.wfs.2.udl p.load (List.mem_map_of_mem hp)).2 l hl
    have ml : (p.load.movedTo left).minLength = (left + l) * 2.5 := by
      simp [Udl.minLength, Udl.movedTo, hd, hl, l0.ne']
    have need : (s.topX - 0.01) * 2.5 ≤ (p.load.movedTo left).minLength := by
      rw [ml]
      norm_num at hle ⊢
      linarith
    have att : ∀ {u : Slope ℝ} {l : List (ℝ × ℝ)} {g}, Attempts s l u → (left, g) ∈ l →
        Sized u ∧ (s.topX - 0.01) * 2.5 ≤ u.minExtL := fun hA hm =>
      ⟨z.attempts r.wfs hA, need.trans (hA.long r.wfs z _ hm p hp)⟩
    cases hE with
    | crestFails e =>
      obtain ⟨f, hf, -⟩ := hf
      have := (tryOffset_spec (r.wfs.dyn []) 0).2.2.2.2
      rw [e] at this
      rw [this _ rfl] at hf
      cases hf
    | safe h hR hlt =>
      obtain ⟨f', hf', hle'⟩ := hf
      obtain ⟨l1, l2, e, -⟩ := (hR.2 0 f').mp hf'
      rcases l1 with _ | ⟨a, l1⟩
      · cases e
        exact absurd hle' (not_le.mpr hlt)
      · simp at e
    | @farFails u f _ h _ _ e =>
      obtain ⟨wu, -, hm⟩ := h.spec r.wfs
      have zu := z.attempts r.wfs h
      obtain ⟨q1, q2⟩ := tryOffset_room wu zu left
      rw [e] at q1 q2
      refine ⟨q1, need.trans ?_⟩
      rcases hm with ⟨e', -⟩ | ⟨o', -, -, e', -⟩
      · cases e'
      · have hq : (p.load.movedTo o') ∈ u.udls.map PUdl.load := by
          rw [e']
          exact List.mem_map_of_mem (List.mem_map_of_mem hp)
        obtain ⟨q, hq, eq⟩ := List.mem_map.mp hq
        have := q2 q hq
        rwa [eq, movedTo_twice] at this
    | failing h => exact att h (List.mem_cons_of_mem _ List.mem_cons_self)
    | looped h => exact att h (List.mem_cons_of_mem _ List.mem_cons_self)
    | @loopFails u f g m e h _ _ _ _ _ hh =>
      have k := att h (g := g) (by simp)
      rcases hh with ⟨rfl, -⟩ | ⟨o, -, e⟩
      · exact k
      · obtain ⟨wu, -, -⟩ := h.spec r.wfs
        have q1 := (tryOffset_room wu k.1 o).1
        have q2 := (tryOffset_spec wu o).1.minExtL
        rw [e] at q1 q2
        exact ⟨q1, k.2.trans q2⟩

/-! ## The slope of the example in a model of 100 metres, with a dynamic load -/

/-- `Udl(magnitude=20, offset=0, length=1, dynamic=True)` -/
noncomputable def shortUdl (o : ℝ) : Udl ℝ :=
  { magnitude := 20, offset := |o|, length := some 1, color := "red", dynamic := true }

theorem shortUdl_constructed (o : ℝ) : Udl.Constructed (shortUdl o) := by
  refine ⟨fun _ => true, .num 20, .num o, .num 1, "red", true, ?_⟩
  rw [(C02_signs_do_not_matter _ _ _).2.1]
  simp [shortUdl]

theorem shortUdl_minLength {o : ℝ} (h : 0 ≤ o) : (shortUdl o).minLength = (o + 1) * 2.5 := by
  simp [Udl.minLength, shortUdl, abs_of_nonneg h]

/-- Analysing one circle that has a factor of safety. -/
theorem one_circle {t : Slope ℝ} {p : Plane ℝ} {F : ℝ} (hi : t.individual = [p])
    (hF : t.bishop p.cx p.cy p.radius none none = .ok F) :
    t.analyseSlope none = (t.analysedTo none [p], .ok ()) ∧ (t.analysedTo none [p]).getMinFos = .ok (some F) := by
  have hA := analyseSlope_of (s := t) (ps := [p]) (.inl ⟨by simp [hi], hi.symm⟩) (by
    intro q hq x hx
    rw [List.mem_singleton] at hq
    subst hq
    unfold FosRaises at hx
    rw [hF] at hx
    cases hx) none
  have hfo : fosOf t p = some F := fosOf_some.mpr hF
  have hsearch : (t.analysedTo none [p]).search = [withFos t p] := by
    change tidySearch none [withFos t p] = _
    rw [tidySearch_eq]
    have : (withFos t p).fosVal.isSome := by
      rw [fosVal_withFos, hfo]; rfl
    simp [this, sortByKey, pySort, keeps]
  refine ⟨hA, ?_⟩
  unfold Slope.getMinFos
  rw [hsearch]
  simp only [withFos, hfo]

/-- Analysing one circle that has none. -/
theorem no_circle {t : Slope ℝ} {p : Plane ℝ} (hi : t.individual = [p])
    (hF : t.bishop p.cx p.cy p.radius none none = .error .retNone) :
    t.analyseSlope none = (t.analysedTo none [p], .ok ()) ∧ (t.analysedTo none [p]).getMinFos = .error .indexError := by
  have hA := analyseSlope_of (s := t) (ps := [p]) (.inl ⟨by simp [hi], hi.symm⟩) (by
    intro q hq x hx
    rw [List.mem_singleton] at hq
    subst hq
    unfold FosRaises at hx
    rw [hF] at hx
    cases hx) none
  have hfo : fosOf t p = none := by
    unfold fosOf
    rw [hF]
  have hsearch : (t.analysedTo none [p]).search = [] := by
    change tidySearch none [withFos t p] = _
    rw [tidySearch_eq]
    have : (withFos t p).fosVal = none := by
      rw [fosVal_withFos, hfo]
    simp [this, sortByKey, pySort]
  refine ⟨hA, ?_⟩
  unfold Slope.getMinFos
  rw [hsearch]

/-- The example with the load at the crest, in its own model. -/
theorem exShort : ∃ (m : UdlMax ℝ) (F : ℝ), let a : Slope ℝ :=
    { exReady with udls := [placeUdl exReady.topX (shortUdl 0)], udlMax := m, search := [] }
    Reachable a ∧ a.bishop 9 (35 / 3) (17 / 3) none none = .ok F := by
  obtain ⟨m, e⟩ := setUdl_small (s := exReady) (shortUdl 0) (by norm_num [shortUdl])
    (by
      rw [shortUdl_minLength le_rfl]
      change _ ≤ (10 : ℝ); norm_num)
    (by intro p hp; cases hp)
  have hu : exReady.udls = [] := rfl
  rw [hu, List.nil_append] at e
  set a : Slope ℝ := { exReady with udls := [placeUdl exReady.topX (shortUdl 0)], udlMax := m, search := [] } with ha
  have ra : Reachable a := by
    have := exReady_reachable.call (.setUdls _ [some (shortUdl 0)] (by
      intro u hu; simp at hu; subst hu; exact shortUdl_constructed 0))
    rwa [e] at this
  have he : a.bishopEnds 9 (35 / 3) (17 / 3) none none = .ok ((4, 9), (9, 6)) := by
    have : a.circleExternalIntersection 9 (35 / 3) (17 / 3) = .ok [(4, 9), (9, 6)] := exIntersections
    unfold Slope.bishopEnds
    simp only [this]
    rw [setSize_nodup (by simp), if_neg (by simp)]
  obtain ⟨F, -, hF, -⟩ := bishop_of_cut ra
    (by
      intro l hl
      obtain rfl : l = _ := List.mem_singleton.mp hl
      change (0 : ℝ) ≤ 90
      norm_num)
    (.inl rfl) (by intro z hz; cases hz) (by simp [ha, exReady])
    (.inl (by
      intro l hl
      obtain rfl : l = _ := List.mem_singleton.mp hl
      change (0 : ℝ) < 5
      norm_num))
    (by norm_num) he (by
      refine ⟨le_refl _, fun x a b => ?_⟩
      have := (exBelow a b).1
      rwa [sliceTop_eq exSoil_reachable.wf.geo] at this)
  exact ⟨m, F, ra, hF⟩

/-- `s = Slope(height=3, length=3); s.update_boundary_options(100)`. -/
noncomputable def exWide : Slope ℝ := ({ exSlope with minExtL := 100 } : Slope ℝ).withGeo 3 3

theorem exWide_reachable : Reachable exWide := by
  have := Reachable.call exSlope_reachable (.updateBoundaryOptions exSlope (.num 100) .none)
  rwa [updateBoundaryOptions_L exSlope_reachable.wf.geo 100 (by norm_num)] at this

theorem exWide_extL : exWide.extL = 100 := by
  change max (max (5 * (3 : ℝ)) 100) (4 * 3) = 100
  norm_num

theorem exWide_extH : exWide.extH = 9 := by
  change max (max (3 * (3 : ℝ)) 6) (5 * 3 / 2) = 9
  norm_num

/-- … with the material of `exSoil` … -/
noncomputable def exWideSoil : Slope ℝ := { exWide with materials := [mkLayer exWide.extH 0 (exMat 2)] }

theorem exWideSoil_reachable : Reachable exWideSoil := by
  have := Reachable.call exWide_reachable (.setMaterials exWide [some (exMat 2)] (by
    intro m hm; simp at hm; subst hm; exact exMat_constructed _))
  rw [setMaterials_one exWide_reachable.wf.geo rfl] at this
  have hd : exWide.deepen (exMat 2).depth = exWide := by
    unfold Slope.deepen
    rw [if_neg]
    rw [exWide_extH]
    simp [exMat]; norm_num
  rw [hd] at this
  exact this

theorem exWideSoil_topX : exWideSoil.topX = 97 / 2 := by
  rw [exWideSoil_reachable.wf.geo.topX]
  change (exWide.extL - 3) / 2 = _
  rw [exWide_extL]; norm_num

theorem exWideSoil_topY : exWideSoil.topY = 9 := by
  rw [exWideSoil_reachable.wf.geo.topY]; exact exWide_extH

/-- … and with the circle of `exReady` … -/
noncomputable def exWideReady : Slope ℝ :=
  { exWideSoil with individual := [exPlane.moved (85 / 2) 0], search := (exWideSoil.addSingleCircularPlane (103 / 2) (35 / 3) (17 / 3)).1.search }

theorem exWideSoil_inPlace : InPlace exWideSoil where
  levels := by
    intro l hl
    simp only [exWideSoil, List.mem_singleton] at hl
    subst hl
    rw [exWideSoil_topY]
    change exWide.extH - _ = _
    rw [exWide_extH]; rfl
  lls := by intro p hp; cases hp
  water := by intro z hz; cases hz

theorem exWideSoil_holds : Holds exWideSoil (exWideSoil.topX + 3) (exWideSoil.topY + 8 / 3) (17 / 3) := by
  have e : exWideSoil.extL = 100 := exWide_extL
  constructor <;> norm_num [exWideSoil_topX, exWideSoil_topY, e]

theorem exWideReady_reachable : Reachable exWideReady := by
  obtain ⟨_, new, h1, h2⟩ := C91_model_size exSoil exWideSoil exSoil_reachable exWideSoil_reachable
    (by constructor <;> rfl) exSoil_inPlace exWideSoil_inPlace 3 (8 / 3) (17 / 3) exSoil_holds exWideSoil_holds
  have e1 : exSoil.topX + 3 = 9 := by simp; norm_num
  have e2 : exSoil.topY + 8 / 3 = 35 / 3 := by simp; norm_num
  rw [e1, e2, exReady_eq] at h1
  have h3 : new = [exPlane] := by
    have : exSoil.individual = [] := rfl
    rw [this, List.nil_append] at h1
    exact h1.symm
  have e3 : (97 : ℝ) / 2 + 3 = 103 / 2 := by norm_num
  have e4 : (9 : ℝ) + 8 / 3 = 35 / 3 := by norm_num
  have e5 : (97 : ℝ) / 2 - 6 = 85 / 2 := by norm_num
  have e6 : (9 : ℝ) - 9 = 0 := by norm_num
  have e7 : exWideSoil.individual = [] := rfl
  rw [h3, exWideSoil_topX, exWideSoil_topY, exSoil_topX, exSoil_topY, e3, e4, e5, e6, e7] at h2
  have := Reachable.call exWideSoil_reachable (.addSingleCircularPlane _ (103 / 2) (35 / 3) (17 / 3))
  rw [addSingle_rest, h2] at this
  exact this

/-- … and with a load at the crest that is to be moved. -/
theorem exWide_load : ∃ (m : UdlMax ℝ) (F : ℝ), let a : Slope ℝ :=
    { exWideReady with udls := [placeUdl exWideReady.topX (shortUdl 0)], udlMax := m, search := [] }
    Reachable a ∧ a.bishop (103 / 2) (35 / 3) (17 / 3) none none = .ok F := by
  obtain ⟨m, e⟩ := setUdl_small (s := exWideReady) (shortUdl 0) (by norm_num [shortUdl])
    (by
      rw [shortUdl_minLength le_rfl]
      change _ ≤ (100 : ℝ); norm_num)
    (by intro p hp; cases hp)
  have hu : exWideReady.udls = [] := rfl
  rw [hu, List.nil_append] at e
  set a : Slope ℝ := { exWideReady with udls := [placeUdl exWideReady.topX (shortUdl 0)], udlMax := m, search := [] } with ha
  have ra : Reachable a := by
    have := exWideReady_reachable.call (.setUdls _ [some (shortUdl 0)] (by
      intro u hu; simp at hu; subst hu; exact shortUdl_constructed 0))
    rwa [e] at this
  obtain ⟨m', F, rb, hF⟩ := exShort
  refine ⟨m, F, ra, ?_⟩
  set b : Slope ℝ := { exReady with udls := [placeUdl exReady.topX (shortUdl 0)], udlMax := m', search := [] } with hb
  have hs : Holds b (b.topX + 3) (b.topY + 8 / 3) (17 / 3) := exSoil_holds.casesOn fun h1 h2 h3 h4 => ⟨h1, h2, h3, h4⟩
  have ht : Holds a (a.topX + 3) (a.topY + 8 / 3) (17 / 3) := exWideSoil_holds.casesOn fun h1 h2 h3 h4 => ⟨h1, h2, h3, h4⟩
  obtain ⟨k, -⟩ := C91_model_size b a rb ra (by constructor <;> rfl)
    ⟨exSoil_inPlace.levels, exSoil_inPlace.lls, exSoil_inPlace.water⟩
    ⟨exWideSoil_inPlace.levels, exWideSoil_inPlace.lls, exWideSoil_inPlace.water⟩ 3 (8 / 3) (17 / 3) hs ht
  have x1 : a.topX = 97 / 2 := exWideSoil_topX
  have x2 : a.topY = 9 := exWideSoil_topY
  have x3 : b.topX = 6 := exSoil_topX
  have x4 : b.topY = 9 := exSoil_topY
  rw [x1, x2, x3, x4] at k
  norm_num at k
  rw [k]
  exact hF

/-- Where the circle was, the ground is level. -/
theorem level_bishop {t : Slope ℝ} (g : Geo t) (h1 : 59 ≤ t.topX) (h2 : t.topY = 9) :
    t.bishop (103 / 2) (35 / 3) (17 / 3) none none = .error .retNone := by
  obtain ⟨l, e, hp, hc, -⟩ := intersections g (103 / 2) (35 / 3) (17 / 3)
  have hb := g.botX
  have hl := g.len
  have only : ∀ p ∈ l, p.1 = 93 / 2 := by
    intro p hp
    obtain ⟨ho, hc⟩ := hc p hp
    unfold OnCircle at ho
    rw [h2] at hc
    norm_num at hl
    have hx : p.1 ≤ 58 := by nlinarith [sq_nonneg (p.2 - 35 / 3)]
    rcases hc with ⟨a, b, c, d⟩ | ⟨a, b, c, d⟩ | ⟨a, b, c⟩
    · rw [a] at ho
      have : (p.1 - 93 / 2) * (p.1 - 113 / 2) = 0 := by nlinarith
      rcases mul_eq_zero.mp this with h | h <;> linarith
    · linarith
    · linarith
  have hs : setSize l < 2 := by
    rw [setSize_nodup (hp.imp (fun {a b} h e => by subst e; norm_num at h))]
    rcases l with _ | ⟨a, _ | ⟨b, l⟩⟩
    · simp
    · simp
    · have := (List.pairwise_cons.mp hp).1 b (by simp)
      rw [only a (by simp), only b (by simp)] at this
      norm_num at this
  unfold Slope.bishop Slope.bishopEnds
  simp only [e, if_pos hs]
  rfl

theorem exWideReady_sized : Sized exWideReady := by
  have h1 : exWideReady.extH = 9 := exWide_extH
  have h2 : exWideReady.extL = 100 := exWide_extL
  have h3 : exWideReady.minExtH = 6 := rfl
  have h4 : exWideReady.minExtL = 100 := rfl
  have h5 : exWideReady.height = 3 := rfl
  have h6 : exWideReady.length = 3 := rfl
  constructor
  · rw [h1, h3, h5, h6]; norm_num
  · rw [h2, h4, h5, h6]; norm_num

/-- C124 is violated, a case: the circle the user added has a factor of safety with the load at the crest. The
dynamic analysis moves the load 47.49 m away, for which the model is made longer; the ground moves away from under
the circle, the analysis finds nothing there, and `analyse_dynamic` raises `IndexError`. -/
theorem C124_ground_moves : ∃ (s t : Slope ℝ) (c : ℝ) (p : PUdl ℝ), Reachable s ∧ Sized s ∧ 2 * s.length + 0.05 < s.topX ∧
    p ∈ s.udls ∧ p.load.dynamic = true ∧
    (s.analyseSlope none).2 = .ok () ∧ (s.analyseSlope none).1.getMinFos = .ok (some c) ∧
    s.analyseDynamic c false = (t, .error .indexError) ∧ t.dynResults = [(0, c)] ∧ s.topX < t.topX := by
  obtain ⟨m, F, ra, hF⟩ := exWide_load
  set a : Slope ℝ :=
    { exWideReady with udls := [placeUdl exWideReady.topX (shortUdl 0)], udlMax := m, search := [] } with ha
  have za : Sized a := ⟨exWideReady_sized.1, exWideReady_sized.2⟩
  have x1 : a.topX = 97 / 2 := exWideSoil_topX
  have x2 : a.length = 3 := rfl
  have x3 : a.udls = [placeUdl a.topX (shortUdl 0)] := rfl
  have far : 2 * a.length + 0.05 < a.topX := by rw [x1, x2]; norm_num
  have i0 : ∀ t : Slope ℝ, ∀ v, t.individual = [{ exPlane.moved (85 / 2) 0 with fos := v }] →
      ∃ p, t.individual = [p] ∧ p.cx = 103 / 2 ∧ p.cy = 35 / 3 ∧ p.radius = 17 / 3 := by
    intro t v h
    refine ⟨_, h, ?_, ?_, ?_⟩ <;> simp [Plane.moved, exPlane] <;> norm_num
  obtain ⟨p, p1, p2, p3, p4⟩ := i0 a none rfl
  have o1 := one_circle p1 (by rw [p2, p3, p4]; exact hF)
  -- the load at the crest
  have mv : ∀ q ∈ a.udls, (q.load.movedTo 0).minLength ≤ a.minExtL := by
    intro q hq
    rw [x3, List.mem_singleton] at hq
    subst hq
    have : (placeUdl a.topX (shortUdl 0)).load.movedTo 0 = shortUdl 0 := by
      simp [placeUdl, Udl.movedTo, shortUdl]
    rw [this, shortUdl_minLength le_rfl]
    change _ ≤ (100 : ℝ)
    norm_num
  obtain ⟨m', e0⟩ := setDynamicOffset_small ra.wfs 0 mv (by intro q hq; cases hq)
  have eu : a.udls.map (fun p => placeUdl a.topX (p.load.movedTo 0)) = a.udls := by
    rw [x3]
    simp [placeUdl, Udl.movedTo, shortUdl]
  rw [eu] at e0
  set b : Slope ℝ := { a with udlMax := m', search := [] } with hb
  replace e0 : a.setDynamicOffset 0 = (b, .ok ()) := e0
  have sab : SameSetup a b := by constructor <;> rfl
  have o2 := one_circle (t := b) (p := p) p1 (by rw [p2, p3, p4, sab.bishop]; exact hF)
  set u : Slope ℝ := { b.analysedTo none [p] with dynResults := [(0, F)] } with hu
  have t0 : a.tryOffset 0 = (u, .ok F) := by
    unfold Slope.tryOffset
    rw [e0, andThen_done, o2.1, andThen_done, o2.2]
    rfl
  -- the load far away
  have hA : Attempts a [(0, F)] u := .snoc (.nil a a.dynResults) ⟨b, _, _, e0, o2.1, o2.2, rfl⟩
  obtain ⟨wu, -, -⟩ := hA.spec ra.wfs
  have zu : Sized u := za.attempts ra.wfs hA
  obtain ⟨v, e1, wv, gv, -, dv, iv, hv, -⟩ := setDynamicOffset_spec wu (97 / 2 - 1 - 0.01)
  have zv := sized_setDynamicOffset wu zu (97 / 2 - 1 - 0.01)
  rw [e1] at zv
  have lv : (121 : ℝ) ≤ v.minExtL := by
    have := hv (placeUdl a.topX (shortUdl 0)) (by change _ ∈ a.udls; rw [x3]; simp)
    refine le_trans ?_ this
    simp [placeUdl, Udl.movedTo, shortUdl, Udl.minLength]
    norm_num
  have gl : v.length = 3 := gv.length
  have gh : v.height = 3 := gv.height
  have gm : v.minExtH = 6 := gv.minExtH
  have tv : 59 ≤ v.topX := by
    rw [wv.1.geo.topX, gl]
    have : v.minExtL ≤ v.extL := by
      rw [zv.long]
      exact (le_max_right _ _).trans (le_max_left _ _)
    linarith
  have ty : v.topY = 9 := by
    rw [wv.1.geo.topY, zv.high, gl, gh, gm]
    norm_num
  obtain ⟨q, q1, q2, q3, q4⟩ := i0 v (some (fosOf b p)) (by
    rw [iv]
    have : p = exPlane.moved (85 / 2) 0 := by
      have : a.individual = [exPlane.moved (85 / 2) 0] := rfl
      rw [p1] at this
      simpa using this
    change b.individual.map (withFos b) = _
    have hi : b.individual = [p] := p1
    rw [hi, this]
    rfl)
  have o3 := no_circle q1 (by rw [q2, q3, q4]; exact level_bishop wv.1.geo tv ty)
  have t1 : u.tryOffset (97 / 2 - 1 - 0.01) = (v.analysedTo none [q], .error .indexError) := by
    unfold Slope.tryOffset
    rw [e1, andThen_done, o3.1, andThen_done, o3.2]
  refine ⟨a, v.analysedTo none [q], F, placeUdl a.topX (shortUdl 0), ra, za, far, by rw [x3]; simp, rfl,
    by rw [o1.1], by rw [o1.1]; exact o1.2, ?_, dv, ?_⟩
  · have ed : ({ a with dynResults := [] } : Slope ℝ) = a := rfl
    have em : maxOffset a.topX a.udls a.length = .ok (97 / 2 - 1) := by
      rw [x3, x2, x1]
      simp [maxOffset, placeUdl, shortUdl]
      norm_num
    unfold Slope.analyseDynamic
    simp only [ed, em, lit_zero]
    rw [t0, andThen_done, if_neg (lt_irrefl _), t1]
    rfl
  · rw [x1]
    change _ < v.topX
    linarith

/-- That slope meets the hypotheses of `C124_crest_moves`. -/
example : ∃ (s : Slope ℝ) (c : ℝ), Reachable s ∧ Sized s ∧ 2 * s.length + 0.05 < s.topX ∧
    (∃ p ∈ s.udls, p.load.dynamic = true) ∧ (∃ f, (0, f) ∈ (s.analyseDynamic c false).1.dynResults ∧ f ≤ c) ∧
    s.topX < (s.analyseDynamic c false).1.topX := by
  obtain ⟨s, t, c, p, h1, h2, h3, h4, h5, -, -, h6, h7, -⟩ := C124_ground_moves
  have hf : ∃ f, (0, f) ∈ (s.analyseDynamic c false).1.dynResults ∧ f ≤ c := by
    rw [h6]
    exact ⟨c, by simp only [h7, List.mem_singleton], le_rfl⟩
  exact ⟨s, c, h1, h2, h3, ⟨p, h4, h5⟩, hf, C124_crest_moves s h1 h2 h3 h4 h5 c false hf⟩

/-- A case of `C124_same_ground_partial`: a dynamic line load 3 m behind the crest, which comes to the crest. -/
example : ∃ (s t : Slope ℝ) (c : ℝ), Reachable s ∧ s.analyseDynamic c false = (t, .ok (some 0)) ∧
    s.lls.map (·.load.offset) = [3] ∧ t.lls.map (·.load.offset) = [0] ∧ (t.topX, t.topY) = (s.topX, s.topY) := by
  have h3 : (3 : ℝ) ≤ 4 := by norm_num
  have h4 : (4 : ℝ) ≤ 4 := le_rfl
  have h5 : (5 : ℝ) ≠ 0 := by norm_num
  have a3 : |(3 : ℝ)| = 3 := by norm_num
  have rs := exDyn_reachable (c := 5) (e := 4) (o := 3) h3 h4 (by norm_num)
  have hs := exDyn_state (c := 5) (e := 4) (o := 3) h3 h4 (by norm_num)
  obtain ⟨u, e1, hu⟩ := (hs.dyn []).try h3 h4 h5 (o' := 0) le_rfl (by norm_num)
  have hd : (exDyn 5 4 3).analyseDynamic (cFos 5 4 0 - 1) false = (u, .ok (some 0)) := by
    unfold Slope.analyseDynamic
    simp only
    rw [show maxOffset (exDyn 5 4 3).topX (exDyn 5 4 3).udls (exDyn 5 4 3).length = .ok 3 from rfl]
    simp only [lit_zero]
    rw [e1]
    simp only [Out.andThen]
    rw [if_pos (by linarith)]
  have k := C124_same_ground_partial (exDyn 5 4 3) rs (cFos 5 4 0 - 1) false (by
    intro left hg
    have hl : left + 0.01 = 3 := by
      rcases hg.1 with h | ⟨p, hp, -⟩
      · exact h
      · cases hp
    refine ⟨(by intro p hp; cases hp), ?_⟩
    intro p hp
    have : (exDyn 5 4 3).minExtL = 10 := rfl
    have hq : p.load = dynLl 3 := by
      have hp : p ∈ [placeLl exSlope.topX (dynLl 3)] := hp
      rw [List.mem_singleton] at hp
      rw [hp]
      rfl
    have hm : max left 0 ≤ 3 := max_le (by norm_num at hl; linarith) (by norm_num)
    unfold LlRoom
    rw [this, hq]
    simp only [LineLoad.movedTo, dynLl, if_true]
    linarith)
  rw [hd] at k
  refine ⟨_, u, _, rs, hd, ?_, ?_, k.2.1⟩
  · simp [exDyn, placeLl, dynLl]
  · have : u.lls = [placeLl exSlope.topX (dynLl 0)] := hu.setup.lls
    rw [this]
    simp [placeLl, dynLl]

end PySlope
