import Verif.Spec.Local
import Verif.Props.Alike
import Verif.Props.Total
import Verif.Props.FosLaws
import Verif.Spec.ExampleFos

/-! # Property C98: only what is in and on the sliding mass counts -/

namespace PySlope

namespace SameButWater
variable {s t : Slope ℝ} (h : SameButWater s t)
include h

theorem frame : SameFrame s { t with waterRL := s.waterRL, waterH := s.waterH } := h

theorem sliceRows : t.sliceRows = s.sliceRows := h.frame.sliceRows
theorem bishopEnds : t.bishopEnds = s.bishopEnds := h.frame.bishopEnds
theorem slices : t.slices = s.slices := h.frame.slices
theorem tolerance : t.tolerance = s.tolerance := h.frame.tolerance
theorem maxIterations : t.maxIterations = s.maxIterations := h.frame.maxIterations

/-- The forces on the slices of a circle from `xl` to `xr`. -/
theorem sliceForces (rs : Reachable s) (rt : Reachable t) {cx cy r xl xr : ℝ} (hr : 0 ≤ r) (hx : xl < xr)
    (ws : WaterBelowCrest s) (wt : WaterBelowCrest t)
    (m : SameMass s t xl xr (cy - r)) {rows : List (Row ℝ)} (e : s.sliceRows cx cy r xl xr = .ok rows) :
    t.sliceForces ((xr - xl) / ofInt s.slices) rows = s.sliceForces ((xr - xl) / ofInt s.slices) rows := by
  rw [ofInt_real]
  have e' : t.sliceRows cx cy r xl xr = .ok rows := by rw [h.sliceRows, e]
  obtain ⟨hw, hlen, hend, hrow, _⟩ := C35_slices_tile s rs hx e
  obtain ⟨v, hv⟩ := waterX_ok rs.wf.geo ws
  obtain ⟨v', hv'⟩ := waterX_ok rt.wf.geo wt
  unfold Slope.sliceForces
  rw [hv, hv']
  simp only [bind, Except.bind]
  apply mapM_congr_mem
  intro q hq
  obtain ⟨i, hi, hqi⟩ := List.getElem_of_mem hq
  obtain ⟨q1, q2, q3, q4, _⟩ := hrow i q (by rw [List.getElem?_eq_getElem hi, hqi])
  have hlow : cy - r ≤ q.yb := by
    unfold OnCircle at q3
    simp only at q3
    have : (q.yb - cy) ^ 2 ≤ r ^ 2 := by nlinarith [sq_nonneg (q.x - cx)]
    have := abs_le_of_sq_le_sq' this hr
    linarith [this.1]
  have hin : (i : ℝ) + 1 ≤ rows.length := by exact_mod_cast hi
  have ha : xl ≤ q.x - (xr - xl) / s.slices / 2 := by
    rw [q1]
    have : 0 ≤ (i : ℝ) * ((xr - xl) / s.slices) := mul_nonneg (by positivity) hw.le
    linarith
  have hb : q.x + (xr - xl) / s.slices / 2 ≤ xr := by
    rw [q2]
    have := mul_le_mul_of_nonneg_right hin hw.le
    linarith
  have hab : q.x - (xr - xl) / s.slices / 2 ≤ q.x + (xr - xl) / s.slices / 2 := by linarith
  obtain ⟨c1, c2⟩ := C38_weight_of_the_soil s rs e q hq ((xr - xl) / s.slices)
  obtain ⟨_, c3⟩ := C38_weight_of_the_soil t rt e' q hq ((xr - xl) / s.slices)
  have hW : t.rowWeight ((xr - xl) / s.slices) q = s.rowWeight ((xr - xl) / s.slices) q := by
    rw [rowWeight_eq, rowWeight_eq, c2, c3]
    have hu : (∫ y in q.yb..q.yt, unitWeightAt t.materials y) = ∫ y in q.yb..q.yt, unitWeightAt s.materials y := by
      apply intervalIntegral.integral_congr
      intro y hy
      rw [Set.uIcc_of_le c1] at hy
      rw [soil_weight, soil_weight, m.soil y (hlow.trans hy.1)]
    have hl := m.load _ _ ha hab hb
    unfold loadOn at hl
    rw [hu, add_assoc, add_assoc, hl]
  have hU : t.waterHead v' q = s.waterHead v q := by
    rw [waterHead_eq rt.wf.geo hv', waterHead_eq rs.wf.geo hv]
    rcases m.water with ⟨w1, w2⟩ | ⟨w1, w2⟩
    · have hf : SameFrame s t := by
        have : ({ t with waterRL := s.waterRL, waterH := s.waterH } : Slope ℝ) = t := by rw [← w1, ← w2]
        have h' : SameFrame s _ := h
        rwa [this] at h'
      unfold pressureAt groundY
      rw [w1, w2, hf.topX, hf.length, hf.extH, hf.height]
    · have dry : ∀ u : Slope ℝ, DryAbove u (cy - r) → pressureAt u q.x q.yb q.yt = 0 := by
        intro u hu
        unfold pressureAt
        cases hz : u.waterRL with
        | none => rfl
        | some z =>
          simp only
          split_ifs
          · rfl
          all_goals
            rw [max_eq_right (by have := hu z hz; linarith [min_le_left z q.yt])]
            ring
      rw [dry t w2, dry s w1]
  rw [soil_strength rs, soil_strength rt, m.soil q.yb hlow, hW, hU]

theorem ordinary (rs : Reachable s) (rt : Reachable t) {cx cy r : ℝ} {l q : ℝ × ℝ} (hx : l.1 < q.1)
    (ws : WaterBelowCrest s) (wt : WaterBelowCrest t) (m : SameMass s t l.1 q.1 (cy - r)) :
    t.ordinary cx cy r (some l) (some q) = s.ordinary cx cy r (some l) (some q) := by
  unfold Slope.ordinary
  simp only [h.sliceRows, h.slices, Slope.ordinaryEnds]
  split
  · rfl
  · rename_i hn
    have hr : 0 ≤ r := by
      by_contra hc
      exact hn (.inr (.inr (by simpa using hc)))
    refine bind_congr_ok fun p hp => ?_
    cases hp
    split
    · rfl
    · exact bind_congr_ok fun rows e => by rw [h.sliceForces rs rt hr hx ws wt m e]

end SameButWater

/-- C98: two slopes with the same geometry and options, which from end to end of a circle and down to its lowest
point have the same soil, loads and water. (Where the water differs it is below the lowest point in both.) Bishop's
method has the same outcome on the circle for both. -/
theorem C98_only_the_mass (s t : Slope ℝ) (rs : Reachable s) (rt : Reachable t) (h : SameButWater s t)
    (ws : WaterBelowCrest s) (wt : WaterBelowCrest t) (cx cy r : ℝ)
    (m : ∀ l q rest, s.circleExternalIntersection cx cy r = .ok (l :: q :: rest) →
      SameMass s t l.1 q.1 (cy - r)) :
    t.bishop cx cy r none none = s.bishop cx cy r none none := by
  unfold Slope.bishop
  simp only [h.sliceRows, h.slices, h.bishopEnds, h.tolerance, h.maxIterations]
  refine bind_congr_ok fun p hp => ?_
  obtain ⟨l, q⟩ := p
  obtain ⟨⟨rest, he⟩, hf⟩ := bishopEnds_first rs.wf.geo hp
  have hm := m l q rest he
  have hx : l.1 < q.1 := by
    have := hf.2.2.1
    norm_num at this
    linarith
  simp only
  rw [h.ordinary rs rt hx ws wt hm]
  refine bind_congr_ok fun F hF => ?_
  refine bind_congr_ok fun rows e => ?_
  have hr : 0 ≤ r := ((C55_ordinary_formula s rs cx cy r l q F).mp hF).2.2.1.le
  rw [h.sliceForces rs rt hr hx ws wt hm e]

/-- What an analysis of circles added one by one looks at. -/
theorem analyse_members {s t : Slope ℝ} (hi : s.individual ≠ []) (h2 : t.individual = s.individual)
    (h3 : ∀ p ∈ s.individual, t.bishop p.cx p.cy p.radius none none = s.bishop p.cx p.cy p.radius none none)
    (m : Option ℝ) :
    (t.analyseSlope m).2 = (s.analyseSlope m).2 ∧
    ((s.analyseSlope m).2 = .ok () → (t.analyseSlope m).1.search = (s.analyseSlope m).1.search) := by
  have hf : ∀ ps : List (Plane ℝ), (∀ p ∈ ps, p ∈ s.individual) → t.fillFos ps = s.fillFos ps := by
    intro ps
    induction ps with
    | nil => intro _; rfl
    | cons p ps ih =>
      intro hp
      unfold Slope.fillFos
      rw [h3 p (hp p (by simp)), ih fun q hq => hp q (by simp [hq])]
  have hf' := hf s.individual (fun _ h => h)
  unfold Slope.analyseSlope
  rw [h2]
  cases e : s.individual with
  | nil => exact absurd e hi
  | cons p ps =>
    rw [e] at hf'
    simp only [hf']
    split <;> simp

/-- C98 for an analysis: if two slopes differ only away from the circles that were added one by one, analysing
them has the same outcome, the same results and the same least factor. -/
theorem C98_analysis (s t : Slope ℝ) (rs : Reachable s) (rt : Reachable t) (h : SameButWater s t)
    (ws : WaterBelowCrest s) (wt : WaterBelowCrest t) (hi : s.individual ≠ [])
    (m : ∀ p ∈ s.individual, ∀ l q rest, s.circleExternalIntersection p.cx p.cy p.radius = .ok (l :: q :: rest) →
      SameMass s t l.1 q.1 (p.cy - p.radius)) (x : Option ℝ) :
    (t.analyseSlope x).2 = (s.analyseSlope x).2 ∧
    ((s.analyseSlope x).2 = .ok () →
      (t.analyseSlope x).1.search = (s.analyseSlope x).1.search ∧
      (t.analyseSlope x).1.getMinFos = (s.analyseSlope x).1.getMinFos) := by
  have hin : t.individual = s.individual := h.frame.individual
  obtain ⟨a, b⟩ := analyse_members hi hin
    (fun p hp => C98_only_the_mass s t rs rt h ws wt p.cx p.cy p.radius (m p hp)) x
  refine ⟨a, fun ho => ⟨b ho, ?_⟩⟩
  unfold Slope.getMinFos
  rw [b ho]

/-! ## The calls -/

theorem common_off {a b x z : ℝ} (h : b ≤ x ∨ z ≤ a) : common a b x z = 0 := by
  unfold common
  apply max_eq_right
  rcases h with h | h
  · linarith [min_le_left b z, le_max_right a x]
  · linarith [min_le_right b z, le_max_left a x]

/-- `set_udls` of one load when the model is long enough. -/
theorem setUdls_short {s : Slope ℝ} (w : WF s) (u : Udl ℝ) (hm : u.minLength ≤ s.minExtL) :
    ∃ t, s.setUdls [some u] = (t, .ok ()) ∧ SameFrame s t ∧ t.materials = s.materials ∧ t.lls = s.lls ∧
      t.udls = s.udls ++ if 0 < u.magnitude then [placeUdl s.topX u] else [] := by
  have hp := udls_placed w
  rw [List.map_map] at hp
  have e : s.addUdl (some u) =
      (({ s with udls := s.udls ++ if 0 < u.magnitude then [placeUdl s.topX u] else [] } : Slope ℝ), .ok ()) := by
    unfold Slope.addUdl
    simp only [lit_zero]
    split
    · rw [if_neg (not_lt.mpr hm)]
    · simp
  obtain ⟨A, hA⟩ : ∃ A : Slope ℝ, A =
      { s with udls := s.udls ++ if 0 < u.magnitude then [placeUdl s.topX u] else [] } := ⟨_, rfl⟩
  rw [← hA] at e
  refine ⟨({ A.updateUdlCoordinates with
      udlMax := maxMagnitude A.updateUdlCoordinates.udls A.updateUdlCoordinates.udlMax } : Slope ℝ).resetResults, by
    unfold Slope.setUdls
    simp only [Slope.forEach, e, Out.andThen], by rw [hA]; constructor <;> rfl, by rw [hA]; rfl, by rw [hA]; rfl, ?_⟩
  rw [hA]
  change List.map (fun p : PUdl ℝ => placeUdl s.topX p.load) (s.udls ++ _) = _
  rw [List.map_append]
  congr 1
  · exact hp.symm
  · split <;> rfl

/-- `set_lls` of one load when the model is long enough. -/
theorem setLls_short {s : Slope ℝ} (w : WF s) (u : LineLoad ℝ) (hm : u.offset * 3 ≤ s.minExtL) :
    ∃ t, s.setLls [some u] = (t, .ok ()) ∧ SameFrame s t ∧ t.materials = s.materials ∧ t.udls = s.udls ∧
      t.lls = s.lls ++ if 0 < u.magnitude then [placeLl s.topX u] else [] := by
  have hp := lls_placed w
  rw [List.map_map] at hp
  have e : s.addLl (some u) =
      (({ s with lls := s.lls ++ if 0 < u.magnitude then [placeLl s.topX u] else [] } : Slope ℝ), .ok ()) := by
    unfold Slope.addLl
    simp only [lit_zero]
    split
    · rw [if_neg (not_lt.mpr hm)]
    · simp
  obtain ⟨A, hA⟩ : ∃ A : Slope ℝ, A =
      { s with lls := s.lls ++ if 0 < u.magnitude then [placeLl s.topX u] else [] } := ⟨_, rfl⟩
  rw [← hA] at e
  refine ⟨A.updateLlCoordinates.resetResults, by
    unfold Slope.setLls
    simp only [Slope.forEach, e, Out.andThen], by rw [hA]; constructor <;> rfl, by rw [hA]; rfl, by rw [hA]; rfl, ?_⟩
  rw [hA]
  change List.map (fun p : PLl ℝ => placeLl s.topX p.load) (s.lls ++ _) = _
  rw [List.map_append]
  congr 1
  · exact hp.symm
  · split <;> rfl

theorem SameFrame.butWater {s t : Slope ℝ} (h : SameFrame s t) : SameButWater s t := by
  have : ({ t with waterRL := s.waterRL, waterH := s.waterH } : Slope ℝ) = t := by rw [← h.waterRL, ← h.waterH]
  unfold SameButWater
  rw [this]
  exact h

theorem SameFrame.below {s t : Slope ℝ} (h : SameFrame s t) (w : WaterBelowCrest s) : WaterBelowCrest t := by
  intro z hz
  rw [h.topY]
  exact w z (by rw [← h.waterRL]; exact hz)

/-- A load off a stretch of the ground changes nothing on it. -/
theorem SameMass.of_udl {s t : Slope ℝ} {u : Udl ℝ} (hl : ∀ l, u.length = some l → 0 < l) (f : SameFrame s t)
    (em : t.materials = s.materials) (el : t.lls = s.lls)
    (eu : t.udls = s.udls ++ if 0 < u.magnitude then [placeUdl s.topX u] else []) {xl xr : ℝ}
    (off : s.topX - u.offset ≤ xl ∨ ∃ len, u.length = some len ∧ xr ≤ s.topX - u.offset - len) (low : ℝ) :
    SameMass s t xl xr low := by
  refine ⟨?_, ?_, ?_⟩
  · intro y _
    unfold soilAt
    rw [em]
  · intro a b ha _ hb
    unfold loadOn
    rw [el, eu, List.map_append, List.sum_append]
    have : ((if 0 < u.magnitude then [placeUdl s.topX u] else []).map
        fun v : PUdl ℝ => common a b v.left v.right * v.load.magnitude).sum = 0 := by
      split
      · rw [List.map_cons, List.map_nil, List.sum_cons, List.sum_nil, add_zero]
        rw [common_off ?_, zero_mul]
        rcases off with h | ⟨len, h, h'⟩
        · exact .inr (h.trans ha)
        · left
          have hl := hl len h
          unfold placeUdl
          simp only [h]
          rw [if_neg (by
            have : ¬ (len ≤ 0) := not_le.mpr hl
            simp [pyEq, this])]
          rw [pyMax_real]
          exact hb.trans (h'.trans (le_max_right _ _))
      · rfl
    rw [this, add_zero]
  · exact .inl ⟨f.waterRL, f.waterH⟩

/-- C98 for a distributed load: `set_udls` with a load that begins beyond the left end of a circle, or ends beyond
its right end, does not change the outcome of Bishop's method on it. The model must be long enough for the load
already: otherwise the call moves the crest, and every circle with it. -/
theorem C98_load_off_the_mass (s : Slope ℝ) (rs : Reachable s) (u : Udl ℝ) (hc : Udl.Constructed u)
    (hm : u.minLength ≤ s.minExtL) (ws : WaterBelowCrest s) (cx cy r : ℝ)
    (off : ∀ l q rest, s.circleExternalIntersection cx cy r = .ok (l :: q :: rest) →
      s.topX - u.offset ≤ l.1 ∨ ∃ len, u.length = some len ∧ q.1 ≤ s.topX - u.offset - len) :
    (s.setUdls [some u]).2 = .ok () ∧
    (s.setUdls [some u]).1.bishop cx cy r none none = s.bishop cx cy r none none := by
  obtain ⟨t, e, f, em, el, eu⟩ := setUdls_short rs.wf u hm
  have rt : Reachable t := by
    have := Reachable.call rs (.setUdls s [some u] (by
      intro v hv
      simp only [List.mem_singleton, Option.some.injEq] at hv
      subst hv
      exact hc))
    rwa [e] at this
  rw [e]
  exact ⟨rfl, C98_only_the_mass s t rs rt f.butWater ws (f.below ws) cx cy r fun l q rest hx =>
    .of_udl hc.facts.2.2 f em el eu (off l q rest hx) _⟩

/-- C98 for a line load: `set_lls` with a load that does not stand between the ends of a circle. -/
theorem C98_line_load_off_the_mass (s : Slope ℝ) (rs : Reachable s) (u : LineLoad ℝ) (hc : LineLoad.Constructed u)
    (hm : u.offset * 3 ≤ s.minExtL) (ws : WaterBelowCrest s) (cx cy r : ℝ)
    (off : ∀ l q rest, s.circleExternalIntersection cx cy r = .ok (l :: q :: rest) →
      max 0 (s.topX - u.offset) < l.1 ∨ q.1 ≤ s.topX - u.offset) :
    (s.setLls [some u]).2 = .ok () ∧
    (s.setLls [some u]).1.bishop cx cy r none none = s.bishop cx cy r none none := by
  obtain ⟨t, e, f, em, el, eu⟩ := setLls_short rs.wf u hm
  have rt : Reachable t := by
    have := Reachable.call rs (.setLls s [some u] (by
      intro v hv
      simp only [List.mem_singleton, Option.some.injEq] at hv
      subst hv
      exact hc))
    rwa [e] at this
  rw [e]
  refine ⟨rfl, C98_only_the_mass s t rs rt f.butWater ws (f.below ws) cx cy r fun l q rest hx => ⟨?_, ?_, ?_⟩⟩
  · intro y _
    unfold soilAt
    rw [em]
  · intro a b ha _ hb
    unfold loadOn
    rw [el, eu, List.map_append, List.sum_append]
    have : ((if 0 < u.magnitude then [placeLl s.topX u] else []).map
        fun v : PLl ℝ => if a ≤ v.coord ∧ v.coord < b then v.load.magnitude else 0).sum = 0 := by
      split
      · rw [List.map_cons, List.map_nil, List.sum_cons, List.sum_nil, add_zero]
        rw [if_neg]
        unfold placeLl
        rw [pyMax_real, lit_zero]
        rintro ⟨h1, h2⟩
        rcases off l q rest hx with h | h
        · linarith
        · linarith [le_max_right 0 (s.topX - u.offset)]
      · rfl
    rw [this, add_zero]
  · exact .inl ⟨f.waterRL, f.waterH⟩

/-- C98 for the water table: `set_water_table` with a level below a circle, where there was none above its lowest
point before, does not change the outcome of Bishop's method on it. -/
theorem C98_water_below_the_mass (s t : Slope ℝ) (rs : Reachable s) (d : PyVal ℝ)
    (e : s.setWaterTable d = (t, .ok ())) (ws : WaterBelowCrest s) (cx cy r : ℝ) (hs : DryAbove s (cy - r))
    (hd : ∀ z, d = .num z ∨ d = .numSub z → max 0 (s.topY - z) ≤ cy - r) :
    t.bishop cx cy r none none = s.bishop cx cy r none none := by
  have rt : Reachable t := by
    have := Reachable.call rs (.setWaterTable s d)
    rwa [e] at this
  have h0 : 0 ≤ s.topY := by
    have g := rs.wf.geo
    have h1 := g.topY; have h2 := g.extH3; have h3 := g.hgt
    rw [h1]; linarith
  have hz : ∀ z, t.waterRL = some z → z ≤ s.topY ∧ z ≤ cy - r := by
    intro z hz
    unfold Slope.setWaterTable at e
    split at e
    · cases e; cases hz
    · split at e
      · cases e
      · rename_i hv
        cases e
        have : z = max 0 (s.topY - d.get!) := by simpa [Slope.resetResults] using hz.symm
        rw [this]
        have hn : 0 ≤ d.get! := by
          cases d <;> simp [assertPositiveNumber, PyCmp.ltb, PyVal.get!] at hv ⊢ <;> exact hv
        refine ⟨max_le h0 (by linarith), ?_⟩
        cases d with
        | num v => exact hd v (.inl rfl)
        | numSub v => exact hd v (.inr rfl)
        | none => simp [assertPositiveNumber] at hv
        | other => simp [assertPositiveNumber] at hv
  obtain ⟨rl, wd, rfl⟩ := setWaterTable_frame e
  exact C98_only_the_mass s _ rs rt (by unfold SameButWater; constructor <;> rfl) ws (fun z h => (hz z h).1) cx cy r
    fun l q rest _ => ⟨fun y _ => rfl, fun a b _ _ _ => rfl, .inr ⟨hs, fun z h => (hz z h).2⟩⟩

theorem matAt_deeper (H : ℝ) (ms : List (Material ℝ)) (m : Material ℝ) (y : ℝ)
    (h : ∃ a ∈ ms, H - a.depth < y) : matAt H (ms ++ [m]) y = matAt H ms y := by
  unfold matAt
  rw [List.find?_append]
  cases e : ms.find? fun m => decide (H - m.depth < y) with
  | some a => rfl
  | none =>
    obtain ⟨a, ha, hy⟩ := h
    have := List.find?_eq_none.mp e a ha
    simp [hy] at this

/-- C98 for the materials: `set_materials` with a material that goes deeper than the others, where these reach
below a circle, is accepted and does not change the outcome of Bishop's method on it. The levels of the layers must
agree with the crest, as they do after `set_materials`, and the model must be deep enough already. -/
theorem C98_material_below_the_mass (s : Slope ℝ) (rs : Reachable s) (hl : LevelsAgree s) (m : Material ℝ)
    (hc : Material.Constructed m) (hdeep : ∀ a ∈ s.materials, a.mat.depth < m.depth) (hd : m.depth ≤ s.extH)
    (ws : WaterBelowCrest s) (cx cy r : ℝ) (hb : ∃ a ∈ s.materials, s.topY - a.mat.depth < cy - r) :
    (s.setMaterials [some m]).2 = .ok () ∧
    (s.setMaterials [some m]).1.materials.length = s.materials.length + 1 ∧
    (s.setMaterials [some m]).1.bishop cx cy r none none = s.bishop cx cy r none none := by
  have g := rs.wf.geo
  have hs : (s.materials.map Layer.mat).Pairwise (fun a b => a.depth < b.depth) := List.pairwise_map.mpr rs.wf.mats
  have hsort : (s.materials.map Layer.mat ++ [m]).Pairwise (fun a b => a.depth < b.depth) := by
    refine List.pairwise_append.mpr ⟨hs, List.pairwise_singleton _ _, ?_⟩
    intro a ha b hb'
    rw [List.mem_singleton.mp hb']
    obtain ⟨a', ha', rfl⟩ := List.mem_map.mp ha
    exact hdeep a' ha'
  have hn : ((s.materials.map Layer.mat ++ [m]).map Material.depth).Nodup :=
    List.pairwise_map.mpr (hsort.imp ne_of_lt)
  have hall : s.allMats [m] = s.materials.map Layer.mat ++ [m] := by
    have hp : (s.allMats [m]).Perm (s.materials.map Layer.mat ++ [m]) :=
      (sortByKey_perm _ _).trans (List.perm_append_comm (l₁ := [m]))
    refine List.Perm.eq_of_pairwise (le := fun a b : Material ℝ => a.depth ≤ b.depth) ?_
      (sortByKey_sorted _ _) (hsort.imp le_of_lt) hp
    intro a b ha hb' x y
    exact List.inj_on_of_nodup_map hn (hp.mem_iff.mp ha) hb' (le_antisymm x y)
  have e := setMaterials_eq g [m] m.depth (by rw [hall]; simp)
  rw [s.deepen_neg (not_lt.mpr hd), hall, if_pos hn] at e
  change s.setMaterials [some m] = _ at e
  have rt : Reachable (s.setMaterials [some m]).1 := rs.call (.setMaterials s [some m] (by
    intro m' hm'
    simp at hm'
    rw [hm']
    exact hc))
  rw [e] at rt ⊢
  have hmt := mkLayers_mats s.extH 0 (s.materials.map Layer.mat ++ [m])
  refine ⟨rfl, ?_, C98_only_the_mass s _ rs rt (by unfold SameButWater; constructor <;> rfl) ws ws cx cy r
    fun l q rest _ => ⟨fun y hy => ?_, fun a b _ _ _ => rfl, .inl ⟨rfl, rfl⟩⟩⟩
  · have := congrArg List.length hmt
    rw [List.length_map, List.length_append, List.length_map] at this
    exact this
  · rw [soilAt_mat (H := s.extH) (fun a ha => (mkLayers_rl _ _ _ a ha).1), soilAt_mat (H := s.extH) (s := s)
      (fun a ha => by have := (hl a ha).1; rwa [g.topY] at this)]
    change (matAt s.extH ((mkLayers s.extH 0 _).map Layer.mat) y).map _ = _
    rw [hmt, matAt_deeper]
    obtain ⟨a, ha, h⟩ := hb
    rw [g.topY] at h
    exact ⟨a.mat, List.mem_map_of_mem ha, by linarith⟩

/-- The ground of the examples 4 m deep, so that the circle of `ExampleCircle` stays in it. -/
theorem exDeep_ground : ExGround (exOf (exMat 4)) (exMat 4) :=
  exOf_ground (exMat_constructed 4) (by simp [exMat]; norm_num)

theorem exMat_depth (d : ℝ) (h : 0 ≤ d) : (exMat d).depth = d := abs_of_nonneg h

/-- A case of C98: the circle goes from x = 4 to 9 and down to level 6 in a material that ends at level 5. A load
from x = 2 to 4, a line load at x = 3, water at level 6 and a material from level 5 to 4 meet the conditions. The
circle has a value. -/
example : Reachable (exOf (exMat 4)) ∧ WaterBelowCrest (exOf (exMat 4)) ∧ LevelsAgree (exOf (exMat 4)) ∧
    (exOf (exMat 4)).circleExternalIntersection 9 (35 / 3) (17 / 3) = .ok [(4, 9), (9, 6)] ∧
    (∃ F, (exOf (exMat 4)).ordinary 9 (35 / 3) (17 / 3) (some (4, 9)) (some (9, 6)) = .ok F) ∧
    ((exUdl 2).minLength ≤ (exOf (exMat 4)).minExtL ∧ (exOf (exMat 4)).topX - (exUdl 2).offset ≤ 4) ∧
    ((exLl 3).offset * 3 ≤ (exOf (exMat 4)).minExtL ∧ max 0 ((exOf (exMat 4)).topX - (exLl 3).offset) < 4) ∧
    (DryAbove (exOf (exMat 4)) (35 / 3 - 17 / 3) ∧ max 0 ((exOf (exMat 4)).topY - 3) ≤ (35 / 3 - 17 / 3 : ℝ)) ∧
    ((∀ a ∈ (exOf (exMat 4)).materials, a.mat.depth < (exMat 5).depth) ∧ (exMat 5).depth ≤ (exOf (exMat 4)).extH ∧
      ∃ a ∈ (exOf (exMat 4)).materials, (exOf (exMat 4)).topY - a.mat.depth < 35 / 3 - 17 / 3) := by
  have g := exDeep_ground
  have hw : (exOf (exMat 4)).waterX = .ok none := rfl
  have hL : (exOf (exMat 4)).minExtL = 10 := rfl
  have u2 : (exUdl 2).minLength = 10 := by
    change (|(2 : ℝ)| + if pyEq (2 : ℝ) _ then _ else (2 : ℝ)) * 2.5 = 10
    rw [if_neg (by simp [pyEq, lit_zero])]
    norm_num
  refine ⟨g.reach, (fun z hz => by cases hz), ?_, g.intersections', ⟨_, g.ordinary (by norm_num [exMat]) hw⟩, ⟨?_, ?_⟩,
    ⟨?_, ?_⟩, ⟨(fun z hz => by cases hz), ?_⟩, ?_, ?_, mkLayer exSlope.extH 0 (exMat 4), by simp [exOf], ?_⟩
  · have h := C14_levels_agree_partial.2.2 exSlope [some (exMat 4)] exSlope_reachable (by
      rw [exOf_eq (by simp [exMat]; norm_num)])
    rwa [exOf_eq (by simp [exMat]; norm_num)] at h
  · rw [u2, hL]
  · rw [g.topX]; norm_num [exUdl]
  · rw [hL]; norm_num [exLl]
  · rw [g.topX]; norm_num [exLl]
  · rw [g.topY]; norm_num
  · intro a ha
    obtain rfl : a = _ := List.mem_singleton.mp ha
    change (exMat 4).depth < _
    rw [exMat_depth 4 (by norm_num), exMat_depth 5 (by norm_num)]
    norm_num
  · rw [g.extH, exMat_depth 5 (by norm_num)]; norm_num
  · rw [g.topY]
    change 9 - (exMat 4).depth < _
    rw [exMat_depth 4 (by norm_num)]; norm_num

/-- A case of C98 for an analysis: one circle, and a load from x = 2 to 4 beside it. -/
example : ∃ t, exReady.setUdls [some (exUdl 2)] = (t, .ok ()) ∧ t.udls ≠ [] ∧ Reachable t ∧
    SameButWater exReady t ∧ WaterBelowCrest t ∧ exReady.individual ≠ [] ∧ (exReady.analyseSlope none).2 = .ok () ∧
    ∀ p ∈ exReady.individual, ∀ l q rest,
      exReady.circleExternalIntersection p.cx p.cy p.radius = .ok (l :: q :: rest) →
        SameMass exReady t l.1 q.1 (p.cy - p.radius) := by
  have u2 : (exUdl 2).minLength = 10 := by
    change (|(2 : ℝ)| + if pyEq (2 : ℝ) _ then _ else (2 : ℝ)) * 2.5 = 10
    rw [if_neg (by simp [pyEq, lit_zero])]
    norm_num
  obtain ⟨t, e, f, em, el, eu⟩ := setUdls_short exReady_reachable.wf (exUdl 2) (by
    rw [u2]; exact le_of_eq rfl)
  have hm : 0 < (exUdl 2).magnitude := by norm_num [exUdl]
  refine ⟨t, e, by rw [eu, if_pos hm]; simp, ?_, f.butWater, f.below (fun z hz => by cases hz),
    by simp [exReady], by rw [exAnalyse], ?_⟩
  · have := Reachable.call exReady_reachable (.setUdls exReady [some (exUdl 2)] (by
      intro v hv
      simp only [List.mem_singleton, Option.some.injEq] at hv
      subst hv
      exact exUdl_constructed 2))
    rwa [e] at this
  · intro p hp l q rest h
    obtain rfl : p = exPlane := by simpa [exReady] using hp
    have h' : exSoil.circleExternalIntersection 9 (35 / 3) (17 / 3) = .ok (l :: q :: rest) := h
    rw [exIntersections] at h'
    simp only [Except.ok.injEq, List.cons.injEq] at h'
    obtain ⟨rfl, rfl, _⟩ := h'
    refine .of_udl (exUdl_constructed 2).facts.2.2 f em el eu (.inl ?_) _
    change exSoil.topX - _ ≤ 4
    rw [exSoil_topX]
    norm_num [exUdl]

end PySlope
