import Verif.Props.PlotBoundary

/-! # What `plot_all_planes` shows (C76) and where the water table is drawn (C79) -/

namespace PySlope

/-! ## C76 -/

/-- Specification: the planes `plot_all_planes(max_fos)` is to show. -/
noncomputable def shownPlanes (maxFos : Option ℝ) (ps : List (Plane ℝ)) : List (Plane ℝ) :=
  ps.filter fun p => match maxFos, p.fosVal with
    | none, _ => true
    | some m, some f => decide (f < m)
    | some _, none => false

/-- Specification: the line of a plane, in the colour of its factor of safety: capped at 5, to the
nearest tenth. -/
def LineOf (l : List (ℝ × ℝ) × ℝ) (p : Plane ℝ) : Prop :=
  l.1 = planeTrace p ∧ ∃ f, p.fosVal = some f ∧ (∃ j : ℕ, j ≤ 50 ∧ l.2 = j / 10) ∧
    |l.2 - min f 5| ≤ 0.05

theorem planeTraces_spec (m : Option ℝ) (ps : List (Plane ℝ))
    (h : ∀ p ∈ ps, ∃ f, p.fos = some (some f)) :
    ((∀ p ∈ shownPlanes m ps, ∀ f, p.fosVal = some f → -0.05 ≤ f) →
      ∃ ts, planeTraces m ps = .ok ts ∧ List.Forall₂ LineOf ts (shownPlanes m ps)) ∧
    ((∃ p ∈ shownPlanes m ps, ∃ f, p.fosVal = some f ∧ f < -0.05) →
      planeTraces m ps = .error .keyError) := by
  induction ps with
  | nil => exact ⟨fun _ => ⟨[], rfl, .nil⟩, by rintro ⟨p, hp, _⟩; cases hp⟩
  | cons p ps ih =>
    obtain ⟨f, hf⟩ := h p List.mem_cons_self
    have hv : p.fosVal = some f := by unfold Plane.fosVal; rw [hf]; rfl
    obtain ⟨ih1, ih2⟩ := ih fun q hq => h q (List.mem_cons_of_mem _ hq)
    set b : Bool := (match (generalizing := false) m with | none => true | some m => decide (f < m)) with hb
    have hsh : shownPlanes m (p :: ps) = if b = true then p :: shownPlanes m ps else shownPlanes m ps := by
      unfold shownPlanes
      rw [List.filter_cons]
      rw [hv]
      cases m <;> rfl
    have htr : planeTraces m (p :: ps) = (if b = true then do
        let c ← colourOf f
        let others ← planeTraces m ps
        pure ((planeTrace p, c) :: others) else planeTraces m ps) := by
      rw [planeTraces.eq_def]
      simp only [hf, bind, Except.bind]
      cases m with
      | none =>
        rw [show b = true from hb]
        simp only [if_true]
        cases colourOf f <;> cases planeTraces none ps <;> rfl
      | some v =>
        rw [show b = decide (f < v) from hb]
        by_cases hfv : f < v
        · simp only [hfv, decide_true, if_true]
          cases colourOf f <;> cases planeTraces (some v) ps <;> rfl
        · simp only [hfv, decide_false, Bool.false_eq_true, if_false]
          cases planeTraces (some v) ps <;> rfl
    rw [hsh, htr]
    cases b with
    | false => exact ⟨ih1, ih2⟩
    | true =>
      simp only [if_true]
      obtain ⟨c1, c2, c3⟩ := C61_colour_partial f
      constructor
      · intro ha
        obtain ⟨c, hc⟩ := c1.mpr (ha p List.mem_cons_self f hv)
        obtain ⟨ts, t1, t2⟩ := ih1 fun q hq => ha q (List.mem_cons_of_mem _ hq)
        refine ⟨(planeTrace p, c) :: ts, ?_, .cons ⟨rfl, f, hv, (c2 c hc).1, (c2 c hc).2⟩ t2⟩
        simp only [hc, t1, bind, Except.bind]
        rfl
      · rintro ⟨q, hq, g, hg, hlt⟩
        rcases List.mem_cons.mp hq with rfl | hq
        · rw [hv] at hg
          cases hg
          simp only [c3 hlt, bind, Except.bind]
        · have := ih2 ⟨q, hq, g, hg, hlt⟩
          simp only [this, bind, Except.bind]
          cases hc : colourOf f with
          | ok c => rfl
          | error e =>
            by_cases hlt : f < -0.05
            · rw [c3 hlt] at hc; rw [← hc]
            · obtain ⟨c, hc'⟩ := c1.mpr (not_lt.mp hlt)
              rw [hc'] at hc
              cases hc

/-- C76: after an analysis that ended normally, `plot_all_planes(max_fos)` draws, over what
`plot_critical` draws, a line for every failure reported with a factor of safety under `max_fos` (for
every one reported if it is `None`) and no other, the most critical last, each in the colour of its
factor of safety. Below -0.05 a factor of safety has no colour, and it raises `KeyError`; when nothing
is reported there is nothing to draw, and it raises `IndexError`. -/
theorem C76_all_planes (s t : Slope ℝ) (m₀ : Option ℝ) (ha : s.analyseSlope m₀ = (t, .ok ()))
    (m : Option ℝ) :
    (∀ c, t.plotCritical = .ok c →
      (∀ p ∈ shownPlanes m t.search, ∀ f, p.fosVal = some f → -0.05 ≤ f) →
      ∃ lines, t.plotAllPlanes m = .ok (c, lines) ∧
        List.Forall₂ LineOf lines (shownPlanes m t.search).reverse) ∧
    (∀ c, t.plotCritical = .ok c →
      (∃ p ∈ shownPlanes m t.search, ∃ f, p.fosVal = some f ∧ f < -0.05) →
      t.plotAllPlanes m = .error .keyError) ∧
    (∀ e, t.plotCritical = .error e → t.plotAllPlanes m = .error e) ∧
    (∀ b, t.plotBoundary = .ok b → t.search = [] → t.plotAllPlanes m = .error .indexError) := by
  have hfos : ∀ p ∈ t.search, ∃ f, p.fos = some (some f) := by
    obtain ⟨ps, _, _, rfl⟩ := analyseSlope_ok ha
    intro p hp
    change p ∈ tidySearch m₀ _ at hp
    rw [tidySearch_eq] at hp
    have hp := (List.mem_filter.mp hp).1
    rw [(sortByKey_perm _ _).mem_iff, List.mem_filter] at hp
    obtain ⟨hp, hv⟩ := hp
    obtain ⟨f, hf⟩ := Option.isSome_iff_exists.mp hv
    unfold Plane.fosVal at hf
    exact ⟨f, Option.join_eq_some_iff.mp hf⟩
  obtain ⟨h1, h2⟩ := planeTraces_spec m t.search hfos
  refine ⟨fun c hc hb => ?_, fun c hc hb => ?_, fun e he => ?_, fun b hb hn => ?_⟩
  · obtain ⟨ts, e1, e2⟩ := h1 hb
    refine ⟨ts.reverse, ?_, List.forall₂_reverse_iff.mpr e2⟩
    unfold Slope.plotAllPlanes
    simp only [hc, e1, bind, Except.bind]
    rfl
  · unfold Slope.plotAllPlanes
    simp only [hc, h2 hb, bind, Except.bind]
  · unfold Slope.plotAllPlanes
    simp only [he, bind, Except.bind]
  · have : t.plotCritical = .error .indexError := by
      unfold Slope.plotCritical
      rw [hn]
      simp only [hb, bind, Except.bind]
      rfl
    unfold Slope.plotAllPlanes
    simp only [this, bind, Except.bind]

/-- The state after the analysis of the example can be drawn. -/
theorem exReady_drawn : ∃ c, (exReady.analyseSlope none).1.plotCritical = .ok c := by
  have rb : Reachable (exReady.analyseSlope none).1 :=
    exReady_reachable.call (.analyseSlope exReady none)
  have hsr := exAnalyse_search
  have hsame : (exReady.analyseSlope none).1 = exReady.analysedTo none [exPlane] := by rw [exAnalyse]
  rw [hsame] at rb hsr ⊢
  obtain ⟨b, hb, _⟩ := C62_plot_ends_partial _ rb (by
    intro l hl
    change l ∈ [mkLayer exSlope.extH 0 (exMat 2)] at hl
    rw [List.mem_singleton] at hl
    subst hl
    refine ⟨rfl, ?_⟩
    change (exMat 2).depth ≤ exSlope.topY
    simp [exMat]
    norm_num) (by intro y hy; cases hy) (.inl rfl)
  obtain ⟨t, ht, _⟩ := exPlane_drawn exFos_pos.le
  refine ⟨(b, t), ?_⟩
  unfold Slope.plotCritical
  rw [hb, hsr]
  have h1 : (withFos exReady exPlane).fos = some (some exFos) := by
    unfold withFos; rw [exPlane_fos]
  have h2 : failurePlane (withFos exReady exPlane) exFos = .ok t := ht
  simp only [bind, Except.bind, h1, h2]
  rfl

/-- A case of C76: the example, drawn for factors of safety up to twice its own, with one line. -/
example : ∃ c lines, exReady.analyseSlope none = ((exReady.analyseSlope none).1, .ok ()) ∧
    (exReady.analyseSlope none).1.plotAllPlanes (some (2 * exFos)) = .ok (c, lines) ∧
    lines.length = 1 := by
  have ha : exReady.analyseSlope none = ((exReady.analyseSlope none).1, .ok ()) := by rw [exAnalyse]
  obtain ⟨c, hc⟩ := exReady_drawn
  have hp := exFos_pos
  have hv : (withFos exReady exPlane).fosVal = some exFos := by rw [fosVal_withFos, exPlane_fos]
  have hsh : shownPlanes (some (2 * exFos)) (exReady.analyseSlope none).1.search =
      [withFos exReady exPlane] := by
    rw [exAnalyse_search]
    unfold shownPlanes
    apply List.filter_eq_self.mpr
    intro p hp'
    rw [List.mem_singleton.mp hp']
    split
    · rfl
    · rename_i h1 h2
      rw [hv] at h2
      cases h1; cases h2
      exact decide_eq_true (by linarith)
    · rename_i h2
      rw [hv] at h2
      cases h2
  obtain ⟨lines, h1, h2⟩ := (C76_all_planes _ _ none ha (some (2 * exFos))).1 c hc (by
    rw [hsh]
    intro p hp' f hf
    rw [List.mem_singleton.mp hp', hv] at hf
    cases hf
    norm_num
    linarith)
  refine ⟨c, lines, ha, h1, ?_⟩
  rw [h2.length_eq, List.length_reverse, hsh]
  rfl

/-! ## C79 -/

/-- Specification: the point is on the line drawn through the points. -/
def DrawnThrough (pts : List (ℝ × ℝ)) (p : ℝ × ℝ) : Prop :=
  ∃ e ∈ pts.zip pts.tail, ∃ t : ℝ, 0 ≤ t ∧ t ≤ 1 ∧
    p = (e.1.1 + t * (e.2.1 - e.1.1), e.1.2 + t * (e.2.2 - e.1.2))

/-- C79: the water table is drawn over the whole width of the model, at its level where that is in
the ground, and along the surface where it is above it: this is the level the analysis takes
(`pressureAt`). With no water, or water at the very bottom, none is drawn. -/
theorem C79_water_line (s : Slope ℝ) (r : Reachable s) (hm : s.materials ≠ []) {b : BoundaryPlot ℝ}
    (hb : s.plotBoundary = .ok b) :
    (s.waterRL = none ∨ s.waterRL = some 0 → b.water = []) ∧
    (∀ z, s.waterRL = some z → 0 < z → z ≤ s.extH → ∀ p : ℝ × ℝ,
      DrawnThrough b.water p ↔ 0 ≤ p.1 ∧ p.1 ≤ s.extL ∧ p.2 = min z (groundY s p.1)) := by
  have hw : s.waterLine = .ok b.water := by
    unfold Slope.plotBoundary at hb
    rw [if_neg (by simpa using hm)] at hb
    simp only [bind, Except.bind] at hb
    split at hb
    · cases hb
    · split at hb
      · cases hb
      · split at hb
        · cases hb
        · rename_i w hw
          cases hb
          exact hw
  have g := r.wf.geo
  obtain ⟨p1, p2, p3, p4, p5, p6, p7⟩ := g.pos
  constructor
  · rintro (h | h)
    · unfold Slope.waterLine at hw
      rw [h] at hw
      exact (Except.ok.inj hw).symm
    · unfold Slope.waterLine at hw
      rw [h] at hw
      simp only [pyEq_real, lit_zero, decide_true, if_true] at hw
      exact (Except.ok.inj hw).symm
  · intro z hz h0 h1 ⟨px, py⟩
    obtain ⟨x, hx, tl⟩ := getExternalX_line g h0.le (by rw [g.topY]; exact h1)
    unfold Slope.waterLine at hw
    rw [hz] at hw
    simp only [pyEq_real, lit_zero, decide_eq_true_eq] at hw
    rw [if_neg h0.ne', hx] at hw
    simp only [bind, Except.bind] at hw
    by_cases hlow : z < s.botY
    · have e := tl.below hlow
      rw [e, if_neg (not_le.mpr p3)] at hw
      rw [← Except.ok.inj hw]
      have hgr : ∀ x, z ≤ groundY s x := by
        intro x
        rcases le_total x s.topX with h | h
        · rw [groundY_crest g h]; linarith
        · rcases le_total x s.botX with h' | h'
          · rw [groundY_face g h h']; nlinarith
          · rw [groundY_toe g h']; linarith
      rw [min_eq_left (hgr _)]
      unfold DrawnThrough
      simp only [List.tail_cons, List.zip_cons_cons, List.zip_nil_right, List.mem_singleton, exists_eq_left,
        Prod.mk.injEq]
      constructor
      · rintro ⟨t, t0, t1, rfl, rfl⟩
        refine ⟨by nlinarith, by nlinarith, by ring⟩
      · rintro ⟨a, b, rfl⟩
        refine ⟨px / s.extL, div_nonneg a (by linarith), by rw [div_le_one (by linarith)]; exact b, ?_, by ring⟩
        have : s.extL ≠ 0 := by linarith
        field_simp
        ring
    · obtain ⟨q1, q2, q3, q4⟩ := tl.above (not_lt.mp hlow)
      rw [if_pos q3] at hw
      rw [← Except.ok.inj hw]
      have hl : ∀ u, u ≤ x → min z (groundY s u) = z := by
        intro u hu
        apply min_eq_left
        rcases le_total u s.topX with h | h
        · rw [groundY_crest g h]; exact q4
        · rw [groundY_face g h (hu.trans q3)]; nlinarith
      have hr : ∀ u, x ≤ u → u ≤ s.botX → min z (groundY s u) = s.botY + s.gradient * (s.botX - u) := by
        intro u hu hu'
        rw [groundY_face g (q2.trans hu) hu']
        apply min_eq_right
        nlinarith
      have ht : ∀ u, s.botX ≤ u → min z (groundY s u) = s.botY := by
        intro u hu
        rw [groundY_toe g hu]
        exact min_eq_right (not_lt.mp hlow)
      unfold DrawnThrough
      simp only [List.tail_cons, List.zip_cons_cons, List.zip_nil_right, List.mem_cons, List.not_mem_nil,
        or_false, Prod.mk.injEq, exists_eq_or_imp, exists_eq_left]
      constructor
      · rintro (⟨t, t0, t1, rfl, rfl⟩ | ⟨t, t0, t1, rfl, rfl⟩ | ⟨t, t0, t1, rfl, rfl⟩)
        · refine ⟨by nlinarith, by nlinarith, ?_⟩
          rw [hl _ (by nlinarith)]; ring
        · refine ⟨by nlinarith, by nlinarith, ?_⟩
          rw [hr _ (by nlinarith) (by nlinarith)]
          linear_combination (1 - t) * q1
        · refine ⟨by nlinarith, by nlinarith, ?_⟩
          rw [ht _ (by nlinarith)]; ring
      · rintro ⟨a, b, rfl⟩
        rcases le_total px x with h | h
        · left
          rw [hl _ h]
          refine ⟨px / x, div_nonneg a (by linarith), by rw [div_le_one (by linarith)]; exact h, ?_, by ring⟩
          have : x ≠ 0 := by linarith
          field_simp
          ring
        · rcases le_total px s.botX with h' | h'
          · right; left
            rw [hr _ h h']
            by_cases hxb : x = s.botX
            · refine ⟨0, le_rfl, zero_le_one, by rw [hxb] at h ⊢; linarith, ?_⟩
              rw [hxb] at h q1
              have : px = s.botX := le_antisymm h' h
              rw [this]; linarith
            · have hpos : 0 < s.botX - x := sub_pos.mpr (lt_of_le_of_ne q3 hxb)
              refine ⟨(px - x) / (s.botX - x), div_nonneg (by linarith) hpos.le,
                by rw [div_le_one hpos]; linarith, by field_simp; ring, ?_⟩
              rw [← sub_eq_zero]
              field_simp
              linear_combination (px - s.botX) * q1
          · right; right
            rw [ht _ h']
            have hpos : 0 < s.extL - s.botX := sub_pos.mpr p3
            refine ⟨(px - s.botX) / (s.extL - s.botX), div_nonneg (by linarith) hpos.le,
              by rw [div_le_one hpos]; linarith, by field_simp; ring, by ring⟩

/-- A case of C79: the example with water 1 m under the crest. -/
example : ∃ s : Slope ℝ, Reachable s ∧ s.materials ≠ [] ∧ s.waterRL = some 8 ∧ (8 : ℝ) ≤ s.extH ∧
    ∃ b, s.plotBoundary = .ok b := by
  have r := exSoil_reachable.call (.setWaterTable exSoil (.num 1))
  have e : (exSoil.setWaterTable (.num 1)).1 =
      ({ exSoil with waterRL := some 8, waterDepth := some 1 } : Slope ℝ).resetResults := by
    have h1 : (pyMax 0 (exSoil.topY - 1) : ℝ) = 8 := by
      rw [pyMax_real, exSoil_topY]; norm_num
    have h2 : assertPositiveNumber (0 : ℝ) (.num 1) = .ok () := by
      simp [assertPositiveNumber, PyCmp.ltb]
    unfold Slope.setWaterTable
    rw [lit_zero]
    simp only [h2]
    rw [← h1]
    rfl
  rw [e] at r
  refine ⟨_, r, by simp [Slope.resetResults], rfl, ?_, ?_⟩
  · change (8 : ℝ) ≤ exSoil.extH; rw [exSoil_extH]; norm_num
  · obtain ⟨b, hb, _⟩ := C62_plot_ends_partial _ r (by
      intro l hl
      change l ∈ [mkLayer exSlope.extH 0 (exMat 2)] at hl
      rw [List.mem_singleton] at hl
      subst hl
      refine ⟨rfl, ?_⟩
      change (exMat 2).depth ≤ exSlope.topY
      simp [exMat]
      norm_num) (by
      intro y hy
      cases hy
      change (0 : ℝ) ≤ 8 ∧ 8 ≤ exSoil.extH
      rw [exSoil_extH]; norm_num) (.inl rfl)
    exact ⟨b, hb⟩

end PySlope
