import Verif.Props.Steep
import Verif.Props.PlotAll
import Mathlib.Analysis.Real.Pi.Bounds

/-! # When the critical failure is drawn (C82) -/

namespace PySlope

/-- A plane is drawn if some point of its arc is farther than `r π / 180 + 0.0015` from the bounds. -/
theorem arcPoints_ne {p : Plane ℝ} (hr : 0 ≤ p.radius) {q : ℝ × ℝ}
    (hq : OnCircle p.cx p.cy p.radius q) (hy : q.2 ≤ p.cy)
    (h1 : p.lc.1 + (p.radius * (Real.pi / 180) + 0.0015) ≤ q.1)
    (h2 : q.1 ≤ p.rc.1 - (p.radius * (Real.pi / 180) + 0.0015))
    (h3 : q.2 ≤ p.lc.2 - (p.radius * (Real.pi / 180) + 0.0015)) :
    arcPoints p.lc p.rc (circleCoordinates (pyRound p.cx 3) (pyRound p.cy 3)
      (pyRound p.radius 3)) ≠ [] := by
  have n3 : (1 / 2 / 10 ^ 3 : ℝ) = 0.0005 := by norm_num
  obtain ⟨c, hc, d1, d2⟩ := circleCoordinates_dense (ε := 0.0005) hr hq hy
    (cx' := pyRound p.cx 3) (cy' := pyRound p.cy 3) (r' := pyRound p.radius 3)
    (by rw [← n3]; exact pyRound_error _ _) (by rw [← n3]; exact pyRound_error _ _)
    (by rw [← n3]; exact pyRound_error _ _)
  rw [abs_le] at d1 d2
  intro h
  unfold arcPoints at h
  rw [List.filter_eq_nil_iff] at h
  apply h c hc
  simp only [Bool.and_eq_true]
  norm_num at *
  exact ⟨⟨by linarith, by linarith⟩, by linarith⟩

/-- C82, full statement: after an analysis that reports a failure, `plot_critical` draws the boundary
and the most critical one, if the boundary can be drawn. Proved when the arc of that failure is not too
flat: it has a point farther than `r π / 180 + 0.0015` (about the length of one degree of the circle)
right of its left end, left of its right end and under its left end. -/
theorem C82_critical_drawn_partial (s t : Slope ℝ) (m : Option ℝ) (ha : s.analyseSlope m = (t, .ok ()))
    {b : BoundaryPlot ℝ} (hb : t.plotBoundary = .ok b) {F cx cy r : ℝ} {l rt : ℝ × ℝ}
    (h1 : t.getMinFos = .ok (some F)) (h2 : t.getMinFosCircle = .ok (cx, cy, r))
    (h3 : t.getMinFosEndPoints = .ok (l, rt)) (hF : 0 ≤ F) (hr : 0 ≤ r) {q : ℝ × ℝ}
    (hq : OnCircle cx cy r q) (hy : q.2 ≤ cy)
    (d1 : l.1 + (r * (Real.pi / 180) + 0.0015) ≤ q.1)
    (d2 : q.1 ≤ rt.1 - (r * (Real.pi / 180) + 0.0015))
    (d3 : q.2 ≤ l.2 - (r * (Real.pi / 180) + 0.0015)) :
    ∃ line colour, t.plotCritical = .ok (b, line, colour) := by
  unfold Slope.getMinFos at h1
  unfold Slope.getMinFosCircle at h2
  unfold Slope.getMinFosEndPoints at h3
  unfold Slope.plotCritical
  rw [hb]
  simp only [bind, Except.bind]
  cases hs : t.search with
  | nil => rw [hs] at h1; cases h1
  | cons p rest =>
    rw [hs] at h1 h2 h3
    simp only at h1 h2 h3 ⊢
    cases h2
    cases h3
    have hfos : ∃ o, p.fos = some o := by
      obtain ⟨ps, _, _, rfl⟩ := analyseSlope_ok ha
      have hp : p ∈ tidySearch m (ps.map (withFos s)) := by
        change (s.analysedTo m ps).search = _ at hs
        change p ∈ (s.analysedTo m ps).search
        rw [hs]; simp
      rw [tidySearch_eq] at hp
      have := (List.mem_filter.mp ((sortByKey_perm _ _).mem_iff.mp (List.mem_filter.mp hp).1)).1
      obtain ⟨p', _, rfl⟩ := List.mem_map.mp this
      exact ⟨_, rfl⟩
    obtain ⟨o, ho⟩ := hfos
    rw [ho] at h1 ⊢
    simp only at h1 ⊢
    cases h1
    obtain ⟨tr, htr⟩ := failurePlane_ok p hF (arcPoints_ne hr hq hy d1 d2 d3)
    simp only [htr]
    exact ⟨tr.1, tr.2, rfl⟩

/-- A case of C82: the example, with the point (19/3, 20/3) of its arc. -/
example : (exReady.analyseSlope none).1.getMinFos = .ok (some exFos) ∧
    (exReady.analyseSlope none).1.getMinFosCircle = .ok (9, 35 / 3, 17 / 3) ∧
    (exReady.analyseSlope none).1.getMinFosEndPoints = .ok ((4, 9), (9, 6)) ∧
    OnCircle 9 (35 / 3) (17 / 3) (19 / 3, 20 / 3) ∧
    (4 : ℝ) + (17 / 3 * (Real.pi / 180) + 0.0015) ≤ 19 / 3 ∧
    (19 / 3 : ℝ) ≤ 9 - (17 / 3 * (Real.pi / 180) + 0.0015) ∧
    (20 / 3 : ℝ) ≤ 9 - (17 / 3 * (Real.pi / 180) + 0.0015) := by
  have hpi := Real.pi_lt_d2
  refine ⟨?_, ?_, ?_, by norm_num [OnCircle], ?_, ?_, ?_⟩
  · unfold Slope.getMinFos
    rw [exAnalyse_search]
    simp only [withFos, exPlane_fos]
  · unfold Slope.getMinFosCircle
    rw [exAnalyse_search]
    rfl
  · unfold Slope.getMinFosEndPoints
    rw [exAnalyse_search]
    rfl
  all_goals norm_num at *; linarith

/-! ## A flat circle -/

theorem flatPlane : arcPlane (4, 9) (7, 8) (185 - 117 / 2 * √10) =
    { lc := (4, 9), rc := (7, 8), cx := 64, cy := 184, radius := 185, fos := none } := by
  have h10 : √10 ^ 2 = (10 : ℝ) := Real.sq_sqrt (by norm_num)
  have hp : 0 < √(10 : ℝ) := Real.sqrt_pos.mpr (by norm_num)
  have hσ : (0 : ℝ) < 185 - 117 / 2 * √10 := by nlinarith
  have hD : chordLength (4, 9) (7, 8) = √10 := by
    unfold chordLength; norm_num
  have hr : arcRadius √10 (185 - 117 / 2 * √10) = 185 := by
    unfold arcRadius
    rw [div_eq_iff (by positivity)]
    nlinarith
  unfold arcPlane
  simp only [hD, hr]
  congr 1
  · field_simp; nlinarith
  · field_simp; nlinarith

theorem flat_not_drawn : arcPoints (4, 9) (7, 8)
    (circleCoordinates (pyRound (64 : ℝ) 3) (pyRound (184 : ℝ) 3) (pyRound (185 : ℝ) 3)) = [] := by
  unfold arcPoints
  rw [List.filter_eq_nil_iff]
  intro q hq hb
  unfold circleCoordinates at hq
  obtain ⟨i, hi, rfl⟩ := List.mem_map.mp hq
  rw [List.mem_range] at hi
  simp only [Bool.and_eq_true, decide_eq_true_eq] at hb
  obtain ⟨⟨b1, b2⟩, b3⟩ := hb
  set a : ℝ := radians ((2 * i + 1 : ℕ) : ℝ) with ha
  have ha' : a = (2 * i + 1) * (Real.pi / 180) := by
    rw [ha, radians_real]; push_cast; ring
  have c1 := pyRound_error (64 : ℝ) 3
  have c3 := pyRound_error (185 : ℝ) 3
  have c4 := pyRound_error (pyRound (64 : ℝ) 3 - PyNum.cos a * pyRound (185 : ℝ) 3) 3
  change |_ - (pyRound (64 : ℝ) 3 - Real.cos a * pyRound (185 : ℝ) 3)| ≤ _ at c4
  change _ ≤ (7 : ℝ) at b1
  change (4 : ℝ) ≤ _ at b2
  generalize pyRound (pyRound (64 : ℝ) 3 - PyNum.cos a * pyRound (185 : ℝ) 3) 3 = u at *
  generalize pyRound (64 : ℝ) 3 = cx at *
  generalize pyRound (185 : ℝ) 3 = r at *
  rw [abs_le] at c1 c3 c4
  have hpi := Real.pi_gt_d4
  have hpi' := Real.pi_lt_d4
  by_cases h : i ≤ 35
  · -- at most 71 degrees
    have hc : Real.sin (19 * (Real.pi / 180)) ≤ Real.cos a := by
      rw [← Real.cos_pi_div_two_sub]
      apply Real.cos_le_cos_of_nonneg_of_le_pi
      · rw [ha']; positivity
      · linarith
      · rw [ha']
        have : (i : ℝ) ≤ 35 := by exact_mod_cast h
        nlinarith
    have hs : (0.3248 : ℝ) ≤ Real.sin (19 * (Real.pi / 180)) := by
      set x := 19 * (Real.pi / 180) with hx
      have x0 : 0.3316 ≤ x := by rw [hx]; norm_num at *; linarith
      have x1 : x ≤ 0.3317 := by rw [hx]; norm_num at *; linarith
      have := Real.sin_bound (x := x) (by rw [abs_le]; constructor <;> norm_num at * <;> linarith)
      have h2 := (abs_le.mp this).1
      rw [abs_of_nonneg (show 0 ≤ x by norm_num at x0; linarith)] at h2
      have e3 : x ^ 3 ≤ 0.3317 ^ 3 := pow_le_pow_left₀ (by norm_num at *; linarith) x1 3
      have e5 : x ^ 5 ≤ 0.3317 ^ 5 := pow_le_pow_left₀ (by norm_num at *; linarith) x1 5
      norm_num at *
      linarith
    norm_num at *
    nlinarith
  · -- at least 73 degrees
    push Not at h
    have hc : Real.cos a ≤ 0.3 := by
      have h36 : (36 : ℝ) ≤ i := by exact_mod_cast h
      have h90 : (i : ℝ) ≤ 89 := by exact_mod_cast (by omega : i ≤ 89)
      have e : Real.cos a ≤ Real.cos (73 * (Real.pi / 180)) := by
        apply Real.cos_le_cos_of_nonneg_of_le_pi
        · positivity
        · rw [ha']; nlinarith
        · rw [ha']; nlinarith
      have e2 : Real.cos (73 * (Real.pi / 180)) = Real.sin (17 * (Real.pi / 180)) := by
        rw [← Real.cos_pi_div_two_sub]; congr 1; ring
      have e3 : Real.sin (17 * (Real.pi / 180)) ≤ 17 * (Real.pi / 180) :=
        Real.sin_le (by positivity)
      norm_num at *
      linarith
    norm_num at *
    nlinarith

/-- C82 fails for flat circles: on a slope in clay, 3 m high and 3 m long, the circle with centre
(64, 184) and radius 185 is assessed, and reported as the most critical failure, but `plot_critical`
raises `IndexError`. -/
theorem C82_flat_not_drawn : ∃ s : Slope ℝ, Reachable s ∧
    (∃ b, s.plotBoundary = .ok b) ∧ (∃ F, 0 < F ∧ s.getMinFos = .ok (some F)) ∧
    s.getMinFosCircle = .ok (64, 184, 185) ∧ s.plotCritical = .error .indexError := by
  have rc := exSoil_reachable
  have g := rc.wf.geo
  have hX : exSoil.topX = 6 := by simp
  have hY : exSoil.topY = 9 := by simp
  have hbX : exSoil.botX = 9 := by simp
  have hgr : exSoil.gradient = 1 := by simp
  have cf : CrestFace exSoil (4, 9) (7, 8) := by
    refine ⟨by norm_num, by rw [hX]; norm_num, by rw [hY], by rw [hX]; norm_num,
      by rw [hbX]; norm_num, ?_⟩
    rw [hY, hX, hgr]; norm_num
  have h10 : √10 ^ 2 = (10 : ℝ) := Real.sq_sqrt (by norm_num)
  have hp10 : 0 < √(10 : ℝ) := Real.sqrt_pos.mpr (by norm_num)
  have hσ : (0 : ℝ) < 185 - 117 / 2 * √10 := by nlinarith
  have hD : chordLength (4, 9) (7, 8) = √10 := by
    unfold chordLength; norm_num
  have hσ' : 185 - 117 / 2 * √10 < chordLength (4, 9) (7, 8) / 2 := by rw [hD]; nlinarith
  obtain ⟨rest, f1, f2⟩ := cf.found g hσ hσ' (by norm_num)
  rw [flatPlane] at f1
  simp only at f1
  have he : exSoil.bishopEnds 64 184 185 none none = .ok ((4, 9), (7, 8)) := by
    unfold Slope.bishopEnds
    rw [f1]
    simp only
    rw [if_neg f2]
  have hcut : CutsMass exSoil 64 184 185 4 7 := by
    refine ⟨by norm_num, fun x h1 h2 => ?_⟩
    have := cf.under g hσ (x := x) h1 h2
    rwa [flatPlane] at this
  obtain ⟨F, a1, a2, _⟩ := bishop_of_cut rc (by
      intro l hl
      obtain rfl : l = _ := List.mem_singleton.mp hl
      change (0 : ℝ) ≤ 90
      norm_num) (.inl rfl) (by intro z hz; cases hz) (by simp) (.inl (by
      intro l hl
      obtain rfl : l = _ := List.mem_singleton.mp hl
      change (0 : ℝ) < 5
      norm_num)) (by norm_num) he hcut
  set p : Plane ℝ := { lc := (4, 9), rc := (7, 8), cx := 64, cy := 184, radius := 185, fos := none }
    with hp
  set u : Slope ℝ := { exSoil with search := [], individual := exSoil.individual ++ [p] } with hu
  have hind : exSoil.individual = [] := rfl
  have hadd : (exSoil.addSingleCircularPlane 64 184 185).1 = u := by
    unfold Slope.addSingleCircularPlane
    rw [f1]
    simp only
    rw [if_neg f2]
    rfl
  have ru : Reachable u := by rw [← hadd]; exact rc.call (.addSingleCircularPlane exSoil 64 184 185)
  have hsame : SameSetup exSoil u := by constructor <;> rfl
  have hfos : fosOf u p = some F := by rw [fosOf_some, hsame.bishop]; exact a2
  have hui : u.individual = [p] := rfl
  obtain ⟨b1, b2, _⟩ := analyse_all (s := u) (ps := [p]) (.inl ⟨by rw [hui]; simp, hui.symm⟩) (by
    intro q hq
    rw [List.mem_singleton] at hq
    subst hq
    exact ⟨F, hfos⟩) none
  have hs : (u.analyseSlope none).1.search = [withFos u p] := List.perm_singleton.mp b2
  have hsame' : (u.analyseSlope none).1 = u.analysedTo none [p] := by
    obtain ⟨ps, h1, _, h3⟩ := analyseSlope_ok (s := u) (m := none) (t := (u.analyseSlope none).1)
      (Prod.ext rfl b1)
    rcases h1 with ⟨_, rfl⟩ | ⟨h, _⟩
    · exact h3
    · rw [hui] at h; cases h
  have rt : Reachable (u.analyseSlope none).1 := ru.call (.analyseSlope u none)
  rw [hsame'] at rt hs
  obtain ⟨b, hb, _⟩ := C62_plot_ends_partial _ rt (by
    intro l hl
    change l ∈ [mkLayer exSlope.extH 0 (exMat 2)] at hl
    rw [List.mem_singleton] at hl
    subst hl
    refine ⟨rfl, ?_⟩
    change (exMat 2).depth ≤ exSlope.topY
    simp [exMat]
    norm_num) (by intro y hy; cases hy) (.inl rfl)
  refine ⟨_, rt, ⟨b, hb⟩, ⟨F, a1, ?_⟩, ?_, ?_⟩
  · unfold Slope.getMinFos
    rw [hs]
    simp only [withFos, hfos]
  · unfold Slope.getMinFosCircle
    rw [hs]
    rfl
  · unfold Slope.plotCritical
    rw [hb, hs]
    have h1 : (withFos u p).fos = some (some F) := by unfold withFos; rw [hfos]
    simp only [bind, Except.bind, h1]
    have h2 : failurePlane (withFos u p) F = .error .indexError := by
      unfold failurePlane
      obtain ⟨c, hc⟩ := (colour_nonneg a1.le).1
      simp only [show (@OfNat.ofNat ℝ 5 (Lit.natLit 5)) = 5 from lit_real 5, bind, Except.bind]
      rw [hc]
      simp only
      rw [show arcPoints (withFos u p).lc (withFos u p).rc (circleCoordinates
        (pyRound (withFos u p).cx 3) (pyRound (withFos u p).cy 3) (pyRound (withFos u p).radius 3)) = []
        from flat_not_drawn]
      rfl
    rw [h2]

end PySlope
