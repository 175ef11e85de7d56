import Verif.Props.Surcharge
import Verif.Props.Local
import Verif.Props.Dynamic

/-! # Property C105: loads farther from the crest -/

namespace PySlope
open Finset

/-! ## The load on a stretch, from the loads -/

/-- What a distributed load puts on a stretch behind a crest at `T`. -/
noncomputable def udlOn (T a b : ℝ) (u : Udl ℝ) : ℝ :=
  common a b (match u.length with
    | some l => max 0 (T - u.offset - l)
    | none => 0) (T - u.offset) * u.magnitude

/-- What a line load puts on a stretch behind a crest at `T`. -/
noncomputable def llOn (T a b : ℝ) (u : LineLoad ℝ) : ℝ :=
  if a ≤ max 0 (T - u.offset) ∧ max 0 (T - u.offset) < b then u.magnitude else 0

theorem loadOn_eq {s : Slope ℝ} (rs : Reachable s) (a b : ℝ) :
    loadOn s a b = ((s.udls.map PUdl.load).map (udlOn s.topX a b)).sum + ((s.lls.map PLl.load).map (llOn s.topX a b)).sum := by
  obtain ⟨h1, h2⟩ := C18_loads_in_place s rs
  unfold loadOn
  rw [List.map_map, List.map_map]
  congr 2
  · apply List.map_congr_left
    intro p hp
    obtain ⟨e1, e2, e3⟩ := h1 p hp
    simp only [Function.comp, udlOn]
    rw [← e1]
    cases hl : p.load.length with
    | none => simp only; rw [e3 hl]
    | some l => simp only; rw [e2 l hl]
  · apply List.map_congr_left
    intro p hp
    simp only [Function.comp, llOn]
    rw [h2 p hp]

theorem udlOn_nonneg {T a b : ℝ} {u : Udl ℝ} (h : 0 ≤ u.magnitude) : 0 ≤ udlOn T a b u :=
  mul_nonneg (common_nonneg _ _ _ _) h

theorem llOn_nonneg {T a b : ℝ} {u : LineLoad ℝ} (h : 0 ≤ u.magnitude) : 0 ≤ llOn T a b u := by
  unfold llOn; split
  · exact h
  · exact le_rfl

theorem udlOn_off {T a b : ℝ} {u : Udl ℝ} (h : T - u.offset ≤ a) : udlOn T a b u = 0 := by
  unfold udlOn common
  rw [max_eq_right, zero_mul]
  have := min_le_right b (T - u.offset)
  have := le_max_left a (match u.length with | some l => max 0 (T - u.offset - l) | none => 0)
  linarith

theorem llOn_off {T a b : ℝ} {u : LineLoad ℝ} (h : T - u.offset < a) (h0 : 0 < a) : llOn T a b u = 0 := by
  unfold llOn
  rw [if_neg]
  rintro ⟨h1, _⟩
  have : max 0 (T - u.offset) < a := max_lt h0 h
  linarith

theorem Udl.movedTo_magnitude (o : ℝ) (u : Udl ℝ) : (u.movedTo o).magnitude = u.magnitude := by
  unfold Udl.movedTo; split <;> rfl

theorem LineLoad.movedTo_magnitude (o : ℝ) (u : LineLoad ℝ) : (u.movedTo o).magnitude = u.magnitude := by
  unfold LineLoad.movedTo; split <;> rfl

/-- Loads moved off a stretch put at most as much on it as anywhere else. -/
theorem Moved.load_le {s a b : Slope ℝ} {o o' : ℝ} (ra : Reachable a) (rb : Reachable b) (hT : a.topX = b.topX)
    (ma : Moved o s a) (mb : Moved o' s b) {x y : ℝ} (hx : b.topX - o' < x) (h0 : 0 < x) : loadOn b x y ≤ loadOn a x y := by
  rw [loadOn_eq ra, loadOn_eq rb, ma.1, ma.2, mb.1, mb.2, hT]
  have hu : ∀ u ∈ s.udls.map PUdl.load, 0 ≤ u.magnitude := by
    intro u hu
    have : u.movedTo o ∈ a.udls.map PUdl.load := by rw [ma.1]; exact List.mem_map_of_mem hu
    have := (ra.sane.udl _ this).1.le
    rwa [Udl.movedTo_magnitude] at this
  have hl : ∀ u ∈ s.lls.map PLl.load, 0 ≤ u.magnitude := by
    intro u hu
    have : u.movedTo o ∈ a.lls.map PLl.load := by rw [ma.2]; exact List.mem_map_of_mem hu
    have := (ra.sane.ll _ this).le
    rwa [LineLoad.movedTo_magnitude] at this
  refine add_le_add ?_ ?_
  · generalize s.udls.map PUdl.load = L at hu ⊢
    rw [List.map_map, List.map_map]
    apply List.sum_le_sum
    intro u hu'
    simp only [Function.comp]
    by_cases c : u.dynamic
    · rw [udlOn_off (u := u.movedTo o')]
      · exact udlOn_nonneg (by rw [Udl.movedTo_magnitude]; exact hu u hu')
      · simp only [Udl.movedTo, c, if_true]; linarith
    · simp only [Udl.movedTo, c]; exact le_rfl
  · generalize s.lls.map PLl.load = L at hl ⊢
    rw [List.map_map, List.map_map]
    apply List.sum_le_sum
    intro u hu'
    simp only [Function.comp]
    by_cases c : u.dynamic
    · rw [llOn_off (u := u.movedTo o') _ h0]
      · exact llOn_nonneg (by rw [LineLoad.movedTo_magnitude]; exact hl u hu')
      · simp only [LineLoad.movedTo, c, if_true]; linarith
    · simp only [LineLoad.movedTo, c]; exact le_rfl

/-! ## C105 -/

/-- C105 in ground without friction: for a circle whose centre is right of the crest by half the width of the widest
slice, with the dynamic loads farther back than its mass, no other place of the loads behind the crest gives a higher
factor of safety. -/
theorem C105_off_the_mass_partial (s a b : Slope ℝ) (ra : Reachable a) (rb : Reachable b) (f : SameFrame b a)
    (hm : a.materials = b.materials) (o o' : ℝ) (ma : Moved o s a) (mb : Moved o' s b) (hb : LoadsBehindCrest a)
    (hφ : Frictionless b) (cx cy r : ℝ) (hc : b.topX + b.extL / b.slices / 2 ≤ cx)
    (off : ∀ l rt, FirstCrossings b cx cy r l rt → b.topX - o' < l.1 ∧ 0 < l.1) :
    ∀ F', b.bishop cx cy r none none = .ok F' → ∃ F, a.bishop cx cy r none none = .ok F ∧ F ≤ F' := by
  refine f.clay_found rb ra hm hφ hb cx cy r ?_ hc
  intro l rt he x y hx _ _
  obtain ⟨h1, h2⟩ := off l rt (bishopEnds_first rb.wf.geo he).2
  exact ma.load_le ra rb f.topX mb (by linarith) (by linarith)

/-- C105 for an analysis of circles that were added one by one: with the dynamic loads farther back than the mass of each
of them, the reported minimum is not lower than with the loads anywhere else behind the crest. -/
theorem C105_reported_partial (s a b : Slope ℝ) (ra : Reachable a) (rb : Reachable b) (f : SameFrame b a)
    (hm : a.materials = b.materials) (o o' : ℝ) (ma : Moved o s a) (mb : Moved o' s b) (hb : LoadsBehindCrest a)
    (hφ : Frictionless b) (hi : b.individual ≠ [])
    (hc : ∀ p ∈ b.individual, b.topX + b.extL / b.slices / 2 ≤ p.cx)
    (off : ∀ p ∈ b.individual, ∀ l rt, FirstCrossings b p.cx p.cy p.radius l rt → b.topX - o' < l.1 ∧ 0 < l.1)
    (u v : Slope ℝ) (ea : a.analyseSlope none = (u, .ok ())) (eb : b.analyseSlope none = (v, .ok ())) :
    ∀ x', v.getMinFos = .ok (some x') → ∃ x, u.getMinFos = .ok (some x) ∧ x ≤ x' := by
  intro x' hx'
  obtain ⟨ps, k1, _, _, k4, k5⟩ := C24_results_partial (by simp) eb
  obtain ⟨qs, l1, l2, _, _, l5⟩ := C24_results_partial (by simp) ea
  obtain rfl : ps = b.individual := by
    rcases k1 with ⟨_, h⟩ | ⟨h, _⟩
    · exact h
    · exact absurd h hi
  obtain rfl : qs = b.individual := by
    rcases l1 with ⟨_, h⟩ | ⟨h, _⟩
    · rw [h, f.individual]
    · rw [f.individual] at h; exact absurd h hi
  have hne : v.search ≠ [] := by
    intro h
    rw [(k4 h).1] at hx'
    cases hx'
  obtain ⟨p, hp, x, h1, h2, _⟩ := k5 hne
  rw [h2] at hx'
  obtain rfl : x = x' := by
    injection hx' with h; injection h
  obtain ⟨F, g1, g2⟩ := C105_off_the_mass_partial s a b ra rb f hm o o' ma mb hb hφ p.cx p.cy p.radius (hc p hp) (off p hp) x h1
  have hne' : u.search ≠ [] := by
    intro h
    rw [h] at l2
    have : withFos a p ∈ (b.individual.filter (Wanted a none)).map (withFos a) := by
      refine List.mem_map_of_mem (List.mem_filter.mpr ⟨hp, ?_⟩)
      unfold Wanted
      rw [g1]
    exact List.not_mem_nil (l2.symm.mem_iff.mp this)
  obtain ⟨_, _, y, _, m2, _, _, m5⟩ := l5 hne'
  exact ⟨y, m2, (m5 p hp F g1).trans g2⟩

/-- A case: a line load of 100 kN/m at the crest, and 3 m behind it, left of the circle. -/
example : ∃ (s a b : Slope ℝ) (o o' F' : ℝ), Reachable a ∧ Reachable b ∧ SameFrame b a ∧ a.materials = b.materials ∧
    Moved o s a ∧ Moved o' s b ∧ LoadsBehindCrest a ∧ Frictionless b ∧ WaterBelowCrest b ∧ a.lls ≠ b.lls ∧
    (∃ p, b.individual = [p] ∧ b.topX + b.extL / b.slices / 2 ≤ p.cx ∧
      b.bishop p.cx p.cy p.radius none none = .ok F' ∧ 0 < F' ∧
      ∀ l rt, FirstCrossings b p.cx p.cy p.radius l rt → b.topX - o' < l.1 ∧ 0 < l.1) := by
  have h3 : (3 : ℝ) ≤ 4 := by norm_num
  have h4 : (4 : ℝ) ≤ 4 := le_rfl
  have hT : (exDyn 5 4 3).topX = 6 := exSlope_topX
  have rb := exDyn_reachable (c := 5) (e := 4) (o := 3) h3 h4 (by norm_num)
  refine ⟨exDyn 5 4 0, exDyn 5 4 0, exDyn 5 4 3, 0, 3, cFos 5 4 3, exDyn_reachable h3 h4 (by norm_num), rb,
    by constructor <;> rfl, rfl, ⟨rfl, ?_⟩, ⟨rfl, ?_⟩, ⟨(by intro u hu; exact absurd hu List.not_mem_nil), ?_⟩, ?_, ?_, ?_,
    cPlane 4, rfl, ?_, exDyn_bishop h3 h4 (by norm_num) (by norm_num [abs_of_pos]), ?_, ?_⟩
  · change [dynLl 0] = [LineLoad.movedTo 0 (dynLl 0)]
    simp [LineLoad.movedTo, dynLl]
  · change [dynLl 3] = [LineLoad.movedTo 3 (dynLl 0)]
    simp [LineLoad.movedTo, dynLl]
  · intro l hl
    obtain rfl : l = _ := List.mem_singleton.mp hl
    exact abs_nonneg _
  · intro l hl
    obtain rfl : l = _ := List.mem_singleton.mp hl
    exact abs_zero
  · intro z hz; cases hz
  · change [placeLl exSlope.topX (dynLl 0)] ≠ [placeLl exSlope.topX (dynLl 3)]
    intro h
    have := congrArg (fun l => l.map fun p : PLl ℝ => p.load.offset) h
    simp [placeLl, dynLl] at this
  · rw [hT]
    have e1 : (exDyn 5 4 3).extL = 15 := exSlope_extL
    have e2 : (exDyn 5 4 3).slices = 25 := rfl
    rw [e1, e2]
    change (6 : ℝ) + 15 / ((25 : ℤ) : ℝ) / 2 ≤ 9
    norm_num
  · unfold cFos
    have := cD_pos h3 h4
    have := cL_nonneg h3 h4 3
    have hk := cK_pos h3 h4
    positivity
  · intro l rt h
    rw [hT]
    have := (cCrossing h3 h4 (exClay_geo 5).2 l).mp h.1
    rcases this with rfl | rfl <;> norm_num

/-- C105 in any ground with the water not above the crest: two places of the dynamic loads farther back than the mass of
a circle give the same outcome. -/
theorem C105_both_off_partial (s a b : Slope ℝ) (ra : Reachable a) (rb : Reachable b) (f : SameFrame b a)
    (hm : a.materials = b.materials) (o o' : ℝ) (ma : Moved o s a) (mb : Moved o' s b) (w : WaterBelowCrest b)
    (cx cy r : ℝ)
    (off : ∀ l q rest, b.circleExternalIntersection cx cy r = .ok (l :: q :: rest) →
      b.topX - o < l.1 ∧ b.topX - o' < l.1 ∧ 0 < l.1) :
    a.bishop cx cy r none none = b.bishop cx cy r none none := by
  refine C98_only_the_mass b a rb ra f.butWater w (f.below w) cx cy r ?_
  intro l q rest hi
  obtain ⟨h1, h2, h3⟩ := off l q rest hi
  refine ⟨?_, ?_, .inl ⟨f.waterRL, f.waterH⟩⟩
  · intro y _
    unfold soilAt
    rw [hm]
  · intro x y hx _ _
    refine le_antisymm ?_ ?_
    · exact mb.load_le rb ra f.topX.symm ma (by rw [f.topX]; linarith) (by linarith)
    · exact ma.load_le ra rb f.topX mb (by linarith) (by linarith)

/-- A case: the load 3 m and 3.2 m behind the crest, both left of the circle. -/
example : (exDyn 5 4 3.2).lls ≠ (exDyn 5 4 3).lls ∧
    (exDyn 5 4 3.2).bishop 9 (6 + cRad 4) (cRad 4) none none = (exDyn 5 4 3).bishop 9 (6 + cRad 4) (cRad 4) none none := by
  have h3 : (3 : ℝ) ≤ 4 := by norm_num
  have h4 : (4 : ℝ) ≤ 4 := le_rfl
  have hT : (exDyn 5 4 3).topX = 6 := exSlope_topX
  have rb := exDyn_reachable (c := 5) (e := 4) (o := 3) h3 h4 (by norm_num)
  have ra := exDyn_reachable (c := 5) (e := 4) (o := 3.2) h3 h4 (by norm_num [abs_of_pos])
  refine ⟨?_, C105_both_off_partial (exDyn 5 4 0) _ _ ra rb (by constructor <;> rfl) rfl 3.2 3 ⟨rfl, ?_⟩ ⟨rfl, ?_⟩
    (by intro z hz; cases hz) _ _ _ ?_⟩
  · change [placeLl exSlope.topX (dynLl 3.2)] ≠ [placeLl exSlope.topX (dynLl 3)]
    intro h
    have := congrArg (fun l => l.map fun p : PLl ℝ => p.load.offset) h
    simp [placeLl, dynLl] at this
    norm_num at this
  · change [dynLl 3.2] = [LineLoad.movedTo 3.2 (dynLl 0)]
    simp [LineLoad.movedTo, dynLl]
    norm_num
  · change [dynLl 3] = [LineLoad.movedTo 3 (dynLl 0)]
    simp [LineLoad.movedTo, dynLl]
  · intro l q rest h
    rw [cIntersections h3 h4 rb.wf.geo (exClay_geo 5).2] at h
    cases h
    rw [hT]
    norm_num

/-- A line load 2 m from the left end of the circle presses on a steeper base than one at the crest. -/
theorem cL_steeper : cL 4 0 < cL 4 1.5 := by
  have hr := cRad_gt (e := 4) (by norm_num) (by norm_num)
  have hr0 : 0 < cRad 4 := by linarith
  have e0 : max 0 (6 - |(0 : ℝ)|) = 6 := by norm_num
  have e1 : max 0 (6 - |(1.5 : ℝ)|) = 4.5 := by rw [abs_of_pos (by norm_num)]; norm_num
  unfold cL
  rw [e0, e1]
  simp only [sum_range_succ, sum_range_zero, cX]
  norm_num
  rw [div_lt_div_iff_of_pos_right hr0]
  norm_num

/-- C105 is violated: a dynamic analysis returns 0, safe with the loads at the crest, although with the load 1.5 m behind
the crest the factor of safety is below the critical one. The load then presses on a steeper part of the circle. -/
theorem C105_safe_at_the_crest_only : ∃ (s : Slope ℝ) (c : ℝ) (t : Slope ℝ), Reachable s ∧
    s.analyseDynamic c false = (t, .ok (some 0)) ∧
    ∃ left o v f, GreatestOffset s left ∧ 0 < o ∧ o < left ∧ Attempt s o f v ∧ f < c := by
  have h3 : (3 : ℝ) ≤ 4 := by norm_num
  have h4 : (4 : ℝ) ≤ 4 := le_rfl
  have hs := exDyn_state (c := 5) (e := 4) (o := 0) h3 h4 (by norm_num)
  obtain ⟨v, hv⟩ := hs.attempt h3 h4 (by norm_num) (o' := 1.5) (by norm_num) (by norm_num)
  obtain ⟨u, e1, hu⟩ := (hs.dyn []).try h3 h4 (by norm_num) (o' := 0) le_rfl (by norm_num)
  have lt : cFos 5 4 1.5 < cFos 5 4 0 := by
    unfold cFos
    have := cD_pos h3 h4
    have := cL_nonneg h3 h4 0
    have hk := cK_pos h3 h4
    apply div_lt_div_of_pos_left
    · positivity
    · linarith
    · linarith [cL_steeper]
  refine ⟨exDyn 5 4 0, (cFos 5 4 1.5 + cFos 5 4 0) / 2, u, exDyn_reachable h3 h4 (by norm_num), ?_, 2.99, 1.5, v, _,
    exDyn_greatest _ _ _, by norm_num, by norm_num, hv, by linarith⟩
  unfold Slope.analyseDynamic
  simp only
  rw [exDyn_maxOffset]
  simp only
  rw [show (@OfNat.ofNat ℝ 0 (Lit.natLit 0)) = 0 from lit_zero, e1]
  simp only [andThen_done]
  rw [if_pos (by linarith)]

end PySlope
