import Verif.Spec.Rising
import Verif.Props.Friction

/-! # Property C100: a rising water table and the factor of safety -/

namespace PySlope
open Finset

theorem setWaterTable_num {s t : Slope ℝ} {d : ℝ} (h : s.setWaterTable (.num d) = (t, .ok ())) :
    t = ({ s with waterRL := some (max 0 (s.topY - d)), waterDepth := some d } : Slope ℝ).resetResults := by
  unfold Slope.setWaterTable at h
  simp only at h
  split at h
  · cases h
  · cases h
    simp [pyMax_real, lit_zero, PyVal.get!]

theorem groundY_nonneg {s : Slope ℝ} (g : Geo s) (x : ℝ) : 0 ≤ groundY s x := by
  have h1 := g.extH3
  have h2 := g.hgt
  have h3 : 0 < s.length := lt_of_lt_of_le (by norm_num) g.len
  unfold groundY
  split
  · linarith
  · split
    · rename_i h4 h5
      push Not at h4
      have : (x - s.topX) * (s.height / s.length) ≤ s.height := by
        rw [← mul_div_assoc, div_le_iff₀ h3]
        nlinarith
      linarith
    · linarith

/-- The water pressure on a base with the water at two depths. -/
theorem pressure_rises {s t t' : Slope ℝ} (rc : Reachable s) {d d' : ℝ} (hd : d ≤ d')
    (h : s.setWaterTable (.num d) = (t, .ok ())) (h' : s.setWaterTable (.num d') = (t', .ok ())) {x : ℝ}
    (hx : s.waterH = 1 ∨ ¬ GoesUnder s d d' x) (yb yt : ℝ) : pressureAt t' x yb yt ≤ pressureAt t x yb yt := by
  have wh := rc.wf.wh
  have g0 := groundY_nonneg rc.wf.geo x
  rw [setWaterTable_num h, setWaterTable_num h']
  have hg : ∀ rl wd, groundY ({ s with waterRL := rl, waterDepth := wd } : Slope ℝ).resetResults = groundY s :=
    fun _ _ => rfl
  unfold pressureAt
  rw [hg, hg]
  change (if max 0 (s.topY - d') = 0 then 0 else max (min (max 0 (s.topY - d')) yt - yb) 0 * 9.81 *
      (if groundY s x < max 0 (s.topY - d') ∧ x < s.topX + s.length then s.waterH else 1)) ≤
    (if max 0 (s.topY - d) = 0 then 0 else max (min (max 0 (s.topY - d)) yt - yb) 0 * 9.81 *
      (if groundY s x < max 0 (s.topY - d) ∧ x < s.topX + s.length then s.waterH else 1))
  have hz : max 0 (s.topY - d') ≤ max 0 (s.topY - d) := max_le_max le_rfl (by linarith)
  have hz0 : 0 ≤ max 0 (s.topY - d') := le_max_left _ _
  have ff : ∀ P : Prop, [Decidable P] → 0 ≤ (if P then s.waterH else 1) := by
    intro P _; split
    · exact wh.1
    · norm_num
  by_cases h1 : max 0 (s.topY - d') = 0
  · rw [if_pos h1]
    by_cases h2 : max 0 (s.topY - d) = 0
    · rw [if_pos h2]
    · rw [if_neg h2]
      exact mul_nonneg (mul_nonneg (le_max_right _ _) (by norm_num)) (ff _)
  · have h2 : ¬ max 0 (s.topY - d) = 0 := by
      intro e
      rw [e] at hz
      exact h1 (le_antisymm hz hz0)
    rw [if_neg h1, if_neg h2]
    have e1 : max (min (max 0 (s.topY - d')) yt - yb) 0 * 9.81 ≤ max (min (max 0 (s.topY - d)) yt - yb) 0 * 9.81 :=
      mul_le_mul_of_nonneg_right (max_le_max (sub_le_sub_right (min_le_min hz le_rfl) _) le_rfl) (by norm_num)
    have e0 : 0 ≤ max (min (max 0 (s.topY - d)) yt - yb) 0 * 9.81 := mul_nonneg (le_max_right _ _) (by norm_num)
    refine mul_le_mul e1 ?_ (ff _) e0
    by_cases hc : groundY s x < max 0 (s.topY - d) ∧ x < s.topX + s.length
    · rw [if_pos hc]
      rcases hx with hx | hx
      · rw [hx]; split <;> rfl
      · rw [if_pos]
        refine ⟨?_, hc.2⟩
        by_contra hn
        push Not at hn
        refine hx ⟨hc.2, le_trans (le_max_right _ _) hn, ?_⟩
        rcases max_choice 0 (s.topY - d) with e | e
        · rw [e] at hc; linarith [hc.1]
        · rw [e] at hc; exact hc.1
    · rw [if_neg hc]
      split
      · exact wh.2
      · exact le_rfl

/-- Two slopes that differ in their water. -/
theorem slices_rise {s t t' : Slope ℝ} (rc : Reachable s) {d d' : ℝ} (hd : d ≤ d')
    (h : s.setWaterTable (.num d) = (t, .ok ())) (h' : s.setWaterTable (.num d') = (t', .ok ())) {cx cy r xl xr : ℝ}
    {i : ℕ} (hx : s.waterH = 1 ∨ ¬ GoesUnder s d d' (centre xl xr s.slices i)) :
    let p := sliceOf t cx cy r xl xr i
    let q := sliceOf t' cx cy r xl xr i
    p.b = q.b ∧ p.W = q.W ∧ p.c = q.c ∧ p.φ = q.φ ∧ p.sin = q.sin ∧ p.cos = q.cos ∧ q.u ≤ p.u := by
  have key := fun yb yt => pressure_rises rc hd h h' hx yb yt
  intro p q
  have k := key (cy - √(r ^ 2 - (centre xl xr s.slices i - cx) ^ 2))
    (max (groundY s (centre xl xr s.slices i)) (cy - √(r ^ 2 - (centre xl xr s.slices i - cx) ^ 2)))
  have e := setWaterTable_num h
  have e' := setWaterTable_num h'
  subst e e'
  exact ⟨rfl, rfl, rfl, rfl, rfl, rfl, k⟩

/-- C100 (partial): raising the water table does not raise the factor of safety of the ordinary method, provided no
slice left of the toe goes under water, or the factor on water pressure is 1: where there is a number with the higher
water there is one with the lower, and it is not less. Missing: slices that go under water, whose water pressure drops
(`C100_higher_water_raises`); friction angles above 90 degrees. -/
theorem C100_ordinary_partial (s t t' : Slope ℝ) (rc : Reachable s) (hs : SoundFriction s) (d d' : ℝ) (hd : d ≤ d')
    (h : s.setWaterTable (.num d) = (t, .ok ())) (h' : s.setWaterTable (.num d') = (t', .ok ()))
    (cx cy r : ℝ) (l rt : ℝ × ℝ)
    (dry : s.waterH = 1 ∨ ∀ i < s.slices.toNat, ¬ GoesUnder s d d' (centre l.1 rt.1 s.slices i)) (F : ℝ)
    (e : t.ordinary cx cy r (some l) (some rt) = .ok F) :
    ∃ F', t'.ordinary cx cy r (some l) (some rt) = .ok F' ∧ F ≤ F' := by
  have rt0 : Reachable t := by
    have := Reachable.call rc (.setWaterTable s (.num d))
    rwa [h] at this
  have rt1 : Reachable t' := by
    have := Reachable.call rc (.setWaterTable s (.num d'))
    rwa [h'] at this
  have et := setWaterTable_num h
  have et' := setWaterTable_num h'
  obtain ⟨h1, h2, h3, h4, h5, h6, _, h8, rfl⟩ := (C55_ordinary_formula t rt0 cx cy r l rt F).mp e
  have hsl : t.slices = s.slices := by rw [et]; rfl
  have hsl' : t'.slices = s.slices := by rw [et']; rfl
  have hm : t.materials = s.materials := by rw [et]; rfl
  have hm' : t'.materials = s.materials := by rw [et']; rfl
  rw [hsl] at h5 h8 ⊢
  have hx : l.1 < rt.1 := by norm_num at h4; linarith
  have sl := fun i (hi : i < s.slices.toNat) => slices_rise (cx := cx) (cy := cy) (r := r) (xl := l.1) (xr := rt.1)
    (i := i) rc hd h h' (dry.imp id (fun f => f i hi))
  have hdr : driving s.slices.toNat (sliceOf t' cx cy r l.1 rt.1) = driving s.slices.toNat (sliceOf t cx cy r l.1 rt.1) := by
    unfold driving
    apply sum_congr rfl
    intro i hi
    obtain ⟨_, a2, _, _, a5, _⟩ := sl i (mem_range.mp hi)
    rw [a2, a5]
  refine ⟨_, (C55_ordinary_formula t' rt1 cx cy r l rt _).mpr ⟨h1, h2, h3, h4, by rw [hsl']; exact h5,
    by rw [hm', ← hm]; exact h6, waterX_ok rt1.wf.geo ?_, by rw [hsl', hdr]; exact h8, rfl⟩, ?_⟩
  · intro z hz
    rw [et'] at hz ⊢
    change some (max 0 (s.topY - d')) = some z at hz
    change z ≤ s.topY
    obtain rfl := Option.some.inj hz
    have g := rc.wf.geo
    refine max_le ?_ ?_
    · rw [g.topY]; linarith [g.extH3, g.hgt]
    · have : 0 ≤ d' := by
        unfold Slope.setWaterTable at h'
        simp only [assertPositiveNumber] at h'
        by_contra hn
        push Not at hn
        simp [PyCmp.ltb, hn] at h'
      linarith
  rw [hsl']
  unfold fellenius
  rw [hdr]
  refine div_le_div_of_nonneg_right (sum_le_sum ?_) h8.le
  intro i hi
  have hi := mem_range.mp hi
  have hin : (centre l.1 rt.1 s.slices i - cx) ^ 2 < r ^ 2 := by
    have := h5 i hi
    rw [← abs_of_pos h3, ← sq_lt_sq] at this
    exact this
  obtain ⟨a1, a2, a3, a4, a5, a6, a7⟩ := slice_facts (cy := cy) rt0 h6 h3 hx (by rw [hsl]; exact hin)
  obtain ⟨b1, b2, b3, b4, b5, b6, b7⟩ := sl i hi
  have ht : 0 ≤ (sliceOf t cx cy r l.1 rt.1 i).tan := a7 (by intro x hx; rw [hm] at hx; exact hs x hx)
  have et : (sliceOf t' cx cy r l.1 rt.1 i).tan = (sliceOf t cx cy r l.1 rt.1 i).tan := by unfold Slice.tan; rw [b4]
  rw [← b1, ← b2, ← b3, ← b6, et]
  refine add_le_add le_rfl (mul_le_mul_of_nonneg_right (max_le_max le_rfl (sub_le_sub_left ?_ _)) ht)
  exact mul_le_mul_of_nonneg_right b7 (div_nonneg a1.le a4.le)

/-- C100 (partial): where bases dip to the toe, raising the water table does not raise the solution of Bishop's
equation, provided no slice left of the toe goes under water, or the factor on water pressure is 1. Missing: slices
that go under water (`C100_higher_water_raises`). -/
theorem C100_bishop_partial (s t t' : Slope ℝ) (rc : Reachable s) (d d' : ℝ) (hd : d ≤ d')
    (h : s.setWaterTable (.num d) = (t, .ok ())) (h' : s.setWaterTable (.num d') = (t', .ok ()))
    (hm : s.materials ≠ []) (cx cy r : ℝ) (hr : 0 < r) (l rt : ℝ × ℝ) (hx : l.1 < rt.1)
    (hin : ∀ i < s.slices.toNat, (centre l.1 rt.1 s.slices i - cx) ^ 2 < r ^ 2)
    (dry : s.waterH = 1 ∨ ∀ i < s.slices.toNat, ¬ GoesUnder s d d' (centre l.1 rt.1 s.slices i))
    (hD : Dips t.slices.toNat (sliceOf t cx cy r l.1 rt.1)) (F F' : ℝ) (hF : 0 < F) (hF' : 0 < F')
    (e : bishopRhs t.slices.toNat (sliceOf t cx cy r l.1 rt.1) F = F)
    (e' : bishopRhs t'.slices.toNat (sliceOf t' cx cy r l.1 rt.1) F' = F') : F ≤ F' := by
  have hsl : t.slices = s.slices := by rw [setWaterTable_num h]; rfl
  have hsl' : t'.slices = s.slices := by rw [setWaterTable_num h']; rfl
  rw [hsl] at hD e
  rw [hsl'] at e'
  have sl := fun i (hi : i < s.slices.toNat) => slices_rise (cx := cx) (cy := cy) (r := r) (xl := l.1) (xr := rt.1)
    (i := i) rc hd h h' (dry.imp id (fun f => f i hi))
  set n := s.slices.toNat
  set p := sliceOf t cx cy r l.1 rt.1
  set q := sliceOf t' cx cy r l.1 rt.1
  have htan : ∀ i < n, (q i).tan = (p i).tan := by
    intro i hi; unfold Slice.tan; rw [(sl i hi).2.2.2.1]
  have hdr : driving n q = driving n p := by
    unfold driving
    apply sum_congr rfl
    intro i hi
    obtain ⟨_, a2, _, _, a5, _⟩ := sl i (mem_range.mp hi)
    rw [a2, a5]
  have hb : ∀ i < n, 0 < (p i).b := by
    intro i hi
    have : (sliceOf s cx cy r l.1 rt.1 i).b = (p i).b := by
      simp only [p, sliceOf]; rw [hsl]
    rw [← this]
    exact (slice_facts (cy := cy) rc hm hr hx (hin i hi)).1
  have hold : ∀ i < n, (p i).hold ≤ (q i).hold := by
    intro i hi
    obtain ⟨b1, b2, b3, b4, b5, b6, b7⟩ := sl i hi
    unfold Slice.hold
    rw [htan i hi, ← b1, ← b2, ← b3]
    refine add_le_add le_rfl (mul_le_mul_of_nonneg_right (sub_le_sub_left ?_ _) (hD.tan i hi))
    exact mul_le_mul_of_nonneg_right b7 (hb i hi).le
  have hQ : Dips n q := by
    obtain ⟨j, hj, hpj⟩ := hD.some
    exact ⟨fun i hi => by rw [← (sl i hi).2.2.2.2.2.1]; exact hD.cos i hi,
      fun i hi => by rw [← (sl i hi).2.2.2.2.1]; exact hD.sin i hi,
      fun i hi => by rw [htan i hi]; exact hD.tan i hi, fun i hi => le_trans (hD.hold i hi) (hold i hi),
      ⟨j, hj, lt_of_lt_of_le hpj (hold j hj)⟩, by rw [hdr]; exact hD.driving⟩
  have key : bishopRhs n p F ≤ bishopRhs n q F := by
    rw [Dips.rhs hF, Dips.rhs hF, hdr]
    apply div_le_div_of_nonneg_right _ hD.driving.le
    apply sum_le_sum
    intro i hi
    have hi := mem_range.mp hi
    rw [← (sl i hi).2.2.2.2.2.1, ← (sl i hi).2.2.2.2.1, htan i hi]
    exact div_le_div_of_nonneg_right (hold i hi) (hD.denom hi hF).le
  rw [e] at key
  by_contra hc
  push Not at hc
  have h1 := hQ.ratio_anti hF' hc
  rw [e', div_self hF'.ne'] at h1
  have : 1 ≤ bishopRhs n q F / F := by rw [le_div_iff₀ hF]; linarith
  linarith

/-- A water table that stays below the toe puts no slice left of the toe under water. -/
theorem notUnder_below_toe {s : Slope ℝ} (rc : Reachable s) {d d' : ℝ} (h : s.height ≤ d) (x : ℝ) :
    ¬ GoesUnder s d d' x := by
  rintro ⟨h1, _, h3⟩
  have g := rc.wf.geo
  rw [g.topY] at h3
  unfold groundY at h3
  have h4 : 0 < s.length := lt_of_lt_of_le (by norm_num) g.len
  have h5 := g.hgt
  split at h3
  · linarith
  · have : (x - s.topX) * (s.height / s.length) ≤ s.height := by
      rw [← mul_div_assoc, div_le_iff₀ h4]
      nlinarith
    linarith

end PySlope
