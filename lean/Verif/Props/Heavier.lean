import Verif.Props.Sensitivity
import Verif.Props.Clay
import Verif.Lemmas.ScaleCalls

/-! # C109: heavier ground and loads -/

namespace PySlope
open Finset

namespace Heavier
variable {k : ℝ} {s t : Slope ℝ} (h : Heavier k s t)
include h

theorem unitWeight (hm : s.materials ≠ []) : unitWeightAt t.materials = fun y => k * unitWeightAt s.materials y := by
  funext y
  unfold unitWeightAt
  rcases layerAt_forall2 h.materials (fun x y hxy => hxy.2.2.2) y with ⟨e1, e2⟩ | ⟨l, l', e1, e2, e3⟩
  · rw [e1, e2]; simp
  · rw [e1, e2]; exact e3.1

theorem weightOn_eq (hm : s.materials ≠ []) (a b yb yt : ℝ) : weightOn t a b yb yt = k * weightOn s a b yb yt := by
  have h1 : ∀ {us vs : List (PUdl ℝ)}, List.Forall₂ (ScaledUdl k) us vs →
      (vs.map fun u => u.load.magnitude * common a b u.left u.right).sum =
        k * (us.map fun u => u.load.magnitude * common a b u.left u.right).sum := by
    intro us vs huv
    induction huv with
    | nil => simp
    | cons e _ ih =>
      rw [List.map_cons, List.map_cons, List.sum_cons, List.sum_cons, ih, e.1, e.2.1, e.2.2]
      ring
  have h2 : ∀ {us vs : List (PLl ℝ)}, List.Forall₂ (ScaledLl k) us vs →
      (vs.map fun l => if a ≤ l.coord ∧ l.coord < b then l.load.magnitude else 0).sum =
        k * (us.map fun l => if a ≤ l.coord ∧ l.coord < b then l.load.magnitude else 0).sum := by
    intro us vs huv
    induction huv with
    | nil => simp
    | cons e _ ih =>
      rw [List.map_cons, List.map_cons, List.sum_cons, List.sum_cons, ih, e.1, e.2]
      split_ifs <;> ring
  unfold weightOn
  rw [h.unitWeight hm, h1 h.udls, h2 h.lls, intervalIntegral.integral_const_mul]
  ring

/-- The slices of the heavier ground. -/
theorem slice (hm : s.materials ≠ []) (cx cy r xl xr : ℝ) (i : ℕ) :
    let p := sliceOf t cx cy r xl xr i
    let q := sliceOf s cx cy r xl xr i
    p.b = q.b ∧ p.W = k * q.W ∧ p.u = q.u ∧ p.φ = q.φ ∧ p.sin = q.sin ∧ p.cos = q.cos ∧ p.c = q.c := by
  have hg : groundY t = groundY s := by
    funext x; unfold groundY; rw [h.topX, h.length, h.extH, h.height]
  have hp : pressureAt t = pressureAt s := by
    funext x yb yt; unfold pressureAt; rw [h.waterRL, hg, h.topX, h.length, h.waterH]
  intro p q
  simp only [p, q, sliceOf, h.slices, hg, hp, h.weightOn_eq hm, true_and, and_true]
  rcases layerAt_forall2 h.materials (fun x y hxy => hxy.2.2.2)
    (cy - √(r ^ 2 - (xl + ((i : ℝ) + 1 / 2) * ((xr - xl) / s.slices) - cx) ^ 2))
    with ⟨e1, e2⟩ | ⟨l, l', e1, e2, e3⟩
  · simp only [e1, e2, and_self]
  · simp only [e1, e2]
    exact ⟨e3.2.2.1, e3.2.1⟩

theorem driving (hm : s.materials ≠ []) (cx cy r xl xr : ℝ) (n : ℕ) :
    PySlope.driving n (sliceOf t cx cy r xl xr) = k * PySlope.driving n (sliceOf s cx cy r xl xr) := by
  unfold PySlope.driving
  rw [mul_sum]
  apply sum_congr rfl
  intro i _
  obtain ⟨_, h2, _, _, h5, _⟩ := h.slice hm cx cy r xl xr i
  rw [h2, h5, mul_assoc]

theorem materials_ne (hm : s.materials ≠ []) : t.materials ≠ [] := by
  intro c
  have := h.materials
  rw [c] at this
  cases hs : s.materials with
  | nil => exact hm hs
  | cons x xs => rw [hs] at this; cases this

theorem waterX : t.waterX = s.waterX := by
  unfold Slope.waterX Slope.getExternalX
  rw [h.waterRL, h.gradient, h.topX, h.topY, h.botX, h.botY, h.extL, h.extH]

theorem sound (hs : SoundFriction s) : SoundFriction t := by
  intro l hl
  obtain ⟨a, ha, _, _, e, _⟩ := forall₂_right h.materials hl
  rw [e]
  exact hs a ha

theorem frictionless (hs : Frictionless s) : Frictionless t := by
  intro l hl
  obtain ⟨a, ha, _, _, e, _⟩ := forall₂_right h.materials hl
  rw [e]
  exact hs a ha

theorem heavy (hk : 1 ≤ k) (hs : HeavierThanWater s) : HeavierThanWater t := by
  intro l hl
  obtain ⟨a, ha, e, _⟩ := forall₂_right h.materials hl
  rw [e]
  have := hs a ha
  have p : (0 : ℝ) ≤ a.mat.unitWeight := le_trans (by norm_num) this
  nlinarith

/-- A circle has an ordinary factor of safety in the heavier ground when it has one in the other; the formula. -/
theorem ordinary (hk : 0 < k) (rs : Reachable s) (rt : Reachable t) {cx cy r F : ℝ} {a b : ℝ × ℝ}
    (e : s.ordinary cx cy r (some a) (some b) = .ok F) :
    t.ordinary cx cy r (some a) (some b) = .ok
      ((∑ i ∈ range s.slices.toNat, ((sliceOf s cx cy r a.1 b.1 i).c *
          ((sliceOf s cx cy r a.1 b.1 i).b / (sliceOf s cx cy r a.1 b.1 i).cos) +
        max 0 (k * (sliceOf s cx cy r a.1 b.1 i).W * (sliceOf s cx cy r a.1 b.1 i).cos - (sliceOf s cx cy r a.1 b.1 i).u *
          ((sliceOf s cx cy r a.1 b.1 i).b / (sliceOf s cx cy r a.1 b.1 i).cos)) * (sliceOf s cx cy r a.1 b.1 i).tan)) /
        (k * PySlope.driving s.slices.toNat (sliceOf s cx cy r a.1 b.1))) := by
  obtain ⟨h1, h2, h3, h4, h5, h6, ⟨w, hw⟩, h8, rfl⟩ := (C55_ordinary_formula s rs cx cy r a b F).mp e
  refine (C55_ordinary_formula t rt cx cy r a b _).mpr
    ⟨h1, h2, h3, h4, by rw [h.slices]; exact h5, h.materials_ne h6, ⟨w, by rw [h.waterX, hw]⟩, ?_, ?_⟩
  · rw [h.slices, h.driving h6]
    exact mul_pos hk h8
  · unfold fellenius
    rw [h.slices, h.driving h6]
    congr 1
    apply sum_congr rfl
    intro i _
    obtain ⟨b1, b2, b3, b4, b5, b6, b7⟩ := h.slice h6 cx cy r a.1 b.1 i
    unfold Slice.tan
    rw [b1, b2, b3, b4, b6, b7]

end Heavier

/-- C109 for the ordinary method: in dry ground, multiplying all unit weights and loads by `k ≥ 1` does not raise the
factor of safety of a circle, whatever its end points, and does not bring it below `1 / k` of what it was. -/
theorem C109_ordinary_dry (k : ℝ) (hk : 1 ≤ k) (s t : Slope ℝ) (rs : Reachable s) (rt : Reachable t) (h : Heavier k s t)
    (hd : Dry s) (hs : SoundFriction s) (cx cy r F : ℝ) (a b : ℝ × ℝ)
    (e : s.ordinary cx cy r (some a) (some b) = .ok F) :
    ∃ F', t.ordinary cx cy r (some a) (some b) = .ok F' ∧ F' ≤ F ∧ F ≤ k * F' := by
  have k0 : 0 < k := by linarith
  refine ⟨_, h.ordinary k0 rs rt e, ?_⟩
  obtain ⟨h1, h2, h3, h4, h5, h6, ⟨w, hw⟩, h8, rfl⟩ := (C55_ordinary_formula s rs cx cy r a b F).mp e
  have hx : a.1 < b.1 := by norm_num at h4; linarith
  have facts := fun i hi => slice_facts (cy := cy) rs h6 h3 hx (i := i) (by
    have := h5 i (mem_range.mp hi)
    rw [← abs_of_pos h3, ← sq_lt_sq] at this
    exact this)
  have hu : ∀ i, (sliceOf s cx cy r a.1 b.1 i).u = 0 := fun i => hd.pressure _ _ _
  constructor
  · unfold fellenius
    rw [div_le_div_iff₀ (mul_pos k0 h8) h8, sum_mul, sum_mul]
    apply sum_le_sum
    intro i hi
    obtain ⟨a1, a2, a3, a4, a5, a6, a7⟩ := facts i hi
    have hc := mul_nonneg a2 (div_nonneg a1.le a4.le)
    have hN := mul_nonneg (mul_nonneg a5 a4.le) (a7 hs)
    rw [hu, zero_mul, sub_zero, sub_zero, max_eq_right (mul_nonneg a5 a4.le),
      max_eq_right (by rw [mul_assoc]; exact mul_nonneg k0.le (mul_nonneg a5 a4.le))]
    nlinarith [mul_nonneg hc h8.le, mul_nonneg (mul_nonneg hc h8.le) (sub_nonneg.mpr hk)]
  · unfold fellenius
    rw [← mul_div_assoc, mul_div_mul_left _ _ k0.ne']
    apply div_le_div_of_nonneg_right _ h8.le
    apply sum_le_sum
    intro i hi
    obtain ⟨a1, a2, a3, a4, a5, a6, a7⟩ := facts i hi
    refine add_le_add (le_refl _) (mul_le_mul_of_nonneg_right (max_le_max (le_refl _) ?_) (a7 hs))
    rw [hu, zero_mul, sub_zero, sub_zero, mul_assoc]
    nlinarith [mul_nonneg a5 a4.le]

/-- C109 the other way: without cohesion, with any water, multiplying all unit weights and loads by `k ≥ 1` does not
lower the ordinary factor of safety of a circle. -/
theorem C109_ordinary_sand (k : ℝ) (hk : 1 ≤ k) (s t : Slope ℝ) (rs : Reachable s) (rt : Reachable t) (h : Heavier k s t)
    (hc : ∀ l ∈ s.materials, l.mat.cohesion = 0) (hs : SoundFriction s) (cx cy r F : ℝ) (a b : ℝ × ℝ)
    (e : s.ordinary cx cy r (some a) (some b) = .ok F) :
    ∃ F', t.ordinary cx cy r (some a) (some b) = .ok F' ∧ F ≤ F' := by
  have k0 : 0 < k := by linarith
  refine ⟨_, h.ordinary k0 rs rt e, ?_⟩
  obtain ⟨h1, h2, h3, h4, h5, h6, ⟨w, hw⟩, h8, rfl⟩ := (C55_ordinary_formula s rs cx cy r a b F).mp e
  have hx : a.1 < b.1 := by norm_num at h4; linarith
  unfold fellenius
  rw [div_le_div_iff₀ h8 (mul_pos k0 h8), sum_mul, sum_mul]
  apply sum_le_sum
  intro i hi
  obtain ⟨a1, a2, a3, a4, a5, a6, a7⟩ := slice_facts (cy := cy) rs h6 h3 hx (i := i) (by
    have := h5 i (mem_range.mp hi)
    rw [← abs_of_pos h3, ← sq_lt_sq] at this
    exact this)
  have c0 : (sliceOf s cx cy r a.1 b.1 i).c = 0 := by
    obtain ⟨ly, hl, hlm, _⟩ := strengthAt_eq rs h6
      (cy - √(r ^ 2 - (a.1 + ((i : ℝ) + 1 / 2) * ((b.1 - a.1) / s.slices) - cx) ^ 2))
    unfold sliceOf
    simp only [hl, hc ly hlm]
  rw [c0, zero_mul, zero_add, zero_add]
  have key : k * max 0 ((sliceOf s cx cy r a.1 b.1 i).W * (sliceOf s cx cy r a.1 b.1 i).cos -
      (sliceOf s cx cy r a.1 b.1 i).u * ((sliceOf s cx cy r a.1 b.1 i).b / (sliceOf s cx cy r a.1 b.1 i).cos)) ≤
      max 0 (k * (sliceOf s cx cy r a.1 b.1 i).W * (sliceOf s cx cy r a.1 b.1 i).cos -
      (sliceOf s cx cy r a.1 b.1 i).u * ((sliceOf s cx cy r a.1 b.1 i).b / (sliceOf s cx cy r a.1 b.1 i).cos)) := by
    rw [mul_max_of_nonneg _ _ k0.le, mul_zero]
    refine max_le_max (le_refl _) ?_
    have := mul_nonneg a6 (div_nonneg a1.le a4.le)
    nlinarith
  have := mul_le_mul_of_nonneg_right key (mul_nonneg (a7 hs) h8.le)
  calc _ = k * max 0 ((sliceOf s cx cy r a.1 b.1 i).W * (sliceOf s cx cy r a.1 b.1 i).cos -
      (sliceOf s cx cy r a.1 b.1 i).u * ((sliceOf s cx cy r a.1 b.1 i).b / (sliceOf s cx cy r a.1 b.1 i).cos)) *
        ((sliceOf s cx cy r a.1 b.1 i).tan * PySlope.driving s.slices.toNat (sliceOf s cx cy r a.1 b.1)) := by ring
    _ ≤ _ := this
    _ = _ := by ring

/-- The slices of a circle whose bases dip to the toe, in dry ground. -/
theorem dips_dry {s : Slope ℝ} (rc : Reachable s) (hs : SoundFriction s) (hd : Dry s) {cx cy r F0 : ℝ} {l q : ℝ × ℝ}
    (e : s.ordinary cx cy r (some l) (some q) = .ok F0) (h0 : F0 ≠ 0) (side : q.1 ≤ cx) :
    0 < F0 ∧ Dips s.slices.toNat (sliceOf s cx cy r l.1 q.1) := by
  have hF : 0 < F0 := lt_of_le_of_ne (fellenius_nonneg rc hs e) (Ne.symm h0)
  obtain ⟨h1, h2, h3, h4, h5, h6, _, h8, rfl⟩ := (C55_ordinary_formula s rc cx cy r l q F0).mp e
  have hx : l.1 < q.1 := by norm_num at h4; linarith
  have facts := fun i hi => slice_facts (cy := cy) rc h6 h3 hx (i := i) (by
    have := h5 i hi
    rw [← abs_of_pos h3, ← sq_lt_sq] at this
    exact this)
  have hu : ∀ i, (sliceOf s cx cy r l.1 q.1 i).u = 0 := fun i => hd.pressure _ _ _
  have hhold : ∀ i < s.slices.toNat, 0 ≤ (sliceOf s cx cy r l.1 q.1 i).hold := by
    intro i hi
    obtain ⟨a1, a2, a3, a4, a5, a6, a7⟩ := facts i hi
    unfold Slice.hold
    rw [hu, zero_mul, sub_zero]
    exact add_nonneg (mul_nonneg a2 a1.le) (mul_nonneg a5 (a7 hs))
  refine ⟨hF, fun i hi => (facts i hi).2.2.2.1, sin_nonneg_of_side rc h3 hx side,
    fun i hi => (facts i hi).2.2.2.2.2.2 hs, hhold, ?_, h8⟩
  by_contra hc
  push Not at hc
  apply h0
  unfold fellenius
  rw [div_eq_zero_iff]
  left
  apply sum_eq_zero
  intro i hi
  have hi := mem_range.mp hi
  obtain ⟨a1, a2, a3, a4, a5, a6, a7⟩ := facts i hi
  have z := le_antisymm (hc i hi) (hhold i hi)
  unfold Slice.hold at z
  rw [hu, zero_mul, sub_zero] at z
  have z1 := mul_nonneg a2 a1.le
  have z2 := mul_nonneg a5 (a7 hs)
  have z3 : (sliceOf s cx cy r l.1 q.1 i).c = 0 :=
    (mul_eq_zero.mp (by linarith : (sliceOf s cx cy r l.1 q.1 i).c * _ = 0)).resolve_right a1.ne'
  have z4 : (sliceOf s cx cy r l.1 q.1 i).W * (sliceOf s cx cy r l.1 q.1 i).tan = 0 := by linarith
  rw [hu, zero_mul, sub_zero, z3, zero_mul, zero_add, max_eq_right (mul_nonneg a5 a4.le), mul_right_comm, z4, zero_mul]

/-- Every turn of Bishop's method gives no more in the heavier ground. -/
theorem Heavier.rhs_le {k : ℝ} (hk : 1 ≤ k) {s t : Slope ℝ} (h : Heavier k s t) (rs : Reachable s)
    (hm : s.materials ≠ []) (hd : Dry s) {cx cy r xl xr : ℝ} (hx : xl ≤ xr)
    (hc : ∀ i < s.slices.toNat, 0 ≤ (sliceOf s cx cy r xl xr i).c)
    (hD : Dips s.slices.toNat (sliceOf s cx cy r xl xr)) {F : ℝ} (hF : 0 < F) :
    bishopRhs t.slices.toNat (sliceOf t cx cy r xl xr) F ≤ bishopRhs s.slices.toNat (sliceOf s cx cy r xl xr) F := by
  have k0 : 0 < k := by linarith
  have hu : ∀ i, (sliceOf s cx cy r xl xr i).u = 0 := fun i => hd.pressure _ _ _
  rw [Dips.rhs hF, Dips.rhs hF, h.slices, h.driving hm, div_le_div_iff₀ (mul_pos k0 hD.driving) hD.driving, sum_mul, sum_mul]
  apply sum_le_sum
  intro i hi
  have hi := mem_range.mp hi
  obtain ⟨b1, b2, b3, b4, b5, b6, b7⟩ := h.slice hm cx cy r xl xr i
  have ht : (sliceOf t cx cy r xl xr i).tan = (sliceOf s cx cy r xl xr i).tan := by unfold Slice.tan; rw [b4]
  have hn : (0 : ℝ) < s.slices := by
    have := rs.wf.sl.1
    have : (0 : Int) < s.slices := by omega
    exact_mod_cast this
  have hb : 0 ≤ (sliceOf s cx cy r xl xr i).b := div_nonneg (by linarith) hn.le
  have hh : (sliceOf t cx cy r xl xr i).hold ≤ k * (sliceOf s cx cy r xl xr i).hold := by
    unfold Slice.hold
    rw [b1, b2, b3, b7, ht, hu, zero_mul, sub_zero, sub_zero]
    nlinarith [mul_nonneg (hc i hi) hb]
  rw [b5, b6, ht]
  have := div_le_div_of_nonneg_right hh (hD.denom hi hF).le
  have := mul_le_mul_of_nonneg_right this hD.driving.le
  calc _ ≤ _ := this
    _ = _ := by ring

/-- C109 for Bishop's equation: in dry ground, multiplying all unit weights and loads by `k ≥ 1` does not raise
Bishop's factor of safety of a circle whose mass is left of its centre. -/
theorem C109_bishop_dry (k : ℝ) (hk : 1 ≤ k) (s t : Slope ℝ) (rs : Reachable s) (h : Heavier k s t)
    (hd : Dry s) (hs : SoundFriction s) (cx cy r F0 : ℝ) (l q : ℝ × ℝ)
    (e : s.ordinary cx cy r (some l) (some q) = .ok F0) (h0 : F0 ≠ 0) (side : q.1 ≤ cx) (G G' : ℝ)
    (hG : BishopSolution s cx cy r l.1 q.1 G) (hG' : BishopSolution t cx cy r l.1 q.1 G') : G' ≤ G := by
  obtain ⟨_, hD⟩ := dips_dry rs hs hd e h0 side
  obtain ⟨_, _, h3, h4, h5, h6, _⟩ := (C55_ordinary_formula s rs cx cy r l q F0).mp e
  have hx : l.1 < q.1 := by norm_num at h4; linarith
  have hc : ∀ i < s.slices.toNat, 0 ≤ (sliceOf s cx cy r l.1 q.1 i).c := fun i hi =>
    (slice_facts (cy := cy) rs h6 h3 hx (i := i) (by
      have := h5 i hi
      rw [← abs_of_pos h3, ← sq_lt_sq] at this
      exact this)).2.1
  have up := h.rhs_le hk rs h6 hd hx.le hc hD hG'.1
  rw [hG'.2] at up
  by_contra c
  push Not at c
  have := hD.ratio_anti hG.1 c
  rw [hG.2, div_self hG.1.ne', div_lt_one hG'.1] at this
  linarith

/-- C109 up to the difference of the methods: in dry ground, multiplying all unit weights and loads by `k ≥ 1` does not
raise what is computed for a circle whose mass is left of its centre by more than its ordinary and its Bishop factor of
safety were apart. -/
theorem C109_rise_partial (k : ℝ) (hk : 1 ≤ k) (s t : Slope ℝ) (rs : Reachable s) (rt : Reachable t) (h : Heavier k s t)
    (hd : Dry s) (hs : SoundFriction s) (cx cy r F F' : ℝ) (e : s.bishop cx cy r none none = .ok F)
    (e' : t.bishop cx cy r none none = .ok F') :
    ∃ l q F0, FirstCrossings s cx cy r l q ∧ s.ordinary cx cy r (some l) (some q) = .ok F0 ∧
      (q.1 ≤ cx → ∀ G, BishopSolution s cx cy r l.1 q.1 G → F' ≤ max F0 G ∧ F' ≤ F + |F0 - G|) := by
  obtain ⟨l, q, F0, he, ho, hl⟩ := bishop_spec rs e
  have hv := bishopLoop_value rs ho hl
  refine ⟨l, q, F0, (bishopEnds_first rs.wf.geo he).2, ho, fun side G hG => ?_⟩
  have k0 : 0 < k := by linarith
  have main : min F0 G ≤ F ∧ F' ≤ max F0 G := by
    obtain ⟨_, _, h3, h4, h5, h6, _, _, eF⟩ := (C55_ordinary_formula s rs cx cy r l q F0).mp ho
    have hx : l.1 < q.1 := by norm_num at h4; linarith
    have hc : ∀ i < s.slices.toNat, 0 ≤ (sliceOf s cx cy r l.1 q.1 i).c := fun i hi =>
      (slice_facts (cy := cy) rs h6 h3 hx (i := i) (by
        have := h5 i hi
        rw [← abs_of_pos h3, ← sq_lt_sq] at this
        exact this)).2.1
    obtain ⟨l', q', F0', he', ho', hl'⟩ := bishop_spec rt e'
    rw [h.toSameFrame.bishopEnds, he] at he'
    cases he'
    have hv' := bishopLoop_value rt ho' hl'
    obtain ⟨F1, ho1, hle, hge⟩ := C109_ordinary_dry k hk s t rs rt h hd hs cx cy r F0 l q ho
    rw [ho'] at ho1
    cases ho1
    obtain ⟨_, _, _, _, _, _, _, _, eF'⟩ := (C55_ordinary_formula t rt cx cy r l q F0').mp ho'
    by_cases z : F0 = 0
    · have n := fellenius_nonneg rt (h.sound hs) ho'
      have z' : F0' = 0 := le_antisymm (by rw [← z]; exact hle) n
      rw [hv.zero (by rw [← eF, z]), hv'.zero (by rw [← eF', z']), z]
      exact ⟨min_le_left _ _, le_max_left _ _⟩
    · obtain ⟨p0, hD⟩ := dips_dry rs hs hd ho z side
      have z' : F0' ≠ 0 := by
        rintro rfl
        linarith
      have hdt : Dry t := by unfold Dry; rw [h.waterRL]; exact hd
      obtain ⟨p0', hD'⟩ := dips_dry rt (h.sound hs) hdt ho' z' side
      have k1 := hv.between hD (by rw [← eF]; exact p0) hG
      rw [← eF] at k1
      refine ⟨k1.1, ?_⟩
      obtain ⟨_, m, f, _, f0, fs, rfl, _, _⟩ := hv'
      have key : ∀ i ≤ m, 0 < f i ∧ f i ≤ max F0 G := by
        intro i
        induction i with
        | zero =>
          intro _
          rw [f0, ← eF']
          exact ⟨p0', hle.trans (le_max_left _ _)⟩
        | succ i ih =>
          intro hi
          obtain ⟨c1, c2⟩ := ih (by omega)
          rw [fs i (by omega)]
          refine ⟨hD'.rhs_pos c1, (h.rhs_le hk rs h6 hd hx.le hc hD c1).trans ?_⟩
          rcases le_total (f i) G with c | c
          · have := hD.rhs_mono c1 c
            rw [hG.2] at this
            exact this.trans (le_max_right _ _)
          · refine le_trans ?_ c2
            rcases c.lt_or_eq with c | c
            · have := hD.ratio_anti hG.1 c
              rw [hG.2, div_self hG.1.ne', div_lt_one c1] at this
              exact this.le
            · rw [← c, hG.2]
      exact (key m le_rfl).2
  refine ⟨main.2, ?_⟩
  rcases le_total F0 G with c | c
  · rw [min_eq_left c, max_eq_right c] at main
    rw [abs_of_nonpos (by linarith)]; linarith
  · rw [min_eq_right c, max_eq_left c] at main
    rw [abs_of_nonneg (by linarith)]; linarith

/-- C109 in ground without friction, with any water: both methods give exactly `1 / k` of the factor of safety for every
circle that has one, and an analysis reports `1 / k` of it. -/
theorem C109_clay (k : ℝ) (hk : 0 < k) (s t : Slope ℝ) (rs : Reachable s) (rt : Reachable t) (h : Heavier k s t)
    (hφ : Frictionless s) :
    (∀ cx cy r a b F, s.ordinary cx cy r (some a) (some b) = .ok F →
      t.ordinary cx cy r (some a) (some b) = .ok (F / k)) ∧
    (∀ cx cy r F, s.bishop cx cy r none none = .ok F → t.bishop cx cy r none none = .ok (F / k)) ∧
    ∀ a b F, s.analyseSlope none = (a, .ok ()) → t.analyseSlope none = (b, .ok ()) → a.getMinFos = .ok (some F) →
      b.getMinFos = .ok (some (F / k)) := by
  have ho : ∀ {k : ℝ} (_ : 0 < k) {s t : Slope ℝ} (_ : Reachable s) (_ : Reachable t) (_ : Heavier k s t)
      (_ : Frictionless s) cx cy r a b F, s.ordinary cx cy r (some a) (some b) = .ok F →
      t.ordinary cx cy r (some a) (some b) = .ok (F / k) := by
    intro k hk s t rs rt h hφ cx cy r a b F e
    rw [h.ordinary hk rs rt e]
    obtain ⟨_, _, _, _, _, h6, _, _, rfl⟩ := (C55_ordinary_formula s rs cx cy r a b F).mp e
    congr 1
    unfold fellenius
    rw [mul_comm, ← div_div]
    congr 2
    apply sum_congr rfl
    intro i _
    have ht : (sliceOf s cx cy r a.1 b.1 i).tan = 0 := by
      obtain ⟨ly, hl, hlm, _⟩ := strengthAt_eq rs h6
        (cy - √(r ^ 2 - (a.1 + ((i : ℝ) + 1 / 2) * ((b.1 - a.1) / s.slices) - cx) ^ 2))
      unfold Slice.tan sliceOf
      simp only [hl, hφ ly hlm, zero_mul, Real.tan_zero]
    rw [ht, mul_zero, mul_zero]
  have hb : ∀ {k : ℝ} (_ : 0 < k) {s t : Slope ℝ} (_ : Reachable s) (_ : Reachable t) (_ : Heavier k s t)
      (_ : Frictionless s) cx cy r F, s.bishop cx cy r none none = .ok F →
      t.bishop cx cy r none none = .ok (F / k) := by
    intro k hk s t rs rt h hφ cx cy r F e
    rw [clay_bishop rs hφ] at e
    rw [clay_bishop rt (h.frictionless hφ), h.toSameFrame.bishopEnds, h.maxIterations]
    cases he : s.bishopEnds cx cy r none none with
    | error x => rw [he] at e; cases e
    | ok q =>
      rw [he] at e
      simp only [bind, Except.bind] at e ⊢
      cases hq : s.ordinary cx cy r (some q.1) (some q.2) with
      | error x => rw [hq] at e; cases e
      | ok F1 =>
        rw [hq] at e
        rw [ho hk rs rt h hφ _ _ _ _ _ _ hq]
        simp only at e ⊢
        split_ifs at e with c
        cases e
        rw [if_neg]
        · rfl
        · rintro ⟨c1, c2⟩
          exact c ⟨c1, (div_eq_zero_iff.mp c2).resolve_right hk.ne'⟩
  refine ⟨ho hk rs rt h hφ, hb hk rs rt h hφ, fun a b F ha hb' hF => ?_⟩
  have back : Heavier (1 / k) t s := by
    refine ⟨h.toSameFrame.symm, ?_, ?_, ?_⟩
    · exact h.materials.flip.imp fun x y e => ⟨by rw [e.1]; field_simp, e.2.1.symm, e.2.2.1.symm, e.2.2.2.symm⟩
    · exact h.udls.flip.imp fun x y e => ⟨by rw [e.1]; field_simp, e.2.1.symm, e.2.2.symm⟩
    · exact h.lls.flip.imp fun x y e => ⟨by rw [e.1]; field_simp, e.2.symm⟩
  have hp : t.entryExitPlanes = s.entryExitPlanes := h.entryExitPlanes (forall2_map h.udls fun x y hxy => hxy.2.1)
    (forall2_map h.lls fun x y hxy => hxy.2)
  obtain ⟨ps, k1, k2, k3, k4, k5⟩ := C24_results_partial (by simp) ha
  obtain ⟨ps', l1, l2, l3, l4, l5⟩ := C24_results_partial (by simp) hb'
  have : Analysed s ps' := by
    unfold Analysed at l1 ⊢
    rw [h.individual, hp] at l1
    exact l1
  cases k1.unique this
  have hne : a.search ≠ [] := by
    intro c
    rw [(k4 c).1] at hF
    cases hF
  obtain ⟨p, m1, x, m2, m3, _, _, m4⟩ := k5 hne
  rw [m3] at hF
  cases hF
  have hne' : b.search ≠ [] := by
    intro c
    rw [c] at l2
    have : withFos t p ∈ ([] : List (Plane ℝ)) := l2.mem_iff.mpr (List.mem_map.mpr ⟨p, List.mem_filter.mpr ⟨m1, by
      unfold Wanted; rw [hb hk rs rt h hφ _ _ _ _ m2]⟩, rfl⟩)
    cases this
  obtain ⟨p', n1, x', n2, n3, _, _, n4⟩ := l5 hne'
  rw [n3]
  have u1 := n4 p m1 _ (hb hk rs rt h hφ _ _ _ _ m2)
  have u2 := m4 p' n1 _ (hb (by positivity) rt rs back (h.frictionless hφ) _ _ _ _ n2)
  have : x' = F / k := by
    apply le_antisymm u1
    rw [div_le_iff₀ hk]
    calc F ≤ x' / (1 / k) := u2
      _ = x' * k := by rw [div_div_eq_mul_div, div_one]
  rw [this]

/-- C109 in dry ground without cohesion: multiplying all unit weights and loads by `k > 0` changes nothing, neither the
value of a circle nor what an analysis does. -/
theorem C109_sand (k : ℝ) (hk : 0 < k) (s t : Slope ℝ) (rs : Reachable s) (rt : Reachable t) (h : Heavier k s t)
    (hd : Dry s) (hc : ∀ l ∈ s.materials, l.mat.cohesion = 0) :
    (∀ cx cy r a b, t.ordinary cx cy r a b = s.ordinary cx cy r a b) ∧
    (∀ cx cy r a b, t.bishop cx cy r a b = s.bishop cx cy r a b) ∧
    ∀ m : Option ℝ, (t.analyseSlope m).2 = (s.analyseSlope m).2 ∧
      ((s.analyseSlope m).2 = .ok () →
        (t.analyseSlope m).1.search = (s.analyseSlope m).1.search ∧
        (t.analyseSlope m).1.getMinFos = (s.analyseSlope m).1.getMinFos) := by
  have ht : ∀ {u : Slope ℝ}, Reachable u → ∀ l ∈ u.materials, l.mat.tanPhi = Real.tan (l.mat.frictionAngle * (Real.pi / 180)) :=
    fun r l hl => (r.sane.mat l.mat (List.mem_map_of_mem hl)).facts.2.2.2.2.2
  refine C42_scale_free k hk s t hd ⟨h.toSameFrame, ?_, h.udls, h.lls⟩
  have : ∀ {as bs : List (Layer ℝ)}, List.Forall₂ (HeavierLayer k) as bs → (∀ l ∈ as, l ∈ s.materials) →
      (∀ l ∈ bs, l ∈ t.materials) → List.Forall₂ (ScaledLayer k) as bs := by
    intro as bs hab
    induction hab with
    | nil => intro _ _; exact .nil
    | @cons a b as bs e _ ih =>
      intro h1 h2
      have ha := h1 a List.mem_cons_self
      refine .cons ⟨e.1, by rw [e.2.1, hc a ha, mul_zero], e.2.2.1, ?_, e.2.2.2⟩
        (ih (fun l hl => h1 l (List.mem_cons_of_mem _ hl)) (fun l hl => h2 l (List.mem_cons_of_mem _ hl)))
      rw [ht rs a ha, ht rt b (h2 b List.mem_cons_self), e.2.2.1]
  exact this h.materials (fun _ h => h) fun _ h => h

/-! ## The violation -/

theorem Scaled.addSingleCircularPlane {k : ℝ} {s t : Slope ℝ} (h : Scaled k s t) (x y r : ℝ) :
    Scaled k (s.addSingleCircularPlane x y r).1 (t.addSingleCircularPlane x y r).1 := by
  have key : ∀ p : Plane ℝ, Scaled k ({ s with individual := s.individual ++ [p] } : Slope ℝ).resetResults
      ({ t with individual := t.individual ++ [p] } : Slope ℝ).resetResults := by
    intro p
    obtain ⟨f, m, u, l⟩ := h
    refine ⟨?_, m, u, l⟩
    constructor
    case individual => change t.individual ++ [p] = s.individual ++ [p]; rw [f.individual]
    all_goals first
      | exact f.height | exact f.length | exact f.gradient | exact f.topX | exact f.topY | exact f.botX | exact f.botY
      | exact f.extL | exact f.extH | exact f.lim1 | exact f.lim2 | exact f.lim3 | exact f.lim4 | exact f.waterRL
      | exact f.waterH | exact f.slices | exact f.iterations | exact f.minFailureDist | exact f.tolerance
      | exact f.maxIterations
  unfold Slope.addSingleCircularPlane
  rw [h.toSameFrame.circleExternalIntersection]
  split
  · exact h
  · split
    · exact h
    · split
      · exact key _
      · exact h

theorem cutOf_reachable_of {m : Material ℝ} (hm : Material.Constructed m) (hd : m.depth ≤ 36) : Reachable (cutOf m) := by
  have e : cutSlope.setMaterials [some m] = (cutOf m, .ok ()) := by
    rw [setMaterials_one cutSlope_reachable.wf.geo rfl]
    have : cutSlope.deepen m.depth = cutSlope := by
      unfold Slope.deepen
      rw [if_neg]
      rw [cutSlope_extH]; simpa using hd
    rw [this]
    rfl
  have := Reachable.call cutSlope_reachable (.setMaterials cutSlope [some m] (by
    intro m' hm'; simp at hm'; subst hm'; exact hm))
  rwa [e] at this

/-- `Material(20 * 5.38 / 5.32, 45, 5.38, 2)`. -/
noncomputable def cutHeavy : Material ℝ := { exFric 45 5.38 with unitWeight := 5.38 / 5.32 * 20 }

theorem cutHeavy_constructed : Material.Constructed cutHeavy := by
  refine ⟨fun _ => false, .num (5.38 / 5.32 * 20), .num 45, .num 5.38, .num 2, .str "", .str "", ?_⟩
  rw [(C01_material (fun _ => false) (.num (5.38 / 5.32 * 20)) (.num 45) (.num 5.38) (.num 2) (.str "") (.str "")).1
    (5.38 / 5.32 * 20) 45 5.38 2 "" "" ⟨rfl, by norm_num, by norm_num, rfl, by norm_num, rfl, rfl⟩ rfl rfl]
  simp [cutHeavy, exFric]

/-- C109 is violated: a dry cut 12 m high, friction angle 45 degrees, cohesion 5.38, default tolerance. Raising the unit
weight from 20 to 20.23 raises the factor of safety the analysis reports for a circle (computed: 0.7353 and 0.7366),
because the iteration stops one turn earlier. -/
theorem C109_heavier_raises_reported : ∃ (k : ℝ) (s t : Slope ℝ) (cx cy r F F' : ℝ), 1 < k ∧ Reachable s ∧ Reachable t ∧
    Heavier k s t ∧ s.udls = [] ∧ s.lls = [] ∧ s.waterRL = none ∧ s.tolerance = 0.005 ∧
    ((s.addSingleCircularPlane cx cy r).1.analyseSlope none).2 = .ok () ∧
    ((t.addSingleCircularPlane cx cy r).1.analyseSlope none).2 = .ok () ∧
    ((s.addSingleCircularPlane cx cy r).1.analyseSlope none).1.getMinFos = .ok (some F) ∧
    ((t.addSingleCircularPlane cx cy r).1.analyseSlope none).1.getMinFos = .ok (some F') ∧ F < F' := by
  obtain ⟨F', F, b1, a1, b3, a3, hlt⟩ := cut_reports
  have hd : cutHeavy.depth ≤ 36 := by simp [cutHeavy, exFric]; norm_num
  have sc : Scaled (5.38 / 5.32) (cutOf (exFric 45 5.32)) (cutOf cutHeavy) := by
    refine ⟨by constructor <;> rfl, .cons ⟨rfl, ?_, rfl, rfl, rfl⟩ .nil, .nil, .nil⟩
    change |(5.38 : ℝ)| = 5.38 / 5.32 * |5.32|
    norm_num
  have sc' := sc.addSingleCircularPlane 32 36 10
  have hdry : Dry ((cutOf (exFric 45 5.32)).addSingleCircularPlane 32 36 10).1 := by
    left
    have := sc'.waterRL
    unfold Slope.addSingleCircularPlane
    split
    · rfl
    · split
      · rfl
      · split <;> rfl
  obtain ⟨_, _, c3⟩ := C42_scale_free (5.38 / 5.32) (by norm_num) _ _ hdry sc'
  obtain ⟨c1, c2⟩ := c3 none
  refine ⟨5.38 / 5.32, cutOf (exFric 45 5.38), cutOf cutHeavy, 32, 36, 10, F, F', by norm_num,
    cutOf_reachable (by norm_num), cutOf_reachable_of cutHeavy_constructed hd, ?_, rfl, rfl, rfl, rfl, a1,
    by rw [c1]; exact b1, a3, by rw [(c2 b1).2]; exact b3, hlt⟩
  exact ⟨by constructor <;> rfl, .cons ⟨rfl, rfl, rfl, rfl⟩ .nil, .nil, .nil⟩

/-- A material of unit weight 40. -/
noncomputable def exLead (φ c : ℝ) : Material ℝ := { exFric φ c with unitWeight := 40 }

theorem exLead_constructed (φ c : ℝ) (hφ : 0 ≤ φ) : Material.Constructed (exLead φ c) := by
  refine ⟨fun _ => false, .num 40, .num φ, .num c, .num 2, .str "", .str "", ?_⟩
  rw [(C01_material (fun _ => false) (.num 40) (.num φ) (.num c) (.num 2) (.str "") (.str "")).1
    40 φ c 2 "" "" ⟨rfl, by norm_num, by norm_num, rfl, hφ, rfl, rfl⟩ rfl rfl]
  simp [exLead, exFric, abs_of_nonneg hφ]

theorem exLead_heavier (φ c : ℝ) : Heavier 2 (cutOf (exFric φ c)) (cutOf (exLead φ c)) := by
  refine ⟨by constructor <;> rfl, .cons ⟨?_, rfl, rfl, rfl⟩ .nil, .nil, .nil⟩
  change (40 : ℝ) = 2 * 20
  norm_num

theorem exLead_reachable {φ c : ℝ} (hφ : 0 ≤ φ) : Reachable (cutOf (exLead φ c)) :=
  cutOf_reachable_of (exLead_constructed φ c hφ) (by simp [exLead, exFric]; norm_num)

/-- A case of C109 in dry ground: the cut with twice the unit weight has the hypotheses, with values on the circle. -/
example : ∃ (s t : Slope ℝ) (F F0 : ℝ) (l q : ℝ × ℝ), Reachable s ∧ Reachable t ∧ Heavier 2 s t ∧ Dry s ∧
    SoundFriction s ∧ FirstCrossings s 32 36 10 l q ∧ s.ordinary 32 36 10 (some l) (some q) = .ok F0 ∧
    q.1 ≤ 32 ∧ s.bishop 32 36 10 none none = .ok F ∧ 0 < F ∧ ∃ F', t.bishop 32 36 10 none none = .ok F' := by
  obtain ⟨F, hF, hp⟩ := cut_bishop (φ := 45) (c := 5) (by norm_num) (by norm_num) (by norm_num)
  have rs := cutOf_reachable (φ := 45) (c := 5) (by norm_num)
  obtain ⟨l, q, F0, he, ho, _⟩ := bishop_spec rs hF
  have hq := (bishopEnds_first rs.wf.geo he).2
  have rt := exLead_reachable (φ := 45) (c := 5) (by norm_num)
  have h := exLead_heavier 45 5
  refine ⟨_, _, F, F0, l, q, rs, rt, h, .inl rfl, ?_, hq, ho, ?_, hF, hp, ?_⟩
  · intro l hl
    obtain rfl : l = _ := List.mem_singleton.mp hl
    change |(45 : ℝ)| ≤ 90; norm_num
  · rw [(cut_first _ hq).2]; norm_num
  · have he' : (cutOf (exLead 45 5)).bishopEnds 32 36 10 none none = .ok (l, q) := by
      rw [h.toSameFrame.bishopEnds]; exact he
    obtain ⟨F', _, h2, _⟩ := bishop_of_cut rt
      (by intro l hl
          obtain rfl : l = _ := List.mem_singleton.mp hl
          change |(45 : ℝ)| ≤ 90; norm_num)
      (.inl rfl) (by intro z hz; cases hz) (by change [_] ≠ []; simp)
      (.inl (by intro l hl
                obtain rfl : l = _ := List.mem_singleton.mp hl
                change 0 < |(5 : ℝ)|; norm_num))
      (by norm_num) he'
      (by obtain ⟨rfl, rfl⟩ := cut_first _ hq
          exact cut_cuts _)
    exact ⟨F', h2⟩

/-- A case of C109 in clay: the cut without friction and cohesion 100. -/
example : ∃ (s t : Slope ℝ) (F : ℝ), Reachable s ∧ Reachable t ∧ Heavier 2 s t ∧ Frictionless s ∧
    s.bishop 32 36 10 none none = .ok F ∧ 0 < F := by
  obtain ⟨F, hF, hp⟩ := cut_bishop (φ := 0) (c := 100) (by norm_num) (by norm_num) (by norm_num)
  refine ⟨_, _, F, cutOf_reachable le_rfl, exLead_reachable le_rfl, exLead_heavier 0 100, ?_, hF, hp⟩
  intro l hl
  obtain rfl : l = _ := List.mem_singleton.mp hl
  change |(0 : ℝ)| = 0
  exact abs_zero

/-- A case of C109 in sand. -/
example : ∃ s t : Slope ℝ, Reachable s ∧ Reachable t ∧ Heavier 2 s t ∧ Dry s ∧ SoundFriction s ∧
    ∀ l ∈ s.materials, l.mat.cohesion = 0 := by
  refine ⟨_, _, cutOf_reachable (φ := 30) (by norm_num), exLead_reachable (by norm_num), exLead_heavier 30 0, .inl rfl,
    ?_, ?_⟩
  · intro l hl
    obtain rfl : l = _ := List.mem_singleton.mp hl
    change |(30 : ℝ)| ≤ 90; norm_num
  · intro l hl
    obtain rfl : l = _ := List.mem_singleton.mp hl
    change |(0 : ℝ)| = 0
    exact abs_zero

end PySlope
