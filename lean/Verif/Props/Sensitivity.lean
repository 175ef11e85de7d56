import Verif.Props.Accuracy

/-! # C106: raising the cohesion and the reported factor of safety -/

namespace PySlope
open Finset

/-! ## The violation -/

section Cut

/-- The step from the ordinary factor with cohesion 5.32. -/
theorem weak_step : (0.74150 : ℝ) ≤ fellenius 25 (sliceOf (cutOf (exFric 45 5.32)) 32 36 10 22 24) ∧
    fellenius 25 (sliceOf (cutOf (exFric 45 5.32)) 32 36 10 22 24) ≤ 0.74155 ∧
    (0.73659 : ℝ) ≤ bishopRhs 25 (sliceOf (cutOf (exFric 45 5.32)) 32 36 10 22 24) 0.74150 ∧
    bishopRhs 25 (sliceOf (cutOf (exFric 45 5.32)) 32 36 10 22 24) 0.74155 ≤ 0.741 := by
  refine ⟨cut_start_ge (by norm_num) (by norm_num) ?_, cut_start_le (by norm_num) (by norm_num) ?_,
    cut_turn_ge (by norm_num) (by norm_num) (by norm_num) ?_, cut_turn_le (by norm_num) (by norm_num) (by norm_num) ?_⟩ <;>
  · simp only [sum_range_succ, sum_range_zero, cutTable6, cutSin]
    norm_num

/-- The first two steps from the ordinary factor with cohesion 5.38. -/
theorem strong_step : (0.74402 : ℝ) ≤ fellenius 25 (sliceOf (cutOf (exFric 45 5.38)) 32 36 10 22 24) ∧
    fellenius 25 (sliceOf (cutOf (exFric 45 5.38)) 32 36 10 22 24) ≤ 0.74407 ∧
    bishopRhs 25 (sliceOf (cutOf (exFric 45 5.38)) 32 36 10 22 24) 0.74407 ≤ 0.73901 ∧
    bishopRhs 25 (sliceOf (cutOf (exFric 45 5.38)) 32 36 10 22 24) 0.73901 ≤ 0.7356 := by
  refine ⟨cut_start_ge (by norm_num) (by norm_num) ?_, cut_start_le (by norm_num) (by norm_num) ?_,
    cut_turn_le (by norm_num) (by norm_num) (by norm_num) ?_, cut_turn_le (by norm_num) (by norm_num) (by norm_num) ?_⟩ <;>
  · simp only [sum_range_succ, sum_range_zero, cutTable6, cutSin]
    norm_num

end Cut

/-- What the analysis reports for the circle with cohesion 5.32 and with 5.38. -/
theorem cut_reports : ∃ F F' : ℝ,
    (((cutOf (exFric 45 5.32)).addSingleCircularPlane 32 36 10).1.analyseSlope none).2 = .ok () ∧
    (((cutOf (exFric 45 5.38)).addSingleCircularPlane 32 36 10).1.analyseSlope none).2 = .ok () ∧
    (((cutOf (exFric 45 5.32)).addSingleCircularPlane 32 36 10).1.analyseSlope none).1.getMinFos = .ok (some F) ∧
    (((cutOf (exFric 45 5.38)).addSingleCircularPlane 32 36 10).1.analyseSlope none).1.getMinFos = .ok (some F') ∧
    F' < F := by
  obtain ⟨a1, F, a2, a3, _⟩ := cut_report (φ := 45) (c := 5.32) (by norm_num) (by norm_num) (by norm_num)
  obtain ⟨b1, F', b2, b3, _⟩ := cut_report (φ := 45) (c := 5.38) (by norm_num) (by norm_num) (by norm_num)
  have D := cut_dips (φ := 45) (c := 5.32) (by norm_num) (by norm_num)
  have D' := cut_dips (φ := 45) (c := 5.38) (by norm_num) (by norm_num)
  have hF : 0.73659 ≤ F := by
    obtain ⟨w1, w2, w3, w4⟩ := weak_step
    obtain ⟨_, k, f, hk, e0, es, rfl, et, hk'⟩ := a2
    change k ≤ 15 at hk
    change k = 15 ∨ _ at hk'
    change f 0 = fellenius 25 (sliceOf (cutOf (exFric 45 5.32)) 32 36 10 22 24) at e0
    change ∀ i < k, f (i + 1) = bishopRhs 25 (sliceOf (cutOf (exFric 45 5.32)) 32 36 10 22 24) (f i) at es
    change ∀ i, i + 1 < k → 0.005 ≤ |f (i + 1) - f i| at et
    have k1 : 1 ≤ k := by omega
    have e1 := es 0 (by omega)
    rw [zero_add] at e1
    have l1 : (0.73659 : ℝ) ≤ f 1 := by
      rw [e1]
      exact w3.trans (D.rhs_mono (by norm_num) (by rw [e0]; exact w1))
    have u1 : f 1 ≤ 0.741 := by
      rw [e1]
      refine le_trans (D.rhs_mono ?_ (by rw [e0]; exact w2)) w4
      rw [e0]; norm_num at w1 ⊢; linarith
    rcases Nat.lt_or_ge 1 k with c | c
    · have := et 0 (by omega)
      rw [zero_add, abs_of_nonpos (by rw [e0]; norm_num at *; linarith), e0] at this
      norm_num at *
      linarith
    · obtain rfl : k = 1 := by omega
      exact l1
  have hF' : F' ≤ 0.7356 := by
    obtain ⟨w1, w2, w3, w4⟩ := strong_step
    obtain ⟨_, k, f, hk, e0, es, rfl, et, hk'⟩ := b2
    change k ≤ 15 at hk
    change k = 15 ∨ 1 ≤ k ∧ |f k - f (k - 1)| < 0.005 at hk'
    change f 0 = fellenius 25 (sliceOf (cutOf (exFric 45 5.38)) 32 36 10 22 24) at e0
    change ∀ i < k, f (i + 1) = bishopRhs 25 (sliceOf (cutOf (exFric 45 5.38)) 32 36 10 22 24) (f i) at es
    have k1 : 1 ≤ k := by omega
    have e1 := es 0 (by omega)
    rw [zero_add] at e1
    have p0 : 0 < f 0 := by rw [e0]; norm_num at w1 ⊢; linarith
    have u1 : f 1 ≤ 0.73901 := by
      rw [e1]
      exact le_trans (D'.rhs_mono p0 (by rw [e0]; exact w2)) w3
    have p1 : 0 < f 1 := by rw [e1]; exact D'.rhs_pos p0
    have k2 : 2 ≤ k := by
      by_contra c
      obtain rfl : k = 1 := by omega
      rcases hk' with h | ⟨_, h⟩
      · omega
      · rw [Nat.sub_self, abs_of_nonpos (by rw [e0]; norm_num at *; linarith), e0] at h
        norm_num at *
        linarith
    have key : ∀ i, i + 2 ≤ k → 0 < f (i + 2) ∧ f (i + 2) ≤ 0.7356 := by
      intro i
      induction i with
      | zero =>
        intro _
        have e2 := es 1 (by omega)
        refine ⟨by rw [zero_add, e2]; exact D'.rhs_pos p1, ?_⟩
        rw [zero_add, e2]
        exact le_trans (D'.rhs_mono p1 u1) w4
      | succ i ih =>
        intro hi
        obtain ⟨q1, q2⟩ := ih (by omega)
        have e2 := es (i + 2) (by omega)
        refine ⟨by rw [show i + 1 + 2 = i + 2 + 1 by ring, e2]; exact D'.rhs_pos q1, ?_⟩
        rw [show i + 1 + 2 = i + 2 + 1 by ring, e2]
        refine le_trans (D'.rhs_mono q1 (q2.trans ?_)) w4
        norm_num
    have := (key (k - 2) (by omega)).2
    rwa [show k - 2 + 2 = k by omega] at this
  refine ⟨F, F', a1, b1, a3, b3, ?_⟩
  norm_num at hF hF' ⊢
  linarith

/-- C106 is violated: a cut 12 m high, friction angle 45 degrees, default tolerance. Raising the cohesion from 5.32 to
5.38 lowers the factor of safety the analysis reports for a circle (computed: 0.7366 and 0.7353): the iteration makes a
second turn, because the first one changes 0.0051 instead of 0.0049. -/
theorem C106_cohesion_lowers_reported : ∃ (s t : Slope ℝ) (cx cy r F F' : ℝ), Reachable s ∧ Reachable t ∧ Stronger s t ∧
    s.tolerance = 0.005 ∧
    ((s.addSingleCircularPlane cx cy r).1.analyseSlope none).2 = .ok () ∧
    ((t.addSingleCircularPlane cx cy r).1.analyseSlope none).2 = .ok () ∧
    ((s.addSingleCircularPlane cx cy r).1.analyseSlope none).1.getMinFos = .ok (some F) ∧
    ((t.addSingleCircularPlane cx cy r).1.analyseSlope none).1.getMinFos = .ok (some F') ∧ F' < F := by
  obtain ⟨F, F', a1, b1, a3, b3, hlt⟩ := cut_reports
  refine ⟨cutOf (exFric 45 5.32), cutOf (exFric 45 5.38), 32, 36, 10, F, F', cutOf_reachable (by norm_num),
    cutOf_reachable (by norm_num), ⟨by constructor <;> rfl, ?_, rfl, rfl⟩, rfl, a1, b1, a3, b3, hlt⟩
  refine .cons ⟨rfl, ?_, rfl, rfl⟩ .nil
  change |(5.32 : ℝ)| ≤ |5.38|
  norm_num

/-! ## What holds -/

theorem Stronger.driving_eq {s t : Slope ℝ} (h : Stronger s t) (cx cy r xl xr : ℝ) (n : ℕ) :
    driving n (sliceOf t cx cy r xl xr) = driving n (sliceOf s cx cy r xl xr) := by
  unfold driving
  apply sum_congr rfl
  intro i _
  obtain ⟨_, h2, _, _, h5, _⟩ := h.slice cx cy r xl xr i
  rw [h2, h5]

/-- Every turn holds more with more cohesion. -/
theorem Stronger.rhs_le {s t : Slope ℝ} (h : Stronger s t) (rs : Reachable s) {cx cy r xl xr : ℝ} (hx : xl ≤ xr)
    (hD : Dips s.slices.toNat (sliceOf s cx cy r xl xr)) {F F' : ℝ} (hF : 0 < F) (hF' : F ≤ F') :
    bishopRhs s.slices.toNat (sliceOf s cx cy r xl xr) F ≤ bishopRhs t.slices.toNat (sliceOf t cx cy r xl xr) F' := by
  refine (hD.rhs_mono hF hF').trans ?_
  have p' : 0 < F' := hF.trans_le hF'
  unfold bishopRhs
  rw [if_neg p'.ne', if_neg p'.ne', h.slices, h.driving_eq]
  apply div_le_div_of_nonneg_right _ hD.driving.le
  apply sum_le_sum
  intro i hi
  have hi := mem_range.mp hi
  obtain ⟨b1, b2, b3, b4, b5, b6, b7⟩ := h.slice cx cy r xl xr i
  have ht : (sliceOf t cx cy r xl xr i).tan = (sliceOf s cx cy r xl xr i).tan := by unfold Slice.tan; rw [b4]
  rw [b1, b2, b3, b5, b6, ht]
  have hn : (0 : ℝ) < s.slices := by
    have := rs.wf.sl.1
    have : (0 : Int) < s.slices := by omega
    exact_mod_cast this
  have hb : 0 ≤ (sliceOf s cx cy r xl xr i).b := div_nonneg (by linarith) hn.le
  apply div_le_div_of_nonneg_right
  · exact add_le_add (mul_le_mul_of_nonneg_right b7 hb) (le_refl _)
  · have := div_nonneg (mul_nonneg (hD.sin i hi) (hD.tan i hi)) p'.le
    have := hD.cos i hi
    linarith

theorem forall₂_right {α β : Type} {R : α → β → Prop} {l : List α} {m : List β} (h : List.Forall₂ R l m) {b : β}
    (hb : b ∈ m) : ∃ a ∈ l, R a b := by
  induction h with
  | nil => cases hb
  | cons e _ ih =>
    rcases List.mem_cons.mp hb with rfl | hb
    · exact ⟨_, List.mem_cons_self, e⟩
    · obtain ⟨a, h1, h2⟩ := ih hb
      exact ⟨a, List.mem_cons_of_mem _ h1, h2⟩

theorem Stronger.sound {s t : Slope ℝ} (h : Stronger s t) (hs : SoundFriction s) : SoundFriction t := by
  intro l hl
  obtain ⟨k, hk, _, _, e, _⟩ := forall₂_right h.materials hl
  rw [e]
  exact hs k hk

theorem Stronger.heavy {s t : Slope ℝ} (h : Stronger s t) (hs : HeavierThanWater s) : HeavierThanWater t := by
  intro l hl
  obtain ⟨k, hk, e, _⟩ := forall₂_right h.materials hl
  rw [e]
  exact hs k hk

/-- After the same number of turns more cohesion gives no less. -/
theorem Stronger.iterate_le {s t : Slope ℝ} (h : Stronger s t) (rs : Reachable s) {cx cy r xl xr : ℝ} (hx : xl ≤ xr)
    (hD : Dips s.slices.toNat (sliceOf s cx cy r xl xr)) {F F' : ℝ} (hF : 0 < F) (hF' : F ≤ F') (k : ℕ) :
    (bishopRhs s.slices.toNat (sliceOf s cx cy r xl xr))^[k] F ≤
      (bishopRhs t.slices.toNat (sliceOf t cx cy r xl xr))^[k] F' := by
  induction k with
  | zero => exact hF'
  | succ k ih =>
    rw [Function.iterate_succ_apply', Function.iterate_succ_apply']
    exact h.rhs_le rs hx hD (hD.iter_pos hF k) ih

/-- With a small enough tolerance the code reports the last turn. -/
theorem last_turn {f : ℕ → ℝ} {R : ℝ → ℝ} (hf : ∀ k, f (k + 1) = R (f k)) {m K : ℕ} {δ tol : ℝ}
    (hδ : ∀ i < m, |f (i + 1) - f i| < δ → f (i + 1) = f i) (ht : tol ≤ δ) (hK : |f (K + 1) - f K| < tol) :
    f (min m (K + 1)) = f m := by
  rcases Nat.lt_or_ge K m with c | c
  · have e := hδ K c (hK.trans_le ht)
    have : ∀ j, f (K + 1 + j) = f K := by
      intro j
      induction j with
      | zero => exact e
      | succ j ih => rw [← add_assoc, hf, ih, ← hf, e]
    rw [min_eq_right (by omega), e]
    have h := this (m - (K + 1))
    rw [show K + 1 + (m - (K + 1)) = m by omega] at h
    exact h.symm
  · rw [min_eq_left (by omega)]

/-- C106 for a tolerance that is small enough: for every number of turns there is a tolerance below which raising
cohesions does not lower what is computed for a circle whose mass is left of its centre. -/
theorem C106_small_tolerance_partial (s t : Slope ℝ) (rs : Reachable s) (rt : Reachable t) (h : Stronger s t)
    (hs : SoundFriction s) (hh : HeavierThanWater s) (cx cy r F : ℝ) (e : s.bishop cx cy r none none = .ok F)
    (hF : F ≠ 0) (side : ∀ l q, FirstCrossings s cx cy r l q → q.1 ≤ cx) (m : Int) :
    ∃ δ > 0, ∀ tol : ℝ, 0 < tol → tol ≤ δ → ∃ G G',
      (s.updateAnalysisOptions none none none (some tol) (some m)).1.bishop cx cy r none none = .ok G ∧
      (t.updateAnalysisOptions none none none (some tol) (some m)).1.bishop cx cy r none none = .ok G' ∧ G ≤ G' := by
  obtain ⟨l, q, F0, he, ho, hl⟩ := bishop_spec rs e
  have hv := bishopLoop_value rs ho hl
  have hside := side l q (bishopEnds_first rs.wf.geo he).2
  obtain ⟨_, _, h3, h4, _, _, _, _, eF⟩ := (C55_ordinary_formula s rs cx cy r l q F0).mp ho
  have hlr : l.1 < q.1 := by norm_num at h4; linarith
  have h0 : F0 ≠ 0 := fun h0 => hF (hv.zero (by rw [← eF, h0]))
  obtain ⟨F0', ho', hle⟩ := (C44_cohesion_never_lowers s t rs rt h cx cy r l q).1 F0 ho
  have he' : t.bishopEnds cx cy r none none = .ok (l, q) := by rw [h.toSameFrame.bishopEnds]; exact he
  obtain ⟨p0, hD⟩ := dips_of rs hs hh ho h0 (sin_nonneg_of_side rs h3 hlr hside)
  obtain ⟨_, _, _, c4⟩ := C45_converges s rs hs hh cx cy r F0 l q he ho h0 (sin_nonneg_of_side rs h3 hlr hside)
  obtain ⟨_, _, _, d4⟩ := C45_converges t rt (h.sound hs) (h.heavy hh) cx cy r F0' l q he' ho'
    (p0.trans_le hle).ne' (sin_nonneg_of_side rt h3 hlr hside)
  obtain ⟨δ, d1, d2⟩ := exists_step (fun k => (bishopRhs s.slices.toNat (sliceOf s cx cy r l.1 q.1))^[k] F0) m.toNat
  obtain ⟨δ', d1', d2'⟩ := exists_step (fun k => (bishopRhs t.slices.toNat (sliceOf t cx cy r l.1 q.1))^[k] F0') m.toNat
  refine ⟨min δ δ', lt_min d1 d1', fun tol t0 t1 => ?_⟩
  obtain ⟨K, k1, k2⟩ := c4 tol t0
  obtain ⟨K', k1', k2'⟩ := d4 tol t0
  refine ⟨_, _, k2 m, k2' m, ?_⟩
  have a := last_turn (f := fun k => (bishopRhs s.slices.toNat (sliceOf s cx cy r l.1 q.1))^[k] F0)
    (R := bishopRhs s.slices.toNat (sliceOf s cx cy r l.1 q.1)) (fun k => Function.iterate_succ_apply' _ k _) d2
    (t1.trans (min_le_left _ _)) k1
  have b := last_turn (f := fun k => (bishopRhs t.slices.toNat (sliceOf t cx cy r l.1 q.1))^[k] F0')
    (R := bishopRhs t.slices.toNat (sliceOf t cx cy r l.1 q.1)) (fun k => Function.iterate_succ_apply' _ k _) d2'
    (t1.trans (min_le_right _ _)) k1'
  exact (le_of_eq a).trans ((h.iterate_le rs hlr.le hD p0 hle m.toNat).trans (le_of_eq b.symm))

/-- C106 up to the difference of the methods: raising cohesions does not lower what is computed for a circle whose mass
is left of its centre by more than its ordinary and its Bishop factor of safety were apart. -/
theorem C106_drop_partial (s t : Slope ℝ) (rs : Reachable s) (rt : Reachable t) (h : Stronger s t)
    (hs : SoundFriction s) (hh : HeavierThanWater s) (cx cy r F F' : ℝ) (e : s.bishop cx cy r none none = .ok F)
    (e' : t.bishop cx cy r none none = .ok F') :
    ∃ l q F0, FirstCrossings s cx cy r l q ∧ s.ordinary cx cy r (some l) (some q) = .ok F0 ∧
      (q.1 ≤ cx → ∀ G, BishopSolution s cx cy r l.1 q.1 G → min F0 G ≤ F' ∧ F - |F0 - G| ≤ F') := by
  obtain ⟨l, q, F0, he, ho, hl⟩ := bishop_spec rs e
  have hv := bishopLoop_value rs ho hl
  refine ⟨l, q, F0, (bishopEnds_first rs.wf.geo he).2, ho, fun hside G hG => ?_⟩
  have main : min F0 G ≤ F' ∧ F ≤ max F0 G := by
    obtain ⟨_, _, h3, h4, _, _, _, _, eF⟩ := (C55_ordinary_formula s rs cx cy r l q F0).mp ho
    have hlr : l.1 < q.1 := by norm_num at h4; linarith
    obtain ⟨l', q', F0', he', ho', hl'⟩ := bishop_spec rt e'
    rw [h.toSameFrame.bishopEnds, he] at he'
    cases he'
    have hv' := bishopLoop_value rt ho' hl'
    obtain ⟨F1, ho1, hle⟩ := (C44_cohesion_never_lowers s t rs rt h cx cy r l q).1 F0 ho
    rw [ho'] at ho1
    cases ho1
    obtain ⟨_, _, _, _, _, _, _, _, eF'⟩ := (C55_ordinary_formula t rt cx cy r l q F0').mp ho'
    by_cases z : F0 = 0
    · have hz := hv.zero (by rw [← eF, z])
      refine ⟨?_, by rw [hz, z]; exact le_max_left _ _⟩
      rw [z]
      refine (min_le_left _ _).trans ?_
      by_cases z' : F0' = 0
      · rw [hv'.zero (by rw [← eF', z'])]
      · obtain ⟨p0', hD'⟩ := dips_of rt (h.sound hs) (h.heavy hh) ho' z' (sin_nonneg_of_side rt h3 hlr hside)
        obtain ⟨_, k, f, _, f0, fs, rfl, _, _⟩ := hv'
        have : ∀ i ≤ k, 0 < f i := by
          intro i
          induction i with
          | zero => intro _; rw [f0, ← eF']; exact p0'
          | succ i ih => intro hi; rw [fs i (by omega)]; exact hD'.rhs_pos (ih (by omega))
        exact (this k le_rfl).le
    · obtain ⟨p0, hD⟩ := dips_of rs hs hh ho z (sin_nonneg_of_side rs h3 hlr hside)
      obtain ⟨p0', hD'⟩ := dips_of rt (h.sound hs) (h.heavy hh) ho' (p0.trans_le hle).ne'
        (sin_nonneg_of_side rt h3 hlr hside)
      have up : G ≤ bishopRhs t.slices.toNat (sliceOf t cx cy r l.1 q.1) G := by
        have := h.rhs_le rs hlr.le hD hG.1 (le_refl G)
        rwa [hG.2] at this
      obtain ⟨G', g1, g2⟩ := hD'.solution_above hG.1 up
      have k1 := hv.between hD (by rw [← eF]; exact p0) hG
      have k2 := hv'.between hD' (by rw [← eF']; exact p0') ⟨hG.1.trans_le g1, g2⟩
      rw [← eF] at k1
      rw [← eF'] at k2
      exact ⟨(min_le_min hle g1).trans k2.1, k1.2⟩
  refine ⟨main.1, ?_⟩
  rcases le_total F0 G with c | c
  · rw [min_eq_left c, max_eq_right c] at main
    rw [abs_of_nonpos (by linarith)]; linarith
  · rw [min_eq_right c, max_eq_left c] at main
    rw [abs_of_nonneg (by linarith)]; linarith

theorem cut_bishop {φ c : ℝ} (hφ : 0 ≤ φ) (h90 : φ ≤ 90) (hc : 0 < c) :
    ∃ F, (cutOf (exFric φ c)).bishop 32 36 10 none none = .ok F ∧ 0 < F := by
  have rc := cutOf_reachable (c := c) hφ
  obtain ⟨l, rt, _, _, he⟩ := bishopEnds_of rc.wf.geo (cx := 32) (cy := 36) (r := 10) ((cut_crossing _ _).mpr (.inl rfl))
    ((cut_crossing _ _).mpr (.inr rfl)) (by norm_num)
  obtain ⟨F, h1, h2, _⟩ := bishop_of_cut rc
    (by intro l hl
        obtain rfl : l = _ := List.mem_singleton.mp hl
        change |φ| ≤ 90; rwa [abs_of_nonneg hφ])
    (.inl rfl) (by intro z hz; cases hz) (by change [_] ≠ []; simp)
    (.inl (by intro l hl
              obtain rfl : l = _ := List.mem_singleton.mp hl
              change 0 < |c|; exact abs_pos.mpr hc.ne'))
    (by norm_num) he
    (by obtain ⟨rfl, rfl⟩ := cut_first _ (bishopEnds_first rc.wf.geo he).2
        exact cut_cuts _)
  exact ⟨F, h2, h1⟩

/-- A case: the cuts of the violation meet the hypotheses. -/
example : ∃ (s t : Slope ℝ) (F F' : ℝ), Reachable s ∧ Reachable t ∧ Stronger s t ∧ SoundFriction s ∧ HeavierThanWater s ∧
    s.bishop 32 36 10 none none = .ok F ∧ F ≠ 0 ∧ t.bishop 32 36 10 none none = .ok F' ∧
    ∀ l q, FirstCrossings s 32 36 10 l q → q.1 ≤ 32 ∧ ∃ G, BishopSolution s 32 36 10 l.1 q.1 G := by
  have sound : SoundFriction (cutOf (exFric 45 5.32)) := by
    intro l hl
    obtain rfl : l = _ := List.mem_singleton.mp hl
    change |(45 : ℝ)| ≤ 90; norm_num
  have heavy : HeavierThanWater (cutOf (exFric 45 5.32)) := by
    intro l hl
    obtain rfl : l = _ := List.mem_singleton.mp hl
    change (9.81 : ℝ) ≤ 20; norm_num
  have st : Stronger (cutOf (exFric 45 5.32)) (cutOf (exFric 45 5.38)) := by
    refine ⟨by constructor <;> rfl, .cons ⟨rfl, ?_, rfl, rfl⟩ .nil, rfl, rfl⟩
    change |(5.32 : ℝ)| ≤ |5.38|
    norm_num
  obtain ⟨F, hF, p⟩ := cut_bishop (φ := 45) (c := 5.32) (by norm_num) (by norm_num) (by norm_num)
  obtain ⟨F', hF', _⟩ := cut_bishop (φ := 45) (c := 5.38) (by norm_num) (by norm_num) (by norm_num)
  refine ⟨_, _, F, F', cutOf_reachable (by norm_num), cutOf_reachable (by norm_num), st, sound, heavy, hF, p.ne', hF', ?_⟩
  intro l q h
  obtain ⟨rfl, rfl⟩ := cut_first _ h
  have D := cut_dips (φ := 45) (c := 5.32) (by norm_num) (by norm_num)
  have up : (0.5 : ℝ) ≤ bishopRhs 25 (sliceOf (cutOf (exFric 45 5.32)) 32 36 10 22 24) 0.5 := by
    refine cut_turn_ge (by norm_num) (by norm_num) (by norm_num) ?_
    simp only [sum_range_succ, sum_range_zero, cutTable6, cutSin]
    norm_num
  obtain ⟨G, g1, g2⟩ := D.solution_above (by norm_num) up
  exact ⟨by norm_num, G, by norm_num at g1; linarith, g2⟩

end PySlope
