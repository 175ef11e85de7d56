import Verif.Spec.Accuracy
import Verif.Props.Sand

/-! # Property C104: how far a reported factor of safety is from Bishop's -/

namespace PySlope
open Finset Filter Topology

/-! ## Where the iteration stops -/

/-- Bishop's equation raises what is below its solution. -/
theorem Dips.le_rhs {n : ℕ} {q : ℕ → Slice} (h : Dips n q) {F G : ℝ} (hF : 0 < F) (hG : 0 < G)
    (e : bishopRhs n q G = G) (c : F ≤ G) : F ≤ bishopRhs n q F := by
  rcases c.eq_or_lt with c | c
  · rw [c, e]
  · have := h.ratio_anti hF c
    rw [e, div_self hG.ne', lt_div_iff₀ hF, one_mul] at this
    exact this.le

/-- Bishop's equation lowers what is above its solution. -/
theorem Dips.rhs_le_self {n : ℕ} {q : ℕ → Slice} (h : Dips n q) {F G : ℝ} (hG : 0 < G)
    (e : bishopRhs n q G = G) (c : G ≤ F) : bishopRhs n q F ≤ F := by
  rcases c.eq_or_lt with c | c
  · rw [← c, e]
  · have := h.ratio_anti hG c
    rw [e, div_self hG.ne', div_lt_iff₀ (hG.trans c), one_mul] at this
    exact this.le

/-- What the code reports is between the ordinary factor of safety and Bishop's. -/
theorem BishopValue.between {s : Slope ℝ} {cx cy r xl xr F G : ℝ} (h : BishopValue s cx cy r xl xr F)
    (hD : Dips s.slices.toNat (sliceOf s cx cy r xl xr)) (hp : 0 < fellenius s.slices.toNat (sliceOf s cx cy r xl xr))
    (hG : BishopSolution s cx cy r xl xr G) :
    min (fellenius s.slices.toNat (sliceOf s cx cy r xl xr)) G ≤ F ∧
      F ≤ max (fellenius s.slices.toNat (sliceOf s cx cy r xl xr)) G := by
  obtain ⟨g0, eG⟩ := hG
  rcases le_total (fellenius s.slices.toNat (sliceOf s cx cy r xl xr)) G with c | c
  · rw [min_eq_left c, max_eq_right c]
    exact ⟨h.ge hD hp le_rfl (hD.le_rhs hp g0 eG c), h.le hD hp c eG.le⟩
  · rw [min_eq_right c, max_eq_left c]
    exact ⟨h.ge hD g0 c eG.ge, h.le hD hp le_rfl (hD.rhs_le_self g0 eG c)⟩

/-- Where a turn at `a` changes less than the tolerance, an iteration from above `a` ends at most two turns below it. -/
theorem BishopValue.stops {s : Slope ℝ} {cx cy r xl xr F a : ℝ} (h : BishopValue s cx cy r xl xr F)
    (hD : Dips s.slices.toNat (sliceOf s cx cy r xl xr)) (ha : 0 < a)
    (h0 : a ≤ fellenius s.slices.toNat (sliceOf s cx cy r xl xr))
    (h1 : bishopRhs s.slices.toNat (sliceOf s cx cy r xl xr) a ≤ a)
    (h2 : a - bishopRhs s.slices.toNat (sliceOf s cx cy r xl xr) a < s.tolerance) :
    bishopRhs s.slices.toNat (sliceOf s cx cy r xl xr)
      (bishopRhs s.slices.toNat (sliceOf s cx cy r xl xr) a) ≤ F := by
  obtain ⟨_, k, f, _, e0, es, rfl, et, _⟩ := h
  generalize hR : bishopRhs s.slices.toNat (sliceOf s cx cy r xl xr) = R at *
  have ra : 0 < R a := by rw [← hR]; exact hD.rhs_pos ha
  have mono : ∀ {x y : ℝ}, 0 < x → x ≤ y → R x ≤ R y := by
    intro x y hx hy; rw [← hR]; exact hD.rhs_mono hx hy
  have rr : R (R a) ≤ R a := mono ra h1
  by_cases hex : ∃ i, i ≤ k ∧ f i ≤ a
  · classical
    obtain ⟨hik, hia⟩ := Nat.find_spec hex
    have hmin := fun j => Nat.find_min hex (m := j)
    generalize Nat.find hex = i at *
    have hlow : R a ≤ f i := by
      cases i with
      | zero => rw [e0]; exact h1.trans h0
      | succ j =>
        rw [es j (by omega)]
        apply mono ha
        by_contra hc
        push Not at hc
        exact hmin j (by omega) ⟨by omega, hc.le⟩
    rcases Nat.lt_or_ge i k with c | c
    · have p := ra.trans_le hlow
      have e1 := es i c
      have hge : R (f i) ≤ f i := (mono p hia).trans hlow
      have hsmall : |f (i + 1) - f i| < s.tolerance := by
        rw [e1, abs_sub_comm, abs_of_nonneg (by linarith)]
        refine lt_of_le_of_lt ?_ h2
        rcases hia.eq_or_lt with d | d
        · rw [d]
        · have hanti := hD.ratio_anti p d
          rw [hR] at hanti
          have x1 : f i - R (f i) = f i * (1 - R (f i) / f i) := by field_simp
          have x2 : a - R a = a * (1 - R a / a) := by field_simp
          have x3 : R (f i) / f i ≤ 1 := by rw [div_le_one p]; exact hge
          rw [x1, x2]
          apply mul_le_mul hia (by linarith) (by linarith) ha.le
      have hk : k = i + 1 := by
        by_contra hc
        exact absurd (et i (by omega)) (not_le.mpr hsmall)
      rw [hk, e1]
      exact mono ra hlow
    · obtain rfl : i = k := by omega
      exact rr.trans hlow
  · have : a < f k := by
      by_contra hc
      push Not at hc
      exact hex ⟨k, le_rfl, hc⟩
    linarith

/-! ## The cut of C93 -/

section Cut

/-- The cosines to six digits. -/
def cutTable6 (i : ℕ) : ℕ := [89353, 154453, 198997, 234980, 265902, 293366, 318270, 341174, 362458, 382392, 401178,
  418970, 435889, 452035, 467486, 482311, 496564, 510294, 523541, 536343, 548729, 560728, 572363, 583657, 594629].getD i 0

theorem cutCos_table6 : ∀ i < 25, (cutTable6 i : ℝ) / 1000000 ≤ cutCos i ∧
    cutCos i ≤ ((cutTable6 i : ℝ) + 1) / 1000000 := by
  intro i hi
  interval_cases i <;> unfold cutCos cutSin cutTable6 <;>
    refine ⟨Real.le_sqrt_of_sq_le ?_, Real.sqrt_le_iff.mpr ⟨?_, ?_⟩⟩ <;> norm_num

theorem cutTable6_pos {i : ℕ} (hi : i < 25) : (0 : ℝ) < (cutTable6 i : ℝ) / 1000000 := by
  unfold cutTable6
  interval_cases i <;> norm_num

theorem cut_term {c : ℝ} (hc : 0 < c) {i : ℕ} (hi : i < 25) (F : ℝ) :
    ((sliceOf (cutOf (exFric 45 c)) 32 36 10 22 24 i).c * (sliceOf (cutOf (exFric 45 c)) 32 36 10 22 24 i).b +
      ((sliceOf (cutOf (exFric 45 c)) 32 36 10 22 24 i).W -
        (sliceOf (cutOf (exFric 45 c)) 32 36 10 22 24 i).u * (sliceOf (cutOf (exFric 45 c)) 32 36 10 22 24 i).b) *
        (sliceOf (cutOf (exFric 45 c)) 32 36 10 22 24 i).tan) /
      ((sliceOf (cutOf (exFric 45 c)) 32 36 10 22 24 i).cos + (sliceOf (cutOf (exFric 45 c)) 32 36 10 22 24 i).sin *
        (sliceOf (cutOf (exFric 45 c)) 32 36 10 22 24 i).tan / F) =
      (c * (2 / 25) + 16 * cutCos i) / (cutCos i + cutSin i / F) := by
  rw [cut_slice hi]
  simp only [Slice.tan]
  rw [abs_of_pos (by norm_num : (0 : ℝ) < 45), abs_of_pos hc,
    show (45 : ℝ) * (Real.pi / 180) = Real.pi / 4 by ring, Real.tan_pi_div_four]
  simp

/-- A lower bound for a turn. -/
theorem cut_turn_ge {c F V : ℝ} (hc : 0 < c) (hF : 0 < F) (hV : 0 < V)
    (h : ∑ i ∈ range 25, V * (16 * (((cutTable6 i : ℝ) + 1) / 1000000) * cutSin i) ≤
      ∑ i ∈ range 25, (c * (2 / 25) + 16 * ((cutTable6 i : ℝ) / 1000000)) / (((cutTable6 i : ℝ) + 1) / 1000000 + cutSin i / F)) :
    V ≤ bishopRhs 25 (sliceOf (cutOf (exFric 45 c)) 32 36 10 22 24) F := by
  unfold bishopRhs
  rw [if_neg hF.ne', cut_driving, le_div_iff₀ cut_driving_pos, mul_sum,
    sum_congr rfl fun i hi => cut_term hc (mem_range.mp hi) F]
  refine le_trans (sum_le_sum fun i hi => ?_) (h.trans (sum_le_sum fun i hi => ?_))
  · have hi := mem_range.mp hi
    have hs := cutSin_pos hi
    have ht := (cutCos_table6 i hi).2
    gcongr
  · have hi := mem_range.mp hi
    have hs := cutSin_pos hi
    have hp := cutCos_pos hi
    obtain ⟨t1, t2⟩ := cutCos_table6 i hi
    have := cutTable6_pos hi
    gcongr

/-- An upper bound for a turn. -/
theorem cut_turn_le {c F V : ℝ} (hc : 0 < c) (hF : 0 < F) (hV : 0 < V)
    (h : ∑ i ∈ range 25, (c * (2 / 25) + 16 * (((cutTable6 i : ℝ) + 1) / 1000000)) / ((cutTable6 i : ℝ) / 1000000 + cutSin i / F) ≤
      ∑ i ∈ range 25, V * (16 * ((cutTable6 i : ℝ) / 1000000) * cutSin i)) :
    bishopRhs 25 (sliceOf (cutOf (exFric 45 c)) 32 36 10 22 24) F ≤ V := by
  unfold bishopRhs
  rw [if_neg hF.ne', cut_driving, div_le_iff₀ cut_driving_pos, mul_sum,
    sum_congr rfl fun i hi => cut_term hc (mem_range.mp hi) F]
  refine le_trans (sum_le_sum fun i hi => ?_) (h.trans (sum_le_sum fun i hi => ?_))
  · have hi := mem_range.mp hi
    have hs := cutSin_pos hi
    have hp := cutCos_pos hi
    obtain ⟨t1, t2⟩ := cutCos_table6 i hi
    have := cutTable6_pos hi
    gcongr
  · have hi := mem_range.mp hi
    have hs := cutSin_pos hi
    have ht := (cutCos_table6 i hi).1
    gcongr

theorem cut_turn_a : (1.007 : ℝ) < bishopRhs 25 (sliceOf (cutOf (exFric 45 13.9)) 32 36 10 22 24) 1.012 ∧
    bishopRhs 25 (sliceOf (cutOf (exFric 45 13.9)) 32 36 10 22 24) 1.012 ≤ 1.012 := by
  constructor
  · refine lt_of_lt_of_le (b := 1.00701) (by norm_num) (cut_turn_ge (by norm_num) (by norm_num) (by norm_num) ?_)
    simp only [sum_range_succ, sum_range_zero, cutTable6, cutSin]
    norm_num
  · refine cut_turn_le (by norm_num) (by norm_num) (by norm_num) ?_
    simp only [sum_range_succ, sum_range_zero, cutTable6, cutSin]
    norm_num

theorem cut_turn_b : (1.0035 : ℝ) ≤ bishopRhs 25 (sliceOf (cutOf (exFric 45 13.9)) 32 36 10 22 24) 1.007 := by
  refine cut_turn_ge (by norm_num) (by norm_num) (by norm_num) ?_
  simp only [sum_range_succ, sum_range_zero, cutTable6, cutSin]
  norm_num

theorem cut_turn_c : bishopRhs 25 (sliceOf (cutOf (exFric 45 13.9)) 32 36 10 22 24) 0.998 ≤ 0.998 := by
  refine cut_turn_le (by norm_num) (by norm_num) (by norm_num) ?_
  simp only [sum_range_succ, sum_range_zero, cutTable6, cutSin]
  norm_num

theorem cut_turn_d : (0.9 : ℝ) ≤ bishopRhs 25 (sliceOf (cutOf (exFric 45 13.9)) 32 36 10 22 24) 0.9 := by
  refine cut_turn_ge (by norm_num) (by norm_num) (by norm_num) ?_
  simp only [sum_range_succ, sum_range_zero, cutTable6, cutSin]
  norm_num

theorem cut_hold {c : ℝ} (hc : 0 < c) {i : ℕ} (hi : i < 25) :
    (sliceOf (cutOf (exFric 45 c)) 32 36 10 22 24 i).c *
      ((sliceOf (cutOf (exFric 45 c)) 32 36 10 22 24 i).b / (sliceOf (cutOf (exFric 45 c)) 32 36 10 22 24 i).cos) +
      max 0 ((sliceOf (cutOf (exFric 45 c)) 32 36 10 22 24 i).W * (sliceOf (cutOf (exFric 45 c)) 32 36 10 22 24 i).cos -
        (sliceOf (cutOf (exFric 45 c)) 32 36 10 22 24 i).u *
          ((sliceOf (cutOf (exFric 45 c)) 32 36 10 22 24 i).b / (sliceOf (cutOf (exFric 45 c)) 32 36 10 22 24 i).cos)) *
        (sliceOf (cutOf (exFric 45 c)) 32 36 10 22 24 i).tan = c * (2 / 25) / cutCos i + 16 * (1 - cutSin i ^ 2) := by
  have hp := cutCos_pos hi
  have hsq : cutCos i * cutCos i = 1 - cutSin i ^ 2 := Real.mul_self_sqrt (Real.sqrt_pos.mp hp).le
  rw [cut_slice hi]
  simp only [Slice.tan]
  rw [abs_of_pos (by norm_num : (0 : ℝ) < 45), abs_of_pos hc,
    show (45 : ℝ) * (Real.pi / 180) = Real.pi / 4 by ring, Real.tan_pi_div_four, mul_one, zero_mul, sub_zero,
    max_eq_right (by positivity), mul_assoc 16, hsq, mul_div_assoc]

/-- A lower bound for the start. -/
theorem cut_start_ge {c V : ℝ} (hc : 0 < c) (hV : 0 < V)
    (h : ∑ i ∈ range 25, V * (16 * (((cutTable6 i : ℝ) + 1) / 1000000) * cutSin i) ≤
      ∑ i ∈ range 25, (c * (2 / 25) / (((cutTable6 i : ℝ) + 1) / 1000000) + 16 * (1 - cutSin i ^ 2))) :
    V ≤ fellenius 25 (sliceOf (cutOf (exFric 45 c)) 32 36 10 22 24) := by
  unfold fellenius
  rw [cut_driving, le_div_iff₀ cut_driving_pos, mul_sum, sum_congr rfl fun i hi => cut_hold hc (mem_range.mp hi)]
  refine le_trans (sum_le_sum fun i hi => ?_) (h.trans (sum_le_sum fun i hi => ?_))
  · have hi := mem_range.mp hi
    have hs := cutSin_pos hi
    have ht := (cutCos_table6 i hi).2
    gcongr
  · have hi := mem_range.mp hi
    have hp := cutCos_pos hi
    have ht := (cutCos_table6 i hi).2
    gcongr

/-- An upper bound for the start. -/
theorem cut_start_le {c V : ℝ} (hc : 0 < c) (hV : 0 < V)
    (h : ∑ i ∈ range 25, (c * (2 / 25) / ((cutTable6 i : ℝ) / 1000000) + 16 * (1 - cutSin i ^ 2)) ≤
      ∑ i ∈ range 25, V * (16 * ((cutTable6 i : ℝ) / 1000000) * cutSin i)) :
    fellenius 25 (sliceOf (cutOf (exFric 45 c)) 32 36 10 22 24) ≤ V := by
  unfold fellenius
  rw [cut_driving, div_le_iff₀ cut_driving_pos, mul_sum, sum_congr rfl fun i hi => cut_hold hc (mem_range.mp hi)]
  refine le_trans (sum_le_sum fun i hi => ?_) (h.trans (sum_le_sum fun i hi => ?_))
  · have hi := mem_range.mp hi
    have hp := cutTable6_pos hi
    have ht := (cutCos_table6 i hi).1
    gcongr
  · have hi := mem_range.mp hi
    have hs := cutSin_pos hi
    have ht := (cutCos_table6 i hi).1
    gcongr

theorem cut_start : (1.012 : ℝ) ≤ fellenius 25 (sliceOf (cutOf (exFric 45 13.9)) 32 36 10 22 24) := by
  refine cut_start_ge (by norm_num) (by norm_num) ?_
  simp only [sum_range_succ, sum_range_zero, cutTable6, cutSin]
  norm_num

end Cut

/-- C104 is violated: in a cut 12 m high with cohesion 13.9 and friction angle 45 degrees and the default tolerance of
0.005, the analysis reports more than 1 for a circle whose factor of safety by Bishop's equation is less than 1, and the
two differ by more than the tolerance. -/
theorem C104_not_within_tolerance : ∃ (s : Slope ℝ) (cx cy r F G : ℝ) (l rt : ℝ × ℝ), Reachable s ∧ s.tolerance = 0.005 ∧
    ((s.addSingleCircularPlane cx cy r).1.analyseSlope none).2 = .ok () ∧
    ((s.addSingleCircularPlane cx cy r).1.analyseSlope none).1.getMinFos = .ok (some F) ∧
    FirstCrossings s cx cy r l rt ∧ CutsMass s cx cy r l.1 rt.1 ∧ BishopSolution s cx cy r l.1 rt.1 G ∧
    (∀ G', BishopSolution s cx cy r l.1 rt.1 G' → G' = G) ∧
    G < 1 ∧ 1 < F ∧ s.tolerance < F - G := by
  obtain ⟨a1, F, a2, a3, _⟩ := cut_report (φ := 45) (c := 13.9) (by norm_num) (by norm_num) (by norm_num)
  have rs := cutOf_reachable (φ := 45) (c := 13.9) (by norm_num)
  have D := cut_dips (φ := 45) (c := 13.9) (by norm_num) (by norm_num)
  have first : FirstCrossings (cutOf (exFric 45 13.9)) 32 36 10 (22, 36) (24, 30) := by
    refine ⟨(cut_crossing _ _).mpr (.inl rfl), (cut_crossing _ _).mpr (.inr rfl), by norm_num, ?_⟩
    intro p hp
    rcases (cut_crossing _ _).mp hp with rfl | rfl <;> norm_num
  have tol : (cutOf (exFric 45 13.9)).tolerance = 0.005 := rfl
  obtain ⟨G, g1, g2⟩ := D.solution_above (by norm_num) cut_turn_d
  have g0 : 0 < G := by norm_num at g1; linarith
  have gle : G ≤ 0.998 := by
    by_contra hc
    push Not at hc
    have := D.ratio_anti (by norm_num) hc
    rw [g2, div_self g0.ne', lt_div_iff₀ (by norm_num), one_mul] at this
    exact absurd cut_turn_c (not_le.mpr this)
  have fge : 1.0035 ≤ F := by
    have := a2.stops D (a := 1.012) (by norm_num) cut_start cut_turn_a.2
      (by rw [tol]
          have := cut_turn_a.1
          change 1.012 - bishopRhs 25 (sliceOf (cutOf (exFric 45 13.9)) 32 36 10 22 24) 1.012 < 0.005
          norm_num at this ⊢; linarith)
    refine le_trans (cut_turn_b.trans ?_) this
    exact D.rhs_mono (by norm_num) cut_turn_a.1.le
  refine ⟨cutOf (exFric 45 13.9), 32, 36, 10, F, G, (22, 36), (24, 30), rs, tol, a1, a3, first, cut_cuts _, ⟨g0, g2⟩,
    fun G' h => D.unique h.1 g0 h.2 g2, ?_, ?_, ?_⟩
  · norm_num at gle; linarith
  · norm_num at fge; linarith
  · rw [tol]; norm_num at gle fge ⊢; linarith

/-! ## What holds -/

/-- A circle right of its mass: the bases of all its slices dip to the toe. -/
theorem sin_nonneg_of_side {s : Slope ℝ} (rs : Reachable s) {cx cy r xl xr : ℝ} (hr : 0 < r) (hlr : xl < xr) (hside : xr ≤ cx) :
    ∀ i < s.slices.toNat, 0 ≤ (sliceOf s cx cy r xl xr i).sin := by
  intro i hi
  have hn : (0 : ℝ) < s.slices := by
    have := rs.wf.sl.1
    have : (0 : Int) < s.slices := by omega
    exact_mod_cast this
  simp only [sliceOf]
  apply div_nonneg _ hr.le
  have hi' : ((i : ℝ) + 1 / 2) * ((xr - xl) / s.slices) ≤ xr - xl := by
    rw [mul_div_assoc', div_le_iff₀ hn]
    have : (i : ℝ) + 1 ≤ s.slices := by
      have : (i : Int) + 1 ≤ s.slices := by omega
      exact_mod_cast this
    nlinarith
  linarith

/-- An iteration from 0 stays there. -/
theorem BishopValue.zero {s : Slope ℝ} {cx cy r xl xr F : ℝ} (h : BishopValue s cx cy r xl xr F)
    (h0 : fellenius s.slices.toNat (sliceOf s cx cy r xl xr) = 0) : F = 0 := by
  obtain ⟨_, k, f, _, e0, es, rfl, _, _⟩ := h
  have : ∀ i ≤ k, f i = 0 := by
    intro i
    induction i with
    | zero => intro _; rw [e0, h0]
    | succ i ih => intro hi; rw [es i (by omega), ih (by omega)]; simp [bishopRhs]
  exact this k le_rfl

/-- C104 without a bound in terms of the tolerance: what the analysis computes for a circle whose mass is left of its
centre is never past Bishop's factor of safety as seen from the ordinary method's, and so at least as close to Bishop's. -/
theorem C104_between_partial (s : Slope ℝ) (rs : Reachable s) (hs : SoundFriction s) (hh : HeavierThanWater s)
    (cx cy r F : ℝ) (e : s.bishop cx cy r none none = .ok F) :
    ∃ l rt F0, FirstCrossings s cx cy r l rt ∧ s.ordinary cx cy r (some l) (some rt) = .ok F0 ∧
      (rt.1 ≤ cx → ∀ G, BishopSolution s cx cy r l.1 rt.1 G →
        min F0 G ≤ F ∧ F ≤ max F0 G ∧ |F - G| ≤ |F0 - G|) := by
  obtain ⟨l, rt, F0, he, ho, hl⟩ := bishop_spec rs e
  have hv := bishopLoop_value rs ho hl
  refine ⟨l, rt, F0, (bishopEnds_first rs.wf.geo he).2, ho, fun hside G hG => ?_⟩
  obtain ⟨_, _, h3, h4, _, _, _, _, eF⟩ := (C55_ordinary_formula s rs cx cy r l rt F0).mp ho
  have hlr : l.1 < rt.1 := by norm_num at h4; linarith
  have main : min F0 G ≤ F ∧ F ≤ max F0 G := by
    by_cases h0 : F0 = 0
    · have := hv.zero (by rw [← eF, h0])
      rw [h0, this]
      exact ⟨min_le_left _ _, le_max_left _ _⟩
    · obtain ⟨hp, hD⟩ := dips_of rs hs hh ho h0 (sin_nonneg_of_side rs h3 hlr hside)
      rw [eF] at hp ⊢
      exact hv.between hD hp hG
  refine ⟨main.1, main.2, ?_⟩
  rcases le_total F0 G with c | c
  · rw [min_eq_left c, max_eq_right c] at main
    rw [abs_of_nonpos (by linarith), abs_of_nonpos (by linarith)]; linarith
  · rw [min_eq_right c, max_eq_left c] at main
    rw [abs_of_nonneg (by linarith), abs_of_nonneg (by linarith)]; linarith

/-- C104 for an analysis: every reported factor of safety of a mass left of the centre of its circle. -/
theorem C104_reported_partial (s : Slope ℝ) (rs : Reachable s) (hs : SoundFriction s) (hh : HeavierThanWater s)
    (m : Option ℝ) (hm : m ≠ some 0) (ok : (s.analyseSlope m).2 = .ok ()) :
    ∀ p ∈ (s.analyseSlope m).1.search, ∃ F l rt F0, p.fos = some (some F) ∧ FirstCrossings s p.cx p.cy p.radius l rt ∧
      s.ordinary p.cx p.cy p.radius (some l) (some rt) = .ok F0 ∧
      (rt.1 ≤ p.cx → ∀ G, BishopSolution s p.cx p.cy p.radius l.1 rt.1 G →
        min F0 G ≤ F ∧ F ≤ max F0 G ∧ |F - G| ≤ |F0 - G|) := by
  intro p hp
  obtain ⟨ps, _, h2, _⟩ := C24_results_partial (t := (s.analyseSlope m).1) hm (by rw [← ok])
  obtain ⟨p', hp', rfl⟩ := List.mem_map.mp (h2.mem_iff.mp hp)
  have hw := (List.mem_filter.mp hp').2
  cases e : fosOf s p' with
  | none =>
    exfalso
    unfold fosOf at e
    unfold Wanted at hw
    cases hb : s.bishop p'.cx p'.cy p'.radius none none with
    | ok x => rw [hb] at e; cases e
    | error x => rw [hb] at hw; cases hw
  | some F =>
    obtain ⟨l, rt, F0, h3, h4, h5⟩ := C104_between_partial s rs hs hh p'.cx p'.cy p'.radius F (fosOf_some.mp e)
    exact ⟨F, l, rt, F0, by simp [withFos, e], h3, h4, h5⟩

/-- Below some bound only steps of 0. -/
theorem exists_step (f : ℕ → ℝ) (N : ℕ) : ∃ δ > 0, ∀ i < N, |f (i + 1) - f i| < δ → f (i + 1) = f i := by
  induction N with
  | zero => exact ⟨1, one_pos, fun i hi => absurd hi (by omega)⟩
  | succ N ih =>
    obtain ⟨δ, h1, h2⟩ := ih
    by_cases c : f (N + 1) = f N
    · refine ⟨δ, h1, fun i hi h => ?_⟩
      rcases Nat.lt_succ_iff_lt_or_eq.mp hi with d | rfl
      · exact h2 i d h
      · exact c
    · have hp : 0 < |f (N + 1) - f N| := abs_pos.mpr (sub_ne_zero.mpr c)
      refine ⟨min δ |f (N + 1) - f N|, lt_min h1 hp, fun i hi h => ?_⟩
      rcases Nat.lt_succ_iff_lt_or_eq.mp hi with d | rfl
      · exact h2 i d (h.trans_le (min_le_left _ _))
      · exact absurd h (not_lt.mpr (min_le_right _ _))

/-- C104 for a tolerance that is small enough: for a circle whose mass is left of its centre, Bishop's factor of safety
is approached as closely as wanted by setting a small tolerance and a large number of turns. -/
theorem C104_close_partial (s : Slope ℝ) (rs : Reachable s) (hs : SoundFriction s) (hh : HeavierThanWater s)
    (cx cy r F : ℝ) (e : s.bishop cx cy r none none = .ok F) (hF : F ≠ 0) :
    ∃ l rt, FirstCrossings s cx cy r l rt ∧ (rt.1 ≤ cx → ∀ G, BishopSolution s cx cy r l.1 rt.1 G →
      ∀ ε > 0, ∃ δ > 0, ∃ N : ℕ, ∀ tol : ℝ, 0 < tol → tol ≤ δ → ∀ m : Int, N ≤ m →
        ∃ F', (s.updateAnalysisOptions none none none (some tol) (some m)).1.bishop cx cy r none none = .ok F' ∧
          |F' - G| < ε) := by
  obtain ⟨l, rt, F0, he, ho, hl⟩ := bishop_spec rs e
  have hv := bishopLoop_value rs ho hl
  refine ⟨l, rt, (bishopEnds_first rs.wf.geo he).2, fun hside G ⟨g0, eG⟩ ε hε => ?_⟩
  obtain ⟨_, _, h3, h4, _, _, _, _, eF⟩ := (C55_ordinary_formula s rs cx cy r l rt F0).mp ho
  have hlr : l.1 < rt.1 := by norm_num at h4; linarith
  have h0 : F0 ≠ 0 := fun h0 => hF (hv.zero (by rw [← eF, h0]))
  obtain ⟨c1, _, ⟨L, _, hL, _, hLG⟩, c4⟩ := C45_converges s rs hs hh cx cy r F0 l rt he ho h0
    (sin_nonneg_of_side rs h3 hlr hside)
  obtain ⟨_, hD⟩ := dips_of rs hs hh ho h0 (sin_nonneg_of_side rs h3 hlr hside)
  obtain rfl := hLG G g0 eG
  obtain ⟨N, hN⟩ := (Metric.tendsto_atTop.mp hL) ε hε
  obtain ⟨δ, d1, d2⟩ := exists_step (fun k => (bishopRhs s.slices.toNat (sliceOf s cx cy r l.1 rt.1))^[k] F0) N
  refine ⟨δ, d1, N, fun tol t0 t1 m hm => ?_⟩
  obtain ⟨K, k1, k2⟩ := c4 tol t0
  refine ⟨_, k2 m, ?_⟩
  rcases Nat.lt_or_ge K N with c | c
  · have hfix := d2 K c (k1.trans_le t1)
    simp only [Function.iterate_succ_apply'] at hfix
    have heq : (bishopRhs s.slices.toNat (sliceOf s cx cy r l.1 rt.1))^[K] F0 = L := hD.unique (c1 K) g0 hfix eG
    rw [show min m.toNat (K + 1) = K + 1 by omega]
    simp only [Function.iterate_succ_apply']
    rw [hfix, heq, sub_self, abs_zero]
    exact hε
  · exact hN _ (by omega)

/-- A case of C104: the cut of the violation meets the hypotheses. -/
example : ∃ (s : Slope ℝ) (F : ℝ), Reachable s ∧ SoundFriction s ∧ HeavierThanWater s ∧
    s.bishop 32 36 10 none none = .ok F ∧ F ≠ 0 ∧ (s.analyseSlope none).2 = .ok () ∧
    (s.analyseSlope none).1.getMinFos = .ok (some F) ∧
    (∀ l rt, FirstCrossings s 32 36 10 l rt → rt.1 ≤ 32 ∧ ∃ G, BishopSolution s 32 36 10 l.1 rt.1 G) := by
  have rc := cutOf_reachable (φ := 45) (c := 13.9) (by norm_num)
  have D := cut_dips (φ := 45) (c := 13.9) (by norm_num) (by norm_num)
  obtain ⟨G, g1, g2⟩ := D.solution_above (by norm_num) cut_turn_d
  have g0 : 0 < G := by norm_num at g1; linarith
  have hmem : ∀ l ∈ (cutOf (exFric 45 13.9)).materials, l.mat.frictionAngle = 45 ∧ l.mat.unitWeight = 20 ∧
      0 < l.mat.cohesion := by
    intro l hl
    obtain rfl : l = _ := List.mem_singleton.mp hl
    exact ⟨by change |(45 : ℝ)| = 45; norm_num, rfl, by change 0 < |(13.9 : ℝ)|; norm_num⟩
  have sound : SoundFriction (cutOf (exFric 45 13.9)) := by intro l hl; rw [(hmem l hl).1]; norm_num
  have heavy : HeavierThanWater (cutOf (exFric 45 13.9)) := by intro l hl; rw [(hmem l hl).2.1]; norm_num
  obtain ⟨h1, l, rt, F, h2, hF, h4, h5⟩ := C74_slip_circle_has_fos (cutOf (exFric 45 13.9)) rc sound
    (.inl rfl) (by intro z hz; cases hz) (by change [_] ≠ []; simp)
    (.inl fun l hl => (hmem l hl).2.2)
    (cx := 32) (cy := 36) (r := 10) (by norm_num) ((cut_crossing _ _).mpr (.inl rfl))
    ((cut_crossing _ _).mpr (.inr rfl)) (by norm_num)
    (by intro l rt h
        obtain ⟨rfl, rfl⟩ := cut_first _ h
        exact cut_cuts _) none
  rw [show (cutOf (exFric 45 13.9)).removeIndividualPlanes.1 = cutOf (exFric 45 13.9) from rfl] at h1 h5
  obtain ⟨k1, k2, _⟩ := h5 (by intro M hM; cases hM)
  have ru : Reachable ((cutOf (exFric 45 13.9)).addSingleCircularPlane 32 36 10).1 := .call rc (.addSingleCircularPlane _ 32 36 10)
  have hsame : SameSetup (cutOf (exFric 45 13.9)) ((cutOf (exFric 45 13.9)).addSingleCircularPlane 32 36 10).1 := by
    unfold Slope.addSingleCircularPlane
    split
    · constructor <;> rfl
    · split
      · constructor <;> rfl
      · split <;> constructor <;> rfl
  refine ⟨((cutOf (exFric 45 13.9)).addSingleCircularPlane 32 36 10).1, F, ru, ?_, ?_, ?_, hF.ne', h1, k1, ?_⟩
  · unfold SoundFriction at sound ⊢; rw [hsame.materials]; exact sound
  · unfold HeavierThanWater at heavy ⊢; rw [hsame.materials]; exact heavy
  · obtain ⟨ps, _, c2, _⟩ := C24_results_partial
      (t := (((cutOf (exFric 45 13.9)).addSingleCircularPlane 32 36 10).1.analyseSlope none).1) (m := none) (by simp) (by rw [← h1])
    unfold Slope.getMinFos at k1
    unfold Slope.getMinFosCircle at k2
    cases e : (((cutOf (exFric 45 13.9)).addSingleCircularPlane 32 36 10).1.analyseSlope none).1.search with
    | nil => rw [e] at k1; cases k1
    | cons p qs =>
      rw [e] at k1 k2 c2
      obtain ⟨p', hp', rfl⟩ := List.mem_map.mp (c2.mem_iff.mp List.mem_cons_self)
      simp only [Except.ok.injEq, Prod.mk.injEq] at k2
      obtain ⟨e1, e2, e3⟩ := k2
      change p'.cx = 32 at e1
      change p'.cy = 36 at e2
      change p'.radius = 10 at e3
      have : fosOf ((cutOf (exFric 45 13.9)).addSingleCircularPlane 32 36 10).1 p' = some F := by
        simpa [withFos] using k1
      have := fosOf_some.mp this
      rwa [e1, e2, e3] at this
  · intro l' rt' h
    have h' : FirstCrossings (cutOf (exFric 45 13.9)) 32 36 10 l' rt' := by
      unfold FirstCrossings Crossing OnLine at h ⊢
      simpa only [hsame.topX, hsame.topY, hsame.botX, hsame.botY, hsame.extL] using h
    obtain ⟨rfl, rfl⟩ := cut_first _ h'
    refine ⟨by norm_num, G, g0, ?_⟩
    have e : sliceOf ((cutOf (exFric 45 13.9)).addSingleCircularPlane 32 36 10).1 = sliceOf (cutOf (exFric 45 13.9)) := by
      unfold Slope.addSingleCircularPlane
      split
      · rfl
      · split
        · rfl
        · split <;> rfl
    rw [hsame.slices, e]
    exact g2

end PySlope
