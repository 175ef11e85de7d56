import Verif.Lemmas.Method
import Verif.Lemmas.Undrained
import Mathlib.Topology.Order.MonotoneConvergence
import Mathlib.Topology.Algebra.Order.Field
import Mathlib.Topology.Instances.Real.Lemmas

/-! # Bishop's iteration when every base dips to the toe -/

namespace PySlope
open Finset Filter Topology

namespace Dips
variable {n : ℕ} {q : ℕ → Slice} (h : Dips n q)
include h

theorem denom {i : ℕ} (hi : i < n) {F : ℝ} (hF : 0 < F) :
    0 < (q i).cos + (q i).sin * (q i).tan / F := by
  have := div_nonneg (mul_nonneg (h.sin i hi) (h.tan i hi)) hF.le
  linarith [h.cos i hi]

omit h in
theorem rhs {F : ℝ} (hF : 0 < F) : bishopRhs n q F =
    (∑ i ∈ range n, (q i).hold / ((q i).cos + (q i).sin * (q i).tan / F)) / PySlope.driving n q := by
  unfold bishopRhs
  rw [if_neg hF.ne']
  rfl

theorem rhs_pos {F : ℝ} (hF : 0 < F) : 0 < bishopRhs n q F := by
  rw [rhs hF]
  apply div_pos _ h.driving
  obtain ⟨i, hi, hp⟩ := h.some
  apply sum_pos' (fun j hj => div_nonneg (h.hold j (mem_range.mp hj)) (h.denom (mem_range.mp hj) hF).le)
  exact ⟨i, mem_range.mpr hi, div_pos hp (h.denom hi hF)⟩

theorem rhs_mono {F G : ℝ} (hF : 0 < F) (hG : F ≤ G) : bishopRhs n q F ≤ bishopRhs n q G := by
  rw [rhs hF, rhs (hF.trans_le hG)]
  apply div_le_div_of_nonneg_right _ h.driving.le
  apply sum_le_sum
  intro i hi
  have hi := mem_range.mp hi
  apply div_le_div_of_nonneg_left (h.hold i hi) (h.denom hi (hF.trans_le hG))
  have := div_le_div_of_nonneg_left (mul_nonneg (h.sin i hi) (h.tan i hi)) hF hG
  linarith

theorem rhs_le {F : ℝ} (hF : 0 < F) : bishopRhs n q F ≤
    (∑ i ∈ range n, (q i).hold / (q i).cos) / PySlope.driving n q := by
  rw [rhs hF]
  apply div_le_div_of_nonneg_right _ h.driving.le
  apply sum_le_sum
  intro i hi
  have hi := mem_range.mp hi
  apply div_le_div_of_nonneg_left (h.hold i hi) (h.cos i hi)
  have := div_nonneg (mul_nonneg (h.sin i hi) (h.tan i hi)) hF.le
  linarith

omit h in
theorem rhs_ratio {F : ℝ} (hF : 0 < F) : bishopRhs n q F / F =
    (∑ i ∈ range n, (q i).hold / ((q i).cos * F + (q i).sin * (q i).tan)) / PySlope.driving n q := by
  rw [rhs hF, div_right_comm, sum_div]
  congr 1
  apply sum_congr rfl
  intro i _
  rw [div_div]
  congr 1
  rw [add_mul, div_mul_cancel₀ _ hF.ne']

/-- The right hand side grows more slowly than its argument. -/
theorem ratio_anti {F G : ℝ} (hF : 0 < F) (hG : F < G) : bishopRhs n q G / G < bishopRhs n q F / F := by
  rw [rhs_ratio hF, rhs_ratio (hF.trans hG)]
  apply div_lt_div_of_pos_right _ h.driving
  have key : ∀ i < n, 0 < (q i).cos * F + (q i).sin * (q i).tan ∧
      (q i).cos * F + (q i).sin * (q i).tan < (q i).cos * G + (q i).sin * (q i).tan := by
    intro i hi
    have h1 := mul_nonneg (h.sin i hi) (h.tan i hi)
    have h2 := mul_pos (h.cos i hi) hF
    have h3 := mul_lt_mul_of_pos_left hG (h.cos i hi)
    exact ⟨by linarith, by linarith⟩
  obtain ⟨i, hi, hp⟩ := h.some
  apply sum_lt_sum
  · intro j hj
    obtain ⟨k1, k2⟩ := key j (mem_range.mp hj)
    exact div_le_div_of_nonneg_left (h.hold j (mem_range.mp hj)) k1 k2.le
  · obtain ⟨k1, k2⟩ := key i hi
    exact ⟨i, mem_range.mpr hi, div_lt_div_of_pos_left hp k1 k2⟩

/-- Bishop's equation has at most one positive solution. -/
theorem unique {F G : ℝ} (hF : 0 < F) (hG : 0 < G) (eF : bishopRhs n q F = F)
    (eG : bishopRhs n q G = G) : F = G := by
  rcases lt_trichotomy F G with c | c | c
  · have := h.ratio_anti hF c
    rw [eF, eG, div_self hF.ne', div_self hG.ne'] at this
    exact absurd this (lt_irrefl _)
  · exact c
  · have := h.ratio_anti hG c
    rw [eF, eG, div_self hF.ne', div_self hG.ne'] at this
    exact absurd this (lt_irrefl _)

theorem iter_pos {F0 : ℝ} (h0 : 0 < F0) (k : ℕ) : 0 < (bishopRhs n q)^[k] F0 := by
  induction k with
  | zero => exact h0
  | succ k ih => rw [Function.iterate_succ_apply']; exact h.rhs_pos ih

/-- The iteration goes one way. -/
theorem iter_monotone {F0 : ℝ} (h0 : 0 < F0) :
    Monotone (fun k => (bishopRhs n q)^[k] F0) ∨ Antitone (fun k => (bishopRhs n q)^[k] F0) := by
  rcases le_total F0 (bishopRhs n q F0) with c | c
  · left
    apply monotone_nat_of_le_succ
    intro k
    induction k with
    | zero => exact c
    | succ k ih =>
      simp only [Function.iterate_succ_apply'] at ih ⊢
      apply h.rhs_mono _ ih
      exact h.iter_pos h0 k
  · right
    apply antitone_nat_of_succ_le
    intro k
    induction k with
    | zero => exact c
    | succ k ih =>
      simp only [Function.iterate_succ_apply'] at ih ⊢
      apply h.rhs_mono _ ih
      exact h.rhs_pos (h.iter_pos h0 k)

theorem rhs_tendsto {L : ℝ} (hL : 0 < L) : Tendsto (bishopRhs n q) (𝓝 L) (𝓝 (bishopRhs n q L)) := by
  have e : bishopRhs n q =ᶠ[𝓝 L] fun F =>
      (∑ i ∈ range n, (q i).hold / ((q i).cos + (q i).sin * (q i).tan / F)) / PySlope.driving n q := by
    filter_upwards [eventually_gt_nhds hL] with F hF
    exact rhs hF
  rw [tendsto_congr' e, rhs hL]
  apply Tendsto.div_const
  apply tendsto_finsetSum
  intro i hi
  apply Tendsto.div tendsto_const_nhds
  · apply Tendsto.add tendsto_const_nhds
    exact Tendsto.div tendsto_const_nhds tendsto_id hL.ne'
  · exact (h.denom (mem_range.mp hi) hL).ne'

/-- The iteration settles at a solution of Bishop's equation: the positive one if there is one,
and 0 otherwise. -/
theorem iter_tendsto {F0 : ℝ} (h0 : 0 < F0) :
    ∃ L, 0 ≤ L ∧ Tendsto (fun k => (bishopRhs n q)^[k] F0) atTop (𝓝 L) ∧ bishopRhs n q L = L ∧
      ∀ G, 0 < G → bishopRhs n q G = G → L = G := by
  set f : ℕ → ℝ := fun k => (bishopRhs n q)^[k] F0 with hf
  have hp : ∀ k, 0 < f k := h.iter_pos h0
  have hs : ∀ k, f (k + 1) = bishopRhs n q (f k) := fun k => Function.iterate_succ_apply' _ _ _
  have hlim : ∃ L, Tendsto f atTop (𝓝 L) := by
    rcases h.iter_monotone h0 with c | c
    · refine ⟨_, tendsto_atTop_ciSup c ⟨max F0 ((∑ i ∈ range n, (q i).hold / (q i).cos) /
        PySlope.driving n q), ?_⟩⟩
      rintro _ ⟨k, rfl⟩
      cases k with
      | zero => exact le_max_left _ _
      | succ k =>
        change f (k + 1) ≤ _
        rw [hs]
        exact (h.rhs_le (hp k)).trans (le_max_right _ _)
    · refine ⟨_, tendsto_atTop_ciInf c ⟨0, ?_⟩⟩
      rintro _ ⟨k, rfl⟩
      exact (hp k).le
  obtain ⟨L, hL⟩ := hlim
  have hL0 : 0 ≤ L := ge_of_tendsto' hL (fun k => (hp k).le)
  have hfix : bishopRhs n q L = L := by
    rcases hL0.eq_or_lt with c | c
    · rw [← c]; simp [bishopRhs]
    · have h1 : Tendsto (fun k => f (k + 1)) atTop (𝓝 (bishopRhs n q L)) := by
        simp only [hs]
        exact (h.rhs_tendsto c).comp hL
      exact tendsto_nhds_unique h1 ((tendsto_add_atTop_iff_nat 1).mpr hL)
  refine ⟨L, hL0, hL, hfix, ?_⟩
  intro G hG eG
  have hLpos : 0 < L := by
    -- the iterates never go below `min F0 G`
    have hk : ∀ k, min F0 G ≤ f k := by
      intro k
      induction k with
      | zero => exact min_le_left _ _
      | succ k ih =>
        rw [hs]
        rcases le_total G (f k) with c | c
        · calc min F0 G ≤ G := min_le_right _ _
            _ = bishopRhs n q G := eG.symm
            _ ≤ _ := h.rhs_mono hG c
        · apply ih.trans
          rcases c.eq_or_lt with c | c
          · rw [c, eG]
          · have := h.ratio_anti (hp k) c
            rw [eG, div_self hG.ne', lt_div_iff₀ (hp k), one_mul] at this
            exact this.le
    exact (lt_min h0 hG).trans_le (ge_of_tendsto' hL hk)
  exact h.unique hLpos hG hfix eG

/-- A turn of the code's loop. -/
theorem step {w : ℝ} (hb : ∀ i, (q i).b = w) {F : ℝ} (hF : 0 < F) :
    bishopStep w (listOf n q) F = .ok (bishopRhs n q F) := by
  have e := listOf_bishop (n := n) hb hF.ne'
  rw [bishopStep_eq hF.ne']
  · rw [e]
  · rw [listOf_driving]; exact h.driving
  · intro f hf
    unfold listOf at hf
    obtain ⟨i, hi, rfl⟩ := List.mem_map.mp hf
    exact (h.denom (List.mem_range.mp hi) hF).ne'
  · have := (h.rhs_pos hF).le
    rw [← e, listOf_driving] at this
    by_contra hc
    push Not at hc
    exact absurd (div_neg_of_neg_of_pos hc h.driving) (not_lt.mpr this)

/-- The loop takes the iterates up to the first two that differ by less than the tolerance. -/
theorem loop {w tol : ℝ} (hb : ∀ i, (q i).b = w) {F0 : ℝ} (h0 : 0 < F0) {K : ℕ}
    (hK : |(bishopRhs n q)^[K + 1] F0 - (bishopRhs n q)^[K] F0| < tol)
    (hK' : ∀ i < K, tol ≤ |(bishopRhs n q)^[i + 1] F0 - (bishopRhs n q)^[i] F0|) (m : ℕ) :
    bishopLoop w tol (listOf n q) m F0 = .ok ((bishopRhs n q)^[min m (K + 1)] F0) := by
  induction m generalizing F0 K with
  | zero => simp [bishopLoop, pure, Except.pure]
  | succ m ih =>
    unfold bishopLoop
    rw [h.step hb h0]
    simp only [Bind.bind, Except.bind, pyAbs_real]
    cases K with
    | zero =>
      simp only [zero_add, Function.iterate_one, Function.iterate_zero, id] at hK
      rw [if_pos hK]
      simp [pure, Except.pure]
    | succ K =>
      have := hK' 0 (by omega)
      simp only [zero_add, Function.iterate_one, Function.iterate_zero, id] at this
      rw [if_neg (not_lt.mpr this), ih (h.rhs_pos h0) (K := K) hK (fun i hi => hK' (i + 1) (by omega))]
      rw [show min (m + 1) (K + 1 + 1) = min m (K + 1) + 1 by omega, Function.iterate_succ_apply]

/-- Two iterates differ by less than any tolerance in the end. -/
theorem settles {F0 tol : ℝ} (h0 : 0 < F0) (ht : 0 < tol) :
    ∃ K : ℕ, |(bishopRhs n q)^[K + 1] F0 - (bishopRhs n q)^[K] F0| < tol ∧
      ∀ i < K, tol ≤ |(bishopRhs n q)^[i + 1] F0 - (bishopRhs n q)^[i] F0| := by
  obtain ⟨L, _, hL, _⟩ := h.iter_tendsto h0
  have h1 : Tendsto (fun k => (bishopRhs n q)^[k + 1] F0 - (bishopRhs n q)^[k] F0) atTop (𝓝 (L - L)) :=
    ((tendsto_add_atTop_iff_nat 1).mpr hL).sub hL
  rw [sub_self] at h1
  have h2 : ∃ K : ℕ, |(bishopRhs n q)^[K + 1] F0 - (bishopRhs n q)^[K] F0| < tol := by
    obtain ⟨N, hN⟩ := (Metric.tendsto_atTop.mp h1) tol ht
    have := hN N le_rfl
    rw [Real.dist_eq, sub_zero] at this
    exact ⟨N, this⟩
  classical
  exact ⟨Nat.find h2, Nat.find_spec h2, fun i hi => not_lt.mp (Nat.find_min h2 hi)⟩

/-- Where every base holds more, the solution of Bishop's equation is not lower. -/
theorem solution_mono {p : ℕ → Slice} (hd : PySlope.driving n p = PySlope.driving n q)
    (hs : ∀ i < n, (p i).cos = (q i).cos ∧ (p i).sin = (q i).sin ∧ (p i).tan = (q i).tan ∧
      (q i).hold ≤ (p i).hold) {F G : ℝ} (hF : 0 < F) (hG : 0 < G) (eF : bishopRhs n q F = F)
    (eG : bishopRhs n p G = G) : F ≤ G := by
  by_contra c
  push Not at c
  have h1 := h.ratio_anti hG c
  rw [eF, div_self hF.ne', rhs_ratio hG] at h1
  have h2 : bishopRhs n p G / G = 1 := by rw [eG, div_self hG.ne']
  rw [rhs_ratio hG, hd] at h2
  have h3 : (∑ i ∈ range n, (q i).hold / ((q i).cos * G + (q i).sin * (q i).tan)) / PySlope.driving n q ≤
      (∑ i ∈ range n, (p i).hold / ((p i).cos * G + (p i).sin * (p i).tan)) / PySlope.driving n q := by
    apply div_le_div_of_nonneg_right _ h.driving.le
    apply sum_le_sum
    intro i hi
    have hi := mem_range.mp hi
    obtain ⟨e1, e2, e3, e4⟩ := hs i hi
    rw [e1, e2, e3]
    apply div_le_div_of_nonneg_right e4
    have := mul_nonneg (h.sin i hi) (h.tan i hi)
    have := mul_pos (h.cos i hi) hG
    linarith
  linarith

end Dips
end PySlope
