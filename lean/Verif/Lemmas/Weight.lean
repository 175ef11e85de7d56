import Verif.Spec.Ground
import Mathlib.MeasureTheory.Integral.IntervalIntegral.Basic

/-! # The weight of a column of soil as an integral -/

namespace PySlope
open MeasureTheory

theorem unitWeightAt_single (l : Layer ℝ) (y : ℝ) : unitWeightAt [l] y = l.mat.unitWeight := by
  unfold unitWeightAt layerAt
  by_cases h : l.rl < y <;> simp [h]

theorem unitWeightAt_above {l : Layer ℝ} {ls : List (Layer ℝ)} {y : ℝ} (h : l.rl < y) :
    unitWeightAt (l :: ls) y = l.mat.unitWeight := by
  unfold unitWeightAt layerAt
  simp [h]

theorem unitWeightAt_below {l : Layer ℝ} {ls : List (Layer ℝ)} {y : ℝ} (hl : ls ≠ [])
    (h : y ≤ l.rl) : unitWeightAt (l :: ls) y = unitWeightAt ls y := by
  unfold unitWeightAt layerAt
  rw [List.getLast?_cons_of_ne_nil hl]
  simp [not_lt.mpr h]

theorem unitWeightAt_integrable (ls : List (Layer ℝ)) (a b : ℝ) :
    IntervalIntegrable (unitWeightAt ls) volume a b := by
  induction ls generalizing a b with
  | nil => exact intervalIntegrable_const
  | cons l ls ih =>
    by_cases hl : ls = []
    · subst hl
      have : unitWeightAt [l] = fun _ => l.mat.unitWeight := by
        funext y; exact unitWeightAt_single l y
      rw [this]; exact intervalIntegrable_const
    · have below : ∀ c ≤ l.rl, IntervalIntegrable (unitWeightAt (l :: ls)) volume c l.rl := by
        intro c hc
        refine (ih c l.rl).congr ?_
        intro y hy
        rw [Set.uIoc_of_le hc] at hy
        exact (unitWeightAt_below hl hy.2).symm
      have above : ∀ c ≥ l.rl, IntervalIntegrable (unitWeightAt (l :: ls)) volume l.rl c := by
        intro c hc
        refine (intervalIntegrable_const (c := l.mat.unitWeight)).congr ?_
        intro y hy
        rw [Set.uIoc_of_le hc] at hy
        exact (unitWeightAt_above hy.1).symm
      have any : ∀ c, IntervalIntegrable (unitWeightAt (l :: ls)) volume c l.rl := by
        intro c
        rcases le_total c l.rl with h | h
        · exact below c h
        · exact (above c h).symm
      exact (any a).trans (any b).symm

/-- The loop over the layers adds up the unit weight over the height of the column. -/
theorem stripColumn_integral (ls : List (Layer ℝ)) (hs : ls.Pairwise (fun a b => b.rl < a.rl))
    {yt yb : ℝ} (hy : yb ≤ yt) (top : ℝ) (ht : (∀ l ∈ ls.head?, l.rl ≤ top) ∨ yt ≤ top) :
    stripColumn yt yb top ls = ∫ y in yb..max yb (min yt top), unitWeightAt ls y := by
  induction ls generalizing top with
  | nil =>
    have : unitWeightAt ([] : List (Layer ℝ)) = fun _ => 0 := rfl
    rw [this]
    simp [stripColumn]
  | cons l ls ih =>
    cases ls with
    | nil =>
      have : unitWeightAt [l] = fun _ => l.mat.unitWeight := by
        funext y; exact unitWeightAt_single l y
      rw [this, intervalIntegral.integral_const]
      simp only [stripColumn, clip0_real, pyMin_real, smul_eq_mul]
      rw [mul_comm]
      congr 1
      rcases le_total yb (min yt top) with h | h
      · rw [max_eq_right h, max_eq_left (by linarith)]
      · rw [max_eq_left h, max_eq_right (by linarith)]; ring
    | cons l' ls =>
      have hs' := List.pairwise_cons.mp hs
      have hne : l' :: ls ≠ [] := by simp
      have step : stripColumn yt yb top (l :: l' :: ls) =
          l.mat.unitWeight * max (min yt top - max yb l.rl) 0 + stripColumn yt yb l.rl (l' :: ls) := by
        simp only [stripColumn, clip0_real, pyMin_real, pyMax_real]
      rw [step, ih hs'.2 l.rl (.inl (by
        intro q hq; simp at hq; subst hq; exact (hs'.1 _ (by simp)).le))]
      set m := max yb (min yt l.rl) with hm
      set M := max yb (min yt top) with hM
      have hbm : yb ≤ m := le_max_left _ _
      have hmM : m ≤ M := by
        rcases ht with h | h
        · exact max_le_max le_rfl (min_le_min le_rfl (h l (by simp)))
        · refine max_le_max le_rfl ?_
          rw [min_eq_left h]; exact min_le_left _ _
      rw [← intervalIntegral.integral_add_adjacent_intervals
        (unitWeightAt_integrable _ yb m) (unitWeightAt_integrable _ m M)]
      rw [add_comm]
      congr 1
      · apply intervalIntegral.integral_congr_Ioo_of_le hbm
        intro y hy
        refine (unitWeightAt_below hne ?_).symm
        rcases lt_max_iff.mp hy.2 with h | h
        · exact absurd hy.1 (not_lt.mpr h.le)
        · exact (h.trans_le (min_le_right _ _)).le
      · have hc : ∫ y in m..M, unitWeightAt (l :: l' :: ls) y = ∫ _ in m..M, l.mat.unitWeight := by
          apply intervalIntegral.integral_congr_Ioo_of_le hmM
          intro y hy
          refine unitWeightAt_above ?_
          by_contra hcon
          push Not at hcon
          have h1 : yb < y := hbm.trans_lt hy.1
          have h2 : min yt l.rl < y := (le_max_right _ _).trans_lt hy.1
          rcases lt_max_iff.mp hy.2 with h | h
          · linarith
          · have h3 : y < yt := h.trans_le (min_le_left _ _)
            rcases min_lt_iff.mp h2 with h4 | h4 <;> linarith
        rw [hc, intervalIntegral.integral_const, smul_eq_mul, mul_comm]
        congr 1
        have hbt : M = if yb ≤ min yt top then min yt top else yb := by
          split
          · rename_i h; exact max_eq_right h
          · rename_i h; exact max_eq_left (not_le.mp h).le
        rcases le_total yt l.rl with h1 | h1
        · have hmt : m = yt := by rw [hm, min_eq_left h1, max_eq_right hy]
          have hMt : M ≤ yt := max_le hy (min_le_left _ _)
          have : M = m := le_antisymm (hmt ▸ hMt) hmM
          rw [this, sub_self, max_eq_right]
          have := min_le_left yt top
          have := le_max_right yb l.rl
          linarith
        · rw [min_eq_right h1] at hm
          rw [hm]
          rcases le_total (max yb l.rl) (min yt top) with h2 | h2
          · have : yb ≤ min yt top := (le_max_left _ _).trans h2
            rw [hM, max_eq_right this, max_eq_left (by linarith)]
          · rw [max_eq_right (by linarith)]
            have h3 : M ≤ max yb l.rl := max_le (le_max_left _ _) h2
            have h4 : max yb l.rl ≤ M := by rw [← hm]; exact hmM
            linarith

end PySlope
