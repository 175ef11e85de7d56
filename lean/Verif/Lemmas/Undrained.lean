import Verif.Lemmas.Forces

/-! # Soil without friction: both methods agree -/

namespace PySlope

theorem list_sum_pos {α : Type} (l : List α) (f : α → ℝ) (hl : l ≠ []) (h : ∀ a ∈ l, 0 < f a) :
    0 < (l.map f).sum := by
  induction l with
  | nil => exact absurd rfl hl
  | cons a l ih =>
    rw [List.map_cons, List.sum_cons]
    have ha := h a (by simp)
    cases l with
    | nil => simpa using ha
    | cons b l =>
      have := ih (by simp) (fun c hc => h c (List.mem_cons_of_mem _ hc))
      linarith

theorem list_sum_nonneg {α : Type} (l : List α) (f : α → ℝ) (h : ∀ a ∈ l, 0 ≤ f a) :
    0 ≤ (l.map f).sum := by
  induction l with
  | nil => simp
  | cons a l ih =>
    rw [List.map_cons, List.sum_cons]
    have ha := h a (by simp)
    have := ih (fun c hc => h c (List.mem_cons_of_mem _ hc))
    linarith

/-- One Bishop turn from a nonzero value. -/
theorem bishopStep_eq {w : ℝ} {fs : List (SliceForces ℝ)} {prev : ℝ} (hp : prev ≠ 0)
    (hd : 0 < drivingSum fs) (hden : ∀ f ∈ fs, bishopDenom prev f ≠ 0)
    (hr : 0 ≤ (fs.map (bishopTerm w prev)).sum) :
    bishopStep w fs prev = .ok ((fs.map (bishopTerm w prev)).sum / drivingSum fs) := by
  unfold bishopStep
  have h1 : fs.any (fun f => pyEq (bishopDenom prev f) (@OfNat.ofNat ℝ 0 (Lit.natLit 0))) = false := by
    rw [List.any_eq_false]
    intro f hf
    simpa using hden f hf
  rw [h1]
  simp only [pyEq_real, lit_zero, hp, decide_false, Bool.false_eq_true, if_false, lsum_real]
  have h2 : ¬ (drivingSum fs ≤ 0 ∨ (fs.map (bishopTerm w prev)).sum < 0) := by
    push Not; exact ⟨hd, hr⟩
  simp only [bind, Except.bind, pure, Except.pure]
  rw [if_neg h2]

/-- Without friction the ordinary value is a fixed point. -/
theorem bishopLoop_undrained {w tol : ℝ} {fs : List (SliceForces ℝ)} {F0 : ℝ}
    (hF : F0 = ordinaryFos w fs) (h : ∀ f ∈ fs, f.tanPhi = 0 ∧ 0 < f.cosA ∧ 0 ≤ f.c) (hw : 0 < w)
    (hd : 0 < drivingSum fs) (h0 : F0 ≠ 0) (n : ℕ) : bishopLoop w tol fs n F0 = .ok F0 := by
  have ht : fs.map (bishopTerm w F0) = fs.map (ordinaryTerm w) := by
    apply List.map_congr_left
    intro f hf
    obtain ⟨h1, h2, _⟩ := h f hf
    unfold bishopTerm ordinaryTerm bishopDenom
    rw [h1]
    simp only [mul_zero, add_zero, zero_div]
    ring
  have hs : bishopStep w fs F0 = .ok F0 := by
    rw [bishopStep_eq h0 hd, ht]
    · rw [hF, drivingSum_real]; rfl
    · intro f hf
      obtain ⟨h1, h2, _⟩ := h f hf
      unfold bishopDenom
      rw [h1]
      simpa using h2.ne'
    · rw [ht]
      apply list_sum_nonneg
      intro f hf
      obtain ⟨h1, h2, h3⟩ := h f hf
      unfold ordinaryTerm
      rw [h1]
      simp only [mul_zero, add_zero]
      exact mul_nonneg h3 (div_nonneg hw.le h2.le)
  induction n with
  | zero => rfl
  | succ n ih =>
    unfold bishopLoop
    rw [hs]
    simp only [bind, Except.bind, sub_self]
    split
    · rfl
    · exact ih

end PySlope
