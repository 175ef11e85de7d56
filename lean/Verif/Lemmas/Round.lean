import Verif.Lemmas.Real

/-! # Python's `round` over the reals -/

namespace PySlope

theorem roundInt_cases (y : ℝ) :
    (roundInt y = ⌊y⌋ ∧ y - ⌊y⌋ ≤ 1 / 2) ∨ (roundInt y = ⌊y⌋ + 1 ∧ 1 / 2 ≤ y - ⌊y⌋) := by
  unfold roundInt
  simp only [ofInt_real]
  have e : PyNum.floor y = ⌊y⌋ := rfl
  rw [e]
  split_ifs with h1 h2 h3
  · left; norm_num at h1 ⊢; linarith
  · right; norm_num at h2 ⊢; linarith
  · left; norm_num at h1 h2 ⊢; linarith
  · right; norm_num at h1 h2 ⊢; linarith

/-- The rounded integer is within one half. -/
theorem roundInt_error (y : ℝ) : |(roundInt y : ℝ) - y| ≤ 1 / 2 := by
  have h1 := Int.floor_le y
  have h2 := Int.lt_floor_add_one y
  rcases roundInt_cases y with ⟨e, h⟩ | ⟨e, h⟩
  · rw [e, abs_of_nonpos (by linarith)]; linarith
  · rw [e]; push_cast
    rw [abs_of_nonneg (by linarith)]; linarith

theorem roundInt_int (n : ℤ) : roundInt (n : ℝ) = n := by
  rcases roundInt_cases (n : ℝ) with ⟨e, h⟩ | ⟨e, h⟩
  · rw [e, Int.floor_intCast]
  · rw [Int.floor_intCast] at h
    norm_num at h

theorem roundInt_mono {x y : ℝ} (h : x ≤ y) : roundInt x ≤ roundInt y := by
  have hf := Int.floor_le_floor h
  rcases lt_or_eq_of_le hf with hlt | heq
  · rcases roundInt_cases x with ⟨e, _⟩ | ⟨e, _⟩ <;> rcases roundInt_cases y with ⟨e', _⟩ | ⟨e', _⟩ <;>
      rw [e, e'] <;> omega
  · rcases roundInt_cases x with ⟨e, hx⟩ | ⟨e, hx⟩ <;>
      rcases roundInt_cases y with ⟨e', hy⟩ | ⟨e', hy⟩
    · rw [e, e']; omega
    · rw [e, e']; omega
    · have : x = y := by rw [heq] at hx; linarith
      rw [this]
    · rw [e, e']; omega

theorem pyRound_real (x : ℝ) (n : ℕ) : pyRound x n = (roundInt (x * 10 ^ n) : ℝ) / 10 ^ n := by
  unfold pyRound
  rw [ofInt_real]
  norm_num

/-- `round(x, n)` is within half a unit of the last digit. -/
theorem pyRound_error (x : ℝ) (n : ℕ) : |pyRound x n - x| ≤ 1 / 2 / 10 ^ n := by
  rw [pyRound_real]
  have h := roundInt_error (x * 10 ^ n)
  have hp : (0 : ℝ) < 10 ^ n := by positivity
  have e : (roundInt (x * 10 ^ n) : ℝ) / 10 ^ n - x = ((roundInt (x * 10 ^ n) : ℝ) - x * 10 ^ n) / 10 ^ n := by
    field_simp
  rw [e, abs_div, abs_of_pos hp]
  exact div_le_div_of_nonneg_right h hp.le

theorem pyRound_mono {x y : ℝ} (h : x ≤ y) (n : ℕ) : pyRound x n ≤ pyRound y n := by
  rw [pyRound_real, pyRound_real]
  have hp : (0 : ℝ) < 10 ^ n := by positivity
  apply div_le_div_of_nonneg_right _ hp.le
  exact_mod_cast roundInt_mono (mul_le_mul_of_nonneg_right h hp.le)

end PySlope
