import Verif.Spec.Ieee

/-! # Rounding to 53 bits: evaluation, and that such a rounding exists -/

namespace PySlope

theorem two_zpow_pos (e : ℤ) : (0 : ℝ) < (2 : ℝ) ^ e := by positivity

/-- A number with 53 bits that differs from `m * 2^e` differs by at least `2^e`. -/
theorem Binary53.gap {z : ℝ} (hz : Binary53 z) {m e : ℤ} (h1 : 2 ^ 52 < m) 
    (hne : z ≠ m * (2 : ℝ) ^ e) : (2 : ℝ) ^ e ≤ |z - m * (2 : ℝ) ^ e| := by
  obtain ⟨n, f, hn, rfl⟩ := hz
  have he := two_zpow_pos e
  rcases le_or_gt e f with hef | hef
  · obtain ⟨k, rfl⟩ := Int.le.dest hef
    have e1 : (n : ℝ) * (2 : ℝ) ^ (e + (k : ℤ)) - m * (2 : ℝ) ^ e
        = ((n * 2 ^ k - m : ℤ) : ℝ) * (2 : ℝ) ^ e := by
      rw [zpow_add₀ (by norm_num)]; push_cast; rw [zpow_natCast]; ring
    rw [e1, abs_mul, abs_of_pos he]
    have : (n * 2 ^ k - m : ℤ) ≠ 0 := by
      intro h0
      apply hne
      rw [h0] at e1
      simp at e1
      linarith
    have h1 : (1 : ℤ) ≤ |n * 2 ^ k - m| := Int.one_le_abs this
    have : (1 : ℝ) ≤ |((n * 2 ^ k - m : ℤ) : ℝ)| := by exact_mod_cast h1
    nlinarith
  · have hf := two_zpow_pos f
    have h2 : (2 : ℝ) ^ f * 2 ≤ (2 : ℝ) ^ e := by
      have : (2 : ℝ) ^ f * 2 = (2 : ℝ) ^ (f + 1) := by rw [zpow_add₀ (by norm_num)]; simp
      rw [this]
      exact zpow_le_zpow_right₀ (by norm_num) (by omega)
    have hn' : (n : ℝ) ≤ 2 ^ 53 := by
      have := (abs_lt.mp hn).2
      exact_mod_cast this.le
    have hm' : (2 : ℝ) ^ 52 + 1 ≤ m := by
      have : (2 : ℤ) ^ 52 + 1 ≤ m := by omega
      exact_mod_cast this
    have : (n : ℝ) * 2 ^ f ≤ 2 ^ 52 * 2 ^ e := by
      have := mul_le_mul_of_nonneg_right hn' hf.le
      nlinarith
    rw [abs_sub_comm]
    refine le_trans ?_ (le_abs_self _)
    nlinarith

namespace RoundsToEven

variable {rnd : ℝ → ℝ}

/-- A number with 53 bits is not changed. -/
theorem exact (r : RoundsToEven rnd) {x : ℝ} (h : Binary53 x) : rnd x = x := by
  have := r.nearest x x h
  simp at this
  linarith

theorem exact_int (r : RoundsToEven rnd) {m e : ℤ} (h : |m| < 2 ^ 53) :
    rnd (m * (2 : ℝ) ^ e) = m * (2 : ℝ) ^ e := r.exact ⟨m, e, h, rfl⟩

theorem exact_nat (r : RoundsToEven rnd) (n : ℕ) (h : n < 2 ^ 53) : rnd (n : ℝ) = n := by
  have := r.exact_int (m := n) (e := 0) (by rw [abs_of_nonneg (by omega)]; exact_mod_cast h)
  simpa using this

/-- Evaluation away from ties. -/
theorem near (r : RoundsToEven rnd) {x : ℝ} {m e : ℤ} (h1 : 2 ^ 52 < m) (h2 : m < 2 ^ 53)
    (h : |x - m * (2 : ℝ) ^ e| < (2 : ℝ) ^ e / 2) : rnd x = m * (2 : ℝ) ^ e := by
  by_contra hne
  have hy : Binary53 (m * (2 : ℝ) ^ e) := ⟨m, e, by rw [abs_of_pos (by omega)]; exact h2, rfl⟩
  have g := (r.rep x).gap h1 hne
  have n := r.nearest x _ hy
  have t := abs_sub_le (rnd x) x (m * (2 : ℝ) ^ e)
  rw [abs_sub_comm (rnd x) x] at t
  linarith

/-- Evaluation at a tie. -/
theorem tie (r : RoundsToEven rnd) {x : ℝ} {m e : ℤ} (h1 : 2 ^ 52 < m) (h2 : m < 2 ^ 53)
    (hm : Even m) (h : |x - m * (2 : ℝ) ^ e| = (2 : ℝ) ^ e / 2) :
    rnd x = m * (2 : ℝ) ^ e := by
  by_contra hne
  have he := two_zpow_pos e
  have hy : Binary53 (m * (2 : ℝ) ^ e) := ⟨m, e, by rw [abs_of_pos (by omega)]; exact h2, rfl⟩
  have g := (r.rep x).gap h1 hne
  have n := r.nearest x _ hy
  have t := abs_sub_le (rnd x) x (m * (2 : ℝ) ^ e)
  rw [abs_sub_comm (rnd x) x] at t
  have e1 : |rnd x - m * (2 : ℝ) ^ e| = (2 : ℝ) ^ e := by linarith
  have e2 : |x - rnd x| = (2 : ℝ) ^ e / 2 := by linarith
  obtain ⟨m', e', hev, hl, hu, hx⟩ := r.even x _ hy (fun h => hne h.symm) (by rw [h, e2])
  -- the other candidate is `(m ± 1) * 2^e`
  have hk : ∃ k : ℤ, Odd k ∧ 2 ^ 52 ≤ k ∧ k < 2 ^ 53 ∧ rnd x = k * (2 : ℝ) ^ e := by
    obtain ⟨j, hj⟩ := hm
    rcases abs_choice (rnd x - m * (2 : ℝ) ^ e) with hc | hc
    · exact ⟨m + 1, ⟨j, by omega⟩, by omega, by omega, by push_cast; linarith⟩
    · exact ⟨m - 1, ⟨j - 1, by omega⟩, by omega, by omega, by push_cast; linarith⟩
  obtain ⟨k, hodd, hk1, hk2, hk⟩ := hk
  have he' := two_zpow_pos e'
  have heq : (m' : ℝ) * (2 : ℝ) ^ e' = k * (2 : ℝ) ^ e := by rw [← hx, hk]
  have hk1' : (2 : ℝ) ^ 52 ≤ k := by exact_mod_cast hk1
  have hk2' : (k : ℝ) < 2 ^ 53 := by exact_mod_cast hk2
  have hmpos : (0 : ℝ) < m' := by
    have : 0 < (m' : ℝ) * (2 : ℝ) ^ e' := by rw [heq]; nlinarith
    exact (pos_iff_pos_of_mul_pos this).mpr he'
  have hmpos' : 0 < m' := by exact_mod_cast hmpos
  rw [abs_of_pos hmpos'] at hl hu
  have hl' : (2 : ℝ) ^ 52 ≤ m' := by exact_mod_cast hl
  have hu' : (m' : ℝ) < 2 ^ 53 := by exact_mod_cast hu
  have hee : e' = e := by
    rcases lt_trichotomy e' e with hlt | h' | hgt
    · exfalso
      have : (2 : ℝ) ^ e' * 2 ≤ (2 : ℝ) ^ e := by
        have h3 : (2 : ℝ) ^ e' * 2 = (2 : ℝ) ^ (e' + 1) := by rw [zpow_add₀ (by norm_num)]; simp
        rw [h3]
        exact zpow_le_zpow_right₀ (by norm_num) (by omega)
      nlinarith
    · exact h'
    · exfalso
      have : (2 : ℝ) ^ e * 2 ≤ (2 : ℝ) ^ e' := by
        have h3 : (2 : ℝ) ^ e * 2 = (2 : ℝ) ^ (e + 1) := by rw [zpow_add₀ (by norm_num)]; simp
        rw [h3]
        exact zpow_le_zpow_right₀ (by norm_num) (by omega)
      nlinarith
  rw [hee] at heq
  have := mul_right_cancel₀ he.ne' heq
  have hmk : m' = k := by exact_mod_cast this
  rw [hmk] at hev
  exact (Int.not_even_iff_odd.mpr hodd) hev

/-- Rounding keeps the order. -/
theorem mono (r : RoundsToEven rnd) {x y : ℝ} (h : x ≤ y) : rnd x ≤ rnd y := by
  by_contra hlt
  rw [not_le] at hlt
  have n1 := r.nearest x _ (r.rep y)
  have n2 := r.nearest y _ (r.rep x)
  rcases eq_or_lt_of_le h with rfl | hxy
  · exact lt_irrefl _ hlt
  -- `rnd y < rnd x`, both within reach of both: only equality is possible
  rcases le_total (rnd x) x with h1 | h1 <;> rcases le_total (rnd y) y with h2 | h2
  · rw [abs_of_nonneg (by linarith), abs_of_nonneg (by linarith)] at n1 n2
    linarith
  · linarith
  · have a1 : |x - rnd x| = rnd x - x := by rw [abs_of_nonpos (by linarith)]; ring
    have a2 : |y - rnd y| = y - rnd y := abs_of_nonneg (by linarith)
    rw [a1] at n1; rw [a2] at n2
    rcases abs_choice (x - rnd y) with c1 | c1 <;> rcases abs_choice (y - rnd x) with c2 | c2 <;>
      rw [c1] at n1 <;> rw [c2] at n2 <;> linarith
  · rw [abs_of_nonpos (by linarith)] at n1 n2
    rw [abs_of_nonpos (by linarith)] at n1 n2
    linarith

end RoundsToEven

/-! ## Existence -/

/-- The integer nearest to `t`, ties to even. -/
noncomputable def nearestEven (t : ℝ) : ℤ :=
  if t - ⌊t⌋ < 1 / 2 then ⌊t⌋ else if 1 / 2 < t - ⌊t⌋ then ⌊t⌋ + 1
  else if Even ⌊t⌋ then ⌊t⌋ else ⌊t⌋ + 1

theorem nearestEven_or (t : ℝ) : nearestEven t = ⌊t⌋ ∨
    (nearestEven t = ⌊t⌋ + 1 ∧ (⌊t⌋ : ℝ) ≠ t) := by
  unfold nearestEven
  split_ifs with h1 h2 h3
  · exact .inl rfl
  · exact .inr ⟨rfl, fun h => by rw [h] at h2; norm_num at h2⟩
  · exact .inl rfl
  · refine .inr ⟨rfl, fun h => ?_⟩
    apply h1
    rw [h]
    norm_num

theorem nearestEven_nearest (t : ℝ) (k : ℤ) :
    |t - nearestEven t| ≤ |t - k| ∧
    (k ≠ nearestEven t → |t - k| = |t - nearestEven t| → Even (nearestEven t)) := by
  have hf := Int.floor_le t
  have hf' := Int.lt_floor_add_one t
  have hk : k ≤ ⌊t⌋ ∨ ⌊t⌋ + 1 ≤ k := by omega
  have a : ⌊t⌋ + 1 ≤ k → |t - k| = k - t := by
    intro h
    have : (⌊t⌋ : ℝ) + 1 ≤ k := by exact_mod_cast h
    rw [abs_of_nonpos (by linarith)]; ring
  have b : k ≤ ⌊t⌋ → |t - k| = t - k := by
    intro h
    have : (k : ℝ) ≤ ⌊t⌋ := by exact_mod_cast h
    rw [abs_of_nonneg (by linarith)]
  have c : |t - (⌊t⌋ : ℝ)| = t - ⌊t⌋ := abs_of_nonneg (by linarith)
  have d : |t - ((⌊t⌋ + 1 : ℤ) : ℝ)| = ⌊t⌋ + 1 - t := by
    push_cast
    rw [abs_of_nonpos (by linarith)]; ring
  unfold nearestEven
  split_ifs with h1 h2 h3
  · rw [c]
    rcases hk with h | h
    · have h' : (k : ℝ) ≤ ⌊t⌋ := by exact_mod_cast h
      rw [b h]
      refine ⟨by linarith, fun hne e => ?_⟩
      exact absurd (by exact_mod_cast (show (k : ℝ) = ⌊t⌋ by linarith)) hne
    · have h' : (⌊t⌋ : ℝ) + 1 ≤ k := by exact_mod_cast h
      rw [a h]
      refine ⟨by linarith, fun hne e => ?_⟩
      exfalso; linarith
  · rw [d]
    rcases hk with h | h
    · have h' : (k : ℝ) ≤ ⌊t⌋ := by exact_mod_cast h
      rw [b h]
      refine ⟨by linarith, fun hne e => ?_⟩
      exfalso; linarith
    · have h' : (⌊t⌋ : ℝ) + 1 ≤ k := by exact_mod_cast h
      rw [a h]
      refine ⟨by linarith, fun hne e => ?_⟩
      exact absurd (by exact_mod_cast (show (k : ℝ) = ⌊t⌋ + 1 by linarith)) hne
  · rw [c]
    refine ⟨?_, fun _ _ => h3⟩
    rcases hk with h | h
    · have h' : (k : ℝ) ≤ ⌊t⌋ := by exact_mod_cast h
      rw [b h]; linarith
    · have h' : (⌊t⌋ : ℝ) + 1 ≤ k := by exact_mod_cast h
      rw [a h]; linarith
  · rw [d]
    refine ⟨?_, fun _ _ => ?_⟩
    · rcases hk with h | h
      · have h' : (k : ℝ) ≤ ⌊t⌋ := by exact_mod_cast h
        rw [b h]; linarith
      · have h' : (⌊t⌋ : ℝ) + 1 ≤ k := by exact_mod_cast h
        rw [a h]; linarith
    · rw [Int.not_even_iff_odd] at h3
      exact h3.add_one

/-- Round to nearest, ties to even, written out. -/
noncomputable def round53 (x : ℝ) : ℝ :=
  let e := Int.log 2 |x| - 52
  nearestEven (x / (2 : ℝ) ^ e) * (2 : ℝ) ^ e

/-- The significand of a number other than zero. -/
theorem significand {x : ℝ} (hx : x ≠ 0) :
    2 ^ 52 ≤ |x / (2 : ℝ) ^ (Int.log 2 |x| - 52)| ∧ |x / (2 : ℝ) ^ (Int.log 2 |x| - 52)| < 2 ^ 53 := by
  have h1 := Int.zpow_log_le_self (b := 2) (r := |x|) (by norm_num) (abs_pos.mpr hx)
  have h2 := Int.lt_zpow_succ_log_self (b := 2) (by norm_num) |x|
  push_cast at h1 h2
  have he := two_zpow_pos (Int.log 2 |x| - 52)
  rw [abs_div, abs_of_pos he, le_div_iff₀ he, div_lt_iff₀ he]
  have e1 : (2 : ℝ) ^ 52 * (2 : ℝ) ^ (Int.log 2 |x| - 52) = (2 : ℝ) ^ Int.log 2 |x| := by
    rw [← zpow_natCast, ← zpow_add₀ (by norm_num)]; congr 1; push_cast; ring
  have e2 : (2 : ℝ) ^ 53 * (2 : ℝ) ^ (Int.log 2 |x| - 52) = (2 : ℝ) ^ (Int.log 2 |x| + 1) := by
    rw [← zpow_natCast, ← zpow_add₀ (by norm_num)]; congr 1; push_cast; ring
  rw [e1, e2]
  exact ⟨h1, h2⟩

theorem nearestEven_bounds {t : ℝ} (h1 : 2 ^ 52 ≤ |t|) (h2 : |t| < 2 ^ 53) :
    2 ^ 52 ≤ |nearestEven t| ∧ |nearestEven t| ≤ 2 ^ 53 := by
  have hf := Int.floor_le t
  have hf' := Int.lt_floor_add_one t
  rcases le_total 0 t with h0 | h0
  · rw [abs_of_nonneg h0] at h1 h2
    have a : (2 : ℤ) ^ 52 ≤ ⌊t⌋ := Int.le_floor.mpr (by norm_num at h1 ⊢; linarith)
    have b : ⌊t⌋ < (2 : ℤ) ^ 53 := Int.floor_lt.mpr (by norm_num at h2 ⊢; linarith)
    rcases nearestEven_or t with h | ⟨h, _⟩
    · rw [h, abs_of_nonneg (by omega)]; omega
    · rw [h, abs_of_nonneg (by omega)]; omega
  · rw [abs_of_nonpos h0] at h1 h2
    have a : -(2 : ℤ) ^ 53 ≤ ⌊t⌋ := Int.le_floor.mpr (by push_cast; linarith)
    have b : ⌊t⌋ ≤ -(2 : ℤ) ^ 52 := by
      have : (⌊t⌋ : ℝ) ≤ ((-(2 : ℤ) ^ 52 : ℤ) : ℝ) := by push_cast; linarith
      exact_mod_cast this
    rcases nearestEven_or t with h | ⟨h, hne⟩
    · rw [h, abs_of_nonpos (by omega)]; omega
    · have : ⌊t⌋ ≠ -(2 : ℤ) ^ 52 := by
        intro e
        apply hne
        have e' : (⌊t⌋ : ℝ) = -(2 : ℝ) ^ 52 := by exact_mod_cast e
        linarith
      rw [h, abs_of_nonpos (by omega)]; omega

/-- A double-precision rounding exists. -/
theorem round53_roundsToEven : RoundsToEven round53 := by
  have key : ∀ x y, Binary53 y → |x - round53 x| ≤ |x - y| ∧
      (y ≠ round53 x → |x - y| = |x - round53 x| →
        Even (nearestEven (x / (2 : ℝ) ^ (Int.log 2 |x| - 52))) ∧ x ≠ 0) := by
    intro x y hy
    by_cases hx : x = 0
    · subst hx
      have : round53 0 = 0 := by
        simp [round53, nearestEven]
      rw [this]
      refine ⟨by simp, fun hne e => ?_⟩
      simp at e
      exact absurd e hne
    obtain ⟨s1, s2⟩ := significand hx
    set e := Int.log 2 |x| - 52 with he
    have hep := two_zpow_pos e
    obtain ⟨k, f, hk, rfl⟩ := hy
    have scale : ∀ z : ℝ, |x - z * (2 : ℝ) ^ e| = |x / (2 : ℝ) ^ e - z| * (2 : ℝ) ^ e := by
      intro z
      rw [← abs_of_pos hep, ← abs_mul, abs_of_pos hep]
      congr 1
      field_simp
    have hr : round53 x = nearestEven (x / (2 : ℝ) ^ e) * (2 : ℝ) ^ e := rfl
    rw [hr, scale]
    rcases le_or_gt e f with hef | hef
    · obtain ⟨j, rfl⟩ := Int.le.dest hef
      have e1 : (k : ℝ) * (2 : ℝ) ^ (e + (j : ℤ)) = ((k * 2 ^ j : ℤ) : ℝ) * (2 : ℝ) ^ e := by
        rw [zpow_add₀ (by norm_num)]; push_cast; rw [zpow_natCast]; ring
      rw [e1, scale]
      obtain ⟨n1, n2⟩ := nearestEven_nearest (x / (2 : ℝ) ^ e) (k * 2 ^ j)
      refine ⟨mul_le_mul_of_nonneg_right n1 hep.le, fun hne h => ⟨n2 ?_ ?_, hx⟩⟩
      · intro h'; apply hne; rw [h']
      · exact mul_right_cancel₀ hep.ne' h
    · -- `y` is below the binade of `x`
      have hfp := two_zpow_pos f
      have h2 : (2 : ℝ) ^ f * 2 ≤ (2 : ℝ) ^ e := by
        have h3 : (2 : ℝ) ^ f * 2 = (2 : ℝ) ^ (f + 1) := by rw [zpow_add₀ (by norm_num)]; simp
        rw [h3]
        exact zpow_le_zpow_right₀ (by norm_num) (by omega)
      have hk' : |(k : ℝ)| < 2 ^ 53 := by exact_mod_cast hk
      have hy : |(k : ℝ) * (2 : ℝ) ^ f| < 2 ^ 52 * (2 : ℝ) ^ e := by
        rw [abs_mul, abs_of_pos hfp]
        nlinarith
      rw [abs_lt] at hy
      have hxx : x = x / (2 : ℝ) ^ e * (2 : ℝ) ^ e := by field_simp
      have main : |x / (2 : ℝ) ^ e - nearestEven (x / (2 : ℝ) ^ e)| * (2 : ℝ) ^ e
          < |x - k * (2 : ℝ) ^ f| := by
        rcases le_total 0 (x / (2 : ℝ) ^ e) with h0 | h0
        · rw [abs_of_nonneg h0] at s1
          have n := (nearestEven_nearest (x / (2 : ℝ) ^ e) (2 ^ 52)).1
          have : |x / (2 : ℝ) ^ e - ((2 ^ 52 : ℤ) : ℝ)| = x / (2 : ℝ) ^ e - 2 ^ 52 := by
            rw [show ((2 ^ 52 : ℤ) : ℝ) = 2 ^ 52 by norm_num]; exact abs_of_nonneg (by linarith)
          rw [this] at n
          have := mul_le_mul_of_nonneg_right n hep.le
          refine lt_of_le_of_lt this (lt_of_lt_of_le ?_ (le_abs_self _))
          rw [sub_mul, ← hxx]
          linarith
        · rw [abs_of_nonpos h0] at s1
          have n := (nearestEven_nearest (x / (2 : ℝ) ^ e) (-2 ^ 52)).1
          have : |x / (2 : ℝ) ^ e - ((-2 ^ 52 : ℤ) : ℝ)| = -2 ^ 52 - x / (2 : ℝ) ^ e := by
            push_cast; rw [abs_of_nonpos (by linarith)]; ring
          rw [this] at n
          have := mul_le_mul_of_nonneg_right n hep.le
          refine lt_of_le_of_lt this (lt_of_lt_of_le ?_ (neg_le_abs _))
          rw [sub_mul, ← hxx]
          linarith
      exact ⟨main.le, fun _ h => absurd h main.ne'⟩
  have rep : ∀ x, x ≠ 0 → Even (nearestEven (x / (2 : ℝ) ^ (Int.log 2 |x| - 52))) →
      ∃ m e : ℤ, Even m ∧ 2 ^ 52 ≤ |m| ∧ |m| < 2 ^ 53 ∧ round53 x = m * (2 : ℝ) ^ e := by
    intro x hx hev
    obtain ⟨s1, s2⟩ := significand hx
    obtain ⟨b1, b2⟩ := nearestEven_bounds s1 s2
    rcases lt_or_eq_of_le b2 with b2 | b2
    · exact ⟨_, _, hev, b1, b2, rfl⟩
    · obtain ⟨j, hj⟩ := hev
      refine ⟨j, Int.log 2 |x| - 52 + 1, ?_, ?_, ?_, ?_⟩
      · rcases abs_choice (nearestEven (x / (2 : ℝ) ^ (Int.log 2 |x| - 52))) with c | c <;>
          rw [c] at b2
        · exact ⟨2 ^ 51, by omega⟩
        · exact ⟨-2 ^ 51, by omega⟩
      · rw [hj, ← two_mul, abs_mul] at b2
        simp at b2; omega
      · rw [hj, ← two_mul, abs_mul] at b2
        simp at b2; omega
      · change (nearestEven (x / (2 : ℝ) ^ (Int.log 2 |x| - 52)) : ℝ) * _ = _
        rw [hj, zpow_add₀ (by norm_num)]
        push_cast
        simp
        ring
  refine ⟨fun x => ?_, fun x y hy => (key x y hy).1, fun x y hy hne h => ?_⟩
  · by_cases hx : x = 0
    · subst hx
      exact ⟨0, 0, by norm_num, by simp [round53, nearestEven]⟩
    · obtain ⟨s1, s2⟩ := significand hx
      obtain ⟨b1, b2⟩ := nearestEven_bounds s1 s2
      rcases lt_or_eq_of_le b2 with b2 | b2
      · exact ⟨_, _, b2, rfl⟩
      · have hev : Even (nearestEven (x / (2 : ℝ) ^ (Int.log 2 |x| - 52))) := by
          rcases abs_choice (nearestEven (x / (2 : ℝ) ^ (Int.log 2 |x| - 52))) with c | c <;>
            rw [c] at b2
          · exact ⟨2 ^ 52, by omega⟩
          · exact ⟨-2 ^ 52, by omega⟩
        obtain ⟨m, e, _, _, h, h'⟩ := rep x hx hev
        exact ⟨m, e, h, h'⟩
  · obtain ⟨h1, h2⟩ := (key x y hy).2 hne h
    exact rep x h2 h1

theorem nearestEven_half (t : ℝ) : |t - nearestEven t| ≤ 1 / 2 := by
  have hf := Int.floor_le t
  have hf' := Int.lt_floor_add_one t
  rcases le_or_gt (t - ⌊t⌋) (1 / 2) with h | h
  · refine (nearestEven_nearest t ⌊t⌋).1.trans ?_
    rw [abs_of_nonneg (by linarith)]; exact h
  · refine (nearestEven_nearest t (⌊t⌋ + 1)).1.trans ?_
    push_cast
    rw [abs_of_nonpos (by linarith)]; linarith

/-- The relative error of a rounding is at most `2^-53`. -/
theorem RoundsToEven.error {rnd : ℝ → ℝ} (r : RoundsToEven rnd) (x : ℝ) :
    |x - rnd x| ≤ |x| / 2 ^ 53 := by
  refine (r.nearest x _ (round53_roundsToEven.rep x)).trans ?_
  by_cases hx : x = 0
  · subst hx
    simp [round53, nearestEven]
  obtain ⟨s1, s2⟩ := significand hx
  set e := Int.log 2 |x| - 52 with he
  have hep := two_zpow_pos e
  have hr : round53 x = nearestEven (x / (2 : ℝ) ^ e) * (2 : ℝ) ^ e := rfl
  have h := nearestEven_half (x / (2 : ℝ) ^ e)
  have e1 : x - round53 x = (x / (2 : ℝ) ^ e - nearestEven (x / (2 : ℝ) ^ e)) * (2 : ℝ) ^ e := by
    rw [hr]; field_simp
  rw [e1, abs_mul, abs_of_pos hep]
  rw [abs_div, abs_of_pos hep, le_div_iff₀ hep] at s1
  rw [le_div_iff₀ (by positivity)]
  nlinarith

end PySlope
