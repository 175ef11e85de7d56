import Verif.Spec.Continuum
import Mathlib.Analysis.BoundedVariation
import Mathlib.MeasureTheory.Integral.IntervalIntegral.Basic
import Mathlib.Algebra.BigOperators.Intervals

/-! # Midpoint sums of functions of bounded variation -/

namespace PySlope
open Finset MeasureTheory

theorem bv_add {f g : ℝ → ℝ} {S : Set ℝ} (hf : BoundedVariationOn f S) (hg : BoundedVariationOn g S) :
    BoundedVariationOn (fun x => f x + g x) S := by
  refine ne_top_of_le_ne_top (ENNReal.add_ne_top.mpr ⟨hf, hg⟩) ?_
  refine iSup_le fun p => ?_
  calc ∑ i ∈ range p.1, edist (f (p.2.1 (i + 1)) + g (p.2.1 (i + 1))) (f (p.2.1 i) + g (p.2.1 i))
      ≤ ∑ i ∈ range p.1, (edist (f (p.2.1 (i + 1))) (f (p.2.1 i)) + edist (g (p.2.1 (i + 1))) (g (p.2.1 i))) :=
        sum_le_sum fun i _ => edist_add_add_le _ _ _ _
    _ = _ := sum_add_distrib
    _ ≤ _ := add_le_add (eVariationOn.sum_le p.2.2.1 p.2.2.2) (eVariationOn.sum_le p.2.2.1 p.2.2.2)

theorem bv_const (c : ℝ) (S : Set ℝ) : BoundedVariationOn (fun _ => c) S := by
  unfold BoundedVariationOn
  rw [eVariationOn.constant_on (by rintro _ ⟨_, _, rfl⟩ _ ⟨_, _, rfl⟩; rfl)]
  exact ENNReal.zero_ne_top

theorem bv_neg {f : ℝ → ℝ} {S : Set ℝ} (hf : BoundedVariationOn f S) : BoundedVariationOn (fun x => -f x) S := by
  have := (bv_const (-1) S).mul hf
  have e : (fun x => -f x) = (fun _ => (-1 : ℝ)) * f := by
    funext x
    simp
  rw [e]
  exact this

theorem bv_sub {f g : ℝ → ℝ} {S : Set ℝ} (hf : BoundedVariationOn f S) (hg : BoundedVariationOn g S) :
    BoundedVariationOn (fun x => f x - g x) S := by
  simpa [sub_eq_add_neg] using bv_add hf (bv_neg hg)

theorem bv_abs {f : ℝ → ℝ} {S : Set ℝ} (hf : BoundedVariationOn f S) : BoundedVariationOn (fun x => |f x|) S :=
  LipschitzWith.comp_boundedVariationOn (C := 1) (f := fun x : ℝ => |x|)
    (LipschitzWith.of_dist_le_mul fun x y => by
      simpa [Real.dist_eq] using abs_abs_sub_abs_le_abs_sub x y) hf

theorem bv_max {f g : ℝ → ℝ} {S : Set ℝ} (hf : BoundedVariationOn f S) (hg : BoundedVariationOn g S) :
    BoundedVariationOn (fun x => max (f x) (g x)) S := by
  have := (bv_const (1 / 2) S).mul (bv_add (bv_add hf hg) (bv_abs (bv_sub hf hg)))
  have e : (fun x => max (f x) (g x)) = (fun _ => (1 / 2 : ℝ)) * fun x => f x + g x + |f x - g x| := by
    funext x
    change max (f x) (g x) = 1 / 2 * (f x + g x + |f x - g x|)
    rcases le_total (f x) (g x) with h | h
    · rw [max_eq_right h, abs_of_nonpos (by linarith)]; ring
    · rw [max_eq_left h, abs_of_nonneg (by linarith)]; ring
  rw [e]
  exact this

theorem bv_min {f g : ℝ → ℝ} {S : Set ℝ} (hf : BoundedVariationOn f S) (hg : BoundedVariationOn g S) :
    BoundedVariationOn (fun x => min (f x) (g x)) S := by
  have := bv_neg (bv_max (bv_neg hf) (bv_neg hg))
  simpa [max_neg_neg] using this

theorem bv_inv {f : ℝ → ℝ} {S : Set ℝ} {δ : ℝ} (hδ : 0 < δ) (hf : BoundedVariationOn f S) (h : ∀ x ∈ S, δ ≤ f x) :
    BoundedVariationOn (fun x => 1 / f x) S := by
  have lip : LipschitzOnWith (Real.toNNReal (1 / δ ^ 2)) (fun x : ℝ => 1 / x) (Set.Ici δ) := by
    refine LipschitzOnWith.of_dist_le_mul fun x hx y hy => ?_
    have hx' : δ ≤ x := hx
    have hy' : δ ≤ y := hy
    rw [Real.coe_toNNReal _ (by positivity), Real.dist_eq, Real.dist_eq,
      show 1 / x - 1 / y = (y - x) * (1 / (x * y)) by field_simp [(hδ.trans_le hx').ne', (hδ.trans_le hy').ne'],
      abs_mul, abs_sub_comm, mul_comm, abs_of_pos (by have := hδ.trans_le hx'; have := hδ.trans_le hy'; positivity)]
    refine mul_le_mul_of_nonneg_right (one_div_le_one_div_of_le (by positivity) ?_) (abs_nonneg _)
    nlinarith
  exact lip.comp_boundedVariationOn h hf

theorem bv_mono {f : ℝ → ℝ} {a b : ℝ} (h : MonotoneOn f (Set.Icc a b)) : BoundedVariationOn f (Set.Icc a b) := by
  refine h.boundedVariationOn (C := |f a| + |f b|) fun x hx => ?_
  have hab : a ≤ b := hx.1.trans hx.2
  have h1 := h ⟨le_rfl, hab⟩ hx hx.1
  have h2 := h hx ⟨hab, le_rfl⟩ hx.2
  rw [abs_le]
  constructor
  · linarith [neg_abs_le (f a), abs_nonneg (f b)]
  · linarith [le_abs_self (f b), abs_nonneg (f a)]

theorem bv_anti {f : ℝ → ℝ} {a b : ℝ} (h : AntitoneOn f (Set.Icc a b)) : BoundedVariationOn f (Set.Icc a b) := by
  have := bv_neg (bv_mono (f := fun x => -f x) (a := a) (b := b) fun x hx y hy e => neg_le_neg (h hx hy e))
  simpa using this

theorem bv_split {f : ℝ → ℝ} {a c b : ℝ} (h1 : a ≤ c) (h2 : c ≤ b) (hl : BoundedVariationOn f (Set.Icc a c))
    (hr : BoundedVariationOn f (Set.Icc c b)) : BoundedVariationOn f (Set.Icc a b) := by
  have := eVariationOn.Icc_add_Icc f (s := Set.univ) h1 h2 (Set.mem_univ _)
  simp only [Set.univ_inter] at this
  unfold BoundedVariationOn
  rw [← this]
  exact ENNReal.add_ne_top.mpr ⟨hl, hr⟩

/-- A function that falls up to `c` and rises after it. -/
theorem bv_valley {f : ℝ → ℝ} {a b : ℝ} (c : ℝ) (h1 : AntitoneOn f (Set.Icc a b ∩ Set.Iic c))
    (h2 : MonotoneOn f (Set.Icc a b ∩ Set.Ici c)) : BoundedVariationOn f (Set.Icc a b) := by
  rcases le_total c a with h | h
  · exact bv_mono (h2.mono fun x hx => ⟨hx, h.trans hx.1⟩)
  rcases le_total b c with h' | h'
  · exact bv_anti (h1.mono fun x hx => ⟨hx, hx.2.trans h'⟩)
  · exact bv_split h h' (bv_anti (h1.mono fun x hx => ⟨⟨hx.1, hx.2.trans h'⟩, hx.2⟩))
      (bv_mono (h2.mono fun x hx => ⟨⟨h.trans hx.1, hx.2⟩, hx.1⟩))

/-- A function of bounded variation of a function that falls up to `c` and rises after it. -/
theorem bv_comp {f φ : ℝ → ℝ} {a b : ℝ} (c : ℝ) (hf : ∀ p q, BoundedVariationOn f (Set.Icc p q))
    (h1 : AntitoneOn φ (Set.Icc a b ∩ Set.Iic c)) (h2 : MonotoneOn φ (Set.Icc a b ∩ Set.Ici c)) :
    BoundedVariationOn (fun x => f (φ x)) (Set.Icc a b) := by
  have dec : ∀ p q, AntitoneOn φ (Set.Icc p q) → BoundedVariationOn (fun x => f (φ x)) (Set.Icc p q) := fun p q h =>
    ne_top_of_le_ne_top (hf (φ q) (φ p)) (eVariationOn.comp_le_of_antitoneOn f φ h fun x hx =>
      ⟨h hx ⟨hx.1.trans hx.2, le_rfl⟩ hx.2, h ⟨le_rfl, hx.1.trans hx.2⟩ hx hx.1⟩)
  have inc : ∀ p q, MonotoneOn φ (Set.Icc p q) → BoundedVariationOn (fun x => f (φ x)) (Set.Icc p q) := fun p q h =>
    ne_top_of_le_ne_top (hf (φ p) (φ q)) (eVariationOn.comp_le_of_monotoneOn f φ h fun x hx =>
      ⟨h ⟨le_rfl, hx.1.trans hx.2⟩ hx hx.1, h hx ⟨hx.1.trans hx.2, le_rfl⟩ hx.2⟩)
  rcases le_total c a with h | h
  · exact inc _ _ (h2.mono fun x hx => ⟨hx, h.trans hx.1⟩)
  rcases le_total b c with h' | h'
  · exact dec _ _ (h1.mono fun x hx => ⟨hx, hx.2.trans h'⟩)
  · exact bv_split h h' (dec _ _ (h1.mono fun x hx => ⟨⟨hx.1, hx.2.trans h'⟩, hx.2⟩))
      (inc _ _ (h2.mono fun x hx => ⟨⟨h.trans hx.1, hx.2⟩, hx.1⟩))

theorem bv_integrable {f : ℝ → ℝ} {a b : ℝ} (hab : a ≤ b) (h : BoundedVariationOn f (Set.Icc a b)) :
    IntervalIntegrable f volume a b := by
  obtain ⟨p, q, hp, hq, e⟩ := h.locallyBoundedVariationOn.exists_monotoneOn_sub_monotoneOn
  have hu : Set.uIcc a b = Set.Icc a b := Set.uIcc_of_le hab
  subst e
  exact (MonotoneOn.intervalIntegrable (hu ▸ hp)).sub (MonotoneOn.intervalIntegrable (hu ▸ hq))

/-- The midpoint rule: with `n` intervals of width `w` the error is at most `w` times the variation. -/
theorem midpoint_error {f : ℝ → ℝ} {a b : ℝ} (hab : a ≤ b) (h : BoundedVariationOn f (Set.Icc a b)) {n : ℕ} (hn : 0 < n) :
    |∑ i ∈ range n, (b - a) / n * f (a + (i + 1 / 2) * ((b - a) / n)) - ∫ x in a..b, f x| ≤
      (b - a) / n * variation f a b := by
  set w := (b - a) / n with hw
  have hn' : (0 : ℝ) < n := by exact_mod_cast hn
  have w0 : 0 ≤ w := div_nonneg (by linarith) hn'.le
  let I : ℕ → ℝ := fun i => a + i * w
  have hI : Monotone I := fun i j hij => by
    have : (i : ℝ) ≤ j := by exact_mod_cast hij
    have := mul_le_mul_of_nonneg_right this w0
    change a + i * w ≤ a + j * w
    linarith
  have I0 : I 0 = a := by simp [I]
  have In : I n = b := by
    change a + n * w = b
    rw [hw, mul_div_cancel₀ _ hn'.ne']; ring
  have sub : ∀ i < n, Set.Icc (I i) (I (i + 1)) ⊆ Set.Icc a b := fun i hi => by
    refine Set.Icc_subset_Icc ?_ ?_
    · rw [← I0]; exact hI (Nat.zero_le _)
    · rw [← In]; exact hI hi
  have cell : ∀ i < n, |w * f (a + (i + 1 / 2) * w) - ∫ x in I i..I (i + 1), f x| ≤
      w * (eVariationOn f (Set.Icc (I i) (I (i + 1)))).toReal := by
    intro i hi
    have hb := h.mono (sub i hi)
    have le : I i ≤ I (i + 1) := hI (Nat.le_succ _)
    have width : I (i + 1) - I i = w := by
      change a + (((i + 1 : ℕ)) : ℝ) * w - (a + i * w) = w
      push_cast; ring
    have mid : a + (i + 1 / 2) * w ∈ Set.Icc (I i) (I (i + 1)) := by
      change a + i * w ≤ _ ∧ _ ≤ a + (((i + 1 : ℕ)) : ℝ) * w
      push_cast
      constructor <;> nlinarith
    have e : w * f (a + (i + 1 / 2) * w) - ∫ x in I i..I (i + 1), f x =
        ∫ x in I i..I (i + 1), (f (a + (i + 1 / 2) * w) - f x) := by
      rw [intervalIntegral.integral_sub intervalIntegrable_const (bv_integrable le hb), intervalIntegral.integral_const,
        smul_eq_mul, width]
    rw [e, ← Real.norm_eq_abs]
    have := intervalIntegral.norm_integral_le_of_norm_le_const (a := I i) (b := I (i + 1))
      (f := fun x => f (a + (i + 1 / 2) * w) - f x) (C := (eVariationOn f (Set.Icc (I i) (I (i + 1)))).toReal) fun x hx => by
        rw [Set.uIoc_of_le le] at hx
        have := hb.dist_le mid ⟨hx.1.le, hx.2⟩
        rwa [Real.dist_eq] at this
    rw [width, abs_of_nonneg w0] at this
    rw [mul_comm w]
    exact this
  have total : ∑ i ∈ range n, (eVariationOn f (Set.Icc (I i) (I (i + 1)))).toReal = variation f a b := by
    rw [← ENNReal.toReal_sum fun i hi => h.mono (sub i (mem_range.mp hi)), eVariationOn.sum' f hI, I0, In]
    rfl
  have ints : ∑ i ∈ range n, ∫ x in I i..I (i + 1), f x = ∫ x in a..b, f x := by
    rw [intervalIntegral.sum_integral_adjacent_intervals (a := I) fun i hi =>
      bv_integrable (hI (Nat.le_succ i)) (h.mono (sub i hi)), I0, In]
  rw [← ints, ← sum_sub_distrib, ← total, mul_sum]
  exact (abs_sum_le_sum_abs _ _).trans (sum_le_sum fun i hi => cell i (mem_range.mp hi))

end PySlope
