import Verif.Spec.Rounding
import Verif.Lemmas.Forces
import Mathlib.Topology.Algebra.Order.Field
import Mathlib.Topology.Order.LiminfLimsup
import Mathlib.Analysis.SpecificLimits.Basic

/-! # Sequences of arithmetics whose rounding errors go to zero -/

namespace PySlope
open Filter Topology Lit

/-- What is within a vanishing relative error of a convergent sequence converges to the same limit. -/
theorem tendsto_near {f g e : ℕ → ℝ} {c : ℝ} (hf : Tendsto f atTop (𝓝 c)) (he : Tendsto e atTop (𝓝 0))
    (h : ∀ᶠ n in atTop, |g n - f n| ≤ e n * |f n|) : Tendsto g atTop (𝓝 c) := by
  have h1 : Tendsto (fun n => e n * |f n|) atTop (𝓝 0) := by
    have := he.mul hf.abs
    rwa [zero_mul] at this
  have h2 : Tendsto (fun n => g n - f n) atTop (𝓝 0) := by
    rw [tendsto_zero_iff_abs_tendsto_zero]
    exact squeeze_zero' (Eventually.of_forall fun _ => abs_nonneg _) h h1
  have := hf.add h2
  rw [add_zero] at this
  exact this.congr fun n => by ring

theorem tendsto_close {f g e : ℕ → ℝ} {c : ℝ} (hf : Tendsto f atTop (𝓝 c)) (he : Tendsto e atTop (𝓝 0))
    (h : ∀ᶠ n in atTop, |g n - f n| ≤ e n) : Tendsto g atTop (𝓝 c) := by
  have h2 : Tendsto (fun n => g n - f n) atTop (𝓝 0) := by
    rw [tendsto_zero_iff_abs_tendsto_zero]
    exact squeeze_zero' (Eventually.of_forall fun _ => abs_nonneg _) h he
  have := hf.add h2
  rw [add_zero] at this
  exact this.congr fun n => by ring

/-- Arithmetics, one for every natural number, with errors that go to zero. -/
structure Better {K : ℕ → Type} [∀ n, PyNum (K n)] (val : ∀ n, K n → ℝ) (e : ℕ → ℝ) : Prop where
  acc : ∀ n, Accurate (e n) (val n)
  zero : Tendsto e atTop (𝓝 0)

/-- The numbers `x n` go to `a`. -/
def Lim {K : ℕ → Type} (val : ∀ n, K n → ℝ) (x : ∀ n, K n) (a : ℝ) : Prop :=
  Tendsto (fun n => val n (x n)) atTop (𝓝 a)

namespace Better
variable {K : ℕ → Type} [∀ n, PyNum (K n)] {val : ∀ n, K n → ℝ} {e : ℕ → ℝ} (B : Better val e)
variable {x y : ∀ n, K n} {a b : ℝ}
include B

theorem of_close (h : ∀ n, |val n (x n) - a| ≤ e n) : Lim val x a :=
  tendsto_close tendsto_const_nhds B.zero (.of_forall h)

theorem add (hx : Lim val x a) (hy : Lim val y b) : Lim val (fun n => x n + y n) (a + b) :=
  tendsto_near (Tendsto.add hx hy) B.zero (.of_forall fun n => (B.acc n).add _ _)

theorem sub (hx : Lim val x a) (hy : Lim val y b) : Lim val (fun n => x n - y n) (a - b) :=
  tendsto_near (Tendsto.sub hx hy) B.zero (.of_forall fun n => (B.acc n).sub _ _)

theorem mul (hx : Lim val x a) (hy : Lim val y b) : Lim val (fun n => x n * y n) (a * b) :=
  tendsto_near (Tendsto.mul hx hy) B.zero (.of_forall fun n => (B.acc n).mul _ _)

theorem ne_zero (hy : Lim val y b) (hb : b ≠ 0) : ∀ᶠ n in atTop, val n (y n) ≠ 0 := hy.eventually_ne hb

theorem div (hx : Lim val x a) (hy : Lim val y b) (hb : b ≠ 0) : Lim val (fun n => x n / y n) (a / b) :=
  tendsto_near (Tendsto.div hx hy hb) B.zero ((B.ne_zero hy hb).mono fun n h => (B.acc n).div _ _ h)

theorem neg (hx : Lim val x a) : Lim val (fun n => -x n) (-a) := by
  have := Tendsto.neg hx
  exact this.congr fun n => ((B.acc n).neg _).symm

theorem nat (m : ℕ) : Lim val (fun n => ((m : ℕ) : K n)) m :=
  tendsto_near tendsto_const_nhds B.zero (.of_forall fun n => by
    have := (B.acc n).nat m
    rwa [Nat.abs_cast])

theorem ofNat (m : ℕ) : Lim val (fun n => (@OfNat.ofNat (K n) m (Lit.natLit m))) m := B.nat m

theorem val_zero (n : ℕ) : val n (@OfNat.ofNat (K n) 0 (Lit.natLit 0)) = 0 := by
  have := (B.acc n).nat 0
  rw [Nat.cast_zero, mul_zero, sub_zero] at this
  exact abs_eq_zero.mp (le_antisymm this (abs_nonneg _))

theorem sci (m : ℕ) (s : Bool) (d : ℕ) :
    Lim val (fun n => (OfScientific.ofScientific m s d : K n)) (OfScientific.ofScientific m s d : ℝ) :=
  tendsto_near tendsto_const_nhds B.zero (.of_forall fun n => (B.acc n).lit m s d)

theorem int (i : Int) : Lim val (fun n => (ofInt i : K n)) i := by
  cases i with
  | ofNat n => exact B.nat n
  | negSucc n =>
    have := B.neg (B.nat (n + 1))
    simp only [ofInt]
    rw [Int.cast_negSucc]
    exact this

theorem sqrt (hx : Lim val x a) (ha : 0 < a) : Lim val (fun n => PyNum.sqrt (x n)) (√a) :=
  tendsto_near (Tendsto.sqrt hx) B.zero ((hx.eventually (lt_mem_nhds ha)).mono fun n h => by
    have := (B.acc n).sqrt (x n) (le_of_lt h)
    rwa [abs_of_nonneg (Real.sqrt_nonneg _)])

theorem sin (hx : Lim val x a) : Lim val (fun n => PyNum.sin (x n)) (Real.sin a) :=
  tendsto_close ((Real.continuous_sin.tendsto a).comp hx) B.zero (.of_forall fun n => (B.acc n).sin _)

theorem cos (hx : Lim val x a) : Lim val (fun n => PyNum.cos (x n)) (Real.cos a) :=
  tendsto_close ((Real.continuous_cos.tendsto a).comp hx) B.zero (.of_forall fun n => (B.acc n).cos _)

theorem atan (hx : Lim val x a) : Lim val (fun n => PyNum.atan (x n)) (Real.arctan a) :=
  tendsto_close ((Real.continuous_arctan.tendsto a).comp hx) B.zero (.of_forall fun n => (B.acc n).atan _)

theorem sq (hx : Lim val x a) : Lim val (fun n => PySlope.sq (x n)) (a ^ 2) := by
  rw [pow_two]; exact B.mul hx hx

theorem pyMax (hx : Lim val x a) (hy : Lim val y b) : Lim val (fun n => PySlope.pyMax (x n) (y n)) (max a b) := by
  refine (Tendsto.max hx hy).congr fun n => ?_
  change _ = val n (PySlope.pyMax _ _)
  unfold PySlope.pyMax
  split
  · rename_i h; exact max_eq_right (((B.acc n).lt _ _).mp h).le
  · rename_i h; exact max_eq_left (not_lt.mp fun c => h (((B.acc n).lt _ _).mpr c))

theorem pyMin (hx : Lim val x a) (hy : Lim val y b) : Lim val (fun n => PySlope.pyMin (x n) (y n)) (min a b) := by
  refine (Tendsto.min hx hy).congr fun n => ?_
  change _ = val n (PySlope.pyMin _ _)
  unfold PySlope.pyMin
  split
  · rename_i h; exact min_eq_right (((B.acc n).lt _ _).mp h).le
  · rename_i h; exact min_eq_left (not_lt.mp fun c => h (((B.acc n).lt _ _).mpr c))

theorem clip0 (hx : Lim val x a) : Lim val (fun n => PySlope.clip0 (x n)) (max a 0) := by
  refine (Tendsto.max hx tendsto_const_nhds).congr fun n => ?_
  change _ = val n (PySlope.clip0 _)
  unfold PySlope.clip0
  split
  · rename_i h
    have := ((B.acc n).lt _ _).mp h
    rw [B.val_zero] at this ⊢
    exact max_eq_right this.le
  · rename_i h
    refine max_eq_left (not_lt.mp fun c => h (((B.acc n).lt _ _).mpr ?_))
    rw [B.val_zero]; exact c

theorem pyAbs (hx : Lim val x a) : Lim val (fun n => PySlope.pyAbs (x n)) |a| := by
  refine (Tendsto.abs hx).congr fun n => ?_
  change _ = val n (PySlope.pyAbs _)
  unfold PySlope.pyAbs
  split
  · rename_i h
    have := ((B.acc n).lt _ _).mp h
    rw [B.val_zero] at this
    rw [(B.acc n).neg]
    exact abs_of_neg this
  · rename_i h
    refine abs_of_nonneg (not_lt.mp fun c => h (((B.acc n).lt _ _).mpr ?_))
    rw [B.val_zero]; exact c

theorem lt (hx : Lim val x a) (hy : Lim val y b) (h : a < b) : ∀ᶠ n in atTop, x n < y n :=
  (hx.eventually_lt hy h).mono fun n h => ((B.acc n).lt _ _).mpr h

theorem not_lt (hx : Lim val x a) (hy : Lim val y b) (h : b < a) : ∀ᶠ n in atTop, ¬ x n < y n :=
  (hy.eventually_lt hx h).mono fun n h c => absurd (((B.acc n).lt _ _).mp c) (_root_.not_lt.mpr h.le)

theorem le (hx : Lim val x a) (hy : Lim val y b) (h : a < b) : ∀ᶠ n in atTop, x n ≤ y n :=
  (hx.eventually_lt hy h).mono fun n h => ((B.acc n).le _ _).mpr h.le

theorem not_le (hx : Lim val x a) (hy : Lim val y b) (h : b < a) : ∀ᶠ n in atTop, ¬ x n ≤ y n :=
  (hy.eventually_lt hx h).mono fun n h c => absurd (((B.acc n).le _ _).mp c) (_root_.not_le.mpr h)

theorem not_eq (hx : Lim val x a) (hy : Lim val y b) (h : a ≠ b) : ∀ᶠ n in atTop, pyEq (x n) (y n) = false := by
  rcases lt_or_gt_of_ne h with c | c
  · filter_upwards [B.not_le hy hx c] with n hn
    unfold pyEq
    rw [decide_eq_false hn, Bool.and_false]
  · filter_upwards [B.not_le hx hy c] with n hn
    unfold pyEq
    rw [decide_eq_false hn, Bool.false_and]

omit [∀ n, PyNum (K n)] B in
theorem congr (hx : Lim val x a) (h : ∀ᶠ n in atTop, y n = x n) : Lim val y a :=
  Tendsto.congr' (h.mono fun n hn => (congrArg (val n) hn).symm) hx

theorem zero' : Lim val (fun n => (@OfNat.ofNat (K n) 0 (Lit.natLit 0))) 0 := by
  have := B.ofNat 0
  rwa [Nat.cast_zero] at this

omit [∀ n, PyNum (K n)] B in
/-- Both branches have the same limit. -/
theorem ite_same {p : ℕ → Prop} [∀ n, Decidable (p n)] (hx : Lim val x a) (hy : Lim val y a) :
    Lim val (fun n => if p n then x n else y n) a := by
  refine Tendsto.congr (f₁ := fun n => if p n then val n (x n) else val n (y n)) (fun n => (apply_ite (val n) (p n) (x n) (y n)).symm) ?_
  exact Tendsto.if' hx hy

omit [∀ n, PyNum (K n)] B in
theorem ite_pos {p : ℕ → Prop} [∀ n, Decidable (p n)] (h : ∀ᶠ n in atTop, p n) (hx : Lim val x a) :
    Lim val (fun n => if p n then x n else y n) a :=
  congr hx (h.mono fun n hn => if_pos hn)

omit [∀ n, PyNum (K n)] B in
theorem ite_neg {p : ℕ → Prop} [∀ n, Decidable (p n)] (h : ∀ᶠ n in atTop, ¬ p n) (hy : Lim val y a) :
    Lim val (fun n => if p n then x n else y n) a :=
  congr hy (h.mono fun n hn => if_neg hn)

end Better
end PySlope
