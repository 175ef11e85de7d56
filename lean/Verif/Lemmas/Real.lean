import Verif.Model.Dynamic
import Mathlib.Tactic.Linarith
import Mathlib.Tactic.NormNum
import Mathlib.Tactic.Ring
import Mathlib.Tactic.FieldSimp

/-! # The operations of the model at `ℝ` -/

namespace PySlope

theorem lit_real (n : Nat) : (@OfNat.ofNat ℝ n (Lit.natLit n)) = ((n : ℕ) : ℝ) := rfl

@[simp] theorem lit_zero : (@OfNat.ofNat ℝ 0 (Lit.natLit 0)) = (0 : ℝ) := Nat.cast_zero

@[simp] theorem lit_one : (@OfNat.ofNat ℝ 1 (Lit.natLit 1)) = (1 : ℝ) := Nat.cast_one

@[simp] theorem pyMax_real (a b : ℝ) : pyMax a b = max a b := by
  unfold pyMax; split
  · rename_i h; exact (max_eq_right (le_of_lt h)).symm
  · rename_i h; exact (max_eq_left (not_lt.mp h)).symm

@[simp] theorem pyMin_real (a b : ℝ) : pyMin a b = min a b := by
  unfold pyMin; split
  · rename_i h; exact (min_eq_right (le_of_lt h)).symm
  · rename_i h; exact (min_eq_left (not_lt.mp h)).symm

@[simp] theorem pyEq_real (a b : ℝ) : pyEq a b = decide (a = b) := by
  unfold pyEq
  rw [← Bool.decide_and]
  exact decide_eq_decide.mpr (le_antisymm_iff).symm

@[simp] theorem pyAbs_real (a : ℝ) : pyAbs a = |a| := by
  unfold pyAbs; split
  · rename_i h; simp at h; exact (abs_of_neg h).symm
  · rename_i h; simp at h; exact (abs_of_nonneg h).symm

@[simp] theorem sq_real (a : ℝ) : sq a = a ^ 2 := by unfold sq; ring

@[simp] theorem radians_real (a : ℝ) : radians a = a * (Real.pi / 180) := by
  unfold radians; rfl

@[simp] theorem ofInt_real (i : Int) : (ofInt i : ℝ) = (i : ℝ) := by
  cases i with
  | ofNat n => simp [ofInt]
  | negSucc n => simp [ofInt, Int.cast_negSucc]

@[simp] theorem clip0_real (a : ℝ) : clip0 a = max a 0 := by
  unfold clip0; split
  · rename_i h; simp at h; simp [max_eq_right (le_of_lt h)]
  · rename_i h; simp at h; simp [max_eq_left h]

theorem lsum_real (l : List ℝ) : lsum l = l.sum := by
  unfold lsum
  have : ∀ (l : List ℝ) (a : ℝ), l.foldl (· + ·) a = a + l.sum := by
    intro l; induction l with
    | nil => intro a; simp
    | cons x l ih => intro a; simp [ih, add_assoc]
  simp [this]

end PySlope
