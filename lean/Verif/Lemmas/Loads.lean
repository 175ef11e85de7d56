import Verif.Lemmas.Slices
import Verif.Spec.Ground

/-! # The loads on the slices -/

namespace PySlope

theorem foldl_add {α : Type} (f : α → ℝ) (l : List α) (a : ℝ) :
    l.foldl (fun W u => W + f u) a = a + (l.map f).sum := by
  induction l generalizing a with
  | nil => simp
  | cons x l ih => rw [List.foldl_cons, ih, List.map_cons, List.sum_cons]; ring

/-- The part of `[a, b]` in common with `[l, r]` as a difference. -/
theorem common_eq {a b l r : ℝ} (hab : a ≤ b) (hlr : l ≤ r) :
    common a b l r = max l (min b r) - max l (min a r) := by
  unfold common
  rcases le_total b r with h1 | h1 <;> rcases le_total a r with h2 | h2 <;>
    rcases le_total a l with h3 | h3 <;> rcases le_total b l with h4 | h4 <;>
    simp only [min_eq_left, min_eq_right, max_eq_left, max_eq_right, h1, h2, h3, h4, hlr] <;>
    first
      | (rw [max_eq_left (by linarith)] <;> linarith)
      | (rw [max_eq_right (by linarith)] <;> linarith)

theorem common_empty {a b l r : ℝ} (h : r < l) : common a b l r = 0 := by
  unfold common
  apply max_eq_right
  have := min_le_right b r
  have := le_max_right a l
  linarith

theorem common_nonneg (a b l r : ℝ) : 0 ≤ common a b l r := le_max_right _ _

/-- Neighbouring intervals. -/
theorem common_tile (l r x0 w : ℝ) (hw : 0 ≤ w) (n : ℕ) :
    ((List.range n).map fun i : ℕ => common (x0 + i * w) (x0 + (i + 1) * w) l r).sum =
      common x0 (x0 + n * w) l r := by
  rcases lt_or_ge r l with h | h
  · simp only [common_empty h]
    simp
  · induction n with
    | zero => simp [common_eq (le_refl x0) h]
    | succ n ih =>
      have hn : (0 : ℝ) ≤ n := Nat.cast_nonneg n
      rw [List.range_succ, List.map_append, List.sum_append, ih]
      simp only [List.map_cons, List.map_nil, List.sum_cons, List.sum_nil, add_zero]
      rw [common_eq (by nlinarith) h, common_eq (by nlinarith) h,
        common_eq (by push_cast; nlinarith) h]
      push_cast
      ring

/-- Weight of a slice: soil, distributed loads, line loads. -/
theorem rowWeight_eq (s : Slope ℝ) (w : ℝ) (q : Row ℝ) :
    s.rowWeight w q = s.stripWeight w q.yt q.yb +
      (s.udls.map fun u => common (q.x - w / 2) (q.x + w / 2) u.left u.right * u.load.magnitude).sum +
      (s.lls.map fun l => if q.x - w / 2 ≤ l.coord ∧ l.coord < q.x + w / 2 then l.load.magnitude
        else 0).sum := by
  unfold Slope.rowWeight
  have e2 : (@OfNat.ofNat ℝ 2 (Lit.natLit 2)) = 2 := rfl
  simp only [e2, clip0_real, pyMin_real, pyMax_real]
  rw [foldl_add]
  rw [← foldl_add (fun l : PLl ℝ => if q.x - w / 2 ≤ l.coord ∧ l.coord < q.x + w / 2 then
    l.load.magnitude else 0)]
  apply List.foldl_ext
  intro a l _
  by_cases h : q.x - w / 2 ≤ l.coord ∧ l.coord < q.x + w / 2
  · rw [if_pos h, if_pos h]
  · rw [if_neg h, if_neg h, add_zero]

/-- Left edge of slice `i`. -/
theorem centre_edges (xl xr : ℝ) (n : Int) (i : ℕ) :
    centre xl xr n i - (xr - xl) / n / 2 = xl + i * ((xr - xl) / n) ∧
    centre xl xr n i + (xr - xl) / n / 2 = xl + (i + 1) * ((xr - xl) / n) := by
  unfold centre
  constructor <;> ring

/-- The slice a point is over. -/
theorem slice_of {xl w x : ℝ} (hw : 0 < w) {n : ℕ} (h1 : xl ≤ x) (h2 : x < xl + n * w) :
    ∃! i : ℕ, i < n ∧ xl + i * w ≤ x ∧ x < xl + (i + 1) * w := by
  have hx : 0 ≤ (x - xl) / w := div_nonneg (by linarith) hw.le
  refine ⟨⌊(x - xl) / w⌋₊, ⟨?_, ?_, ?_⟩, ?_⟩
  · rw [Nat.floor_lt hx, div_lt_iff₀ hw]; linarith
  · have := Nat.floor_le hx
    rw [le_div_iff₀ hw] at this; linarith
  · have := Nat.lt_floor_add_one ((x - xl) / w)
    rw [div_lt_iff₀ hw] at this; linarith
  · rintro i ⟨_, h3, h4⟩
    symm
    rw [Nat.floor_eq_iff hx]
    constructor
    · rw [le_div_iff₀ hw]; linarith
    · rw [div_lt_iff₀ hw]; linarith

end PySlope
