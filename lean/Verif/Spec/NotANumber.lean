import Verif.Model.NotANumber
import Verif.Spec.Method

/-! # Specification: what is assumed of `list.sort`, and results with "not a number" -/

namespace PySlope

/-- Specification: what is known of `list.sort`, whatever `<` answers: it puts the elements in some
order; a list in which no element is less than the one before it is left as it is; and if `<` compares
numbers the result is the stable sort by them. (The order for other answers of `<` is not specified by
Python.) -/
structure ListSort {α : Type} (sort : (α → α → Bool) → List α → List α) : Prop where
  perm : ∀ lt l, (sort lt l).Perm l
  run : ∀ lt l, l.IsChain (fun a b => lt b a = false) → sort lt l = l
  stable : ∀ (lt : α → α → Bool) l (key : α → ℝ),
    (∀ a ∈ l, ∀ b ∈ l, lt a b = true ↔ key a < key b) → sort lt l = pySort lt l

/-- There is such a sort. -/
noncomputable def runSort {α : Type} (lt : α → α → Bool) (l : List α) : List α :=
  open Classical in if l.IsChain (fun a b => lt b a = false) then l else pySort lt l

/-- Specification: Bishop's iteration comes to the value 0 exactly before it has settled, with turns
left, while on one of the slices `sin · tan φ` is 0: the next turn divides 0 by 0. -/
def ComesToZero (s : Slope ℝ) (cx cy r xl xr : ℝ) : Prop :=
  let n := s.slices.toNat
  let q := sliceOf s cx cy r xl xr
  ∃ (k : ℕ) (f : ℕ → ℝ), k < s.maxIterations.toNat ∧
    f 0 = fellenius n q ∧ (∀ i < k, f (i + 1) = bishopRhs n q (f i)) ∧
    (∀ i < k, s.tolerance ≤ |f (i + 1) - f i|) ∧ f k = 0 ∧
    ∃ i < n, (q i).sin * (q i).tan = 0

end PySlope
