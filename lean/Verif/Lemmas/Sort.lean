import Verif.Lemmas.Real
import Mathlib.Data.List.Perm.Basic
import Mathlib.Data.List.Nodup

/-! # Sorting and `set` -/

namespace PySlope

theorem sortByKey_perm {K : Type} [PyNum K] {α : Type} (k : α → K) (l : List α) : (sortByKey k l).Perm l :=
  List.mergeSort_perm _ _

theorem sortByKey_sorted {α : Type} (k : α → ℝ) (l : List α) :
    (sortByKey k l).Pairwise (fun a b => k a ≤ k b) := by
  have h := List.pairwise_mergeSort (le := fun a b => !(decide (k b < k a)))
    (by intro a b c; simp; intro h1 h2; exact h1.trans h2)
    (by intro a b; simp; exact le_total _ _) l
  refine h.imp ?_
  intro a b hab; simpa using hab

theorem setSizeNum_go (l acc : List ℝ) (hacc : acc.Nodup) :
    let r := l.foldl (fun acc p => if acc.any (fun q => pyEq p q) then acc else acc ++ [p]) acc
    r.Nodup ∧ r.length ≤ acc.length + l.length ∧
      (r.length = acc.length + l.length → l.Nodup ∧ ∀ x ∈ l, x ∉ acc) ∧
      (l.Nodup → (∀ x ∈ l, x ∉ acc) → r.length = acc.length + l.length) := by
  induction l generalizing acc with
  | nil => simp [hacc]
  | cons x l ih =>
    simp only [List.foldl_cons]
    by_cases hx : x ∈ acc
    · have : (acc.any fun q => pyEq x q) = true := by simp [hx]
      simp only [this, if_true]
      obtain ⟨h1, h2, _, _⟩ := ih acc hacc
      refine ⟨h1, by simp only [List.length_cons]; omega, ?_, ?_⟩
      · intro h; simp only [List.length_cons] at h; omega
      · intro _ h; exact absurd hx (h x (by simp))
    · have hf : (acc.any fun q => pyEq x q) = false := by
        simp; intro y hy e; exact hx (e ▸ hy)
      simp only [hf, Bool.false_eq_true, if_false]
      have hn : (acc ++ [x]).Nodup := by
        rw [List.nodup_append]; simp [hacc]; intro a ha e; exact hx (e ▸ ha)
      obtain ⟨h1, h2, h3, h4⟩ := ih (acc ++ [x]) hn
      simp only [List.length_append, List.length_cons, List.length_nil] at h2 h3 h4
      refine ⟨h1, by simp only [List.length_cons]; omega, ?_, ?_⟩
      · intro h
        simp only [List.length_cons] at h
        obtain ⟨p, q⟩ := h3 (by omega)
        refine ⟨List.nodup_cons.mpr ⟨fun hm => (q x hm) (by simp), p⟩, ?_⟩
        intro y hy
        rcases List.mem_cons.mp hy with rfl | hy
        · exact hx
        · exact fun hm => q y hy (by simp [hm])
      · intro hnd hni
        rw [List.nodup_cons] at hnd
        have := h4 hnd.2 (by
          intro y hy; simp
          exact ⟨hni y (by simp [hy]), fun e => hnd.1 (e ▸ hy)⟩)
        simp only [List.length_cons]; omega

/-- `len(depths) > len(set(depths))` is false exactly when the depths are distinct. -/
theorem setSizeNum_lt_iff (l : List ℝ) : setSizeNum l < l.length ↔ ¬ l.Nodup := by
  obtain ⟨_, h2, h3, h4⟩ := setSizeNum_go l [] (by simp)
  simp only [List.length_nil, Nat.zero_add] at h2 h3 h4
  change List.length (List.foldl _ [] l) < l.length ↔ _
  constructor
  · intro h hn; have := h4 hn (by simp); omega
  · intro h; by_contra hc; exact h (h3 (by omega)).1

end PySlope
