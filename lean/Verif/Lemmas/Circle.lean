import Verif.Spec.Circle
import Verif.Lemmas.Sort
import Mathlib.Tactic.LinearCombination

/-! # Circle and line, over the reals -/

namespace PySlope

/-- Closed form of `circleLine`: with `d` the direction, `D` the cross product and `P` the signed
position along the line. -/
theorem circleLine_eq (a b : ℝ × ℝ) (cx cy r : ℝ) :
    circleLine a b cx cy r =
      (let dx := b.1 - a.1
       let dy := b.2 - a.2
       let n := dx ^ 2 + dy ^ 2
       let D := (a.1 - cx) * (b.2 - cy) - (b.1 - cx) * (a.2 - cy)
       let disc := r ^ 2 * n - D ^ 2
       let P := (if dy < 0 then -1 else 1) * √disc
       if disc < 0 then .ok []
       else if n = 0 then .error .zeroDivision
       else if disc = 0 then .ok [((D * dy + dx * P) / n + cx, (-(D * dx) + dy * P) / n + cy)]
       else .ok [((D * dy + dx * P) / n + cx, (-(D * dx) + dy * P) / n + cy),
                 ((D * dy - dx * P) / n + cx, (-(D * dx) - dy * P) / n + cy)]) := by
  have e1 : b.1 - cx - (a.1 - cx) = b.1 - a.1 := by ring
  have e2 : b.2 - cy - (a.2 - cy) = b.2 - a.2 := by ring
  have en : √((b.1 - a.1) ^ 2 + (b.2 - a.2) ^ 2) ^ 2 = (b.1 - a.1) ^ 2 + (b.2 - a.2) ^ 2 :=
    Real.sq_sqrt (by positivity)
  have ed : |r ^ 2 * ((b.1 - a.1) ^ 2 + (b.2 - a.2) ^ 2)| =
      r ^ 2 * ((b.1 - a.1) ^ 2 + (b.2 - a.2) ^ 2) := abs_of_nonneg (by positivity)
  unfold circleLine
  simp only [sq_real, pyAbs_real, pyEq_real, lit_zero, lit_one, e1, e2, abs_sq]
  change (if |r ^ 2 * √((b.1 - a.1) ^ 2 + (b.2 - a.2) ^ 2) ^ 2| - _ < 0 then _ else
    if decide (√((b.1 - a.1) ^ 2 + (b.2 - a.2) ^ 2) ^ 2 = 0) = true then _ else
    if decide (|r ^ 2 * √((b.1 - a.1) ^ 2 + (b.2 - a.2) ^ 2) ^ 2| - _ = 0) = true then
      Except.ok [((_ + _ * √(|r ^ 2 * √((b.1 - a.1) ^ 2 + (b.2 - a.2) ^ 2) ^ 2| - _)) /
        √((b.1 - a.1) ^ 2 + (b.2 - a.2) ^ 2) ^ 2 + cx,
        (_ + _ * √(|r ^ 2 * √((b.1 - a.1) ^ 2 + (b.2 - a.2) ^ 2) ^ 2| - _)) /
        √((b.1 - a.1) ^ 2 + (b.2 - a.2) ^ 2) ^ 2 + cy)] else
      Except.ok [((_ + _ * √(|r ^ 2 * √((b.1 - a.1) ^ 2 + (b.2 - a.2) ^ 2) ^ 2| - _)) /
        √((b.1 - a.1) ^ 2 + (b.2 - a.2) ^ 2) ^ 2 + cx,
        (_ + _ * √(|r ^ 2 * √((b.1 - a.1) ^ 2 + (b.2 - a.2) ^ 2) ^ 2| - _)) /
        √((b.1 - a.1) ^ 2 + (b.2 - a.2) ^ 2) ^ 2 + cy),
        ((_ - _ * √(|r ^ 2 * √((b.1 - a.1) ^ 2 + (b.2 - a.2) ^ 2) ^ 2| - _)) /
        √((b.1 - a.1) ^ 2 + (b.2 - a.2) ^ 2) ^ 2 + cx,
        (_ - _ * √(|r ^ 2 * √((b.1 - a.1) ^ 2 + (b.2 - a.2) ^ 2) ^ 2| - _)) /
        √((b.1 - a.1) ^ 2 + (b.2 - a.2) ^ 2) ^ 2 + cy)]) = _
  rw [en, ed]
  simp only [decide_eq_true_eq]
  have hy : |b.2 - a.2| = (if b.2 - a.2 < 0 then -1 else 1) * (b.2 - a.2) := by
    by_cases h : b.2 - a.2 < 0
    · rw [if_pos h, abs_of_neg h]; ring
    · rw [if_neg h, abs_of_nonneg (not_lt.mp h)]; ring
  rw [hy]
  congr 1
  congr 1
  congr 1
  · ring_nf
  · ring_nf

theorem cross_line (a b p : ℝ × ℝ) (cx cy : ℝ) : OnLine a b p ↔
    (p.1 - cx) * (b.2 - a.2) - (p.2 - cy) * (b.1 - a.1) =
      (a.1 - cx) * (b.2 - cy) - (b.1 - cx) * (a.2 - cy) := by
  unfold OnLine
  constructor <;> intro h <;> linarith

theorem circleLine_spec {a b : ℝ × ℝ} (hab : a ≠ b) (cx cy r : ℝ) :
    ∃ l, circleLine a b cx cy r = .ok l ∧ (l.Nodup ∧ l.length ≤ 2) ∧
      ∀ p, p ∈ l ↔ OnCircle cx cy r p ∧ OnLine a b p := by
  rw [circleLine_eq]
  obtain ⟨a1, a2⟩ := a
  obtain ⟨b1, b2⟩ := b
  simp only [cross_line _ _ _ cx cy]
  unfold OnCircle
  set dx := b1 - a1 with hdx
  set dy := b2 - a2 with hdy
  set D := (a1 - cx) * (b2 - cy) - (b1 - cx) * (a2 - cy) with hD
  have hn : 0 < dx ^ 2 + dy ^ 2 := by
    have h : dx ≠ 0 ∨ dy ≠ 0 := by
      by_contra hc
      push Not at hc
      apply hab
      rw [Prod.mk.injEq]
      exact ⟨by linarith [hc.1], by linarith [hc.2]⟩
    rcases h with h | h
    · have := pow_pos (abs_pos.mpr h) 2; rw [sq_abs] at this; positivity
    · have := pow_pos (abs_pos.mpr h) 2; rw [sq_abs] at this; positivity
  set n := dx ^ 2 + dy ^ 2 with hnd
  -- the position along the line of a common point
  have hP : ∀ p : ℝ × ℝ, (p.1 - cx) ^ 2 + (p.2 - cy) ^ 2 = r ^ 2 →
      (p.1 - cx) * dy - (p.2 - cy) * dx = D →
      ((p.1 - cx) * dx + (p.2 - cy) * dy) ^ 2 = r ^ 2 * n - D ^ 2 ∧
      p.1 = (D * dy + dx * ((p.1 - cx) * dx + (p.2 - cy) * dy)) / n + cx ∧
      p.2 = (-(D * dx) + dy * ((p.1 - cx) * dx + (p.2 - cy) * dy)) / n + cy := by
    intro p h1 h2
    refine ⟨?_, ?_, ?_⟩
    · rw [← h1, ← h2, hnd]; ring
    · rw [← h2]; field_simp; rw [hnd]; ring
    · rw [← h2]; field_simp; rw [hnd]; ring
  have hQ : ∀ P : ℝ, P ^ 2 = r ^ 2 * n - D ^ 2 →
      ((D * dy + dx * P) / n + cx - cx) ^ 2 + ((-(D * dx) + dy * P) / n + cy - cy) ^ 2 = r ^ 2 ∧
      ((D * dy + dx * P) / n + cx - cx) * dy - ((-(D * dx) + dy * P) / n + cy - cy) * dx = D := by
    intro P h
    constructor
    · have : r ^ 2 = (P ^ 2 + D ^ 2) / n := by rw [h]; field_simp; ring
      rw [this]; field_simp; rw [hnd]; ring
    · field_simp; rw [hnd]; ring
  have hsg : ∀ σ : ℝ, ((if dy < 0 then (-1 : ℝ) else 1) * σ) ^ 2 = σ ^ 2 := by
    intro σ; split <;> ring
  by_cases h0 : r ^ 2 * n - D ^ 2 < 0
  · refine ⟨[], by rw [if_pos h0], ⟨List.nodup_nil, by simp⟩, ?_⟩
    intro p
    simp only [List.not_mem_nil, false_iff]
    rintro ⟨h1, h2⟩
    have := (hP p h1 h2).1
    have := sq_nonneg ((p.1 - cx) * dx + (p.2 - cy) * dy)
    linarith
  rw [if_neg h0, if_neg hn.ne']
  push Not at h0
  have hs : ((if dy < 0 then (-1 : ℝ) else 1) * √(r ^ 2 * n - D ^ 2)) ^ 2 = r ^ 2 * n - D ^ 2 := by
    rw [hsg, Real.sq_sqrt h0]
  set P := (if dy < 0 then (-1 : ℝ) else 1) * √(r ^ 2 * n - D ^ 2) with hPd
  by_cases h1 : r ^ 2 * n - D ^ 2 = 0
  · refine ⟨_, by rw [if_pos h1], ⟨List.nodup_singleton _, by simp⟩, ?_⟩
    intro p
    rw [List.mem_singleton]
    constructor
    · rintro rfl; exact hQ P hs
    · rintro ⟨h2, h3⟩
      obtain ⟨h4, h5, h6⟩ := hP p h2 h3
      rw [h1] at h4 hs
      have hz : (p.1 - cx) * dx + (p.2 - cy) * dy = P := by
        rw [pow_eq_zero_iff two_ne_zero] at h4 hs; rw [h4, hs]
      rw [hz] at h5 h6
      exact Prod.ext h5 h6
  · have hP0 : P ≠ 0 := by intro h; rw [h] at hs; apply h1; rw [← hs]; ring
    refine ⟨_, by rw [if_neg h1], ⟨?_, by simp⟩, ?_⟩
    · rw [List.nodup_cons]
      refine ⟨?_, List.nodup_singleton _⟩
      rw [List.mem_singleton, Prod.mk.injEq]
      rintro ⟨e1, e2⟩
      have e1' : dx * P = -(dx * P) := by
        have := e1; field_simp at this; linarith
      have e2' : dy * P = -(dy * P) := by
        have := e2; field_simp at this; linarith
      have f1 : dx * P = 0 := by linarith
      have f2 : dy * P = 0 := by linarith
      have g1 : dx = 0 := (mul_eq_zero.mp f1).resolve_right hP0
      have g2 : dy = 0 := (mul_eq_zero.mp f2).resolve_right hP0
      rw [hnd, g1, g2] at hn; norm_num at hn
    · intro p
      rw [List.mem_cons, List.mem_singleton]
      have hneg : ∀ p : ℝ × ℝ, p = ((D * dy - dx * P) / n + cx, (-(D * dx) - dy * P) / n + cy) ↔
          p = ((D * dy + dx * (-P)) / n + cx, (-(D * dx) + dy * (-P)) / n + cy) := by
        intro p; rw [show D * dy - dx * P = D * dy + dx * (-P) by ring,
          show -(D * dx) - dy * P = -(D * dx) + dy * (-P) by ring]
      rw [hneg]
      constructor
      · rintro (rfl | rfl)
        · exact hQ P hs
        · exact hQ (-P) (by rw [neg_sq]; exact hs)
      · rintro ⟨h2, h3⟩
        obtain ⟨h4, h5, h6⟩ := hP p h2 h3
        rw [← hs, sq_eq_sq_iff_eq_or_eq_neg] at h4
        rcases h4 with h4 | h4
        · left; rw [h4] at h5 h6; exact Prod.ext h5 h6
        · right; rw [h4] at h5 h6; exact Prod.ext h5 h6

end PySlope
