import Verif.Spec.Polygon
import Verif.Props.PlotCircle
import Verif.Props.Materials
import Verif.Props.Loads
import Verif.Lemmas.UdlMax
import Mathlib.Analysis.SpecialFunctions.Integrals.Basic

/-! # Properties of the plotted boundary (C62, C63) and a plot that raises (C61) -/

namespace PySlope

/-- The line `[(0, l), (x, l)]` at level `l` ends on the ground surface, at the toe side. -/
structure TopLine (s : Slope ℝ) (top : List (ℝ × ℝ)) (l x : ℝ) : Prop where
  eq : top = [(0, l), (x, l)]
  above : s.botY ≤ l → l - s.botY = s.gradient * (s.botX - x) ∧ s.topX ≤ x ∧ x ≤ s.botX ∧ l ≤ s.topY
  below : l < s.botY → x = s.extL
  low : 0 ≤ l

/-- The area of the ground below level `l`. -/
noncomputable def areaBelow (s : Slope ℝ) (l x : ℝ) : ℝ :=
  if s.botY ≤ l then
    x * l + (s.botX - x) * (l + s.botY) / 2 + (s.extL - s.botX) * s.botY
  else s.extL * l

theorem Geo.pos {s : Slope ℝ} (g : Geo s) :
    0 < s.topX ∧ s.topX < s.botX ∧ s.botX < s.extL ∧ 0 < s.botY ∧ s.botY ≤ s.topY ∧ 0 ≤ s.gradient ∧
      s.topY - s.botY = s.gradient * (s.botX - s.topX) := by
  have h1 := g.lenPos
  have h2 := g.topX
  have h3 := g.botX
  have h4 := g.extL5
  have h5 := g.topY
  have h6 := g.botY
  have h7 := g.extH3
  have h8 := g.hgt
  have h9 := g.extH5
  refine ⟨by linarith, by linarith, by linarith, ?_, by linarith, ?_, ?_⟩
  · rcases h8.eq_or_lt with h | h
    · rw [← h] at h6; linarith
    · linarith
  · rw [g.grad]; positivity
  · rw [g.grad, h3, h5, h6]; field_simp; ring

theorem groundY_toe {s : Slope ℝ} (g : Geo s) {x : ℝ} (h : s.botX ≤ x) : groundY s x = s.botY := by
  have := g.lenPos
  have h3 := g.botX
  unfold groundY
  rw [if_neg (by linarith), if_neg (by linarith), g.botY]

theorem groundY_crest {s : Slope ℝ} (g : Geo s) {x : ℝ} (h : x ≤ s.topX) :
    groundY s x = s.topY := by
  unfold groundY
  rw [if_pos h, g.topY]

theorem groundY_face {s : Slope ℝ} (g : Geo s) {x : ℝ} (h : s.topX ≤ x) (h' : x ≤ s.botX) :
    groundY s x = s.botY + s.gradient * (s.botX - x) := by
  have hl := g.lenPos
  have h3 := g.botX
  have hg : s.gradient * s.length = s.height := by rw [g.grad]; field_simp
  rcases h.eq_or_lt with h | h
  · rw [groundY_crest g h.ge, g.topY, g.botY, h3, ← h]
    have : s.gradient * (s.topX + s.length - s.topX) = s.height := by rw [← hg]; ring
    linarith
  rcases h'.eq_or_lt with h' | h'
  · rw [groundY_toe g h'.ge, h']; ring
  unfold groundY
  rw [if_neg (by linarith), if_pos (by linarith), g.botY, ← g.grad, h3, ← hg]
  ring

/-- The area of the whole ground. -/
theorem ground_integral {s : Slope ℝ} (g : Geo s) :
    ∫ x in (0 : ℝ)..s.extL, groundY s x = areaBelow s s.topY s.topX := by
  obtain ⟨p1, p2, p3, p4, p5, p6, p7⟩ := g.pos
  have i1 : ∫ x in (0 : ℝ)..s.topX, groundY s x = s.topX * s.topY := by
    rw [intervalIntegral.integral_congr (g := fun _ => s.topY)]
    · simp
    · intro x hx
      rw [Set.uIcc_of_le p1.le] at hx
      exact groundY_crest g hx.2
  have i2 : ∫ x in s.topX..s.botX, groundY s x =
      (s.botX - s.topX) * (s.topY + s.botY) / 2 := by
    rw [intervalIntegral.integral_congr (g := fun x => s.botY + s.gradient * (s.botX - x))]
    · rw [intervalIntegral.integral_add (by simp) (by
        apply Continuous.intervalIntegrable; fun_prop), intervalIntegral.integral_const_mul,
        intervalIntegral.integral_sub (by simp) (by
        apply Continuous.intervalIntegrable; fun_prop)]
      simp
      have : s.topY = s.botY + s.gradient * (s.botX - s.topX) := by linarith
      rw [this]
      ring
    · intro x hx
      rw [Set.uIcc_of_le p2.le] at hx
      exact groundY_face g hx.1 hx.2
  have i3 : ∫ x in s.botX..s.extL, groundY s x = (s.extL - s.botX) * s.botY := by
    rw [intervalIntegral.integral_congr (g := fun _ => s.botY)]
    · simp
    · intro x hx
      rw [Set.uIcc_of_le p3.le] at hx
      exact groundY_toe g hx.1
  have c1 : IntervalIntegrable (groundY s) MeasureTheory.volume 0 s.topX :=
    ((continuous_const (y := s.topY)).intervalIntegrable 0 s.topX).congr (by
      intro x hx
      rw [Set.uIoc_of_le p1.le] at hx
      exact (groundY_crest g hx.2).symm)
  have c2 : IntervalIntegrable (groundY s) MeasureTheory.volume s.topX s.botX :=
    ((show Continuous fun x => s.botY + s.gradient * (s.botX - x) by fun_prop).intervalIntegrable
      _ _).congr (by
      intro x hx
      rw [Set.uIoc_of_le p2.le] at hx
      exact (groundY_face g hx.1.le hx.2).symm)
  have c3 : IntervalIntegrable (groundY s) MeasureTheory.volume s.botX s.extL :=
    ((continuous_const (y := s.botY)).intervalIntegrable _ _).congr (by
      intro x hx
      rw [Set.uIoc_of_le p3.le] at hx
      exact (groundY_toe g hx.1.le).symm)
  rw [← intervalIntegral.integral_add_adjacent_intervals (c1.trans c2) c3,
    ← intervalIntegral.integral_add_adjacent_intervals c1 c2, i1, i2, i3]
  unfold areaBelow
  rw [if_pos p5]

theorem pySort_pair (a b : ℝ) (y : ℝ) (h : a ≤ b) :
    pySort pairLt [(a, y), (b, y)] = [(a, y), (b, y)] := by
  apply List.mergeSort_of_pairwise
  simp only [List.pairwise_cons, List.mem_singleton, forall_eq, List.not_mem_nil, false_implies,
    implies_true, List.Pairwise.nil, and_true, pairLt, pyEq_real]
  by_cases e : b = a
  · simp [e]
  · simp [e, h]

theorem pySort_pair' (a b : ℝ) (y : ℝ) (h : a < b) :
    pySort pairLt [(b, y), (a, y)] = [(a, y), (b, y)] := by
  unfold pySort
  simp [List.mergeSort, List.MergeSort.Internal.splitInTwo, List.splitAt, List.splitAt.go,
    pairLt, h.ne, h]

/-- What one turn of the loop over the materials draws. -/
structure LayerDrawn (s : Slope ℝ) (l b : ℝ) (o : List (ℝ × ℝ)) : Prop where
  inside : ∀ v ∈ o, InGround s v ∧ v.2 ≤ l ∧ b ≤ v.2
  area : 0 ≤ polyArea o

theorem polyArea_four (a b c d : ℝ × ℝ) : polyArea [a, b, c, d] =
    ((b.1 * a.2 - a.1 * b.2) + (c.1 * b.2 - b.1 * c.2) + (d.1 * c.2 - c.1 * d.2) +
      (a.1 * d.2 - d.1 * a.2)) / 2 := by
  unfold polyArea
  simp [List.rotate]
  ring

theorem polyArea_six (a b c d e f : ℝ × ℝ) : polyArea [a, b, c, d, e, f] =
    ((b.1 * a.2 - a.1 * b.2) + (c.1 * b.2 - b.1 * c.2) + (d.1 * c.2 - c.1 * d.2) +
      (e.1 * d.2 - d.1 * e.2) + (f.1 * e.2 - e.1 * f.2) + (a.1 * f.2 - f.1 * a.2)) / 2 := by
  unfold polyArea
  simp [List.rotate]
  ring

theorem TopLine.ground {s : Slope ℝ} (g : Geo s) {top l x} (t : TopLine s top l x) :
    InGround s (0, l) ∧ InGround s (x, l) ∧ 0 < x := by
  obtain ⟨p1, p2, p3, p4, p5, p6, p7⟩ := g.pos
  rcases le_or_gt s.botY l with h | h
  · obtain ⟨t1, t2, t3, t4⟩ := t.above h
    refine ⟨⟨le_rfl, by simp only; linarith, t.low, ?_⟩, ⟨by simp only; linarith, by simp only; linarith, t.low, ?_⟩, by linarith⟩
    · simp only; rw [groundY_crest g (by linarith)]; exact t4
    · simp only; rw [groundY_face g t2 t3]; linarith
  · have := t.below h
    refine ⟨⟨le_rfl, by simp only; linarith, t.low, ?_⟩, ⟨by simp only; linarith, by simp only; linarith, t.low, ?_⟩, by linarith⟩
    · simp only; rw [groundY_crest g (by linarith)]; linarith
    · simp only; rw [this, groundY_toe g (by linarith)]; linarith

/-- The point of the ground surface at a level of the model. -/
theorem getExternalX_line {s : Slope ℝ} (g : Geo s) {r : ℝ} (h0 : 0 ≤ r) (h : r ≤ s.topY) :
    ∃ x, s.getExternalX r = .ok (some x) ∧ TopLine s [(0, r), (x, r)] r x := by
  obtain ⟨p1, p2, p3, p4, p5, p6, p7⟩ := g.pos
  unfold Slope.getExternalX
  by_cases h1 : r < s.botY
  · rw [if_pos h1]
    exact ⟨_, rfl, rfl, fun h => absurd h (not_le.mpr h1), fun _ => rfl, h0⟩
  rw [if_neg h1, not_lt] at *
  by_cases h2 : r < s.extH
  · rw [if_pos h2]
    have hg : 0 < s.gradient := by
      rcases p6.eq_or_lt with e | e
      · rw [← e] at p7; have := g.topY; linarith
      · exact e
    refine ⟨s.topX + (s.topY - r) / s.gradient, by
      simp [pyDiv, hg.ne', bind, Except.bind, pure, Except.pure], rfl, ?_,
      fun h => absurd h (not_lt.mpr h1), h0⟩
    intro _
    have q0 : 0 ≤ (s.topY - r) / s.gradient := div_nonneg (by linarith) hg.le
    have q1 : s.gradient * ((s.topY - r) / s.gradient) = s.topY - r := by field_simp
    have q2 : (s.topY - r) / s.gradient ≤ s.botX - s.topX := by
      rw [div_le_iff₀ hg]; linarith
    refine ⟨?_, by linarith, by linarith, h⟩
    have : s.gradient * (s.botX - (s.topX + (s.topY - r) / s.gradient)) =
      s.gradient * (s.botX - s.topX) - s.gradient * ((s.topY - r) / s.gradient) := by ring
    rw [this, q1]; linarith
  · rw [if_neg h2]
    have e : r = s.topY := by have := g.topY; linarith
    by_cases h3 : r = s.botY
    · refine ⟨s.botX, by simp [h3], rfl, fun _ => ⟨by rw [h3]; ring, p2.le, le_rfl, h⟩,
        fun h => absurd h (not_lt.mpr h1), h0⟩
    · refine ⟨s.topX, by simp [h3, e]; intro h; exact absurd (e.trans h) h3, rfl, fun _ => ⟨by rw [e]; exact p7, le_rfl, p2.le, h⟩,
        fun h => absurd h (not_lt.mpr h1), h0⟩

/-- The line drawn on top of a layer that starts at level `l`. -/
theorem layerOutline_eq {s : Slope ℝ} (g : Geo s) {l x : ℝ} {r : ℝ} (h0 : 0 ≤ r)
    (hr : r ≤ s.topY) (isLast : Bool) :
    ∃ x', TopLine s [(0, r), (x', r)] r x' ∧
    s.layerOutline [(0, l), (x, l)] r isLast = .ok
      (([(0, l), (x, l)] ++
        if (s.botY ≤ l ∧ r < s.botY) ∨ (isLast = true ∧ s.botY < l)
        then [(s.botX, s.botY), (s.extL, s.botY)] else []) ++
        (if isLast then [(s.extL, 0), (0, 0)] else [(x', r), (0, r)]),
        if isLast then [(0, 0), (s.extL, 0)] else [(0, r), (x', r)]) := by
  obtain ⟨p1, p2, p3, p4, p5, p6, p7⟩ := g.pos
  obtain ⟨x', e, t'⟩ := getExternalX_line g h0 hr
  obtain ⟨k1, k2, k3⟩ := t'.ground g
  have hL : 0 < s.extL := by linarith
  refine ⟨x', t', ?_⟩
  unfold Slope.layerOutline
  rw [e]
  cases isLast with
  | true =>
    simp only [bind, Except.bind, pure, Except.pure, if_true, lit_zero, pySort_pair' _ _ _ hL,
      List.reverse_cons, List.reverse_nil, List.nil_append, List.cons_append]
    split <;> simp
  | false =>
    simp only [bind, Except.bind, pure, Except.pure, if_false, lit_zero, bottomLine,
      pySort_pair _ _ _ k3.le, pySort_pair' _ _ _ k3, Bool.false_eq_true,
      List.reverse_cons, List.reverse_nil, List.nil_append, List.cons_append]
    split <;> simp_all

theorem layerOutline_mid {s : Slope ℝ} (g : Geo s) {top l x} (t : TopLine s top l x) {r : ℝ}
    (h0 : 0 ≤ r) (hr : r ≤ l) (hl : l ≤ s.topY) :
    ∃ o top' x', s.layerOutline top r false = .ok (o, top') ∧ TopLine s top' r x' ∧
      LayerDrawn s l r o ∧ polyArea o = areaBelow s l x - areaBelow s r x' := by
  obtain ⟨p1, p2, p3, p4, p5, p6, p7⟩ := g.pos
  obtain ⟨x', t', e⟩ := layerOutline_eq g (l := l) (x := x) h0 (hr.trans hl) false
  obtain ⟨g1, g2, g3⟩ := t.ground g
  obtain ⟨k1, k2, k3⟩ := t'.ground g
  have ht := t.eq
  subst ht
  refine ⟨_, _, x', e, t', ?_⟩
  by_cases hc : s.botY ≤ l ∧ r < s.botY
  · simp only [hc, Bool.false_eq_true, and_self, true_or, if_true, if_false, List.cons_append,
      List.nil_append]
    obtain ⟨a1, a2, a3, a4⟩ := t.above hc.1
    have b1 := t'.below hc.2
    have ha : polyArea [(0, l), (x, l), (s.botX, s.botY), (s.extL, s.botY), (x', r), (0, r)] =
        areaBelow s l x - areaBelow s r x' := by
      rw [polyArea_six]
      unfold areaBelow
      rw [if_pos hc.1, if_neg (not_le.mpr hc.2), b1]
      simp only
      ring
    have hp : areaBelow s l x - areaBelow s r x' =
        x * (l - r) + (s.botX - x) * ((l - r) + (s.botY - r)) / 2 + (s.extL - s.botX) * (s.botY - r) := by
      unfold areaBelow
      rw [if_pos hc.1, if_neg (not_le.mpr hc.2)]
      ring
    have n1 : 0 ≤ x * (l - r) := mul_nonneg g3.le (by linarith)
    have n2 : 0 ≤ (s.botX - x) * ((l - r) + (s.botY - r)) := mul_nonneg (by linarith) (by linarith [hc.2])
    have n3 : 0 ≤ (s.extL - s.botX) * (s.botY - r) := mul_nonneg (by linarith) (by linarith [hc.2])
    refine ⟨⟨?_, by rw [ha, hp]; linarith⟩, ha⟩
    intro v hv
    simp only [List.mem_cons, List.not_mem_nil, or_false] at hv
    rcases hv with rfl | rfl | rfl | rfl | rfl | rfl
    · exact ⟨g1, le_rfl, hr⟩
    · exact ⟨g2, le_rfl, hr⟩
    · exact ⟨⟨by simp only; linarith, by simp only; linarith, p4.le, by
        simp only; rw [groundY_toe g le_rfl]⟩, hc.1, hc.2.le⟩
    · exact ⟨⟨by simp only; linarith, le_rfl, p4.le, by
        simp only; rw [groundY_toe g p3.le]⟩, hc.1, hc.2.le⟩
    · exact ⟨k2, hr, le_rfl⟩
    · exact ⟨k1, hr, le_rfl⟩
  · simp only [hc, Bool.false_eq_true, false_and, false_or, if_false, List.cons_append,
      List.nil_append]
    have ha : polyArea [(0, l), (x, l), (x', r), (0, r)] = (x + x') * (l - r) / 2 := by
      rw [polyArea_four]
      simp only
      ring
    have n1 : 0 ≤ (x + x') * (l - r) := mul_nonneg (by linarith) (by linarith)
    refine ⟨⟨?_, by rw [ha]; linarith⟩, ?_⟩
    · intro v hv
      simp only [List.mem_cons, List.not_mem_nil, or_false] at hv
      rcases hv with rfl | rfl | rfl | rfl
      · exact ⟨g1, le_rfl, hr⟩
      · exact ⟨g2, le_rfl, hr⟩
      · exact ⟨k2, hr, le_rfl⟩
      · exact ⟨k1, hr, le_rfl⟩
    · rw [ha]
      unfold areaBelow
      by_cases hb : s.botY ≤ l
      · have hr' : s.botY ≤ r := by
          by_contra h; exact hc ⟨hb, not_le.mp h⟩
        rw [if_pos hb, if_pos hr']
        obtain ⟨a1, _⟩ := t.above hb
        obtain ⟨b1, _⟩ := t'.above hr'
        have e1 : l = s.botY + s.gradient * (s.botX - x) := by linarith
        have e2 : r = s.botY + s.gradient * (s.botX - x') := by linarith
        rw [e1, e2]
        ring
      · rw [if_neg hb, if_neg (by linarith), t.below (not_le.mp hb), t'.below (by linarith)]
        ring

theorem layerOutline_last {s : Slope ℝ} (g : Geo s) {top l x} (t : TopLine s top l x) {r : ℝ}
    (h0 : 0 ≤ r) (hr : r ≤ l) (hl : l ≤ s.topY) (hd : r < l ∨ l ≠ s.botY) :
    ∃ o top', s.layerOutline top r true = .ok (o, top') ∧
      LayerDrawn s l 0 o ∧ polyArea o = areaBelow s l x := by
  obtain ⟨p1, p2, p3, p4, p5, p6, p7⟩ := g.pos
  obtain ⟨x', t', e⟩ := layerOutline_eq g (l := l) (x := x) h0 (hr.trans hl) true
  obtain ⟨g1, g2, g3⟩ := t.ground g
  have ht := t.eq
  subst ht
  refine ⟨_, _, e, ?_⟩
  have c0 : InGround s (0, 0) := ⟨le_rfl, by simp only; linarith, le_rfl, by
    simp only; rw [groundY_crest g p1.le]; linarith⟩
  have cL : InGround s (s.extL, 0) := ⟨by simp only; linarith, le_rfl, le_rfl, by
    simp only; rw [groundY_toe g p3.le]; linarith⟩
  by_cases hb : s.botY ≤ l
  · have hc : (s.botY ≤ l ∧ r < s.botY) ∨ (True ∧ s.botY < l) := by
      rcases hb.eq_or_lt with h | h
      · refine .inl ⟨hb, ?_⟩
        rcases hd with h' | h'
        · linarith
        · exact absurd h.symm h'
      · exact .inr ⟨trivial, h⟩
    simp only [hc, if_true, List.cons_append, List.nil_append]
    obtain ⟨a1, a2, a3, a4⟩ := t.above hb
    have ha : polyArea [(0, l), (x, l), (s.botX, s.botY), (s.extL, s.botY), (s.extL, 0), (0, 0)] =
        areaBelow s l x := by
      rw [polyArea_six]
      unfold areaBelow
      rw [if_pos hb]
      simp only
      ring
    have n1 : 0 ≤ x * l := mul_nonneg g3.le t.low
    have n2 : 0 ≤ (s.botX - x) * (l + s.botY) := mul_nonneg (by linarith) (by linarith)
    have n3 : 0 ≤ (s.extL - s.botX) * s.botY := mul_nonneg (by linarith) (by linarith)
    refine ⟨⟨?_, by rw [ha]; unfold areaBelow; rw [if_pos hb]; linarith⟩, ha⟩
    intro v hv
    simp only [List.mem_cons, List.not_mem_nil, or_false] at hv
    rcases hv with rfl | rfl | rfl | rfl | rfl | rfl
    · exact ⟨g1, le_rfl, t.low⟩
    · exact ⟨g2, le_rfl, t.low⟩
    · exact ⟨⟨by simp only; linarith, by simp only; linarith, p4.le, by
        simp only; rw [groundY_toe g le_rfl]⟩, hb, p4.le⟩
    · exact ⟨⟨by simp only; linarith, le_rfl, p4.le, by
        simp only; rw [groundY_toe g p3.le]⟩, hb, p4.le⟩
    · exact ⟨cL, t.low, le_rfl⟩
    · exact ⟨c0, t.low, le_rfl⟩
  · have hc : ¬ ((s.botY ≤ l ∧ r < s.botY) ∨ (True ∧ s.botY < l)) := by
      rintro (h | h)
      · exact hb h.1
      · exact hb h.2.le
    simp only [hc, if_true, if_false, List.cons_append, List.nil_append]
    have ha : polyArea [(0, l), (x, l), (s.extL, 0), (0, 0)] = areaBelow s l x := by
      rw [polyArea_four]
      unfold areaBelow
      rw [if_neg hb, t.below (not_le.mp hb)]
      simp only
      ring
    refine ⟨⟨?_, ?_⟩, ha⟩
    · intro v hv
      simp only [List.mem_cons, List.not_mem_nil, or_false] at hv
      rcases hv with rfl | rfl | rfl | rfl
      · exact ⟨g1, le_rfl, t.low⟩
      · exact ⟨g2, le_rfl, t.low⟩
      · exact ⟨cL, t.low, le_rfl⟩
      · exact ⟨c0, t.low, le_rfl⟩
    · rw [ha]
      unfold areaBelow
      rw [if_neg hb]
      exact mul_nonneg (by linarith) t.low

theorem outlinesFrom_tile {s : Slope ℝ} (g : Geo s) (ms : List (Layer ℝ)) (hne : ms ≠ [])
    (hs : ms.Pairwise (fun a b => a.mat.depth < b.mat.depth))
    (hm : ∀ m ∈ ms, m.rl = s.topY - m.mat.depth ∧ m.mat.depth ≤ s.topY)
    {top l x} (t : TopLine s top l x) (hl : l ≤ s.topY) (hr : ∀ m ∈ ms, s.topY - m.mat.depth ≤ l)
    (hd : (∀ m ∈ ms, s.topY - m.mat.depth < l) ∨ l ≠ s.botY ∨ 2 ≤ ms.length) :
    ∃ os, s.outlinesFrom ms top = .ok os ∧ Stacked s l ms os ∧
      (∀ o ∈ os, 0 ≤ polyArea o) ∧ (os.map polyArea).sum = areaBelow s l x := by
  induction ms generalizing top l x with
  | nil => exact absurd rfl hne
  | cons m rest ih =>
    obtain ⟨h1, h2⟩ := hm m (.head _)
    have hrm := hr m (.head _)
    cases rest with
    | nil =>
      obtain ⟨o, top', e, hdr, ha⟩ := layerOutline_last g t (r := m.rl) (by linarith)
        (by rw [h1]; exact hrm) hl (by
          rcases hd with h | h | h
          · exact .inl (by rw [h1]; exact h m (.head _))
          · exact .inr h
          · simp at h)
      refine ⟨[o], ?_, ⟨?_, trivial⟩, ?_, ?_⟩
      · simp [Slope.outlinesFrom, e, bind, Except.bind, pure, Except.pure]
      · simpa using hdr.inside
      · simpa using hdr.area
      · simpa using ha
    | cons m' rest =>
      obtain ⟨o, top', x', e, t', hdr, ha⟩ := layerOutline_mid g t (r := m.rl) (by linarith)
        (by rw [h1]; exact hrm) hl
      rw [List.pairwise_cons] at hs
      obtain ⟨os, e', st, hp, hsum⟩ := ih (by simp) hs.2 (fun q hq => hm q (.tail _ hq)) t'
        (by rw [h1]; linarith)
        (fun q hq => by rw [h1]; linarith [hs.1 q hq])
        (.inl fun q hq => by rw [h1]; linarith [hs.1 q hq])
      refine ⟨o :: os, ?_, ⟨?_, ?_⟩, ?_, ?_⟩
      · simp [Slope.outlinesFrom, e, e', bind, Except.bind, pure, Except.pure] at e' ⊢
        simp [e']
      · have := hdr.inside
        rw [h1, g.topY] at this
        simpa using this
      · rw [h1, g.topY] at st; exact st
      · intro q hq
        rcases List.mem_cons.mp hq with rfl | hq
        · exact hdr.area
        · exact hp q hq
      · simp [hsum, ha]

/-! ## C63 -/

/-- C63 (partial): when the layer levels agree with the crest (as they do after `set_materials`),
`plot_boundary` draws one outline for each layer, in the ground and between the levels where the
layer begins and ends, and the areas of the outlines add up to the area of the ground. Missing: the
levels may disagree after the boundary is changed (`C14_levels_stale`), and a flat slope whose only
layer has depth zero (`C63_flat`). -/
theorem C63_layers_tile_partial (s : Slope ℝ) (r : Reachable s) (hl : LevelsAgree s)
    (hne : s.materials ≠ []) (hd : 0 < s.height ∨ ∃ l ∈ s.materials, 0 < l.mat.depth) :
    ∃ os, s.outlines = .ok os ∧ Stacked s s.extH s.materials os ∧ (∀ o ∈ os, 0 ≤ polyArea o) ∧
      (os.map polyArea).sum = ∫ x in (0 : ℝ)..s.extL, groundY s x := by
  have g := r.wf.geo
  obtain ⟨p1, p2, p3, p4, p5, p6, p7⟩ := g.pos
  have t : TopLine s [(0, s.topY), (s.topX, s.topY)] s.topY s.topX :=
    ⟨rfl, fun _ => ⟨p7, le_rfl, p2.le, le_rfl⟩, fun h => absurd h (not_lt.mpr p5), by linarith⟩
  have hdep : ∀ m ∈ s.materials, 0 ≤ m.mat.depth := fun m hm =>
    (r.sane.mat _ (List.mem_map_of_mem hm)).facts.2.2.2.2.1
  have hd' : (∀ m ∈ s.materials, s.topY - m.mat.depth < s.topY) ∨ s.topY ≠ s.botY ∨
      2 ≤ s.materials.length := by
    rcases hd with h | ⟨l, hl, h⟩
    · right; left
      have h5 := g.topY
      have h6 := g.botY
      intro h'; linarith
    · rcases Nat.lt_or_ge s.materials.length 2 with h2 | h2
      · left
        intro m hm
        have : s.materials.length = 1 := by
          have := List.length_pos_of_mem hl; omega
        obtain ⟨q, hq⟩ := List.length_eq_one_iff.mp this
        rw [hq, List.mem_singleton] at hl hm
        subst hl; subst hm; linarith
      · exact .inr (.inr h2)
  have := outlinesFrom_tile g s.materials hne r.wf.mats hl t le_rfl
    (fun m hm => by linarith [hdep m hm]) hd'
  rw [ground_integral g]
  rw [g.topY] at this
  unfold Slope.outlines
  rw [lit_zero, g.topY]
  exact this

/-- C63 is met by the example of C40: one layer. -/
example : Reachable exNeg ∧ LevelsAgree exNeg ∧ exNeg.materials ≠ [] ∧ 0 < exNeg.height := by
  have g := exNeg_ground
  refine ⟨g.reach, ?_, g.ne, by rw [g.height]; norm_num⟩
  intro l hl
  change l ∈ [mkLayer exSlope.extH 0 (exFric 135 0)] at hl
  rw [List.mem_singleton] at hl
  subst hl
  refine ⟨rfl, ?_⟩
  change (exFric 135 0).depth ≤ exSlope.topY
  simp [exFric]
  norm_num

/-- The case left out of C63: `Slope(height=0, length=3)` with one material of depth 0, accepted by
the library. The outline of its only layer is smaller than the ground. -/
theorem C63_flat : ∃ s : Slope ℝ, Reachable s ∧ LevelsAgree s ∧ s.materials ≠ [] ∧
    ∃ os, s.outlines = .ok os ∧
      (os.map polyArea).sum < ∫ x in (0 : ℝ)..s.extL, groundY s x := by
  set t := (exSlope.setExternalBoundary (.num 0) (.num 30) (.num 3)).1 with ht
  have r1 : Reachable t := exSlope_reachable.call (.setExternalBoundary _ (.num 0) (.num 30) (.num 3))
  have e1 := setExternalBoundary_len (s := exSlope) 0 30 3 (by norm_num) (by norm_num) (by norm_num)
  have htm : t.materials = [] := by rw [ht, e1]; rfl
  have hth : t.height = 0 := by rw [ht, e1]; rfl
  have d0 : (exMat 0).depth = 0 := by simp [exMat]
  have e2 := setMaterials_one r1.wf.geo htm (exMat 0)
  have hdp : t.deepen (exMat 0).depth = t := by
    apply Slope.deepen_neg
    rw [d0]; exact not_lt.mpr r1.wf.geo.extHpos.le
  rw [hdp] at e2
  have r2 : Reachable (t.setMaterials [some (exMat 0)]).1 := r1.call (.setMaterials _ _ (by
    intro m hm; simp at hm; subst hm; exact exMat_constructed _))
  have l2 : LevelsAgree (t.setMaterials [some (exMat 0)]).1 :=
    C14_levels_agree_partial.2.2 t _ r1 (by rw [e2])
  refine ⟨_, r2, l2, ?_⟩
  have hm : ∃ a, (t.setMaterials [some (exMat 0)]).1.materials = [a] := by rw [e2]; exact ⟨_, rfl⟩
  have hh : (t.setMaterials [some (exMat 0)]).1.height = 0 := by rw [e2]; exact hth
  have hrl : ∀ a ∈ (t.setMaterials [some (exMat 0)]).1.materials, a.mat.depth = 0 := by
    rw [e2]
    intro a ha
    change a ∈ [mkLayer t.extH 0 (exMat 0)] at ha
    rw [List.mem_singleton] at ha
    subst ha
    exact d0
  generalize (t.setMaterials [some (exMat 0)]).1 = w at *
  obtain ⟨a, hm⟩ := hm
  have g := r2.wf.geo
  obtain ⟨p1, p2, p3, p4, p5, p6, p7⟩ := g.pos
  have hb : w.botY = w.topY := by rw [g.botY, g.topY, hh]; ring
  have ha : a.rl = w.topY := by
    rw [(l2 a (by rw [hm]; simp)).1, hrl a (by rw [hm]; simp)]; ring
  refine ⟨by rw [hm]; simp, [[(0, w.topY), (w.topX, w.topY), (w.extL, 0), (0, 0)]], ?_, ?_⟩
  · unfold Slope.outlines
    rw [hm, lit_zero]
    obtain ⟨x', _, e⟩ := layerOutline_eq g (l := w.topY) (x := w.topX) (r := w.topY) (by linarith)
      le_rfl true
    simp only [Slope.outlinesFrom, ha, List.isEmpty_nil, e, bind, Except.bind, pure, Except.pure]
    simp [hb]
  · rw [ground_integral g]
    unfold areaBelow
    rw [if_pos p5]
    simp only [List.map_cons, List.map_nil, List.sum_cons, List.sum_nil, polyArea_four, add_zero]
    rw [hb]
    rw [hb] at p4
    nlinarith [mul_pos (sub_pos.mpr (p2.trans p3)) p4]

/-! ## C62 -/

theorem arrowLengths_ok (s : Slope ℝ) {m : ℝ} (hm : s.udlMax = .num m) (h0 : m ≠ 0)
    (us : List (PUdl ℝ)) :
    s.arrowLengths us = .ok (us.map fun u => 100 * (u.load.magnitude / m)) := by
  have h100 : (@OfNat.ofNat ℝ 100 (Lit.natLit 100)) = 100 := lit_real 100
  induction us with
  | nil => rfl
  | cons u us ih =>
    simp [Slope.arrowLengths, hm, ih, pyDiv, h0, bind, Except.bind, pure, Except.pure, h100]

theorem waterLine_ok {s : Slope ℝ} (g : Geo s) (h : ∀ y, s.waterRL = some y → 0 ≤ y ∧ y ≤ s.extH) :
    ∃ w, s.waterLine = .ok w := by
  unfold Slope.waterLine
  split
  · exact ⟨_, rfl⟩
  · rename_i y hy
    obtain ⟨h0, h1⟩ := h y hy
    split
    · exact ⟨_, rfl⟩
    · obtain ⟨x, e, _⟩ := getExternalX_line g h0 (by rw [g.topY]; exact h1)
      rw [e]
      simp only [bind, Except.bind]
      split <;> exact ⟨_, rfl⟩

theorem outlinesFrom_ok {s : Slope ℝ} (g : Geo s) (ms : List (Layer ℝ))
    (h : ∀ m ∈ ms, 0 ≤ m.rl ∧ m.rl ≤ s.topY) (l x : ℝ) :
    ∃ os, s.outlinesFrom ms [(0, l), (x, l)] = .ok os ∧ os.length = ms.length := by
  induction ms generalizing l x with
  | nil => exact ⟨[], rfl, rfl⟩
  | cons m rest ih =>
    have : ∃ o l' x', s.layerOutline [(0, l), (x, l)] m.rl rest.isEmpty =
        .ok (o, [(0, l'), (x', l')]) := by
      obtain ⟨x', t', e⟩ := layerOutline_eq g (l := l) (x := x) (h m (.head _)).1
        (h m (.head _)).2 rest.isEmpty
      cases hre : rest.isEmpty with
      | true => rw [hre] at e; exact ⟨_, 0, s.extL, e⟩
      | false => rw [hre] at e; exact ⟨_, m.rl, x', e⟩
    obtain ⟨o, l', x', e⟩ := this
    obtain ⟨os, e', hlen⟩ := ih (fun q hq => h q (.tail _ hq)) l' x'
    refine ⟨o :: os, ?_, by simp [hlen]⟩
    simp only [Slope.outlinesFrom, e, bind, Except.bind, pure, Except.pure, e']

theorem outlines_ok {s : Slope ℝ} (r : Reachable s) (hl : LevelsAgree s) :
    ∃ os, s.outlines = .ok os ∧ os.length = s.materials.length := by
  have := outlinesFrom_ok r.wf.geo s.materials (fun m hm => by
    obtain ⟨h1, h2⟩ := hl m hm
    have := (r.sane.mat _ (List.mem_map_of_mem hm)).facts.2.2.2.2.1
    constructor <;> linarith) s.topY s.topX
  unfold Slope.outlines
  rwa [lit_zero]

/-- C62 (partial): in every reachable state in which the layer levels agree with the crest, the
water table is within the model and, if there are distributed loads, their recorded maximum is a
number, `plot_boundary` raises nothing; every load's arrow has the length of 100 times its share of
the greatest load. Missing: C62_raises_after_remove and C62_raises_after_shrink. -/
theorem C62_plot_ends_partial (s : Slope ℝ) (r : Reachable s) (hl : LevelsAgree s)
    (hw : ∀ y, s.waterRL = some y → 0 ≤ y ∧ y ≤ s.extH)
    (hu : s.udls = [] ∨ ∃ m, s.udlMax = .num m) :
    ∃ b, s.plotBoundary = .ok b ∧ (s.materials ≠ [] →
      b.outlines.length = s.materials.length ∧
      ∃ most, 0 < most ∧ b.arrows = s.udls.map (fun u => 100 * (u.load.magnitude / most)) ∧
        (∀ u ∈ s.udls, u.load.magnitude ≤ most) ∧
        (s.udls ≠ [] → ∃ u ∈ s.udls, u.load.magnitude = most)) := by
  unfold Slope.plotBoundary
  by_cases hne : s.materials = []
  · rw [hne]
    exact ⟨_, rfl, fun h => absurd rfl h⟩
  rw [if_neg (by simpa using hne)]
  have g := r.wf.geo
  obtain ⟨p1, p2, p3, p4, p5, p6, p7⟩ := g.pos
  obtain ⟨w, hw⟩ := waterLine_ok g hw
  have ho := outlines_ok r hl
  obtain ⟨os, ho, hlen⟩ := ho
  rw [ho, hw]
  by_cases he : s.udls = []
  · rw [he]
    exact ⟨_, rfl, fun _ => ⟨hlen, 1, one_pos, rfl, (by simp), by simp⟩⟩
  · obtain ⟨m, hm⟩ := hu.resolve_left he
    obtain ⟨g1, g2⟩ := r.maxOk m hm (by unfold Slope.mags; simpa using he)
    unfold Slope.mags at g1 g2
    obtain ⟨u0, h0, e0⟩ := List.mem_map.mp g1
    have hpos : 0 < m := e0 ▸ (r.sane.udl u0.load (List.mem_map_of_mem h0)).1
    rw [arrowLengths_ok s hm hpos.ne']
    exact ⟨_, rfl, fun _ => ⟨hlen, m, hpos, rfl, fun u h => g2 _ (List.mem_map_of_mem h),
      fun _ => ⟨u0, h0, e0⟩⟩⟩

/-- C62 is violated: `set_udls` with one load, `remove_udls` that removes nothing, `set_materials`,
and then `plot_boundary` raises `TypeError`. -/
theorem C62_raises_after_remove : ∃ s : Slope ℝ, Reachable s ∧ LevelsAgree s ∧
    s.plotBoundary = .error .typeError := by
  obtain ⟨r, e⟩ := exSlope_setUdls [exUdl 1] (by
    intro u hu; simp at hu; subst hu; exact ⟨exUdl_constructed _, by simp [exUdl]⟩)
  set t := (exSlope.setUdls ([exUdl 1].map some)).1 with ht
  have hne : (t.removeUdls [] false).1.udls ≠ [] := by
    rw [removeUdls_udls]
    simp only [List.foldl_nil]
    intro h; rw [h] at e; cases e
  have hmax := C17_max_not_a_number.1 t [] hne
  have r2 : Reachable (t.removeUdls [] false).1 := r.call (.removeUdls _ [] false)
  set v := (t.removeUdls [] false).1 with hv
  have hm : v.materials = [] := by
    obtain ⟨l, m, hr⟩ := WFS.removeUdls_rest t [] false
    rw [hv, hr]
    change t.materials = []
    exact (stable_materials []).setUdls rfl _
  have e3 := setMaterials_one r2.wf.geo hm (exMat 2)
  have r3 : Reachable (v.setMaterials [some (exMat 2)]).1 := r2.call (.setMaterials _ _ (by
    intro m hm; simp at hm; subst hm; exact exMat_constructed _))
  have l3 : LevelsAgree (v.setMaterials [some (exMat 2)]).1 :=
    C14_levels_agree_partial.2.2 v _ r2 (by rw [e3])
  refine ⟨_, r3, l3, ?_⟩
  obtain ⟨os, ho, _⟩ := outlines_ok r3 l3
  have hu : (v.setMaterials [some (exMat 2)]).1.udlMax = v.udlMax := by
    rw [e3]
    change (v.deepen _).udlMax = _
    unfold Slope.deepen
    split <;> rfl
  have hn : (v.setMaterials [some (exMat 2)]).1.udls ≠ [] := by
    rw [e3]
    change (v.deepen _).udls ≠ []
    unfold Slope.deepen
    split
    · change List.map _ v.udls ≠ []
      simpa using hne
    · exact hne
  have hmn : (v.setMaterials [some (exMat 2)]).1.materials ≠ [] := by
    rw [e3]; exact List.cons_ne_nil _ _
  unfold Slope.plotBoundary
  rw [if_neg (by simpa using hmn), ho]
  have hobj : ∃ o, v.udlMax = .obj o := by
    rw [hv]
    unfold Slope.removeUdls Slope.resetResults at hv ⊢
    simp only [Bool.false_eq_true, if_false] at hv ⊢
    split
    · rename_i h; rw [hv] at hne; split at hne
      · exact absurd h hne
      · rename_i h' ; rw [h'] at h; cases h
    · exact ⟨_, rfl⟩
  obtain ⟨o, hobj⟩ := hobj
  generalize (v.setMaterials [some (exMat 2)]).1 = w at *
  cases hw : w.udls with
  | nil => exact absurd hw hn
  | cons u us =>
    simp [Slope.arrowLengths, hu, hobj, bind, Except.bind, throw, throwThe, MonadExceptOf.throw]

/-- C62 is violated: `set_materials` with two layers, then `set_external_boundary` with a lower
slope, and `plot_boundary` raises `TypeError`. -/
theorem C62_raises_after_shrink : ∃ s : Slope ℝ, Reachable s ∧ s.udls = [] ∧ s.waterRL = none ∧
    s.plotBoundary = .error .typeError := by
  have r1 : Reachable (exSlope.setMaterials [some (exMat 1), some (exMat 2)]).1 :=
    exSlope_reachable.call (.setMaterials _ _ (by
      intro m hm; simp at hm; rcases hm with rfl | rfl <;> exact exMat_constructed _))
  have d1 : (exMat 1).depth = 1 := by simp [exMat]
  have d2 : (exMat 2).depth = 2 := by simp [exMat]
  have ea : exSlope.allMats [exMat 1, exMat 2] = [exMat 1, exMat 2] := by
    unfold Slope.allMats sortByKey
    apply List.mergeSort_of_pairwise
    simp [d1, d2]
  have e1 := setMaterials_eq exSlope_reachable.wf.geo [exMat 1, exMat 2] 2 (by
    rw [ea]; simp [d2])
  rw [ea, if_pos (by simp [d1, d2])] at e1
  have ed : exSlope.deepen 2 = exSlope := by
    unfold Slope.deepen; rw [if_neg]; simp; norm_num
  rw [ed] at e1
  refine ⟨_, r1.call (.setExternalBoundary _ (.num 1) (.num 30) (.num 1)), ?_⟩
  have e2 := setExternalBoundary_len (s := (exSlope.setMaterials [some (exMat 1), some (exMat 2)]).1)
    1 30 1 (by norm_num) (by norm_num) (by norm_num)
  rw [e2]
  change exSlope.setMaterials [some (exMat 1), some (exMat 2)] = _ at e1
  rw [e1]
  refine ⟨rfl, rfl, ?_⟩
  set q := (({ exSlope with materials := mkLayers exSlope.extH 0 [exMat 1, exMat 2] } :
    Slope ℝ).resetResults).withGeo 1 (max 1 0.001) with hq
  have hH : q.extH = 6 := by
    change max (max (3 * 1) exSlope.minExtH) (5 * max 1 0.001 / 2) = 6
    have : exSlope.minExtH = 6 := rfl
    rw [this]
    norm_num
  have hT : q.topY = 6 := hH
  have hB : q.botY = 5 := by
    change q.extH - 1 = 5
    rw [hH]; norm_num
  have hm : ∃ a b, q.materials = [a, b] ∧ a.rl = 8 := by
    refine ⟨_, _, rfl, ?_⟩
    change exSlope.extH - (exMat 1).depth = 8
    rw [exSlope_extH, d1]; norm_num
  obtain ⟨a, b, hm, ha⟩ := hm
  have hx : q.getExternalX 8 = .ok none := by
    unfold Slope.getExternalX
    rw [hB, hH, hT, if_neg (by norm_num), if_neg (by norm_num)]
    norm_num
  unfold Slope.plotBoundary
  rw [if_neg (by rw [hm]; simp)]
  unfold Slope.outlines
  rw [hm]
  simp [Slope.outlinesFrom, Slope.layerOutline, ha, hx, bottomLine, bind, Except.bind, pure,
    Except.pure]

/-! ## C61 -/

/-- C61 is violated: an analysis that ends without an error, after which `plot_critical` raises
`KeyError`, because the factor of safety it reports is below -0.05. -/
theorem C61_negative_raises : ∃ s t : Slope ℝ, Reachable s ∧ s.analyseSlope none = (t, .ok ()) ∧
    t.plotCritical = .error .keyError := by
  obtain ⟨F, hb, hF⟩ := exNeg_fos
  have gr := exNeg_ground
  obtain ⟨a, b, _, h2, _, h4, h5, hS, hs⟩ := gr.report' rfl rfl hb
  refine ⟨a, b, h2, h4, ?_⟩
  have rb : Reachable b := by
    have := h2.call (.analyseSlope a none)
    rwa [h4] at this
  obtain ⟨p, hp, _⟩ := C62_plot_ends_partial b rb (by
    intro l hl
    rw [hS.materials] at hl
    rw [hS.topY]
    change l ∈ [mkLayer exSlope.extH 0 (exFric 135 0)] at hl
    rw [List.mem_singleton] at hl
    subst hl
    refine ⟨rfl, ?_⟩
    change (exFric 135 0).depth ≤ exSlope.topY
    simp [exFric]
    norm_num) (by
    intro y hy
    rw [hS.waterRL] at hy
    cases hy) (.inl (by rw [hS.udls]; exact gr.udls))
  unfold Slope.plotCritical
  rw [hp, hs]
  simp only [bind, Except.bind]
  unfold failurePlane
  have hr := pyRound_error F 3
  norm_num at hr
  rw [abs_le] at hr
  have hlt : pyRound F 3 < -0.05 := by norm_num; linarith [hr.2]
  have h5 : (@OfNat.ofNat ℝ 5 (Lit.natLit 5)) = 5 := lit_real 5
  have hk : colourAt (pyRound (pyRound F 3) 1) = .error .keyError := by
    apply colourAt_error
    rintro ⟨j, hj, e⟩
    have h1 : ¬ 0 ≤ roundInt (pyRound F 3 * 10 ^ 1) := by
      rw [round_tenth_nonneg]; exact not_le.mpr hlt
    rw [pyRound_real (pyRound F 3)] at e
    have h2 : ((roundInt (pyRound F 3 * 10 ^ 1) : ℤ) : ℝ) < 0 := by exact_mod_cast not_le.mp h1
    have h3 := div_neg_of_neg_of_pos h2 (show (0 : ℝ) < 10 ^ 1 by norm_num)
    rw [e] at h3
    have : (0 : ℝ) ≤ (j : ℝ) / 10 := by positivity
    linarith
  have hn : ¬ (5 : ℝ) < pyRound F 3 := by norm_num at hlt ⊢; linarith
  simp only [h5, hn, if_false, hk, bind, Except.bind]

end PySlope
