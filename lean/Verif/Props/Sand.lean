import Verif.Spec.Sand
import Verif.Props.RisingWitness

/-! # Property C103: Bishop's method and the ordinary method compared -/

namespace PySlope
open Finset

/-- Slices without cohesion and water, with one friction angle: one turn of Bishop's iteration from the ordinary factor
of safety does not lower it. -/
theorem sand_turn {n : ℕ} {q : ℕ → Slice} (hD : Dips n q) {t : ℝ} (ht : 0 < t)
    (h : ∀ i < n, (q i).c = 0 ∧ (q i).u = 0 ∧ (q i).tan = t ∧ 0 ≤ (q i).W ∧ (q i).sin ^ 2 + (q i).cos ^ 2 = 1) :
    0 < fellenius n q ∧ fellenius n q ≤ bishopRhs n q (fellenius n q) := by
  have hd := hD.driving
  have e0 : fellenius n q = (∑ i ∈ range n, (q i).W * (q i).cos * t) / driving n q := by
    unfold fellenius
    congr 1
    apply sum_congr rfl
    intro i hi
    have hi := mem_range.mp hi
    obtain ⟨h1, h2, h3, h4, _⟩ := h i hi
    rw [h1, h2, h3, zero_mul, sub_zero, zero_add, max_eq_right (mul_nonneg h4 (hD.cos i hi).le)]
  have hpos : 0 < ∑ i ∈ range n, (q i).W * (q i).cos * t := by
    apply sum_pos'
    · intro i hi
      have hi := mem_range.mp hi
      exact mul_nonneg (mul_nonneg (h i hi).2.2.2.1 (hD.cos i hi).le) ht.le
    · obtain ⟨i, hi, hold⟩ := hD.some
      refine ⟨i, mem_range.mpr hi, ?_⟩
      obtain ⟨h1, h2, h3, h4, _⟩ := h i hi
      unfold Slice.hold at hold
      rw [h1, h2, h3, zero_mul, sub_zero, zero_add] at hold
      have := pos_of_mul_pos_left hold ht.le
      exact mul_pos (mul_pos this (hD.cos i hi)) ht
  set F := fellenius n q with hF
  have hF0 : 0 < F := by rw [e0]; exact div_pos hpos hd
  refine ⟨hF0, ?_⟩
  have eD : ∑ i ∈ range n, (q i).W * (q i).cos * t = F * driving n q := by
    rw [e0, div_mul_cancel₀ _ hd.ne']
  unfold bishopRhs
  rw [if_neg hF0.ne', le_div_iff₀ hd, ← eD]
  -- each term, compared with the ordinary one
  have key : ∀ i ∈ range n, (q i).W * (q i).cos * t + t ^ 2 / (F ^ 2 + t ^ 2) * ((q i).W * (F * (q i).sin - (q i).cos * t)) ≤
      ((q i).c * (q i).b + ((q i).W - (q i).u * (q i).b) * (q i).tan) / ((q i).cos + (q i).sin * (q i).tan / F) := by
    intro i hi
    have hi := mem_range.mp hi
    obtain ⟨h1, h2, h3, h4, h5⟩ := h i hi
    have hc := hD.cos i hi
    have hs := hD.sin i hi
    rw [h1, h2, h3, zero_mul, sub_zero, zero_add]
    generalize (q i).W = W at h4
    generalize (q i).sin = x at hs h5
    generalize (q i).cos = y at hc h5
    have hden : 0 < y + x * t / F := add_pos_of_pos_of_nonneg hc (by positivity)
    have hden2 : 0 < F * y + x * t := add_pos_of_pos_of_nonneg (by positivity) (by positivity)
    have e : W * t / (y + x * t / F) - (W * y * t + t ^ 2 / (F ^ 2 + t ^ 2) * (W * (F * x - y * t))) =
        W * (F * t * (F * x - t * y) ^ 2) / ((F ^ 2 + t ^ 2) * (F * y + x * t)) := by
      have h6 : W * t / (y + x * t / F) = W * t * F * (x ^ 2 + y ^ 2) / (F * y + x * t) := by
        rw [h5, mul_one, div_eq_div_iff hden.ne' hden2.ne']
        field_simp
      have h8 : F ^ 2 + t ^ 2 ≠ 0 := by positivity
      have h9 := hden2.ne'
      rw [h6]
      field_simp
      ring
    have : 0 ≤ W * (F * t * (F * x - t * y) ^ 2) / ((F ^ 2 + t ^ 2) * (F * y + x * t)) := by positivity
    linarith
  refine le_trans ?_ (sum_le_sum key)
  rw [sum_add_distrib, ← mul_sum]
  have : ∑ i ∈ range n, (q i).W * (F * (q i).sin - (q i).cos * t) = 0 := by
    have e : ∀ i ∈ range n, (q i).W * (F * (q i).sin - (q i).cos * t) =
        F * ((q i).W * (q i).sin) - (q i).W * (q i).cos * t := fun i _ => by ring
    rw [sum_congr rfl e, sum_sub_distrib, ← mul_sum, eD]
    exact sub_self _
  rw [this, mul_zero, add_zero]

/-- C103 in dry sand: what the analysis computes for a circle whose mass is left of its centre is not below the
ordinary method's factor of safety. -/
theorem C103_sand_partial (s : Slope ℝ) (rs : Reachable s) (φ : ℝ) (sand : Sand s φ) (cx cy r F : ℝ)
    (e : s.bishop cx cy r none none = .ok F) :
    ∃ l rt F0, FirstCrossings s cx cy r l rt ∧ s.ordinary cx cy r (some l) (some rt) = .ok F0 ∧ (rt.1 ≤ cx → F0 ≤ F) := by
  obtain ⟨dry, hm, hφ, h90, hs⟩ := sand
  obtain ⟨l, rt, F0, he, ho, hl⟩ := bishop_spec rs e
  have hv := bishopLoop_value rs ho hl
  refine ⟨l, rt, F0, (bishopEnds_first rs.wf.geo he).2, ho, fun hside => ?_⟩
  obtain ⟨_, _, h3, h4, h5, _, _, h8, rfl⟩ := (C55_ordinary_formula s rs cx cy r l rt F0).mp ho
  have hlr : l.1 < rt.1 := by norm_num at h4; linarith
  have ht : 0 < Real.tan (φ * (Real.pi / 180)) := by
    have hp := Real.pi_pos
    apply Real.tan_pos_of_pos_of_lt_pi_div_two
    · positivity
    · nlinarith
  have hn : (0 : ℝ) < s.slices := by
    have := rs.wf.sl.1
    have : (0 : Int) < s.slices := by omega
    exact_mod_cast this
  have facts : ∀ i < s.slices.toNat, let q := sliceOf s cx cy r l.1 rt.1 i
      q.c = 0 ∧ q.u = 0 ∧ q.tan = Real.tan (φ * (Real.pi / 180)) ∧ 0 ≤ q.W ∧ q.sin ^ 2 + q.cos ^ 2 = 1 ∧
        0 < q.cos ∧ 0 ≤ q.sin := by
    intro i hi q
    have hin : (centre l.1 rt.1 s.slices i - cx) ^ 2 < r ^ 2 := by
      have := h5 i hi
      rw [sq_lt_sq, abs_of_pos h3]; exact this
    obtain ⟨_, _, _, a4, a5, _, _⟩ := slice_facts (cy := cy) rs hm h3 hlr hin
    obtain ⟨ly, hly, hmem, _⟩ := strengthAt_eq rs hm
      (cy - √(r ^ 2 - (l.1 + ((i : ℝ) + 1 / 2) * ((rt.1 - l.1) / s.slices) - cx) ^ 2))
    obtain ⟨c0, p0⟩ := hs ly hmem
    refine ⟨?_, ?_, ?_, a5, ?_, a4, ?_⟩
    · simp only [q, sliceOf, hly, c0]
    · simp only [q, sliceOf, pressureAt, dry]
    · simp only [q, Slice.tan, sliceOf, hly, p0]
    · simp only [q, sliceOf]
      rw [div_pow, div_pow, Real.sq_sqrt (by unfold centre at hin; linarith)]
      field_simp
      ring
    · simp only [q, sliceOf]
      apply div_nonneg _ h3.le
      have hi' : ((i : ℝ) + 1 / 2) * ((rt.1 - l.1) / s.slices) ≤ rt.1 - l.1 := by
        rw [mul_div_assoc', div_le_iff₀ hn]
        have : (i : ℝ) + 1 ≤ s.slices := by
          have : (i : Int) + 1 ≤ s.slices := by omega
          exact_mod_cast this
        nlinarith
      linarith
  have hD : Dips s.slices.toNat (sliceOf s cx cy r l.1 rt.1) := by
    have hold : ∀ i < s.slices.toNat, (sliceOf s cx cy r l.1 rt.1 i).hold =
        (sliceOf s cx cy r l.1 rt.1 i).W * Real.tan (φ * (Real.pi / 180)) := by
      intro i hi
      obtain ⟨a1, a2, a3, _⟩ := facts i hi
      unfold Slice.hold
      rw [a1, a2, a3]; ring
    refine ⟨fun i hi => (facts i hi).2.2.2.2.2.1, fun i hi => (facts i hi).2.2.2.2.2.2, fun i hi => ?_, fun i hi => ?_,
      ?_, h8⟩
    · rw [(facts i hi).2.2.1]; exact ht.le
    · rw [hold i hi]; exact mul_nonneg (facts i hi).2.2.2.1 ht.le
    · obtain ⟨i, hi, hp⟩ := exists_lt_of_sum_lt (s := range s.slices.toNat) (f := fun _ => (0 : ℝ))
        (g := fun i => (sliceOf s cx cy r l.1 rt.1 i).W * (sliceOf s cx cy r l.1 rt.1 i).sin) (by unfold driving at h8; simpa using h8)
      have hi := mem_range.mp hi
      refine ⟨i, hi, ?_⟩
      rw [hold i hi]
      exact mul_pos (pos_of_mul_pos_left hp (facts i hi).2.2.2.2.2.2) ht
  obtain ⟨p1, p2⟩ := sand_turn hD ht fun i hi => ⟨(facts i hi).1, (facts i hi).2.1, (facts i hi).2.2.1,
    (facts i hi).2.2.2.1, (facts i hi).2.2.2.2.1⟩
  exact hv.ge hD p1 le_rfl p2

/-- C103 for an analysis of dry sand: every reported factor of safety of a mass left of the centre of its circle is at
least the ordinary method's. -/
theorem C103_reported_partial (s : Slope ℝ) (rs : Reachable s) (φ : ℝ) (sand : Sand s φ) (m : Option ℝ) (hm : m ≠ some 0)
    (ok : (s.analyseSlope m).2 = .ok ()) :
    ∀ p ∈ (s.analyseSlope m).1.search, ∃ F l rt F0, p.fos = some (some F) ∧ FirstCrossings s p.cx p.cy p.radius l rt ∧
      s.ordinary p.cx p.cy p.radius (some l) (some rt) = .ok F0 ∧ (rt.1 ≤ p.cx → F0 ≤ F) := by
  intro p hp
  obtain ⟨ps, _, h2, _⟩ := C24_results_partial (t := (s.analyseSlope m).1) hm (by rw [← ok])
  obtain ⟨p', hp', rfl⟩ := List.mem_map.mp (h2.mem_iff.mp hp)
  have hw := (List.mem_filter.mp hp').2
  cases e : fosOf s p' with
  | none =>
    exfalso
    unfold fosOf at e
    unfold Wanted at hw
    cases hb : s.bishop p'.cx p'.cy p'.radius none none with
    | ok x => rw [hb] at e; cases e
    | error x => rw [hb] at hw; cases hw
  | some F =>
    obtain ⟨l, rt, F0, h3, h4, h5⟩ := C103_sand_partial s rs φ sand p'.cx p'.cy p'.radius F (fosOf_some.mp e)
    exact ⟨F, l, rt, F0, by simp [withFos, e], h3, h4, h5⟩

/-- A case of C103: the cut of C93 in sand with a friction angle of 30 degrees. -/
example : ∃ F l rt F0, Sand (cutOf (exFric 30 0)) 30 ∧
    (((cutOf (exFric 30 0)).addSingleCircularPlane 32 36 10).1.analyseSlope none).1.getMinFos = .ok (some F) ∧
    (cutOf (exFric 30 0)).ordinary 32 36 10 (some l) (some rt) = .ok F0 ∧ F0 ≤ F := by
  have rc := cutOf_reachable (φ := 30) (c := 0) (by norm_num)
  have hmem : ∀ l ∈ (cutOf (exFric 30 0)).materials, l.mat.cohesion = 0 ∧ l.mat.frictionAngle = 30 := by
    intro l hl
    obtain rfl : l = _ := List.mem_singleton.mp hl
    exact ⟨abs_zero, by change |(30 : ℝ)| = 30; norm_num⟩
  have sand : Sand (cutOf (exFric 30 0)) 30 := ⟨rfl, by change [_] ≠ []; simp, by norm_num, by norm_num, hmem⟩
  obtain ⟨h1, l, rt, F, h2, hF, h4, h5⟩ := C74_slip_circle_has_fos (cutOf (exFric 30 0)) rc
    (by intro l hl; rw [(hmem l hl).2]; norm_num)
    (.inl rfl) (by intro z hz; cases hz) sand.2.1
    (.inr ⟨rfl, by intro l hl; rw [(hmem l hl).2]; norm_num⟩)
    (cx := 32) (cy := 36) (r := 10) (by norm_num) ((cut_crossing _ _).mpr (.inl rfl))
    ((cut_crossing _ _).mpr (.inr rfl)) (by norm_num)
    (by intro l rt h
        obtain ⟨rfl, rfl⟩ := cut_first _ h
        exact cut_cuts _) none
  rw [show (cutOf (exFric 30 0)).removeIndividualPlanes.1 = cutOf (exFric 30 0) from rfl] at h1 h5
  obtain ⟨g1, g2, g3⟩ := h5 (by intro M hM; cases hM)
  have ru : Reachable ((cutOf (exFric 30 0)).addSingleCircularPlane 32 36 10).1 := .call rc (.addSingleCircularPlane _ 32 36 10)
  have hsame : SameSetup (cutOf (exFric 30 0)) ((cutOf (exFric 30 0)).addSingleCircularPlane 32 36 10).1 := by
    unfold Slope.addSingleCircularPlane
    split
    · constructor <;> rfl
    · split
      · constructor <;> rfl
      · split <;> constructor <;> rfl
  have sand' : Sand ((cutOf (exFric 30 0)).addSingleCircularPlane 32 36 10).1 30 := by
    unfold Sand at sand ⊢
    rw [hsame.waterRL, hsame.materials]; exact sand
  have main := C103_reported_partial _ ru 30 sand' none (by simp) h1
  unfold Slope.getMinFos at g1
  unfold Slope.getMinFosCircle at g2
  cases e : (((cutOf (exFric 30 0)).addSingleCircularPlane 32 36 10).1.analyseSlope none).1.search with
  | nil => rw [e] at g1; cases g1
  | cons p ps =>
    rw [e] at g1 g2
    obtain ⟨G, l', rt', F0, m1, m2, m3, m4⟩ := main p (by rw [e]; simp)
    simp only [m1, Except.ok.injEq, Option.some.injEq] at g1
    simp only [Except.ok.injEq, Prod.mk.injEq] at g2
    obtain ⟨c1, c2, c3⟩ := g2
    rw [c1, c2, c3, hsame.ordinary] at m3
    rw [c1, c2, c3] at m2
    have m2' : FirstCrossings (cutOf (exFric 30 0)) 32 36 10 l' rt' := by
      unfold FirstCrossings Crossing OnLine at m2 ⊢
      simpa only [hsame.topX, hsame.topY, hsame.botX, hsame.botY, hsame.extL] using m2
    obtain ⟨_, rfl⟩ := cut_first _ m2'
    refine ⟨F, _, _, F0, sand, ?_, m3, ?_⟩
    · unfold Slope.getMinFos
      rw [e]
      simp only [m1, g1]
    · rw [← g1]
      exact m4 (by rw [c1]; norm_num)

/-- C103 is violated: in the cut of C93, 12 m high, with cohesion 100 and friction angle 30 degrees, the analysis reports
less than the ordinary method gives for the same circle. -/
theorem C103_below_ordinary : ∃ (s : Slope ℝ) (cx cy r F F0 : ℝ) (l rt : ℝ × ℝ), Reachable s ∧ s.waterRL = none ∧
    ((s.addSingleCircularPlane cx cy r).1.analyseSlope none).2 = .ok () ∧
    ((s.addSingleCircularPlane cx cy r).1.analyseSlope none).1.getMinFos = .ok (some F) ∧
    FirstCrossings s cx cy r l rt ∧ CutsMass s cx cy r l.1 rt.1 ∧
    s.ordinary cx cy r (some l) (some rt) = .ok F0 ∧ F < F0 := by
  obtain ⟨a1, F, a2, a3, _⟩ := cut_report (φ := 30) (c := 100) (by norm_num) (by norm_num) (by norm_num)
  have rs := cutOf_reachable (φ := 30) (c := 100) (by norm_num)
  have first : FirstCrossings (cutOf (exFric 30 100)) 32 36 10 (22, 36) (24, 30) := by
    refine ⟨(cut_crossing _ _).mpr (.inl rfl), (cut_crossing _ _).mpr (.inr rfl), by norm_num, ?_⟩
    intro p hp
    rcases (cut_crossing _ _).mp hp with rfl | rfl <;> norm_num
  refine ⟨cutOf (exFric 30 100), 32, 36, 10, F, fellenius 25 (sliceOf (cutOf (exFric 30 100)) 32 36 10 22 24), (22, 36),
    (24, 30), rs, rfl, a1, a3, first, cut_cuts _, ?_, ?_⟩
  · rw [C55_ordinary_formula _ rs]
    refine ⟨by norm_num, by norm_num, by norm_num, by norm_num, ?_, by change [_] ≠ []; simp, ⟨_, rfl⟩, ?_, rfl⟩
    · intro i hi
      change i < 25 at hi
      have hsl : (cutOf (exFric 30 100)).slices = 25 := rfl
      have hi' : (i : ℝ) ≤ 24 := by exact_mod_cast Nat.lt_succ_iff.mp hi
      have h0 : (0 : ℝ) ≤ i := Nat.cast_nonneg i
      rw [hsl, abs_lt]
      push_cast
      constructor <;> linarith
    · change 0 < driving 25 _
      rw [cut_driving]; exact cut_driving_pos
  · refine lt_of_lt_of_le (cut_rough a2) ?_
    unfold fellenius clayFos
    rw [cut_driving]
    apply div_le_div_of_nonneg_right _ cut_driving_pos.le
    apply sum_le_sum
    intro i hi
    have D := cut_dips (φ := 30) (c := 100) (by norm_num) (by norm_num)
    have ht := D.tan i (mem_range.mp hi)
    rw [cut_slice (mem_range.mp hi)] at ht ⊢
    have := mul_nonneg (le_max_left 0 (16 * cutCos i * cutCos i - 0 * (2 / 25 / cutCos i))) ht
    have e : |(100 : ℝ)| * (2 / 25 / cutCos i) = 8 / cutCos i := by
      rw [abs_of_pos (by norm_num)]; ring
    simp only at this ⊢
    linarith

end PySlope
