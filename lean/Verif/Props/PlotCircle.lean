import Mathlib.Analysis.SpecialFunctions.Trigonometric.Bounds
import Verif.Model.Plot
import Verif.Lemmas.Round
import Verif.Props.Fos

/-! # Properties of the plotted circles and colours (C60, C61) -/

namespace PySlope

/-! ## C60 -/

/-- Specification: the point is within `d` of the circle, along both axes: some point of the circle,
in its lower half, differs from it by at most `d` in each coordinate. -/
def NearLowerArc (cx cy r d : ℝ) (p : ℝ × ℝ) : Prop :=
  ∃ q : ℝ × ℝ, (q.1 - cx) ^ 2 + (q.2 - cy) ^ 2 = r ^ 2 ∧ (0 ≤ r → q.2 ≤ cy) ∧
    |p.1 - q.1| ≤ d ∧ |p.2 - q.2| ≤ d

theorem circleCoordinates_near (cx cy r : ℝ) :
    ∀ p ∈ circleCoordinates cx cy r, NearLowerArc cx cy r 0.0005 p := by
  intro p hp
  unfold circleCoordinates at hp
  rw [List.mem_map] at hp
  obtain ⟨i, hi, rfl⟩ := hp
  rw [List.mem_range] at hi
  set a : ℝ := radians ((2 * i + 1 : ℕ) : ℝ) with ha
  have e1 : (PyNum.cos a : ℝ) = Real.cos a := rfl
  have e2 : (PyNum.sin a : ℝ) = Real.sin a := rfl
  have ha0 : 0 ≤ a := by
    rw [ha, radians_real]
    have := Real.pi_pos
    positivity
  have ha1 : a ≤ Real.pi := by
    rw [ha, radians_real]
    have h1 : ((2 * i + 1 : ℕ) : ℝ) ≤ 180 := by exact_mod_cast (by omega : 2 * i + 1 ≤ 180)
    have := Real.pi_pos
    nlinarith
  refine ⟨(cx - Real.cos a * r, cy - Real.sin a * r), ?_, ?_, ?_, ?_⟩
  · have := Real.sin_sq_add_cos_sq a
    ring_nf
    nlinarith
  · intro hr
    have := Real.sin_nonneg_of_nonneg_of_le_pi ha0 ha1
    simp only
    nlinarith
  · simp only [e1]
    refine (pyRound_error _ 3).trans ?_
    norm_num
  · simp only [e2]
    refine (pyRound_error _ 3).trans ?_
    norm_num

theorem arcPoints_mem {lc rc : ℝ × ℝ} {pts : List (ℝ × ℝ)} {p : ℝ × ℝ}
    (h : p ∈ arcPoints lc rc pts) : p ∈ pts ∧ lc.1 ≤ p.1 ∧ p.1 ≤ rc.1 ∧ p.2 ≤ lc.2 := by
  unfold arcPoints at h
  rw [List.mem_filter] at h
  simp only [Bool.and_eq_true, decide_eq_true_eq] at h
  exact ⟨h.1, h.2.1.2, h.2.1.1, h.2.2⟩

/-- C60, `plot_all_planes`: the line drawn for a plane starts and ends at its end points, and every
point in between is within half a millimetre, along each axis, of the lower half of its circle, lies
between the end points, and not above the left one. -/
theorem C60_all_planes (p : Plane ℝ) :
    (planeTrace p).head? = some p.lc ∧ (planeTrace p).getLast? = some p.rc ∧
    ∀ q ∈ (planeTrace p), q = p.lc ∨ q = p.rc ∨
      (NearLowerArc p.cx p.cy p.radius 0.0005 q ∧ p.lc.1 ≤ q.1 ∧ q.1 ≤ p.rc.1 ∧ q.2 ≤ p.lc.2) := by
  refine ⟨rfl, ?_, ?_⟩
  · unfold planeTrace
    rw [List.getLast?_append]
    simp
  · intro q hq
    unfold planeTrace at hq
    simp only [List.cons_append, List.mem_cons, List.mem_append, List.not_mem_nil,
      or_false] at hq
    rcases hq with h | h | h
    · exact .inl h
    · obtain ⟨h1, h2⟩ := arcPoints_mem h
      exact .inr (.inr ⟨circleCoordinates_near _ _ _ q h1, h2⟩)
    · exact .inr (.inl h)

/-- C60, `plot_critical`: the line drawn goes along the circle, then to the right end point, the
centre (to the millimetre), the left end point and back to its start. Every point on the circle part
is within one and a half millimetres, along each axis, of the lower half of the circle. -/
theorem C60_critical (p : Plane ℝ) (f : ℝ) {tr : List (ℝ × ℝ)} {k : ℝ}
    (h : failurePlane p f = .ok (tr, k)) (hr : 0 ≤ p.radius) :
    ∃ arc c q, tr = arc ++ [p.rc, c, p.lc, q] ∧ arc.head? = some q ∧
      |c.1 - p.cx| ≤ 0.0005 ∧ |c.2 - p.cy| ≤ 0.0005 ∧
      ∀ a ∈ arc, NearLowerArc p.cx p.cy p.radius 0.0015 a ∧
        p.lc.1 ≤ a.1 ∧ a.1 ≤ p.rc.1 ∧ a.2 ≤ p.lc.2 := by
  unfold failurePlane at h
  simp only [bind, Except.bind] at h
  split at h
  · cases h
  · split at h
    · cases h
    · rename_i q arc he
      split at h
      · cases h
      · cases h
        have n3 : (1 / 2 / 10 ^ 3 : ℝ) = 0.0005 := by norm_num
        refine ⟨q :: arc, _, q, rfl, rfl, ?_, ?_, ?_⟩
        · have := pyRound_error p.cx 3; rw [n3] at this; exact this
        · have := pyRound_error p.cy 3; rw [n3] at this; exact this
        · intro a ha
          rw [← he] at ha
          obtain ⟨h1, h2⟩ := arcPoints_mem ha
          refine ⟨?_, h2⟩
          unfold circleCoordinates at h1
          rw [List.mem_map] at h1
          obtain ⟨i, hi, rfl⟩ := h1
          rw [List.mem_range] at hi
          set t : ℝ := radians ((2 * i + 1 : ℕ) : ℝ) with ht
          have e1 : (PyNum.cos t : ℝ) = Real.cos t := rfl
          have e2 : (PyNum.sin t : ℝ) = Real.sin t := rfl
          have ht0 : 0 ≤ t := by
            rw [ht, radians_real]
            have := Real.pi_pos
            positivity
          have ht1 : t ≤ Real.pi := by
            rw [ht, radians_real]
            have h1 : ((2 * i + 1 : ℕ) : ℝ) ≤ 180 := by exact_mod_cast (by omega : 2 * i + 1 ≤ 180)
            have := Real.pi_pos
            nlinarith
          have c1 := pyRound_error p.cx 3
          have c2 := pyRound_error p.cy 3
          have c3 := pyRound_error p.radius 3
          rw [n3] at c1 c2 c3
          have s1 := Real.abs_cos_le_one t
          have s2 := Real.abs_sin_le_one t
          refine ⟨(p.cx - Real.cos t * p.radius, p.cy - Real.sin t * p.radius), ?_, ?_, ?_, ?_⟩
          · have := Real.sin_sq_add_cos_sq t
            ring_nf
            nlinarith
          · intro _
            have := Real.sin_nonneg_of_nonneg_of_le_pi ht0 ht1
            simp only
            nlinarith
          · simp only [e1]
            have r1 := pyRound_error (pyRound p.cx 3 - Real.cos t * pyRound p.radius 3) 3
            rw [n3] at r1
            have r2 : |Real.cos t * (pyRound p.radius 3 - p.radius)| ≤ 0.0005 := by
              rw [abs_mul]
              have := abs_nonneg (pyRound p.radius 3 - p.radius)
              nlinarith
            rw [abs_le] at *
            constructor <;> linarith
          · simp only [e2]
            have r1 := pyRound_error (pyRound p.cy 3 - Real.sin t * pyRound p.radius 3) 3
            rw [n3] at r1
            have r2 : |Real.sin t * (pyRound p.radius 3 - p.radius)| ≤ 0.0005 := by
              rw [abs_mul]
              have := abs_nonneg (pyRound p.radius 3 - p.radius)
              nlinarith
            rw [abs_le] at *
            constructor <;> linarith

/-- Every point of the lower half of a circle is within a degree of an odd degree. -/
theorem near_degree {cx cy r : ℝ} (hr : 0 ≤ r) {q : ℝ × ℝ}
    (hq : (q.1 - cx) ^ 2 + (q.2 - cy) ^ 2 = r ^ 2) (hy : q.2 ≤ cy) :
    ∃ i : ℕ, i < 90 ∧
      |(cx - Real.cos (radians ((2 * i + 1 : ℕ) : ℝ)) * r) - q.1| ≤ r * (Real.pi / 180) ∧
      |(cy - Real.sin (radians ((2 * i + 1 : ℕ) : ℝ)) * r) - q.2| ≤ r * (Real.pi / 180) := by
  obtain ⟨t, t0, t1, e1, e2⟩ : ∃ t, 0 ≤ t ∧ t ≤ Real.pi ∧ q.1 = cx - Real.cos t * r ∧
      q.2 = cy - Real.sin t * r := by
    rcases hr.eq_or_lt with h | h
    · subst h
      refine ⟨0, le_refl _, Real.pi_pos.le, ?_, ?_⟩ <;> nlinarith [sq_nonneg (q.1 - cx), sq_nonneg (q.2 - cy)]
    · have hb : -1 ≤ (cx - q.1) / r ∧ (cx - q.1) / r ≤ 1 := by
        have := abs_le_of_sq_le_sq' (a := cx - q.1) (b := r) (by nlinarith [sq_nonneg (q.2 - cy)]) hr
        rw [le_div_iff₀ h, div_le_iff₀ h]
        constructor <;> linarith
      refine ⟨Real.arccos ((cx - q.1) / r), Real.arccos_nonneg _, Real.arccos_le_pi _, ?_, ?_⟩
      · rw [Real.cos_arccos hb.1 hb.2]; field_simp; ring
      · rw [Real.sin_arccos]
        have : 1 - ((cx - q.1) / r) ^ 2 = ((cy - q.2) / r) ^ 2 := by
          field_simp; nlinarith
        rw [this, Real.sqrt_sq (div_nonneg (by linarith) hr)]
        field_simp; ring
  -- the nearest odd degree
  have hpi := Real.pi_pos
  obtain ⟨i, hi, h1⟩ : ∃ i : ℕ, i < 90 ∧ |radians ((2 * i + 1 : ℕ) : ℝ) - t| ≤ Real.pi / 180 := by
    set d : ℝ := t / (Real.pi / 180) with hd
    have hdt : t = d * (Real.pi / 180) := by rw [hd]; field_simp
    have hd0 : 0 ≤ d := div_nonneg t0 (by positivity)
    have hd1 : d ≤ 180 := by rw [hd, div_le_iff₀ (by positivity)]; linarith
    have key : ∀ i : ℕ, |((2 * i + 1 : ℕ) : ℝ) - d| ≤ 1 → |radians ((2 * i + 1 : ℕ) : ℝ) - t| ≤ Real.pi / 180 := by
      intro i h
      rw [radians_real, hdt, ← sub_mul, abs_mul, abs_of_pos (by positivity : (0 : ℝ) < Real.pi / 180)]
      nlinarith
    by_cases h : d = 180
    · refine ⟨89, by norm_num, key 89 ?_⟩
      rw [h]; norm_num
    · have hlt : d / 2 < 90 := by
        have := lt_of_le_of_ne hd1 h
        linarith
      refine ⟨⌊d / 2⌋₊, (Nat.floor_lt (by positivity)).mpr (by exact_mod_cast hlt), key _ ?_⟩
      have f1 := Nat.floor_le (by positivity : 0 ≤ d / 2)
      have f2 := Nat.lt_floor_add_one (d / 2)
      push_cast
      rw [abs_le]
      constructor <;> linarith
  refine ⟨i, hi, ?_, ?_⟩
  · have g2 := (Real.abs_cos_sub_cos_le (radians ((2 * i + 1 : ℕ) : ℝ)) t).trans h1
    rw [e1, show ∀ a b c d : ℝ, (a - b * d) - (a - c * d) = -((b - c) * d) by intros; ring, abs_neg,
      abs_mul, abs_of_nonneg hr]
    nlinarith
  · have g2 := (Real.abs_sin_sub_sin_le (radians ((2 * i + 1 : ℕ) : ℝ)) t).trans h1
    rw [e2, show ∀ a b c d : ℝ, (a - b * d) - (a - c * d) = -((b - c) * d) by intros; ring, abs_neg,
      abs_mul, abs_of_nonneg hr]
    nlinarith

/-- Every point of the lower half of the circle is near a computed one. -/
theorem circleCoordinates_dense {cx cy r cx' cy' r' ε : ℝ} (hr : 0 ≤ r) {q : ℝ × ℝ}
    (hq : (q.1 - cx) ^ 2 + (q.2 - cy) ^ 2 = r ^ 2) (hy : q.2 ≤ cy) (h1 : |cx' - cx| ≤ ε)
    (h2 : |cy' - cy| ≤ ε) (h3 : |r' - r| ≤ ε) :
    ∃ c ∈ circleCoordinates cx' cy' r', |c.1 - q.1| ≤ r * (Real.pi / 180) + 0.0005 + 2 * ε ∧
      |c.2 - q.2| ≤ r * (Real.pi / 180) + 0.0005 + 2 * ε := by
  obtain ⟨i, hi, a1, a2⟩ := near_degree hr hq hy
  have n3 : (1 / 2 / 10 ^ 3 : ℝ) = 0.0005 := by norm_num
  have hε := abs_nonneg (r' - r)
  refine ⟨_, List.mem_map.mpr ⟨i, List.mem_range.mpr hi, rfl⟩, ?_, ?_⟩
  · simp only
    set a : ℝ := radians ((2 * i + 1 : ℕ) : ℝ)
    have g1 := pyRound_error (cx' - Real.cos a * r') 3
    have g2 : |Real.cos a * (r' - r)| ≤ ε := by
      rw [abs_mul]; nlinarith [Real.abs_cos_le_one a]
    rw [n3] at g1
    change |pyRound (cx' - Real.cos a * r') 3 - q.1| ≤ _
    rw [abs_le] at *
    constructor <;> linarith
  · simp only
    set a : ℝ := radians ((2 * i + 1 : ℕ) : ℝ)
    have g1 := pyRound_error (cy' - Real.sin a * r') 3
    have g2 : |Real.sin a * (r' - r)| ≤ ε := by
      rw [abs_mul]; nlinarith [Real.abs_sin_le_one a]
    rw [n3] at g1
    change |pyRound (cy' - Real.sin a * r') 3 - q.2| ≤ _
    rw [abs_le] at *
    constructor <;> linarith

/-- C60, nothing of the circle is left out: with `d` one degree of the circle and half a millimetre,
every point of the lower half of the circle between the end points, by `d`, and under the left one,
by `d`, is within `d`, along each axis, of a point drawn. -/
theorem C60_complete (p : Plane ℝ) (hr : 0 ≤ p.radius) {q : ℝ × ℝ}
    (hq : (q.1 - p.cx) ^ 2 + (q.2 - p.cy) ^ 2 = p.radius ^ 2) (hy : q.2 ≤ p.cy) :
    let d := p.radius * (Real.pi / 180) + 0.0005
    p.lc.1 + d ≤ q.1 → q.1 ≤ p.rc.1 - d → q.2 ≤ p.lc.2 - d →
    ∃ c ∈ planeTrace p, |c.1 - q.1| ≤ d ∧ |c.2 - q.2| ≤ d := by
  intro d h1 h2 h3
  obtain ⟨c, hc, a1, a2⟩ := circleCoordinates_dense (cx' := p.cx) (cy' := p.cy) (r' := p.radius) (ε := 0)
    hr hq hy (by simp) (by simp) (by simp)
  rw [mul_zero, add_zero] at a1 a2
  refine ⟨c, ?_, a1, a2⟩
  unfold planeTrace arcPoints
  simp only [List.cons_append, List.mem_cons, List.mem_append, List.mem_filter]
  right; left
  refine ⟨hc, ?_⟩
  have hd : d = p.radius * (Real.pi / 180) + 0.0005 := rfl
  rw [← hd] at a1 a2
  have b1 := abs_le.mp a1
  have b2 := abs_le.mp a2
  simp only [Bool.and_eq_true, decide_eq_true_eq]
  exact ⟨⟨by linarith, by linarith⟩, by linarith⟩

/-- C60, the same for `plot_critical`, with one and a half millimetres. -/
theorem C60_critical_complete (p : Plane ℝ) (hr : 0 ≤ p.radius) {f : ℝ} {tr : List (ℝ × ℝ)} {k : ℝ}
    (h : failurePlane p f = .ok (tr, k)) {q : ℝ × ℝ}
    (hq : (q.1 - p.cx) ^ 2 + (q.2 - p.cy) ^ 2 = p.radius ^ 2) (hy : q.2 ≤ p.cy) :
    let d := p.radius * (Real.pi / 180) + 0.0015
    p.lc.1 + d ≤ q.1 → q.1 ≤ p.rc.1 - d → q.2 ≤ p.lc.2 - d →
    ∃ c ∈ tr, |c.1 - q.1| ≤ d ∧ |c.2 - q.2| ≤ d := by
  intro d h1 h2 h3
  have n3 : (1 / 2 / 10 ^ 3 : ℝ) = 0.0005 := by norm_num
  obtain ⟨c, hc, a1, a2⟩ := circleCoordinates_dense (ε := 0.0005) hr hq hy
    (n3 ▸ pyRound_error p.cx 3) (n3 ▸ pyRound_error p.cy 3) (n3 ▸ pyRound_error p.radius 3)
  have hd : d = p.radius * (Real.pi / 180) + 0.0005 + 2 * 0.0005 := by
    change p.radius * (Real.pi / 180) + 0.0015 = _
    norm_num; ring
  rw [← hd] at a1 a2
  refine ⟨c, ?_, a1, a2⟩
  have b1 := abs_le.mp a1
  have b2 := abs_le.mp a2
  have hc : c ∈ arcPoints p.lc p.rc (circleCoordinates (pyRound p.cx 3) (pyRound p.cy 3) (pyRound p.radius 3)) := by
    unfold arcPoints
    rw [List.mem_filter]
    refine ⟨hc, ?_⟩
    simp only [Bool.and_eq_true, decide_eq_true_eq]
    exact ⟨⟨by linarith, by linarith⟩, by linarith⟩
  unfold failurePlane at h
  simp only [bind, Except.bind] at h
  split at h
  · cases h
  · split at h
    · cases h
    · rename_i q' arc he
      split at h
      · cases h
      · cases h
        rw [he] at hc
        exact List.mem_append_left _ hc

/-- C60, the line drawn goes from left to right. -/
theorem C60_left_to_right (p : Plane ℝ) (hr : 0 ≤ p.radius) (hp : p.lc.1 ≤ p.rc.1) :
    (planeTrace p).Pairwise fun a b => a.1 ≤ b.1 := by
  unfold planeTrace
  rw [List.cons_append, List.pairwise_cons, List.pairwise_append]
  refine ⟨?_, ?_, List.pairwise_singleton _ _, ?_⟩
  · intro a ha
    rcases List.mem_append.mp ha with h | h
    · exact (arcPoints_mem h).2.1
    · rw [List.mem_singleton.mp h]; exact hp
  · unfold arcPoints
    apply List.Pairwise.filter
    unfold circleCoordinates
    rw [List.pairwise_map]
    apply List.Pairwise.imp_of_mem _ List.pairwise_lt_range
    intro i j hi hj hij
    rw [List.mem_range] at hi hj
    apply pyRound_mono
    have hpi := Real.pi_pos
    have hle : ((2 * i + 1 : ℕ) : ℝ) ≤ ((2 * j + 1 : ℕ) : ℝ) := by exact_mod_cast (by omega)
    have hcos : Real.cos (radians ((2 * j + 1 : ℕ) : ℝ)) ≤ Real.cos (radians ((2 * i + 1 : ℕ) : ℝ)) := by
      rw [radians_real, radians_real]
      apply Real.cos_le_cos_of_nonneg_of_le_pi
      · positivity
      · have : ((2 * j + 1 : ℕ) : ℝ) ≤ 180 := by exact_mod_cast (by omega : 2 * j + 1 ≤ 180)
        nlinarith
      · apply mul_le_mul_of_nonneg_right hle (by positivity)
    change p.cx - Real.cos (radians ((2 * i + 1 : ℕ) : ℝ)) * p.radius ≤
      p.cx - Real.cos (radians ((2 * j + 1 : ℕ) : ℝ)) * p.radius
    nlinarith
  · intro a ha b hb
    rw [List.mem_singleton.mp hb]
    exact (arcPoints_mem ha).2.2.1

/-- A point for C60 to be about: the lowest part of the circle of the example, 2 m right of the left
end and 2 m left of the right end. -/
example : (0 : ℝ) ≤ exPlane.radius ∧ (((6 : ℝ) - exPlane.cx) ^ 2 + ((35 - 2 * √52) / 3 - exPlane.cy) ^ 2 =
      exPlane.radius ^ 2) ∧ ((35 - 2 * √52) / 3 : ℝ) ≤ exPlane.cy ∧
    exPlane.lc.1 + (exPlane.radius * (Real.pi / 180) + 0.0005) ≤ 6 ∧
    6 ≤ exPlane.rc.1 - (exPlane.radius * (Real.pi / 180) + 0.0005) ∧
    (35 - 2 * √52) / 3 ≤ exPlane.lc.2 - (exPlane.radius * (Real.pi / 180) + 0.0005) := by
  have h := Real.sq_sqrt (by norm_num : (0 : ℝ) ≤ 52)
  have h7 : (7 : ℝ) ≤ √52 := by exact Real.le_sqrt_of_sq_le (by norm_num)
  have hpi := Real.pi_le_four
  have hpi0 := Real.pi_pos
  have e1 : exPlane.cx = 9 := rfl
  have e2 : exPlane.cy = 35 / 3 := rfl
  have e3 : exPlane.radius = 17 / 3 := rfl
  have e4 : exPlane.lc = (4, 9) := rfl
  have e5 : exPlane.rc = (9, 6) := rfl
  rw [e1, e2, e3, e4, e5]
  norm_num
  refine ⟨?_, ?_, ?_, ?_, ?_⟩ <;> nlinarith

/-! ## C61 -/

theorem colourKeys_mem (k : ℝ) : k ∈ (colourKeys : List ℝ) ↔ ∃ j : ℕ, j ≤ 50 ∧ k = j / 10 := by
  have key : ∀ f p : ℕ, pyRound (((f : ℕ) : ℝ) / (@OfNat.ofNat ℝ 10 (Lit.natLit 10)) + ((p : ℕ) : ℝ)) 1 =
      ((f + 10 * p : ℕ) : ℝ) / 10 := by
    intro f p
    have h10 : (@OfNat.ofNat ℝ 10 (Lit.natLit 10)) = ((10 : ℕ) : ℝ) := lit_real 10
    rw [pyRound_real, h10]
    push_cast
    have : ((f : ℝ) / 10 + p) * 10 ^ 1 = ((f + 10 * p : ℤ) : ℝ) := by
      push_cast; ring
    rw [this, roundInt_int]
    push_cast
    norm_num
  unfold colourKeys
  simp only [List.mem_flatMap, List.mem_map, List.mem_range, key]
  constructor
  · rintro ⟨p, hp, f, hf, rfl⟩
    exact ⟨f + 10 * p, by omega, rfl⟩
  · rintro ⟨j, hj, rfl⟩
    by_cases h : j = 50
    · exact ⟨4, by omega, 10, by omega, by rw [h]⟩
    · exact ⟨j / 10, by omega, j % 10, by omega, by congr 2; omega⟩

theorem colourAt_ok (k c : ℝ) : colourAt k = .ok c ↔ c = k ∧ ∃ j : ℕ, j ≤ 50 ∧ k = j / 10 := by
  unfold colourAt
  constructor
  · intro h
    split at h
    · rename_i c' hf
      cases h
      have h1 := List.find?_some hf
      have h2 := List.mem_of_find?_eq_some hf
      rw [pyEq_real, decide_eq_true_eq] at h1
      exact ⟨h1, by rw [← h1]; exact (colourKeys_mem _).mp h2⟩
    · cases h
  · rintro ⟨rfl, h⟩
    split
    · rename_i c' hf
      have h1 := List.find?_some hf
      rw [pyEq_real, decide_eq_true_eq] at h1
      rw [h1]
    · rename_i hf
      rw [List.find?_eq_none] at hf
      have := hf c ((colourKeys_mem c).mpr h)
      simp at this

theorem colourAt_error (k : ℝ) (h : ¬ ∃ j : ℕ, j ≤ 50 ∧ k = j / 10) :
    colourAt k = .error .keyError := by
  cases hc : colourAt k with
  | ok c => exact absurd ((colourAt_ok k c).mp hc).2 h
  | error e =>
    unfold colourAt at hc
    split at hc
    · cases hc
    · cases hc; rfl

theorem roundInt_nonneg (x : ℝ) : 0 ≤ roundInt x ↔ -(1 / 2) ≤ x := by
  constructor
  · intro h
    by_contra hlt
    have h2 := roundInt_cases x
    have h3 := Int.floor_le x
    rcases h2 with ⟨e, h5⟩ | ⟨e, h5⟩
    · rw [e] at h
      have : (0 : ℝ) ≤ (⌊x⌋ : ℝ) := by exact_mod_cast h
      linarith
    · rw [e] at h
      have : (-1 : ℝ) ≤ (⌊x⌋ : ℝ) := by exact_mod_cast (by omega : -1 ≤ ⌊x⌋)
      linarith
  · intro h
    have e : roundInt (-(1 / 2) : ℝ) = 0 := by
      have hf : ⌊(-(1 / 2) : ℝ)⌋ = -1 := by rw [Int.floor_eq_iff]; norm_num
      unfold roundInt
      have e : PyNum.floor (-(1 / 2) : ℝ) = ⌊(-(1 / 2) : ℝ)⌋ := rfl
      simp only [ofInt_real, e, hf]
      norm_num
    rw [← e]
    exact roundInt_mono h

theorem round_tenth_nonneg (f : ℝ) : 0 ≤ roundInt (f * 10 ^ 1) ↔ -0.05 ≤ f := by
  rw [roundInt_nonneg]
  norm_num
  constructor <;> intro h <;> linarith

/-- C61 (partial): a factor of safety has a colour exactly when it is at least -0.05, and then its
colour is that of `min(FOS, 5)` to the nearest tenth. Missing: below -0.05 plotting raises
`KeyError` (`C61_negative_raises`). -/
theorem C61_colour_partial (f : ℝ) :
    ((∃ c, colourOf f = .ok c) ↔ -0.05 ≤ f) ∧
    (∀ c, colourOf f = .ok c → (∃ j : ℕ, j ≤ 50 ∧ c = j / 10) ∧ |c - min f 5| ≤ 0.05) ∧
    (f < -0.05 → colourOf f = .error .keyError) := by
  have h5 : (@OfNat.ofNat ℝ 5 (Lit.natLit 5)) = 5 := lit_real 5
  have hk : (∃ j : ℕ, j ≤ 50 ∧ min (pyRound f 1) 5 = (j : ℝ) / 10) ↔ -0.05 ≤ f := by
    rw [← round_tenth_nonneg, pyRound_real]
    constructor
    · rintro ⟨j, hj, e⟩
      by_contra hneg
      rw [not_le] at hneg
      have h1 : ((roundInt (f * 10 ^ 1) : ℤ) : ℝ) < 0 := by exact_mod_cast hneg
      have : min ((roundInt (f * 10 ^ 1) : ℝ) / 10 ^ 1) 5 < 0 := by
        exact lt_of_le_of_lt (min_le_left _ _) (div_neg_of_neg_of_pos h1 (by norm_num))
      rw [e] at this
      have : (0 : ℝ) ≤ (j : ℝ) / 10 := by positivity
      linarith
    · intro h
      obtain ⟨n, hn⟩ := Int.eq_ofNat_of_zero_le h
      rw [hn]
      rcases le_total n 50 with hle | hle
      · refine ⟨n, hle, ?_⟩
        have : (n : ℝ) ≤ 50 := by exact_mod_cast hle
        rw [min_eq_left]
        · push_cast; norm_num
        · push_cast; norm_num; linarith
      · refine ⟨50, le_rfl, ?_⟩
        have : (50 : ℝ) ≤ n := by exact_mod_cast hle
        rw [min_eq_right]
        · norm_num
        · push_cast; norm_num; linarith
  have hc : colourOf f = colourAt (min (pyRound f 1) 5) := by
    unfold colourOf
    rw [pyMin_real, h5]
  refine ⟨?_, ?_, ?_⟩
  · rw [hc, ← hk]
    constructor
    · rintro ⟨c, h⟩
      exact ((colourAt_ok _ _).mp h).2
    · intro h
      exact ⟨_, (colourAt_ok _ _).mpr ⟨rfl, h⟩⟩
  · intro c h
    rw [hc] at h
    obtain ⟨rfl, hj⟩ := (colourAt_ok _ _).mp h
    refine ⟨hj, ?_⟩
    have := pyRound_error f 1
    norm_num at this ⊢
    refine le_trans (abs_min_sub_min_le_max _ _ _ _) ?_
    simp only [sub_self, abs_zero]
    exact max_le (by linarith) (by norm_num)
  · intro h
    rw [hc]
    apply colourAt_error
    rw [hk]
    exact not_le.mpr h

/-- A factor of safety that is not negative has a colour. -/
theorem colour_nonneg {f : ℝ} (hf : 0 ≤ f) :
    (∃ c, (if (5 : ℝ) < pyRound f 3 then colourAt 5 else colourAt (pyRound (pyRound f 3) 1)) =
      Except.ok c) ∧ ∃ c, colourOf (pyRound f 3) = .ok c := by
  have h5 : (@OfNat.ofNat ℝ 5 (Lit.natLit 5)) = 5 := lit_real 5
  have hr : (0 : ℝ) ≤ pyRound f 3 := by
    have := pyRound_mono hf 3
    rw [pyRound_real 0] at this
    simpa [show roundInt (0 : ℝ) = 0 by simpa using roundInt_int 0] using this
  have hc : ∃ c, colourOf (pyRound f 3) = .ok c :=
    (C61_colour_partial _).1.mpr (by norm_num; linarith)
  have hk : ∃ c, (if (5 : ℝ) < pyRound f 3 then colourAt 5 else colourAt (pyRound (pyRound f 3) 1)) =
      .ok c := by
    split
    · exact ⟨5, (colourAt_ok _ _).mpr ⟨rfl, 50, le_rfl, by norm_num⟩⟩
    · rename_i h'
      obtain ⟨c, hc⟩ := hc
      unfold colourOf at hc
      rw [pyMin_real, h5, min_eq_left] at hc
      · exact ⟨c, hc⟩
      · have := pyRound_mono (not_lt.mp h') 1
        refine this.trans ?_
        rw [pyRound_real]
        have := roundInt_int 50
        norm_num at this ⊢
        rw [this]
        norm_num
  exact ⟨hk, hc⟩

/-- When `plot_critical` can draw a plane with a factor of safety that is not negative: some point of
the circle must lie between the ends. -/
theorem failurePlane_ok (p : Plane ℝ) {f : ℝ} (hf : 0 ≤ f)
    (h : arcPoints p.lc p.rc (circleCoordinates (pyRound p.cx 3) (pyRound p.cy 3)
      (pyRound p.radius 3)) ≠ []) : ∃ t, failurePlane p f = .ok t := by
  have h5 : (@OfNat.ofNat ℝ 5 (Lit.natLit 5)) = 5 := lit_real 5
  obtain ⟨hk, hc⟩ := colour_nonneg hf
  obtain ⟨k, hk⟩ := hk
  obtain ⟨c, hc⟩ := hc
  unfold failurePlane
  simp only [h5, hk, bind, Except.bind]
  cases ha : arcPoints p.lc p.rc (circleCoordinates (pyRound p.cx 3) (pyRound p.cy 3)
      (pyRound p.radius 3)) with
  | nil => exact absurd ha h
  | cons q arc => simp only [hc]; exact ⟨_, rfl⟩

/-- The circle of the examples is drawn. -/
theorem exPlane_drawn {f : ℝ} (hf : 0 ≤ f) :
    ∃ t, failurePlane exPlane f = .ok t ∧ 0 ≤ exPlane.radius := by
  have : ∃ t, failurePlane exPlane f = .ok t := by
    apply failurePlane_ok _ hf
    intro h
    have hm : ∀ q ∈ circleCoordinates (pyRound exPlane.cx 3) (pyRound exPlane.cy 3)
        (pyRound exPlane.radius 3), ¬ (q.1 ≤ 9 ∧ 4 ≤ q.1 ∧ q.2 ≤ 9) := by
      intro q hq hb
      unfold arcPoints at h
      rw [List.filter_eq_nil_iff] at h
      apply h q hq
      simp only [Bool.and_eq_true]
      exact ⟨⟨decide_eq_true hb.1, decide_eq_true hb.2.1⟩, decide_eq_true hb.2.2⟩
    unfold circleCoordinates at hm
    have := hm _ (List.mem_map.mpr ⟨22, by simp, rfl⟩)
    apply this
    have ea : (radians ((2 * 22 + 1 : ℕ) : ℝ) : ℝ) = Real.pi / 4 := by
      rw [radians_real]; push_cast; ring
    have e1 : (PyNum.cos (radians ((2 * 22 + 1 : ℕ) : ℝ)) : ℝ) = √2 / 2 := by
      rw [ea]; exact Real.cos_pi_div_four
    have e2 : (PyNum.sin (radians ((2 * 22 + 1 : ℕ) : ℝ)) : ℝ) = √2 / 2 := by
      rw [ea]; exact Real.sin_pi_div_four
    simp only [e1, e2]
    have c1 := pyRound_error exPlane.cx 3
    have c2 := pyRound_error exPlane.cy 3
    have c3 := pyRound_error exPlane.radius 3
    have c4 := pyRound_error (pyRound exPlane.cx 3 - √2 / 2 * pyRound exPlane.radius 3) 3
    have c5 := pyRound_error (pyRound exPlane.cy 3 - √2 / 2 * pyRound exPlane.radius 3) 3
    have x1 : exPlane.cx = 9 := rfl
    have x2 : exPlane.cy = 35 / 3 := rfl
    have x3 : exPlane.radius = 17 / 3 := rfl
    generalize pyRound (pyRound exPlane.cx 3 - √2 / 2 * pyRound exPlane.radius 3) 3 = u at *
    generalize pyRound (pyRound exPlane.cy 3 - √2 / 2 * pyRound exPlane.radius 3) 3 = v at *
    generalize pyRound exPlane.cx 3 = cx at *
    generalize pyRound exPlane.cy 3 = cy at *
    generalize pyRound exPlane.radius 3 = r at *
    rw [x1] at c1
    rw [x2] at c2
    rw [x3] at c3
    rw [abs_le] at *
    have hs : (1.4 : ℝ) ≤ √2 := Real.le_sqrt_of_sq_le (by norm_num)
    have hs' : √2 ≤ (1.5 : ℝ) := Real.sqrt_le_iff.mpr (by norm_num)
    norm_num at *
    refine ⟨?_, ?_, ?_⟩ <;> nlinarith
  obtain ⟨t, ht⟩ := this
  exact ⟨t, ht, by simp [exPlane]; norm_num⟩

end PySlope
