import Verif.Props.Search

/-! # The radii of the circles made for a pair of points (C31) -/

namespace PySlope

/-- Specification: the radius of a circle with a chord of length `D` and height `σ` of the arc over it. -/
noncomputable def arcRadius (D σ : ℝ) : ℝ := (D ^ 2 / 4 + σ ^ 2) / (2 * σ)

/-- Specification: the height of the arc of the first circle of a pair over its chord: the circle
that starts vertically at the entry point has the radius `D²/(2 dx)`, and this one has 1.1 times it. -/
noncomputable def firstHeight (L R : ℝ × ℝ) : ℝ :=
  let D2 := (L.2 - R.2) ^ 2 + (R.1 - L.1) ^ 2
  let r := 1.1 * (D2 / (2 * (R.1 - L.1)))
  r - √(r ^ 2 - D2 / 4)

theorem planeLoop_radii {s : Slope ℝ} {β e C : ℝ} (num : Nat) (todo : Nat)
    (lc rc : ℝ × ℝ) {ps : List (Plane ℝ)} (h : s.planeLoop β e C num todo lc rc = .ok ps) :
    (ps.map Plane.radius).Sublist ((List.range todo).map fun (i : ℕ) =>
      (C + (e * ((todo : ℝ) - i) / num) ^ 2) / (2 * (e * ((todo : ℝ) - i) / num))) := by
  induction todo generalizing lc rc ps with
  | zero => cases h; exact List.Sublist.slnil
  | succ n ih =>
    rw [List.range_succ_eq_map, List.map_cons, List.map_map]
    have hfun : ((fun (i : ℕ) => (C + (e * (((n + 1 : ℕ) : ℝ) - i) / num) ^ 2) /
        (2 * (e * (((n + 1 : ℕ) : ℝ) - i) / num))) ∘ Nat.succ) = fun (i : ℕ) =>
        (C + (e * ((n : ℝ) - i) / num) ^ 2) / (2 * (e * ((n : ℝ) - i) / num)) := by
      funext i
      simp only [Function.comp]
      have : ((n + 1 : ℕ) : ℝ) - ((Nat.succ i : ℕ) : ℝ) = (n : ℝ) - i := by push_cast; ring
      rw [this]
    rw [hfun]
    unfold Slope.planeLoop at h
    simp only [bind, Except.bind] at h
    unfold circleRadiusFromAbcd pyDiv at h
    split at h
    · cases h
    · rename_i r hr
      split at hr
      · cases hr
      · have hr : (C + (e * ((n + 1 : ℕ) : ℝ) / (num : ℝ)) ^ 2) / (2 * (e * ((n + 1 : ℕ) : ℝ) / (num : ℝ))) = r := by
          simp only [sq_real] at hr
          exact Except.ok.inj hr
        split at h
        · cases h
        · split at h
          · exact (ih _ _ h).cons _
          · split at h
            · rename_i lc' rc' _ _
              split at h
              · cases h
              · rename_i rest hrest
                cases h
                rw [List.map_cons]
                have := ih _ _ hrest
                have e0 : (C + (e * (((n + 1 : ℕ) : ℝ) - ((0 : ℕ) : ℝ)) / num) ^ 2) /
                    (2 * (e * (((n + 1 : ℕ) : ℝ) - ((0 : ℕ) : ℝ)) / num)) = r := by
                  rw [← hr]; simp
                rw [e0]
                exact this.cons_cons _
            · cases h

/-- The start of `_generate_planes` for an entry point left of the exit point. -/
theorem generatePlanes_start {s : Slope ℝ} {L R : ℝ × ℝ} (hx : L.1 < R.1) (n : Int) :
    s.generatePlanes L R n = s.planeLoop (Real.arctan ((L.2 - R.2) / (R.1 - L.1))) (firstHeight L R)
      (((L.2 - R.2) ^ 2 + (R.1 - L.1) ^ 2) / 4) n.toNat n.toNat L R := by
  have hd : 0 < R.1 - L.1 := sub_pos.mpr hx
  have hdiv : pyDiv (L.2 - R.2) (R.1 - L.1) = .ok ((L.2 - R.2) / (R.1 - L.1)) := by
    unfold pyDiv
    rw [if_neg]
    simpa using hd.ne'
  unfold Slope.generatePlanes
  rw [hdiv]
  simp only [bind, Except.bind, sq_real]
  set Q := (L.2 - R.2) ^ 2 + (R.1 - L.1) ^ 2 with hQ
  have hQpos : 0 < Q := by positivity
  have hsq : PyNum.sqrt Q = √Q := rfl
  have e2 : (@OfNat.ofNat ℝ 2 (Lit.natLit 2)) = 2 := rfl
  have hC : (PyNum.sqrt Q / (@OfNat.ofNat ℝ 2 (Lit.natLit 2))) ^ 2 = Q / 4 := by
    rw [hsq, e2, div_pow, Real.sq_sqrt hQpos.le]; norm_num
  have hcos : Real.cos (Real.arctan ((L.2 - R.2) / (R.1 - L.1))) = (R.1 - L.1) / √Q := by
    rw [Real.cos_arctan]
    have : 1 + ((L.2 - R.2) / (R.1 - L.1)) ^ 2 = Q / (R.1 - L.1) ^ 2 := by
      rw [hQ]; field_simp; ring
    rw [this, Real.sqrt_div hQpos.le, Real.sqrt_sq hd.le, one_div_div]
  have hr : PyNum.sqrt Q / (@OfNat.ofNat ℝ 2 (Lit.natLit 2)) /
      PyNum.cos (PyNum.atan ((L.2 - R.2) / (R.1 - L.1))) * 1.1 = 1.1 * (Q / (2 * (R.1 - L.1))) := by
    change √Q / 2 / Real.cos (Real.arctan ((L.2 - R.2) / (R.1 - L.1))) * 1.1 = _
    rw [hcos]
    have hq : 0 < √Q := Real.sqrt_pos.mpr hQpos
    have : √Q / 2 / ((R.1 - L.1) / √Q) = Q / (2 * (R.1 - L.1)) := by
      rw [div_div_eq_mul_div, div_mul_eq_mul_div, Real.mul_self_sqrt hQpos.le, div_div]
    rw [this, mul_comm]
  rw [hr, hC]
  rfl

theorem firstHeight_bounds {L R : ℝ × ℝ} (hx : L.1 < R.1) :
    0 < firstHeight L R ∧ firstHeight L R < √((L.2 - R.2) ^ 2 + (R.1 - L.1) ^ 2) / 2 := by
  have hd : 0 < R.1 - L.1 := sub_pos.mpr hx
  unfold firstHeight
  simp only
  set Q := (L.2 - R.2) ^ 2 + (R.1 - L.1) ^ 2 with hQ
  have hQpos : 0 < Q := by positivity
  set r := 1.1 * (Q / (2 * (R.1 - L.1))) with hr
  have hq : 0 < √Q := Real.sqrt_pos.mpr hQpos
  have hqq : √Q ^ 2 = Q := Real.sq_sqrt hQpos.le
  have hdq : R.1 - L.1 ≤ √Q := by
    rw [Real.le_sqrt' hd, hQ]; nlinarith [sq_nonneg (L.2 - R.2)]
  have hr1 : 1.1 * (√Q / 2) ≤ r := by
    rw [hr]
    apply mul_le_mul_of_nonneg_left _ (by norm_num)
    rw [le_div_iff₀ (by positivity)]
    nlinarith
  have hrpos : 0 < r := lt_of_lt_of_le (by positivity) hr1
  have h1 : √(r ^ 2 - Q / 4) < r := by
    rw [Real.sqrt_lt' hrpos]; linarith
  refine ⟨by linarith, ?_⟩
  have h2 : r - √Q / 2 < √(r ^ 2 - Q / 4) := by
    rw [Real.lt_sqrt (by norm_num at hr1; linarith)]
    norm_num at hr1
    nlinarith
  linarith

/-- A flatter arc over the same chord has a greater radius. -/
theorem arcRadius_lt {D σ τ : ℝ} (h0 : 0 < σ) (h1 : σ < τ) (h2 : τ < D / 2) :
    arcRadius D τ < arcRadius D σ := by
  unfold arcRadius
  have : 0 < τ := h0.trans h1
  rw [div_lt_div_iff₀ (by positivity) (by positivity)]
  have h3 : σ * τ < D ^ 2 / 4 := by nlinarith
  nlinarith [mul_pos (sub_pos.mpr h1) (sub_pos.mpr h3)]

/-- C31, the radii: the circles made for an entry point and an exit point `D` apart have, in this
order, radii of arcs `n/n, (n-1)/n, …, 1/n` times as high as the first over the chord `D`, where the
first has 1.1 times the radius of the circle that starts vertically. Some may be left out. These radii
increase: no two circles of a pair are the same. -/
theorem C31_radii (s : Slope ℝ) {L R : ℝ × ℝ} (hx : L.1 < R.1) (n : ℕ) {ps : List (Plane ℝ)}
    (e : s.generatePlanes L R n = .ok ps) :
    let D := √((L.2 - R.2) ^ 2 + (R.1 - L.1) ^ 2)
    let radii := (List.range n).map fun (i : ℕ) => arcRadius D (firstHeight L R * ((n : ℝ) - i) / n)
    (ps.map Plane.radius).Sublist radii ∧ radii.Pairwise (· < ·) ∧
    arcRadius D (firstHeight L R) = 1.1 * (D ^ 2 / (2 * (R.1 - L.1))) := by
  intro D radii
  have hQ : 0 ≤ (L.2 - R.2) ^ 2 + (R.1 - L.1) ^ 2 := by positivity
  obtain ⟨b1, b2⟩ := firstHeight_bounds hx
  refine ⟨?_, ?_, ?_⟩
  · rw [generatePlanes_start hx] at e
    have := planeLoop_radii _ _ _ _ e
    simp only [Int.toNat_natCast] at this
    convert this using 5 with i
    unfold arcRadius
    rw [show D ^ 2 = _ from Real.sq_sqrt hQ]
  · simp only [radii]
    rw [List.pairwise_map]
    apply List.Pairwise.imp_of_mem _ List.pairwise_lt_range
    intro a b ha hb hab
    rw [List.mem_range] at ha hb
    have hn : (0 : ℝ) < n := by exact_mod_cast (by omega : 0 < n)
    have ha' : (a : ℝ) < b := by exact_mod_cast hab
    have hb' : (b : ℝ) < n := by exact_mod_cast hb
    apply arcRadius_lt
    · apply div_pos (mul_pos b1 (by linarith)) hn
    · apply div_lt_div_of_pos_right _ hn
      apply mul_lt_mul_of_pos_left _ b1
      linarith
    · refine lt_of_le_of_lt ?_ b2
      rw [div_le_iff₀ hn]
      apply mul_le_mul_of_nonneg_left _ b1.le
      have : (0 : ℝ) ≤ a := Nat.cast_nonneg a
      linarith
  · have hd : 0 < R.1 - L.1 := sub_pos.mpr hx
    unfold arcRadius
    rw [div_eq_iff (by positivity), show D ^ 2 = _ from Real.sq_sqrt hQ]
    set r := 1.1 * (((L.2 - R.2) ^ 2 + (R.1 - L.1) ^ 2) / (2 * (R.1 - L.1))) with hr
    have hf : firstHeight L R = r - √(r ^ 2 - ((L.2 - R.2) ^ 2 + (R.1 - L.1) ^ 2) / 4) := rfl
    have hnn : 0 ≤ r ^ 2 - ((L.2 - R.2) ^ 2 + (R.1 - L.1) ^ 2) / 4 := by
      by_contra hc
      rw [Real.sqrt_eq_zero_of_nonpos (by linarith)] at hf
      have : √((L.2 - R.2) ^ 2 + (R.1 - L.1) ^ 2) / 2 ≤ r := by
        rw [hr]
        have hq : 0 < √((L.2 - R.2) ^ 2 + (R.1 - L.1) ^ 2) := Real.sqrt_pos.mpr (by positivity)
        have hqq := Real.sq_sqrt hQ
        have hdq : R.1 - L.1 ≤ √((L.2 - R.2) ^ 2 + (R.1 - L.1) ^ 2) := by
          rw [Real.le_sqrt' hd]; nlinarith [sq_nonneg (L.2 - R.2)]
        have h3 : √((L.2 - R.2) ^ 2 + (R.1 - L.1) ^ 2) / 2 ≤
            ((L.2 - R.2) ^ 2 + (R.1 - L.1) ^ 2) / (2 * (R.1 - L.1)) := by
          rw [le_div_iff₀ (by positivity)]; nlinarith
        norm_num
        linarith
      linarith
    have hs := Real.sq_sqrt hnn
    rw [hf]
    nlinarith

/-- A case of C31: entry at 4, exit at 8 on the example, where there are circles. -/
example : ∃ ps, exSlope.generatePlanes (4, 9) (8, 7) (5 : ℕ) = .ok ps ∧ ps ≠ [] ∧ (4 : ℝ) < 8 := by
  have hy : exSlope.getExternalY 8 = some 7 := by
    unfold Slope.getExternalY
    simp only [lit_zero]
    rw [if_neg (by norm_num), if_neg (by norm_num), if_neg (by norm_num)]
    norm_num
  obtain ⟨ps, e, hne⟩ := C31_some_plane exSlope exSlope_reachable (x := 4) (x' := 8) (y' := 7)
    (n := (5 : ℕ)) (by norm_num) (by norm_num) (by norm_num) (by norm_num) (by norm_num) (by norm_num) hy
  rw [exSlope_topY] at e
  exact ⟨ps, e, hne, by norm_num⟩

end PySlope
