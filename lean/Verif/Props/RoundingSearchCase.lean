import Verif.Props.RoundingSearch
import Verif.Props.Accepted
import Verif.Props.Heavier
import Verif.Props.Draw

/-! # A search with rounding errors: a case of C112

The clay cut with limits and a least length of a failure that leave one entry point and one exit point, and with them five
circles. -/

namespace PySlope
open Lit

/-! ## Clay -/

/-- Without friction the values of Bishop's iteration are all the same. -/
theorem clay_noTiesBishop {s : Slope ℝ} (rs : Reachable s) (hφ : Frictionless s) (hm : s.materials ≠ []) {cx cy r xl xr F : ℝ}
    (hF : 0 < F) (hv : BishopValue s cx cy r xl xr F) (ht : 0 < s.tolerance) (nt : NoTies s cx cy r xl xr)
    (hcos : ∀ i < s.slices.toNat, 0 < (sliceOf s cx cy r xl xr i).cos) : NoTiesBishop s cx cy r xl xr := by
  have htan : ∀ i, (sliceOf s cx cy r xl xr i).tan = 0 := by
    intro i
    obtain ⟨ly, hl, hlm, _⟩ := strengthAt_eq rs hm
      (cy - √(r ^ 2 - (xl + ((i : ℝ) + 1 / 2) * ((xr - xl) / s.slices) - cx) ^ 2))
    unfold Slice.tan sliceOf
    simp only [hl, hφ ly hlm, zero_mul, Real.tan_zero]
  have fix : ∀ x ≠ 0, bishopRhs s.slices.toNat (sliceOf s cx cy r xl xr) x = fellenius s.slices.toNat (sliceOf s cx cy r xl xr) := by
    intro x hx
    unfold bishopRhs fellenius
    rw [if_neg hx]
    congr 1
    refine Finset.sum_congr rfl fun i _ => ?_
    rw [htan]
    ring
  have h0 : fellenius s.slices.toNat (sliceOf s cx cy r xl xr) ≠ 0 := by
    intro h
    obtain ⟨-, k, f, -, f0, fs, fk, -⟩ := hv
    have : ∀ i ≤ k, f i = 0 := by
      intro i
      induction i with
      | zero => intro _; rw [f0, h]
      | succ i ih =>
        intro hi
        rw [fs i (by omega), ih (by omega)]
        unfold bishopRhs
        rw [if_pos rfl]
    rw [this k le_rfl] at fk
    exact hF.ne fk
  have it : ∀ k, (bishopRhs s.slices.toNat (sliceOf s cx cy r xl xr))^[k] (fellenius s.slices.toNat (sliceOf s cx cy r xl xr)) =
      fellenius s.slices.toNat (sliceOf s cx cy r xl xr) := fun k => Function.iterate_fixed (fix _ h0) k
  refine ⟨nt, ?_, ?_, ?_⟩
  · intro k _
    rw [it]; exact h0
  · intro k _ i hi
    rw [htan, mul_zero, zero_div, add_zero]
    exact (hcos i hi).ne'
  · intro k _
    rw [it, it, sub_self, abs_zero]
    exact ht.ne

/-! ## The slope -/

/-- `Material(unit_weight=20, friction_angle=0, cohesion=100, depth_to_bottom=8)`. -/
noncomputable def deepClay : Material ℝ := { exFric 0 100 with depth := 8 }

theorem deepClay_constructed : Material.Constructed deepClay := by
  refine ⟨fun _ => false, .num 20, .num 0, .num 100, .num 8, .str "", .str "", ?_⟩
  rw [(C01_material (fun _ => false) (.num 20) (.num 0) (.num 100) (.num 8) (.str "") (.str "")).1
    20 0 100 8 "" "" ⟨rfl, by norm_num, by norm_num, rfl, le_rfl, rfl, rfl⟩ rfl rfl]
  simp [deepClay, exFric]

/-- The cut with limits and a least length of a failure. -/
noncomputable def searchCut : Slope ℝ :=
  { cutOf deepClay with lim1 := 22, lim2 := 23.9, lim3 := 23.98, lim4 := 24, minFailureDist := 6.3, search := [] }

theorem searchCut_materials : cutSlope.setMaterials [some deepClay] = (cutOf deepClay, .ok ()) := by
  rw [setMaterials_one cutSlope_reachable.wf.geo rfl]
  have : cutSlope.deepen deepClay.depth = cutSlope := by
    unfold Slope.deepen
    rw [if_neg]
    rw [cutSlope_extH]; simp [deepClay]; norm_num
  rw [this]
  rfl

theorem searchCut_limits : (cutOf deepClay).setAnalysisLimits (.num 22) (.num 24) (.num 23.9) (.num 23.98) =
    ({ cutOf deepClay with lim1 := 22, lim2 := 23.9, lim3 := 23.98, lim4 := 24, search := [] }, .ok ()) := by
  have hX := cut_topX deepClay
  have hL := cut_extL deepClay
  rw [(C22_limits_ordered _ (cutOf_reachable_of deepClay_constructed (by norm_num [deepClay]))).2.2.1 22 24 23.9 23.98 (by norm_num)
    (by norm_num) (by norm_num) (by norm_num) (by rw [hX]; norm_num) (by rw [hX, hL]; norm_num)]
  have h1 : min (23.9 : ℝ) (cutOf deepClay).topX = 23.9 := by rw [hX]; norm_num
  have h2 : max (23.98 : ℝ) (cutOf deepClay).topX = 23.98 := by rw [hX]; norm_num
  have h3 : min (24 : ℝ) (cutOf deepClay).extL = 24 := by rw [hL]; norm_num
  rw [h1, h2, h3]

/-- The cut with limits. -/
noncomputable def midCut : Slope ℝ :=
  { cutOf deepClay with lim1 := 22, lim2 := 23.9, lim3 := 23.98, lim4 := 24, search := [] }

theorem searchCut_options : midCut.updateAnalysisOptions none none (some 6.3) none none = (searchCut, .ok ()) := by
  have : pyMin (6.3 : ℝ) (midCut.extL * 0.9) = 6.3 := by
    rw [pyMin_real, show midCut.extL = 48 from cut_extL deepClay]; norm_num
  change ({ midCut with minFailureDist := pyMin (6.3 : ℝ) (midCut.extL * 0.9) }, _) = _
  rw [this]
  rfl

/-- The program of the case. -/
noncomputable def searchOps : List (Op ℝ) :=
  [.setMaterials [some deepClay], .setAnalysisLimits (.num 22) (.num 24) (.num 23.9) (.num 23.98),
    .updateAnalysisOptions none none (some 6.3) none none]

theorem searchOps_run : runAll searchOps cutSlope = searchCut := by
  change (((cutSlope.setMaterials [some deepClay]).1.setAnalysisLimits (.num 22) (.num 24) (.num 23.9)
    (.num 23.98)).1.updateAnalysisOptions none none (some 6.3) none none).1 = _
  rw [searchCut_materials, searchCut_limits]
  change (midCut.updateAnalysisOptions none none (some 6.3) none none).1 = _
  rw [searchCut_options]

theorem searchOps_valid : ∀ o ∈ searchOps, o.Valid := by
  intro o ho
  simp only [searchOps, List.mem_cons, List.not_mem_nil, or_false] at ho
  rcases ho with rfl | rfl | rfl
  · intro m hm
    simp at hm
    subst hm
    exact deepClay_constructed
  · trivial
  · trivial

theorem searchOps_noTies : NoTiesRun searchOps cutSlope := by
  refine ⟨⟨by simp, ?_⟩, ?_, ?_⟩
  · change [cutSlope.extH, 8].Nodup
    rw [cutSlope_extH]; norm_num
  · change (cutSlope.setMaterials [some deepClay]).2 = _
    rw [searchCut_materials]
  · change NoTiesRun _ (cutSlope.setMaterials [some deepClay]).1
    rw [searchCut_materials]
    refine ⟨⟨?_, ?_, ?_, ?_⟩, ?_, ?_⟩
    iterate 4 (change (0 : ℝ) < _; norm_num)
    · change ((cutOf deepClay).setAnalysisLimits _ _ _ _).2 = _
      rw [searchCut_limits]
    · change NoTiesRun _ ((cutOf deepClay).setAnalysisLimits _ _ _ _).1
      rw [searchCut_limits]
      exact ⟨trivial, rfl, trivial⟩

theorem searchCut_reachable : Reachable searchCut := by
  rw [← searchOps_run]
  exact reachable_runAll cutSlope_reachable searchOps_valid

theorem sc_topX : searchCut.topX = 599 / 25 := cut_topX deepClay
theorem sc_topY : searchCut.topY = 36 := cut_topY deepClay
theorem sc_botX : searchCut.botX = 601 / 25 := cut_botX deepClay
theorem sc_botY : searchCut.botY = 24 := cut_botY deepClay
theorem sc_extL : searchCut.extL = 48 := cut_extL deepClay
theorem sc_extH : searchCut.extH = 36 := cut_extH deepClay

theorem sc_ground {x : ℝ} (h1 : 599 / 25 < x) (h2 : x < 601 / 25) : groundY searchCut x = 36 - 150 * (x - 599 / 25) := by
  unfold groundY
  rw [sc_topX, sc_extH]
  change (if x ≤ 599 / 25 then (36 : ℝ) else if x < 599 / 25 + 2 / 25 then 36 - (x - 599 / 25) * (12 / (2 / 25)) else 36 - 12) = _
  rw [if_neg (not_le.mpr h1), if_pos (by linarith)]
  ring

/-! ## The circles through the entry point and the exit point -/

/-- A circle through the two points, with its centre at `(23 + 3 u, 33 + u)`. -/
structure Fan (u r : ℝ) : Prop where
  low : 3 ≤ u
  range : u < 3.9 ∨ (4.1 < u ∧ u < 5.2) ∨ 5.3 < u
  pos : 0 < r
  sq : r ^ 2 = 10 * u ^ 2 + 10

theorem Fan.crossing {u r : ℝ} (f : Fan u r) {p : ℝ × ℝ} (h : Crossing searchCut (23 + 3 * u) (33 + u) r p) :
    p = (22, 36) ∨ p = (24, 30) ∨ (23 + 3 * u ≤ p.1 ∧ p.2 = 24) := by
  obtain ⟨x, y⟩ := p
  have h3 := f.low
  unfold Crossing OnCircle OnLine at h
  simp only [sc_topX, sc_topY, sc_botX, sc_botY, sc_extL, f.sq] at h
  simp only [Prod.mk.injEq]
  obtain ⟨h, ⟨rfl, h1, h2, h4⟩ | ⟨rfl, h1, h2, h4⟩ | ⟨h1, h2, h4⟩⟩ := h
  · left
    have : (x - 22) * (x - (24 + 6 * u)) = 0 := by linarith
    rcases mul_eq_zero.mp this with h | h
    · exact ⟨by linarith, rfl⟩
    · exfalso; linarith
  · right; right
    exact ⟨h4, rfl⟩
  · right; left
    have hy : y = 36 - 150 * (x - 599 / 25) := by linarith
    subst hy
    have : (x - 24) * (22501 * (x - 24) + 902 + 294 * u) = 0 := by linarith
    rcases mul_eq_zero.mp this with h | h
    · exact ⟨by linarith, by linarith⟩
    · exfalso; linarith

theorem Fan.left {u r : ℝ} (f : Fan u r) : Crossing searchCut (23 + 3 * u) (33 + u) r (22, 36) := by
  have h3 := f.low
  refine ⟨?_, .inl ⟨sc_topY.symm, by norm_num, by rw [sc_topX]; norm_num, by simp only; linarith⟩⟩
  unfold OnCircle
  rw [f.sq]; ring

theorem Fan.right {u r : ℝ} (f : Fan u r) : Crossing searchCut (23 + 3 * u) (33 + u) r (24, 30) := by
  refine ⟨?_, .inr (.inr ⟨?_, by rw [sc_topX]; norm_num, by rw [sc_botX]; norm_num⟩)⟩
  · unfold OnCircle
    rw [f.sq]; ring
  · unfold OnLine
    rw [sc_topX, sc_topY, sc_botX, sc_botY]
    norm_num

theorem Fan.first {u r : ℝ} (f : Fan u r) {l q : ℝ × ℝ} (h : FirstCrossings searchCut (23 + 3 * u) (33 + u) r l q) :
    l = (22, 36) ∧ q = (24, 30) := by
  obtain ⟨h1, h2, h3, h4⟩ := h
  have a := h4 _ f.left
  have b := h4 _ f.right
  have h3' := f.low
  have hl : l = (22, 36) := by
    rcases f.crossing h1 with rfl | rfl | ⟨h, -⟩
    · rfl
    · norm_num at a
    · have := a.1; simp only at this; exfalso; linarith
  subst hl
  refine ⟨rfl, ?_⟩
  rcases f.crossing h2 with rfl | rfl | ⟨h, -⟩
  · norm_num at h3
  · rfl
  · rcases b.2 with b | b <;> norm_num at b
    exfalso; linarith

theorem Fan.ends {u r : ℝ} (f : Fan u r) : NoTiesEnds searchCut (23 + 3 * u) (33 + u) r := by
  have hh : searchCut.height = 12 := rfl
  have hl : searchCut.length = 2 / 25 := rfl
  have h3 := f.low
  refine ⟨?_, ?_, ?_, ?_, ?_, ?_, ?_, ?_, fun p q h1 h2 => ?_⟩
  on_goal 9 =>
    rcases f.crossing h1 with rfl | rfl | ⟨a, a'⟩ <;> rcases f.crossing h2 with rfl | rfl | ⟨b, b'⟩
    iterate 2 norm_num
    · rw [abs_sub_comm, abs_of_nonneg (by simp only; linarith)]; simp only; intro h; norm_num at h; linarith
    iterate 2 norm_num
    · rw [abs_sub_comm, abs_of_nonneg (by simp only; linarith)]; simp only; intro h; norm_num at h; linarith
    · rw [abs_of_nonneg (by simp only; linarith)]; simp only; intro h; norm_num at h; linarith
    · rw [abs_of_nonneg (by simp only; linarith)]; simp only; intro h; norm_num at h; linarith
    · have e1 := h1.1
      have e2 := h2.1
      unfold OnCircle at e1 e2
      rw [a'] at e1
      rw [b'] at e2
      have : (p.1 - (23 + 3 * u)) ^ 2 = (q.1 - (23 + 3 * u)) ^ 2 := by linarith
      rw [sq_eq_sq₀ (by linarith) (by linarith)] at this
      have : p.1 - q.1 = 0 := by linarith
      rw [this, abs_zero]; norm_num
  all_goals
    simp only [OnCircle, hh, hl, sc_topX, sc_topY, sc_botX, sc_botY, sc_extL, f.sq]
  · norm_num
  · intro h; nlinarith
  · intro h
    have h : 9 * u ^ 2 - 18 * u - 71 = 0 := by linarith
    rcases f.range with k | ⟨k, -⟩ | k <;> norm_num at k <;> nlinarith
  · intro h; nlinarith
  · intro h; nlinarith
  · intro h; nlinarith
  · intro h; nlinarith
  · intro h
    have h : 132 * u = 696 := by linarith
    rcases f.range with k | ⟨-, k⟩ | k <;> norm_num at k <;> linarith

theorem Fan.noTies {u r : ℝ} (f : Fan u r) : NoTies searchCut (23 + 3 * u) (33 + u) r 22 24 := by
  have h3 := f.low
  refine ⟨by linarith, by linarith, ?_, ?_, ?_⟩
  · intro i hi l hl
    obtain rfl : l = _ := List.mem_singleton.mp hl
    change cutSlope.extH - 8 ≠ _
    have hsl : (searchCut.slices : ℝ) = 25 := by
      change ((25 : ℤ) : ℝ) = 25; norm_num
    rw [cutSlope_extH, hsl]
    have hi : i < 25 := hi
    have hi' : (i : ℝ) ≤ 24 := by exact_mod_cast Nat.lt_succ_iff.mp hi
    have h0 : (0 : ℝ) ≤ i := Nat.cast_nonneg i
    generalize hx : (22 : ℝ) + ((i : ℝ) + 1 / 2) * ((24 - 22) / 25) = x
    have x1 : x ≤ 24 := by rw [← hx]; linarith
    intro h
    have hs : √(r ^ 2 - (x - (23 + 3 * u)) ^ 2) = 5 + u := by linarith
    rw [Real.sqrt_eq_iff_mul_self_eq_of_pos (by linarith), f.sq] at hs
    nlinarith
  · intro i _ l hl
    cases hl
  · intro z hz
    cases hz

theorem Fan.cos {u r : ℝ} (f : Fan u r) : ∀ i < searchCut.slices.toNat,
    0 < (sliceOf searchCut (23 + 3 * u) (33 + u) r 22 24 i).cos := by
  intro i hi
  have h3 := f.low
  have hsl : (searchCut.slices : ℝ) = 25 := by
    change ((25 : ℤ) : ℝ) = 25; norm_num
  have hi : i < 25 := hi
  have hi' : (i : ℝ) ≤ 24 := by exact_mod_cast Nat.lt_succ_iff.mp hi
  have h0 : (0 : ℝ) ≤ i := Nat.cast_nonneg i
  unfold sliceOf
  simp only [hsl]
  apply div_pos _ f.pos
  apply Real.sqrt_pos.mpr
  generalize hx : (22 : ℝ) + ((i : ℝ) + 1 / 2) * ((24 - 22) / 25) = x
  have x1 : x ≤ 24 := by rw [← hx]; linarith
  have x2 : 22 < x := by rw [← hx]; linarith
  rw [f.sq]
  nlinarith [sq_nonneg (u - 3)]

/-! ## The five circles -/

theorem sc_chord : chordLength (22, 36) (24, 30) = 2 * √10 := by
  unfold chordLength
  rw [show ((36 : ℝ) - 30) ^ 2 + (24 - 22) ^ 2 = 2 ^ 2 * 10 by norm_num, Real.sqrt_mul (by norm_num), Real.sqrt_sq (by norm_num)]

theorem sc_height : firstHeight (22, 36) (24, 30) = 11 - √111 := by
  unfold firstHeight
  simp only
  norm_num

theorem sc_height_range : 0.464 < 11 - √(111 : ℝ) ∧ 11 - √(111 : ℝ) < 0.4645 := by
  have h1 : √(111 : ℝ) < 10.536 := by rw [Real.sqrt_lt' (by norm_num)]; norm_num
  have h2 : 10.5355 < √(111 : ℝ) := by rw [Real.lt_sqrt (by norm_num)]; norm_num
  norm_num at h1 h2 ⊢
  constructor <;> linarith

/-- A circle of the search. -/
theorem sc_fan {i : ℕ} (hi : i < 5) : ∃ u r, Fan u r ∧ (arcPlane (22, 36) (24, 30) (firstHeight (22, 36) (24, 30) * (((5 : ℕ) : ℝ) - i) / (5 : ℕ))).cx =
      23 + 3 * u ∧ (arcPlane (22, 36) (24, 30) (firstHeight (22, 36) (24, 30) * (((5 : ℕ) : ℝ) - i) / (5 : ℕ))).cy = 33 + u ∧
      (arcPlane (22, 36) (24, 30) (firstHeight (22, 36) (24, 30) * (((5 : ℕ) : ℝ) - i) / (5 : ℕ))).radius = r := by
  obtain ⟨e1, e2⟩ := sc_height_range
  have t1 : 3.162 < √(10 : ℝ) := by rw [Real.lt_sqrt (by norm_num)]; norm_num
  have t2 : √(10 : ℝ) < 3.1623 := by rw [Real.sqrt_lt' (by norm_num)]; norm_num
  have t3 : √(10 : ℝ) ^ 2 = 10 := Real.sq_sqrt (by norm_num)
  rw [sc_height]
  generalize 11 - √(111 : ℝ) = e at *
  generalize hT : √(10 : ℝ) = T at *
  generalize hσ : e * (((5 : ℕ) : ℝ) - i) / (5 : ℕ) = σ
  have T0 : 0 < T := by norm_num at t1; linarith
  have i0 : (i : ℝ) ≤ 4 := by exact_mod_cast Nat.lt_succ_iff.mp hi
  have σ0 : 0 < σ := by
    rw [← hσ]
    have : 0 < e := by norm_num at e1; linarith
    have : (0 : ℝ) < ((5 : ℕ) : ℝ) - i := by push_cast; linarith
    positivity
  have eρ : arcRadius (2 * T) σ = (10 + σ ^ 2) / (2 * σ) := by
    unfold arcRadius
    rw [mul_pow, t3]; norm_num
  have eu : arcRadius (2 * T) σ - σ = (10 - σ ^ 2) / (2 * σ) := by
    rw [eρ]; field_simp; ring
  refine ⟨(10 - σ ^ 2) / (2 * σ) / T, (10 + σ ^ 2) / (2 * σ), ⟨?_, ?_, by positivity, ?_⟩, ?_, ?_, ?_⟩
  · rw [div_div, le_div_iff₀ (by positivity)]
    have : σ ≤ e := by rw [← hσ, div_le_iff₀ (by norm_num)]; push_cast; have : (0 : ℝ) ≤ i := Nat.cast_nonneg i
                       norm_num at e1; nlinarith
    norm_num at *
    nlinarith
  · rw [div_div, div_lt_iff₀ (by positivity), lt_div_iff₀ (by positivity), lt_div_iff₀ (by positivity), div_lt_iff₀ (by positivity)]
    subst hσ
    norm_num at *
    interval_cases i
    · left; push_cast; nlinarith
    · right; left; push_cast; constructor <;> nlinarith
    · right; right; push_cast; nlinarith
    · right; right; push_cast; nlinarith
    · right; right; push_cast; nlinarith
  · rw [div_pow _ T, t3]; field_simp; ring
  · unfold arcPlane
    rw [sc_chord, hT]
    simp only
    rw [eu]; field_simp; ring
  · unfold arcPlane
    rw [sc_chord, hT]
    simp only
    rw [eu]; field_simp; ring
  · unfold arcPlane
    rw [sc_chord, hT]
    simp only
    rw [eρ]

theorem sc_circles {k : ℕ} (hk : k ≤ 5) : NoTiesCircles searchCut (Real.arctan (((36 : ℝ) - 30) / (24 - 22))) 10 (11 - √111) 5 k
    (22, 36) (24, 30) := by
  induction k with
  | zero => trivial
  | succ k ih =>
    have ih := ih (by omega)
    obtain ⟨u, r, f, c1, c2, c3⟩ := sc_fan (i := 4 - k) (by omega)
    have cast : ((5 : ℕ) : ℝ) - ((4 - k : ℕ) : ℝ) = (k : ℝ) + 1 := by
      rw [Nat.cast_sub (by omega)]; push_cast; ring
    rw [cast, sc_height] at c1 c2 c3
    obtain ⟨s1, s2⟩ := sin_arctan_chord (L := (22, 36)) (R := (24, 30)) (by norm_num)
    have hr : segmentRadius 10 ((11 - √111) * ((k : ℝ) + 1) / (5 : ℕ)) = r := by
      rw [← c3]
      unfold segmentRadius arcPlane arcRadius
      simp only
      rw [sc_chord, mul_pow, Real.sq_sqrt (by norm_num)]
      norm_num
    have hr' : arcRadius (chordLength (22, 36) (24, 30)) ((11 - √111) * ((k : ℝ) + 1) / (5 : ℕ)) = r := c3
    have hc : segmentCentre (Real.arctan (((36 : ℝ) - 30) / (24 - 22))) 10 ((11 - √111) * ((k : ℝ) + 1) / (5 : ℕ)) (22, 36) (24, 30) =
        (23 + 3 * u, 33 + u) := by
      unfold segmentCentre
      rw [hr, ← c1, ← c2]
      unfold arcPlane
      simp only [hr']
      simp only at s1 s2
      rw [s1, s2]
    unfold NoTiesCircles
    simp only [hc, hr]
    refine ⟨f.ends, fun l' r' h => ?_, fun _ => ih⟩
    obtain ⟨rfl, rfl⟩ := f.first h
    exact ih

theorem sc_noTiesChord : NoTiesChord searchCut (22, 36) (24, 30) 5 := by
  obtain ⟨-, s2⟩ := sin_arctan_chord (L := (22, 36)) (R := (24, 30)) (by norm_num)
  have hD : √(((36 : ℝ) - 30) ^ 2 + (24 - 22) ^ 2) = 2 * √10 := sc_chord
  have t : √(10 : ℝ) * √10 = 10 := Real.mul_self_sqrt (by norm_num)
  have t0 : 0 < √(10 : ℝ) := Real.sqrt_pos.mpr (by norm_num)
  rw [sc_chord] at s2
  simp only at s2
  refine ⟨by norm_num, ?_⟩
  simp only
  rw [hD, s2]
  have e1 : (2 * √(10 : ℝ) / 2) ^ 2 = 10 := by
    rw [mul_div_cancel_left₀ _ (by norm_num), Real.sq_sqrt (by norm_num)]
  have e2 : 2 * √(10 : ℝ) / 2 / ((24 - 22) / (2 * √10)) * 1.1 = 11 := by
    have : 2 * √(10 : ℝ) / 2 / ((24 - 22) / (2 * √10)) = √10 * √10 := by
      field_simp; norm_num
    rw [this, t]; norm_num
  rw [e1, e2, show (11 : ℝ) ^ 2 - 10 = 111 by norm_num]
  exact sc_circles le_rfl

/-! ## The pairs of points -/

theorem sc_top : numPointsTop searchCut.iterations.toNat = 14 := (Nat.eq_sqrt.mpr ⟨by decide, by decide⟩).symm

theorem sc_bot : numPointsBot searchCut.iterations.toNat = 15 := by
  unfold numPointsBot
  rw [sc_top]
  decide

/-- Only one pair of points is far enough apart. -/
theorem sc_pair {k j : ℕ} (hk : k < 14) (hj : j < 15) {x y : ℝ} (hx : x = 22 + (k : ℝ) / 13 * 1.9)
    (hy : y = 23.98 + ((j : ℝ) + 1) / 15 * 0.02) :
    ((x - y) ^ 2 + (36 - (36 - 150 * (y - 599 / 25))) ^ 2 < 6.3 ^ 2 ∨ (x = 22 ∧ y = 24)) ∧ (22 ≤ x ∧ x ≤ 23.9) ∧ 23.98 < y ∧ y ≤ 24 := by
  have k0 : (0 : ℝ) ≤ k := Nat.cast_nonneg k
  have j0 : (0 : ℝ) ≤ j := Nat.cast_nonneg j
  have k1 : (k : ℝ) ≤ 13 := by exact_mod_cast Nat.lt_succ_iff.mp hk
  have j1 : (j : ℝ) ≤ 14 := by exact_mod_cast Nat.lt_succ_iff.mp hj
  have b : (22 ≤ x ∧ x ≤ 23.9) ∧ 23.98 < y ∧ y ≤ 24 := by
    rw [hx, hy]
    refine ⟨⟨?_, ?_⟩, ?_, ?_⟩ <;> norm_num <;> linarith
  refine ⟨?_, b⟩
  obtain ⟨⟨b1, b2⟩, b3, b4⟩ := b
  norm_num at b2 b3
  by_cases hj2 : j = 14
  · subst hj2
    have hy : y = 24 := by rw [hy]; norm_num
    subst hy
    by_cases hk2 : k = 0
    · subst hk2
      right
      exact ⟨by rw [hx]; norm_num, rfl⟩
    · left
      have : (1 : ℝ) ≤ k := by exact_mod_cast Nat.one_le_iff_ne_zero.mpr hk2
      have : 22.14 ≤ x := by rw [hx]; norm_num; linarith
      norm_num at this ⊢
      nlinarith
  · left
    have : (j : ℝ) ≤ 13 := by exact_mod_cast (by omega : j ≤ 13)
    have : y ≤ 24 - 0.001 := by rw [hy]; norm_num; linarith
    norm_num at this ⊢
    have h1 : (x - y) ^ 2 ≤ 2 ^ 2 := by rw [← neg_sub, neg_sq]; apply pow_le_pow_left₀ <;> linarith
    have h2 : (150 * (y - 599 / 25)) ^ 2 ≤ (5.85 : ℝ) ^ 2 := by apply pow_le_pow_left₀ <;> norm_num <;> linarith
    norm_num at h2
    linarith

theorem sc_points {p q : ℝ × ℝ} (hp : IsEntry searchCut p) (hq : IsExit searchCut q) :
    (√((p.1 - q.1) ^ 2 + (p.2 - q.2) ^ 2) < 6.3 ∨ (p = (22, 36) ∧ q = (24, 30))) ∧ p.1 < q.1 ∧ 23 < q.1 ∧ q.1 ≤ 24 := by
  obtain ⟨hp2, hp⟩ := hp
  obtain ⟨j, hj, hq1, hq2⟩ := hq
  have e1 : searchCut.lls = [] := rfl
  have e2 : searchCut.udls = [] := rfl
  simp only [e1, e2, List.not_mem_nil, false_and, exists_false, or_false, sc_top, List.length_nil] at hp
  obtain ⟨k, hk, hp1⟩ := hp
  rw [sc_bot] at hj hq1
  have hk : k < 14 := by omega
  have hp1 : p.1 = 22 + (k : ℝ) / 13 * 1.9 := by
    rw [hp1]
    change 22 + (k : ℝ) / _ * ((23.9 : ℝ) - 22) = _
    norm_num
  have hq1 : q.1 = 23.98 + ((j : ℝ) + 1) / 15 * 0.02 := by
    rw [hq1]
    change 23.98 + ((j : ℝ) + 1) / _ * ((24 : ℝ) - 23.98) = _
    norm_num
  obtain ⟨a, ⟨b1, b2⟩, b3, b4⟩ := sc_pair hk hj hp1 hq1
  norm_num at b2 b3
  rw [sc_ground (by linarith) (by linarith)] at hq2
  refine ⟨?_, by linarith, by linarith, b4⟩
  rw [hp2, hq2, sc_topY]
  rcases a with a | ⟨a1, a2⟩
  · left
    rw [Real.sqrt_lt' (by norm_num)]
    exact a
  · right
    rw [a2] at hq2
    exact ⟨Prod.ext a1 (hp2.trans sc_topY), Prod.ext a2 (hq2.trans (by norm_num))⟩

theorem sc_far : (6.3 : ℝ) < √(((22 : ℝ) - 24) ^ 2 + (36 - 30) ^ 2) := by
  rw [Real.lt_sqrt (by norm_num)]; norm_num

theorem sc_noTiesSearch : NoTiesSearch searchCut := by
  have hm : searchCut.minFailureDist = 6.3 := rfl
  have hp0 : IsEntry searchCut (22, 36) := by
    refine ⟨sc_topY.symm, .inl ⟨0, ?_, ?_⟩⟩
    · rw [sc_top]; decide
    · change (22 : ℝ) = 22 + _
      norm_num
  refine ⟨fun q hq => ?_, fun p q hp hq => ?_, fun p q hp hq => ?_, fun p q hp hq h => ?_⟩
  · obtain ⟨-, -, h1, h2⟩ := sc_points hp0 hq
    rw [sc_extL]
    constructor <;> linarith
  · exact (sc_points hp hq).2.1.ne
  · rw [hm]
    rcases (sc_points hp hq).1 with h | ⟨rfl, rfl⟩
    · exact h.ne
    · exact sc_far.ne'
  · rw [hm] at h
    rcases (sc_points hp hq).1 with h' | ⟨rfl, rfl⟩
    · exact absurd h' h.not_gt
    · rw [show numCircles searchCut.iterations.toNat = 5 by decide]
      exact sc_noTiesChord

noncomputable def scEntries : List (ℝ × ℝ) :=
  (List.range 14).map fun (k : ℕ) => (22 + ((k : ℝ) / ((14 - 1 : ℤ) : ℝ)) * (23.9 - 22), searchCut.topY)

theorem sc_entries : searchCut.entryPoints = .ok scEntries := by
  rw [entryPoints_eq]
  simp only [show searchCut.lls = [] from rfl, show searchCut.udls = [] from rfl, sc_top, List.length_nil, List.map_nil, List.append_nil]
  rw [if_neg (by decide)]
  rfl

theorem sc_entry {p : ℝ × ℝ} (h : p ∈ scEntries) : IsEntry searchCut p := by
  obtain ⟨k, hk, rfl⟩ := List.mem_map.mp h
  have hk := List.mem_range.mp hk
  refine ⟨rfl, .inl ⟨k, ?_, ?_⟩⟩
  · rw [sc_top]
    change (k : ℤ) < 14
    omega
  · rw [sc_top]
    rfl

theorem sc_exit {p : ℝ × Option ℝ} (h : p ∈ searchCut.exitPoints) {y : ℝ} (hy : p.2 = some y) : IsExit searchCut (p.1, y) := by
  have w := searchCut_reachable.wf
  obtain ⟨h1, h2, y', h3, h4⟩ := exitPoints_mem w h
  rw [h3] at hy
  injection hy with hy
  subst hy
  rw [exitPoints_eq] at h
  obtain ⟨k, hk, rfl⟩ := List.mem_map.mp h
  have hk := List.mem_range.mp hk
  refine ⟨k, hk, ?_, ?_⟩
  · push_cast; rfl
  · simp only at h4 h1 h2 ⊢
    have l1 : (0 : ℝ) ≤ searchCut.lim3 := by change (0 : ℝ) ≤ 23.98; norm_num
    have l2 : searchCut.lim4 ≤ searchCut.extL := by rw [sc_extL]; change (24 : ℝ) ≤ 48; norm_num
    rw [getExternalY_groundY w.geo (l1.trans h1.le) (h2.trans l2)] at h4
    injection h4 with h4
    exact h4.symm

theorem sc_farPairs {q : (ℝ × ℝ) × (ℝ × ℝ)} : q ∈ farPairs searchCut scEntries → q = ((22, 36), (24, 30)) := by
  intro hq
  unfold farPairs at hq
  obtain ⟨hq, hd⟩ := List.mem_filter.mp hq
  obtain ⟨l, hl, hq⟩ := List.mem_flatMap.mp hq
  obtain ⟨p, hp, hq⟩ := List.mem_filterMap.mp hq
  obtain ⟨y, hy, rfl⟩ := Option.map_eq_some_iff.mp hq
  have hd : (6.3 : ℝ) < _ := of_decide_eq_true hd
  rcases (sc_points (sc_entry hl) (sc_exit hp hy)).1 with h | ⟨h1, h2⟩
  · exact absurd hd h.not_gt
  · rw [h1, h2]

theorem sc_planes : ∃ ps, searchCut.entryExitPlanes = .ok ps ∧ ps ≠ [] ∧
    (∀ p ∈ ps, ∃ i < 5, p = arcPlane (22, 36) (24, 30) (firstHeight (22, 36) (24, 30) * (((5 : ℕ) : ℝ) - (i : ℕ)) / (5 : ℕ))) := by
  have far : ∀ q ∈ farPairs searchCut scEntries, 0.03 < q.2.1 - q.1.1 := by
    intro q hq
    rw [sc_farPairs hq]; norm_num
  obtain ⟨-, h⟩ := search_arcs searchCut_reachable sc_entries (fun l hl => by
    obtain ⟨k, hk, rfl⟩ := List.mem_map.mp hl
    have := even_mem (n := 14) (by simpa using List.mem_range.mp hk) (by decide) (a := 22) (b := 23.9) (by norm_num)
    rw [sc_topX]
    simp only
    norm_num at *
    constructor <;> linarith) (by rw [sc_botX]; change (24 : ℝ) ≤ _; norm_num) far
  refine ⟨_, h, ?_, ?_⟩
  · intro hn
    rw [List.flatMap_eq_nil_iff] at hn
    have hm : ((22, 36), (24, 30)) ∈ farPairs searchCut scEntries := by
      unfold farPairs
      rw [List.mem_filter]
      refine ⟨?_, decide_eq_true sc_far⟩
      rw [List.mem_flatMap]
      refine ⟨(22, 36), ?_, ?_⟩
      · refine List.mem_map.mpr ⟨0, by simp, ?_⟩
        rw [sc_topY]; norm_num
      · rw [List.mem_filterMap]
        refine ⟨(24, some 30), ?_, rfl⟩
        rw [exitPoints_eq, sc_bot]
        refine List.mem_map.mpr ⟨14, by simp, ?_⟩
        have : searchCut.lim3 + (((14 + 1 : ℕ) : ℝ) / ((15 : ℕ) : ℝ)) * (searchCut.lim4 - searchCut.lim3) = 24 := by
          change 23.98 + (((14 + 1 : ℕ) : ℝ) / ((15 : ℕ) : ℝ)) * ((24 : ℝ) - 23.98) = 24
          norm_num
        rw [this, getExternalY_groundY searchCut_reachable.wf.geo (by norm_num) (by rw [sc_extL]; norm_num),
          sc_ground (by norm_num) (by norm_num)]
        norm_num
    have := hn _ hm
    unfold arcPlanes at this
    rw [List.map_eq_nil_iff, show circlesFor searchCut.iterations.toNat = 5 by decide] at this
    exact absurd this (by decide)
  · intro p hp
    obtain ⟨q, hq, hp⟩ := List.mem_flatMap.mp hp
    rw [sc_farPairs hq, show circlesFor searchCut.iterations.toNat = 5 by decide] at hp
    unfold arcPlanes at hp
    obtain ⟨i, hi, rfl⟩ := List.mem_map.mp hp
    exact ⟨i, List.mem_range.mp hi, rfl⟩

theorem sc_value {i : ℕ} (hi : i < 5) {p : Plane ℝ}
    (hp : p = arcPlane (22, 36) (24, 30) (firstHeight (22, 36) (24, 30) * (((5 : ℕ) : ℝ) - (i : ℕ)) / (5 : ℕ))) :
    ∃ F, 0 < F ∧ searchCut.bishop p.cx p.cy p.radius none none = .ok F ∧ BishopValue searchCut p.cx p.cy p.radius 22 24 F := by
  have one : ∀ l ∈ searchCut.materials, l.mat = deepClay := fun l hl => by
    obtain rfl : l = _ := List.mem_singleton.mp hl
    rfl
  have i0 : (i : ℝ) ≤ 4 := by exact_mod_cast Nat.lt_succ_iff.mp hi
  have i1 : (0 : ℝ) ≤ i := Nat.cast_nonneg i
  have e0 : 0 < firstHeight (22, 36) (24, 30) := by
    rw [sc_height]; have := sc_height_range.1; norm_num at this; linarith
  have cf : CrestFace searchCut (22, 36) (24, 30) := by
    refine ⟨by norm_num, by rw [sc_topX]; norm_num, sc_topY.symm, by rw [sc_topX]; norm_num, by rw [sc_botX]; norm_num, ?_⟩
    rw [searchCut_reachable.wf.geo.grad, sc_topX, sc_topY]
    change (30 : ℝ) = 36 - (24 - 599 / 25) * (12 / (2 / 25))
    norm_num
  obtain ⟨F, h1, h2, h3⟩ := cf.fos searchCut_reachable (fun l hl => by rw [one l hl]; simp [deepClay, exFric]) (.inl rfl)
    (fun z hz => by cases hz) (by simp [searchCut, cutOf]) (.inl fun l hl => by rw [one l hl]; simp [deepClay, exFric])
    (by norm_num) (by norm_num) (σ := firstHeight (22, 36) (24, 30) * (((5 : ℕ) : ℝ) - (i : ℕ)) / (5 : ℕ))
    (by
      have : (0 : ℝ) < ((5 : ℕ) : ℝ) - i := by push_cast; linarith
      positivity)
    (by
      rw [div_le_iff₀ (by norm_num)]
      push_cast
      nlinarith)
  rw [← hp] at h2 h3
  exact ⟨F, h1, fosOf_some.mp h2, h3⟩

/-- The circles of the search have a factor of safety and meet no coincidence. -/
theorem searchCut_case : ∃ ps, searchCut.entryExitPlanes = .ok ps ∧ ps ≠ [] ∧
    (∀ p ∈ ps, ∃ F, searchCut.bishop p.cx p.cy p.radius none none = .ok F) ∧
    (∀ p ∈ ps, NoTiesEnds searchCut p.cx p.cy p.radius) ∧
    ∀ p ∈ ps, ∀ l q, FirstCrossings searchCut p.cx p.cy p.radius l q → NoTiesBishop searchCut p.cx p.cy p.radius l.1 q.1 := by
  obtain ⟨ps, hs, hne, hps⟩ := sc_planes
  refine ⟨ps, hs, hne, ?_, ?_, ?_⟩
  · intro p hp
    obtain ⟨i, hi, hp⟩ := hps p hp
    obtain ⟨F, -, hF, -⟩ := sc_value hi hp
    exact ⟨F, hF⟩
  · intro p hp
    obtain ⟨i, hi, rfl⟩ := hps p hp
    obtain ⟨u, r, f, c1, c2, c3⟩ := sc_fan hi
    rw [c1, c2, c3]
    exact f.ends
  · intro p hp l q hl
    obtain ⟨i, hi, hp⟩ := hps p hp
    obtain ⟨F, h0, -, hF⟩ := sc_value hi hp
    obtain ⟨u, r, f, c1, c2, c3⟩ := sc_fan hi
    rw [hp, c1, c2, c3] at hl hF ⊢
    obtain ⟨rfl, rfl⟩ := f.first hl
    refine clay_noTiesBishop searchCut_reachable (fun l hl => ?_) (by simp [searchCut, cutOf]) h0 hF ?_ f.noTies f.cos
    · obtain rfl : l = _ := List.mem_singleton.mp hl
      simp [mkLayer, deepClay, exFric]
    · change (0 : ℝ) < 0.005
      norm_num

/-- The material of the case, with its numbers off by `ε`. -/
noncomputable def offDeep (ε : ℝ) : Material (Off ε) := { offFric ε with depth := ⟨8 + ε⟩ }

/-- A case of C112: the cut in clay, `set_materials`, `set_analysis_limits(22, 24, 23.9, 23.98)`,
`update_analysis_options(min_failure_distance=6.3)` and `analyse_slope`, which tries five circles. -/
example (δ : ℝ) (hδ : 0 < δ) : ∃ F, (searchCut.analyseSlope none).1.getMinFos = .ok (some F) ∧ ∃ ε > 0,
    ∃ t0, Slope.new (.num ⟨12 + ε⟩) (.num ⟨30 + ε⟩) (.num ⟨2 / 25 + ε⟩) = .ok t0 ∧
      ∃ F' : Off ε, ((runAll [.setMaterials [some (offDeep ε)],
        .setAnalysisLimits (.num ⟨22 + ε⟩) (.num ⟨24 + ε⟩) (.num ⟨23.9 + ε⟩) (.num ⟨23.98 + ε⟩),
        .updateAnalysisOptions none none (some ⟨6.3 + ε⟩) none none] t0).analyseSlope none).1.getMinFos = .ok (some F') ∧
          |F'.val - F| ≤ δ := by
  obtain ⟨ps, hs, hne, hv, ne, nb⟩ := searchCut_case
  have main := C112_search (.num 12) (.num 30) (.num (2 / 25)) ⟨⟨_, rfl, by norm_num⟩, ⟨_, rfl, by norm_num, by norm_num⟩,
    .inr ⟨_, rfl, by norm_num⟩⟩ cutSlope cutSlope_new searchOps searchOps_valid searchOps_noTies
  rw [searchOps_run] at main
  obtain ⟨F, hF, ε, hε, h⟩ := main rfl sc_noTiesSearch ps hs hne hv ne nb δ hδ
  refine ⟨F, hF, ε, hε, ?_⟩
  have off : ∀ x : ℝ, |x + ε - x| ≤ ε := fun x => by rw [add_sub_cancel_left, abs_of_pos hε]
  obtain ⟨t0, h1, -, -, h2⟩ := h (Off ε) Off.val (off_accurate hε) (off_accurateTan hε) (.num ⟨12 + ε⟩) (.num ⟨30 + ε⟩)
    (.num ⟨2 / 25 + ε⟩) [.setMaterials [some (offDeep ε)],
        .setAnalysisLimits (.num ⟨22 + ε⟩) (.num ⟨24 + ε⟩) (.num ⟨23.9 + ε⟩) (.num ⟨23.98 + ε⟩),
        .updateAnalysisOptions none none (some ⟨6.3 + ε⟩) none none] (off _) (off _) (off _)
    (by
      refine .cons (.cons (.some ⟨off _, ?_, ?_, off _⟩) .nil) (.cons ⟨off _, off _, off _, off _⟩
        (.cons ⟨rfl, rfl, rfl, .some (off _), .none⟩ .nil))
      · change |100 + ε - abs (100 : ℝ)| ≤ ε
        rw [abs_of_pos (show (0 : ℝ) < 100 by norm_num)]
        exact off _
      · change |0 - Real.tan (abs 0 * (Real.pi / 180))| ≤ ε
        simpa using hε.le)
  exact ⟨t0, h1, h2⟩

/-- A case for C111: adding the five circles from 22 to 24 to the same slope meets no coincidence. -/
example : NoTiesCall searchCut (.addSingleEntryExitPlane 22 24 5) := by
  have h : groundY searchCut 22 = 36 := by
    unfold groundY
    rw [sc_topX, sc_extH, if_pos (by norm_num)]
  refine ⟨⟨by norm_num, by rw [sc_extL]; norm_num⟩, ⟨by norm_num, by rw [sc_extL]; norm_num⟩, ?_⟩
  rw [h, sc_ground (by norm_num) (by norm_num)]
  norm_num only
  exact sc_noTiesChord

end PySlope
