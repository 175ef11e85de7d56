import Verif.Spec.ExampleFos

/-! # Properties C40, C41, C46, C55: the values reported

`s.bishop cx cy r none none = .ok F` is what an analysis computes for a circle: it reports `F`. -/

namespace PySlope
open Finset

/-- Every plane listed after an analysis has a number, which is the one computed for its circle. -/
theorem reported {s t : Slope ℝ} {m : Option ℝ} (h : s.analyseSlope m = (t, .ok ())) {p : Plane ℝ}
    (hp : p ∈ t.search) :
    ∃ F, p.fos = some (some F) ∧ s.bishop p.cx p.cy p.radius none none = .ok F := by
  obtain ⟨ps, _, _, rfl⟩ := analyseSlope_ok h
  have hp : p ∈ tidySearch m (ps.map (withFos s)) := hp
  rw [tidySearch_eq] at hp
  have hp1 := List.mem_of_mem_filter hp
  have hp2 : p ∈ (ps.map (withFos s)).filter (fun p => p.fosVal.isSome) :=
    (List.mergeSort_perm _ _).mem_iff.mp hp1
  obtain ⟨hp3, hp4⟩ := List.mem_filter.mp hp2
  obtain ⟨p0, _, rfl⟩ := List.mem_map.mp hp3
  rw [fosVal_withFos] at hp4
  obtain ⟨F, hF⟩ := Option.isSome_iff_exists.mp hp4
  refine ⟨F, ?_, fosOf_some.mp hF⟩
  change some (fosOf s p0) = _
  rw [hF]

/-- The end points Bishop's method takes are crossings of the circle with the ground. -/
theorem bishopLoop_value {s : Slope ℝ} (rc : Reachable s) {cx cy r F F0 : ℝ} {l rt : ℝ × ℝ}
    (ho : s.ordinary cx cy r (some l) (some rt) = .ok F0)
    (hl : bishopLoop ((rt.1 - l.1) / s.slices) s.tolerance
      (listOf s.slices.toNat (sliceOf s cx cy r l.1 rt.1)) s.maxIterations.toNat F0 = .ok F) :
    BishopValue s cx cy r l.1 rt.1 F := by
  obtain ⟨_, _, _, h4, _, _, _, _, _, hd, hF⟩ := ordinary_spec rc ho
  obtain ⟨k, f, h1, h2, h3, h5, h6, h7⟩ :=
    bishopLoop_ok (w := (rt.1 - l.1) / s.slices) (fun _ => rfl) _ _ _ hl
  exact ⟨hd, k, f, h1, by rw [h2, hF], fun i hi => (h5 i hi).1, h3, h6, h7⟩

theorem firstCrossings {s : Slope ℝ} (g : Geo s) {cx cy r : ℝ} {l rt : ℝ × ℝ} {rest}
    (e : s.circleExternalIntersection cx cy r = .ok (l :: rt :: rest)) :
    FirstCrossings s cx cy r l rt := by
  obtain ⟨is, e', h1, h2, h3⟩ := intersections g cx cy r
  rw [e'] at e
  cases e
  obtain ⟨h4, h5⟩ := List.pairwise_cons.mp h1
  refine ⟨h2 _ (by simp), h2 _ (by simp), h4 rt (by simp), fun p hp => ?_⟩
  obtain ⟨q, hq, a, b⟩ := h3 p hp
  rcases List.mem_cons.mp hq with rfl | hq
  · exact ⟨a, .inl (by linarith)⟩
  · have := h4 q hq
    norm_num at this
    refine ⟨by linarith, .inr ?_⟩
    rcases List.mem_cons.mp hq with rfl | hq
    · exact a
    · have := (List.pairwise_cons.mp h5).1 q hq
      norm_num at this
      linarith

theorem bishopEnds_first {s : Slope ℝ} (g : Geo s) {cx cy r : ℝ} {l rt : ℝ × ℝ}
    (h : s.bishopEnds cx cy r none none = .ok (l, rt)) :
    (∃ rest, s.circleExternalIntersection cx cy r = .ok (l :: rt :: rest)) ∧
    FirstCrossings s cx cy r l rt := by
  have key : ∃ rest, s.circleExternalIntersection cx cy r = .ok (l :: rt :: rest) := by
    unfold Slope.bishopEnds at h
    cases e : s.circleExternalIntersection cx cy r with
    | error x => rw [e] at h; cases h
    | ok is =>
      rw [e] at h
      simp only at h
      split at h
      · cases h
      · rcases is with _ | ⟨a, _ | ⟨b, is⟩⟩
        · cases h
        · cases h
        · cases h; exact ⟨is, rfl⟩
  obtain ⟨rest, e⟩ := key
  exact ⟨⟨rest, e⟩, firstCrossings g e⟩

theorem bishopEnds_crossing {s : Slope ℝ} (rc : Reachable s) {cx cy r : ℝ} {l rt : ℝ × ℝ}
    (h : s.bishopEnds cx cy r none none = .ok (l, rt)) :
    Crossing s cx cy r l ∧ Crossing s cx cy r rt :=
  let k := (bishopEnds_first rc.wf.geo h).2
  ⟨k.1, k.2.1⟩

/-! ## C55 -/

/-- C55: the ordinary method between two end points gives a number exactly when the centre and the
radius are not negative, the end points are more than a micrometre apart, every slice is over the
circle, there is a material and the water is in the model, and the driving sum is positive; and then
it is the one of Fellenius' formula over the slices of the specification. -/
theorem C55_ordinary_formula (s : Slope ℝ) (rc : Reachable s) (cx cy r : ℝ) (l rt : ℝ × ℝ) (F : ℝ) :
    s.ordinary cx cy r (some l) (some rt) = .ok F ↔
      0 ≤ cx ∧ 0 ≤ cy ∧ 0 < r ∧ 1e-6 < rt.1 - l.1 ∧
      (∀ i < s.slices.toNat, |l.1 + ((i : ℝ) + 1 / 2) * ((rt.1 - l.1) / s.slices) - cx| < r) ∧
      s.materials ≠ [] ∧ (∃ w, s.waterX = .ok w) ∧
      0 < driving s.slices.toNat (sliceOf s cx cy r l.1 rt.1) ∧
      F = fellenius s.slices.toNat (sliceOf s cx cy r l.1 rt.1) := by
  have hsl : 10 ≤ s.slices := rc.wf.sl.1
  have hab : ∀ {x : ℝ}, 0 < r → (|x| < r ↔ x ^ 2 < r ^ 2) := by
    intro x hr
    rw [← abs_of_pos hr, ← sq_lt_sq, abs_of_pos hr]
  constructor
  · intro e
    obtain ⟨h1, h2, h3, h4, h5, h6, water, hw, hf, hd, hF⟩ := ordinary_spec rc e
    refine ⟨h1, h2, h3, h4, ?_, h5, ⟨_, hw⟩, hd, hF⟩
    intro i hi
    rw [hab h3]
    exact h6 i hi
  · rintro ⟨h1, h2, h3, h4, h6, h5, ⟨water, hw⟩, hd, rfl⟩
    have h6' : ∀ i < s.slices.toNat, (centre l.1 rt.1 s.slices i - cx) ^ 2 < r ^ 2 :=
      fun i hi => (hab h3).mp (h6 i hi)
    have hf := forces_eq (cy := cy) rc h5 hw h3.le h6'
    have hf' : s.forces water cx cy r l.1 rt.1 =
        listOf s.slices.toNat (sliceOf s cx cy r l.1 rt.1) := hf
    rw [ordinary_eq (by omega) ⟨h1, h2, h3.le⟩ h4 h6' h5 hw, hf', listOf_driving,
      if_neg (not_le.mpr hd)]
    congr 1
    exact listOf_ordinary (fun i => rfl)

/-- A material with friction: `Material(unit_weight=20, friction_angle=φ, cohesion=c, depth_to_bottom=2)`. -/
noncomputable def exFric (φ c : ℝ) : Material ℝ :=
  { unitWeight := 20, frictionAngle := |φ|, cohesion := |c|, depth := 2,
    tanPhi := Real.tan (|φ| * (Real.pi / 180)), name := "", userColor := none }

theorem exFric_constructed (φ c : ℝ) (hφ : 0 ≤ φ) : Material.Constructed (exFric φ c) := by
  refine ⟨fun _ => false, .num 20, .num φ, .num c, .num 2, .str "", .str "", ?_⟩
  rw [(C01_material (fun _ => false) (.num 20) (.num φ) (.num c) (.num 2) (.str "") (.str "")).1
    20 φ c 2 "" "" ⟨rfl, by norm_num, by norm_num, rfl, hφ, rfl, rfl⟩ rfl rfl]
  simp [exFric, abs_of_nonneg hφ]

theorem exFric_ground (φ c : ℝ) (hφ : 0 ≤ φ) : ExGround (exOf (exFric φ c)) (exFric φ c) :=
  exOf_ground (exFric_constructed φ c hφ) (by simp [exFric]; norm_num)

/-- A case of C55: the circle of the example in a soil with friction. -/
example : ∃ F, (exOf (exFric 30 5)).ordinary 9 (35 / 3) (17 / 3) (some (4, 9)) (some (9, 6)) = .ok F :=
  ⟨_, (exFric_ground 30 5 (by norm_num)).ordinary (by norm_num [exFric]) rfl⟩

/-! ## C40 -/

theorem tan_nonneg_deg {φ : ℝ} (h0 : 0 ≤ φ) (h1 : φ ≤ 90) : 0 ≤ Real.tan (φ * (Real.pi / 180)) := by
  apply Real.tan_nonneg_of_nonneg_of_le_pi_div_two
  · positivity
  · have := Real.pi_pos
    nlinarith

/-- Materials do not have a friction angle above 90 degrees. -/
def SoundFriction (s : Slope ℝ) : Prop := ∀ l ∈ s.materials, l.mat.frictionAngle ≤ 90

/-- What the slices of a reachable configuration are like. -/
theorem slice_facts {s : Slope ℝ} (rc : Reachable s) (hm : s.materials ≠ []) {cx cy r xl xr : ℝ}
    (hr : 0 < r) (hx : xl < xr) {i : ℕ} (hi : (centre xl xr s.slices i - cx) ^ 2 < r ^ 2) :
    let q := sliceOf s cx cy r xl xr i
    0 < q.b ∧ 0 ≤ q.c ∧ 0 ≤ q.φ ∧ 0 < q.cos ∧ 0 ≤ q.W ∧ 0 ≤ q.u ∧ (SoundFriction s → 0 ≤ q.tan) := by
  intro q
  have hsl : 10 ≤ s.slices := rc.wf.sl.1
  have hn : (0 : ℝ) < s.slices := by
    have : (0 : Int) < s.slices := by omega
    exact_mod_cast this
  have hb : 0 < (xr - xl) / s.slices := div_pos (by linarith) hn
  have hd : 0 < r ^ 2 - (centre xl xr s.slices i - cx) ^ 2 := by linarith
  obtain ⟨l, hl, hlm, _⟩ := strengthAt_eq rc hm
    (cy - √(r ^ 2 - (xl + ((i : ℝ) + 1 / 2) * ((xr - xl) / s.slices) - cx) ^ 2))
  have hmat := (rc.sane.mat l.mat (List.mem_map_of_mem hlm)).facts
  have hc : q.c = l.mat.cohesion := by
    simp only [q, sliceOf, hl]
  have hφ : q.φ = l.mat.frictionAngle := by
    simp only [q, sliceOf, hl]
  refine ⟨hb, by rw [hc]; exact hmat.2.2.2.1, by rw [hφ]; exact hmat.2.2.1, ?_, ?_, ?_, ?_⟩
  · exact div_pos (Real.sqrt_pos.mpr hd) hr
  · change 0 ≤ weightOn s _ _ _ _
    unfold weightOn
    apply add_nonneg
    · apply add_nonneg
      · apply mul_nonneg
        · linarith
        · apply intervalIntegral.integral_nonneg (le_max_right _ _)
          intro y _
          exact unitWeightAt_nonneg rc y
      · apply list_sum_nonneg
        intro u hu
        exact mul_nonneg (rc.sane.udl u.load (List.mem_map_of_mem hu)).1.le (le_max_right _ _)
    · apply list_sum_nonneg
      intro u hu
      split
      · exact (rc.sane.ll u.load (List.mem_map_of_mem hu)).le
      · exact le_refl _
  · change 0 ≤ pressureAt s _ _ _
    unfold pressureAt
    cases s.waterRL with
    | none => exact le_refl _
    | some z =>
      simp only
      split
      · exact le_refl _
      · apply mul_nonneg
        · exact mul_nonneg (le_max_right _ _) (by norm_num)
        · split
          · exact rc.wf.wh.1
          · norm_num
  · intro hs
    unfold Slice.tan
    rw [hφ]
    exact tan_nonneg_deg hmat.2.2.1 (hs l hlm)

/-- The ordinary factor of safety is not negative when no friction angle is above 90 degrees. -/
theorem fellenius_nonneg {s : Slope ℝ} (rc : Reachable s) (hs : SoundFriction s) {cx cy r F : ℝ}
    {l rt : ℝ × ℝ} (e : s.ordinary cx cy r (some l) (some rt) = .ok F) : 0 ≤ F := by
  obtain ⟨h1, h2, h3, h4, h5, h6, water, hw, hf, hd, rfl⟩ := ordinary_spec rc e
  have hx : l.1 < rt.1 := by norm_num at h4; linarith
  unfold fellenius
  apply div_nonneg _ hd.le
  apply sum_nonneg
  intro i hi
  obtain ⟨a1, a2, a3, a4, a5, a6, a7⟩ := slice_facts (cy := cy) rc h5 h3 hx (h6 i (mem_range.mp hi))
  exact add_nonneg (mul_nonneg a2 (div_nonneg a1.le a4.le)) (mul_nonneg (le_max_left _ _) (a7 hs))

/-- C40 (partial): every factor of safety an analysis reports is at least 0, provided
`max_iterations` is at least 1 (the default is 15) or no friction angle is above 90 degrees. Missing:
with `max_iterations` 0 and a friction angle above 90 degrees it can be negative
(`C40_negative`). -/
theorem C40_nonneg_partial (s t : Slope ℝ) (rc : Reachable s) (m : Option ℝ)
    (h : s.analyseSlope m = (t, .ok ())) (hq : 1 ≤ s.maxIterations ∨ SoundFriction s) :
    (∀ p ∈ t.search, ∃ F, p.fos = some (some F) ∧ 0 ≤ F) ∧
    ∀ F, t.getMinFos = .ok (some F) → 0 ≤ F := by
  have key : ∀ p ∈ t.search, ∃ F, p.fos = some (some F) ∧ 0 ≤ F := by
    intro p hp
    obtain ⟨F, hF, e⟩ := reported h hp
    refine ⟨F, hF, ?_⟩
    obtain ⟨l, rt, F0, he, ho, hl⟩ := bishop_spec rc e
    obtain ⟨k, f, h1, h2, h3, h4, h5, h6⟩ := bishopLoop_ok (w := (rt.1 - l.1) / s.slices) (fun _ => rfl) _ _ _ hl
    cases k with
    | zero =>
      rcases hq with hq | hq
      · rcases h6 with h6 | h6
        · omega
        · omega
      · rw [← h3, h2]
        exact fellenius_nonneg rc hq ho
    | succ k =>
      rw [← h3]
      exact (h4 k (by omega)).2
  refine ⟨key, ?_⟩
  intro F hF
  unfold Slope.getMinFos at hF
  cases hs : t.search with
  | nil => rw [hs] at hF; cases hF
  | cons p rest =>
    obtain ⟨F', h1, h2⟩ := key p (by rw [hs]; simp)
    rw [hs] at hF
    simp only [h1] at hF
    cases hF; exact h2

/-- A case of C40: the analysis of the example. -/
example : exReady.analyseSlope none = (exReady.analysedTo none [exPlane], .ok ()) ∧
    (exReady.analysedTo none [exPlane]).getMinFos = .ok (some exFos) ∧ 1 ≤ exReady.maxIterations := by
  refine ⟨exAnalyse none, ?_, by change (1 : Int) ≤ 15; norm_num⟩
  have := exMinFos
  rwa [exAnalyse] at this

/-- With the circle of the example added, the analysis reports what is computed for it. -/
theorem ExGround.report' {t : Slope ℝ} {m : Material ℝ} (h : ExGround t m) (hi : t.individual = [])
    (hs : t.search = []) {F : ℝ} (e : t.bishop 9 (35 / 3) (17 / 3) none none = .ok F) :
    ∃ a b, t.addSingleCircularPlane 9 (35 / 3) (17 / 3) = (a, .ok ()) ∧ Reachable a ∧
      SameSetup t a ∧ a.analyseSlope none = (b, .ok ()) ∧ b.getMinFos = .ok (some F) ∧
      SameSetup t b ∧ b.search = [{ exPlane with fos := some (some F) }] := by
  have ha : t.addSingleCircularPlane 9 (35 / 3) (17 / 3) =
      ({ t with individual := [exPlane] }, .ok ()) := by
    unfold Slope.addSingleCircularPlane
    rw [h.intersections']
    simp only
    rw [setSize_nodup (by simp)]
    simp only [hi]
    cases t
    simp only at hs
    subst hs
    rfl
  have hr : Reachable { t with individual := [exPlane] } := by
    have := Reachable.call h.reach (.addSingleCircularPlane t 9 (35 / 3) (17 / 3))
    rwa [ha] at this
  have hS : SameSetup t { t with individual := [exPlane] } := by constructor <;> rfl
  have hf : fosOf { t with individual := [exPlane] } exPlane = some F := by
    rw [fosOf_some, hS.bishop]; exact e
  have hsearch : (({ t with individual := [exPlane] } : Slope ℝ).analysedTo none [exPlane]).search =
        [withFos { t with individual := [exPlane] } exPlane] := by
    change tidySearch none [withFos { t with individual := [exPlane] } exPlane] = _
    rw [tidySearch_eq]
    have : (withFos { t with individual := [exPlane] } exPlane).fosVal.isSome := by
      rw [fosVal_withFos, hf]; rfl
    simp [this, sortByKey, pySort, keeps]
  refine ⟨_, _, ha, hr, hS, analyseSlope_of (.inl ⟨by simp, rfl⟩) ?_ none, ?_, ?_, ?_⟩
  · intro p hp e' he
    rw [List.mem_singleton] at hp
    subst hp
    unfold FosRaises at he
    rw [fosOf_some.mp hf] at he
    cases he
  · unfold Slope.getMinFos
    rw [hsearch]
    simp only [withFos, hf]
  · have h2 := SameSetup.analysedTo ({ t with individual := [exPlane] } : Slope ℝ) none [exPlane]
    exact ⟨h2.gradient, h2.topX, h2.topY, h2.botX, h2.botY, h2.extL, h2.extH, h2.lim1, h2.lim2,
      h2.lim3, h2.lim4, h2.materials, h2.udls, h2.lls, h2.waterRL, h2.waterH, h2.slices,
      h2.iterations, h2.minFailureDist, h2.tolerance, h2.maxIterations⟩
  · rw [hsearch]
    simp only [withFos, hf]

theorem ExGround.report {t : Slope ℝ} {m : Material ℝ} (h : ExGround t m) (hi : t.individual = [])
    (hs : t.search = []) {F : ℝ} (e : t.bishop 9 (35 / 3) (17 / 3) none none = .ok F) :
    ∃ a b, t.addSingleCircularPlane 9 (35 / 3) (17 / 3) = (a, .ok ()) ∧ Reachable a ∧
      SameSetup t a ∧ a.analyseSlope none = (b, .ok ()) ∧ b.getMinFos = .ok (some F) := by
  obtain ⟨a, b, h1, h2, h3, h4, h5, _⟩ := h.report' hi hs e
  exact ⟨a, b, h1, h2, h3, h4, h5⟩

/-- `Material(20, 135, 0, 2)` with `update_analysis_options(max_iterations=0)`. -/
noncomputable def exNeg : Slope ℝ := { exOf (exFric 135 0) with maxIterations := 0 }

theorem exNeg_ground : ExGround exNeg (exFric 135 0) := by
  have g := exFric_ground 135 0 (by norm_num)
  have r : Reachable exNeg := by
    have := Reachable.call g.reach (.updateAnalysisOptions _ none none none none (some 0))
    exact this
  exact ⟨r, g.topX, g.extH, g.extL, g.length, g.height, rfl, rfl, rfl, g.mats⟩

theorem tan_135 : Real.tan (135 * (Real.pi / 180)) = -1 := by
  rw [show (135 : ℝ) * (Real.pi / 180) = Real.pi - Real.pi / 4 by ring, Real.tan_pi_sub,
    Real.tan_pi_div_four]

/-- The factor of safety of the example is well below zero. -/
theorem exNeg_fos : ∃ F : ℝ, exNeg.bishop 9 (35 / 3) (17 / 3) none none = .ok F ∧ F ≤ -(8 / 15) := by
  have g := exNeg_ground
  have ho := g.ordinary (by norm_num [exFric]) (water := none) rfl
  have hb : exNeg.bishop 9 (35 / 3) (17 / 3) none none =
      .ok (fellenius 25 (sliceOf exNeg 9 (35 / 3) (17 / 3) 4 9)) := by
    rw [bishop_eq (by rw [g.slices]; norm_num) g.ends ho (water := none) rfl]
    rfl
  refine ⟨_, hb, ?_⟩
  unfold fellenius
  rw [div_le_iff₀ (g.drives (by norm_num [exFric]))]
  unfold driving
  rw [mul_sum]
  apply sum_le_sum
  intro i hi
  have hi := mem_range.mp hi
  obtain ⟨a1, a2, _, a4, a5, a6, a7, a8, a9, a10⟩ := g.slice hi
  have hW := g.weight_pos (by norm_num [exFric]) hi
  have ht : (sliceOf exNeg 9 (35 / 3) (17 / 3) 4 9 i).tan = -1 := by
    unfold Slice.tan
    rw [a6]
    simp only [exFric]
    rw [abs_of_pos (by norm_num), tan_135]
  have hu : (sliceOf exNeg 9 (35 / 3) (17 / 3) 4 9 i).u = 0 := by rw [a10]; rfl
  have hc : (sliceOf exNeg 9 (35 / 3) (17 / 3) 4 9 i).c = 0 := by rw [a5]; simp [exFric]
  rw [ht, hu, hc]
  have : 0 < (sliceOf exNeg 9 (35 / 3) (17 / 3) 4 9 i).W *
      (sliceOf exNeg 9 (35 / 3) (17 / 3) 4 9 i).cos := mul_pos hW a8
  rw [zero_mul, sub_zero, max_eq_right this.le]
  have hsl : exNeg.slices = 25 := g.slices
  have hx : centre 4 9 25 i = 4 + ((i : ℝ) + 1 / 2) * ((9 - 4) / exNeg.slices) := by
    rw [hsl]; rfl
  have hsin : (sliceOf exNeg 9 (35 / 3) (17 / 3) 4 9 i).sin ≤ 15 / 17 := by
    change (9 - (4 + ((i : ℝ) + 1 / 2) * ((9 - 4) / exNeg.slices))) / (17 / 3) ≤ _
    rw [← hx, div_le_iff₀ (by norm_num)]
    linarith
  have hcos : 8 / 17 ≤ (sliceOf exNeg 9 (35 / 3) (17 / 3) 4 9 i).cos := by
    change _ ≤ √((17 / 3) ^ 2 - (4 + ((i : ℝ) + 1 / 2) * ((9 - 4) / exNeg.slices) - 9) ^ 2) /
      (17 / 3)
    rw [← hx, le_div_iff₀ (by norm_num)]
    apply Real.le_sqrt_of_sq_le
    nlinarith
  have h1 : (sliceOf exNeg 9 (35 / 3) (17 / 3) 4 9 i).W * (sliceOf exNeg 9 (35 / 3) (17 / 3) 4 9 i).sin ≤
      (sliceOf exNeg 9 (35 / 3) (17 / 3) 4 9 i).W * (15 / 17) := mul_le_mul_of_nonneg_left hsin hW.le
  have h2 : (sliceOf exNeg 9 (35 / 3) (17 / 3) 4 9 i).W * (8 / 17) ≤
      (sliceOf exNeg 9 (35 / 3) (17 / 3) 4 9 i).W * (sliceOf exNeg 9 (35 / 3) (17 / 3) 4 9 i).cos :=
    mul_le_mul_of_nonneg_left hcos hW.le
  linarith

/-- C40 is violated: `Slope(height=3, length=3)` with `Material(20, 135, 0, 2)` (a friction angle of
135 degrees is accepted), `update_analysis_options(max_iterations=0)` and the circle with centre
(9, 35/3) and radius 17/3: `analyse_slope()` ends and `get_min_FOS()` is negative. -/
theorem C40_negative : ∃ s t : Slope ℝ, ∃ F : ℝ, Reachable s ∧ s.analyseSlope none = (t, .ok ()) ∧
    t.getMinFos = .ok (some F) ∧ F < 0 := by
  obtain ⟨F, hb, hF⟩ := exNeg_fos
  obtain ⟨a, b, _, h2, _, h4, h5⟩ := exNeg_ground.report rfl rfl hb
  exact ⟨a, b, F, h2, h4, h5, by linarith⟩

/-! ## C41 -/

/-- C41: a value reported for a circle is the end of the iteration `F, rhs F, rhs (rhs F), …` of
Bishop's equation over the slices between the first two crossings of the circle with the ground,
started from the ordinary method. The iteration stops as soon as two values differ by less than the
tolerance, and otherwise after `max_iterations` turns (`BishopValue`). -/
theorem C41_converged_or_out_of_turns (s : Slope ℝ) (rc : Reachable s) {cx cy r F : ℝ}
    (e : s.bishop cx cy r none none = .ok F) :
    ∃ l rt : ℝ × ℝ, FirstCrossings s cx cy r l rt ∧ BishopValue s cx cy r l.1 rt.1 F := by
  obtain ⟨l, rt, F0, he, ho, hl⟩ := bishop_spec rc e
  exact ⟨l, rt, (bishopEnds_first rc.wf.geo he).2, bishopLoop_value rc ho hl⟩

/-- A case of C41: the example. -/
example : exSoil.bishop 9 (35 / 3) (17 / 3) none none = .ok exFos := exBishop

/-! ## C46 -/

/-- C46: without a material no circle gets a number, every plane is dropped, and after an analysis
that ends `get_min_FOS` raises `IndexError`. -/
theorem C46_no_materials (s : Slope ℝ) (rc : Reachable s) (hm : s.materials = []) :
    (∀ cx cy r F, s.bishop cx cy r none none ≠ .ok F) ∧
    ∀ (m : Option ℝ) (t : Slope ℝ), s.analyseSlope m = (t, .ok ()) →
      t.search = [] ∧ t.getMinFos = .error .indexError := by
  have key : ∀ cx cy r F, s.bishop cx cy r none none ≠ .ok F := by
    intro cx cy r F e
    obtain ⟨l, rt, F0, _, ho, _⟩ := bishop_spec rc e
    exact (ordinary_spec rc ho).2.2.2.2.1 hm
  refine ⟨key, ?_⟩
  intro m t h
  have hs : t.search = [] := by
    rw [List.eq_nil_iff_forall_not_mem]
    intro p hp
    obtain ⟨F, _, e⟩ := reported h hp
    exact key _ _ _ _ e
  refine ⟨hs, ?_⟩
  unfold Slope.getMinFos
  rw [hs]

/-- A case of C46: the circle of the example on a slope without a material. -/
example : ∃ s t : Slope ℝ, Reachable s ∧ s.materials = [] ∧ s.individual ≠ [] ∧
    s.analyseSlope none = (t, .ok ()) := by
  have hi : exSlope.circleExternalIntersection 9 (35 / 3) (17 / 3) = .ok [(4, 9), (9, 6)] :=
    intersections_two exSlope_reachable.wf.geo exCrossing (by norm_num)
  have ha : exSlope.addSingleCircularPlane 9 (35 / 3) (17 / 3) =
      ({ exSlope with individual := [exPlane] }, .ok ()) := by
    unfold Slope.addSingleCircularPlane
    rw [hi]
    simp only
    rw [setSize_nodup (by simp)]
    rfl
  have hr := Reachable.call exSlope_reachable (.addSingleCircularPlane exSlope 9 (35 / 3) (17 / 3))
  rw [ha] at hr
  refine ⟨_, _, hr, rfl, by simp, analyseSlope_of (.inl ⟨by simp, rfl⟩) ?_ none⟩
  intro p hp e he
  rw [List.mem_singleton] at hp
  subst hp
  unfold FosRaises at he
  have he : exSlope.bishop 9 (35 / 3) (17 / 3) none none = .error (.raise e) := he
  have hends : exSlope.bishopEnds 9 (35 / 3) (17 / 3) none none = .ok ((4, 9), (9, 6)) := by
    unfold Slope.bishopEnds
    rw [hi]
    simp only
    rw [setSize_nodup (by simp)]
    rfl
  have hrows : exSlope.sliceRows 9 (35 / 3) (17 / 3) 4 9 = _ := exRows
  unfold Slope.bishop at he
  rw [hends] at he
  simp only [bind, Except.bind] at he
  have ho : exSlope.ordinary 9 (35 / 3) (17 / 3) (some (4, 9)) (some (9, 6)) = .error .retNone := by
    unfold Slope.ordinary
    rw [if_neg (by simp; norm_num)]
    simp only [Slope.ordinaryEnds, bind, Except.bind, pure, Except.pure]
    rw [if_neg (by norm_num), hrows]
    simp only
    rw [sliceForces_noMaterial rfl _ (water := none) rfl]
    intro h0
    have := congrArg List.length h0
    simp [Slope.rowsAt] at this
  rw [ho] at he
  cases he

end PySlope
