import Verif.Props.NotANumber
import Verif.Props.FosLaws
import Verif.Props.Assessed

/-! # Three circles in three layers, for C90

`Slope(height=3, length=3)` in three layers: without strength down to 1 m, with cohesion 1 down to 2 m
and with cohesion `c` below. A circle leaves the ground at the point `(x, 15 - x)` of the face with a
level tangent, and enters it at `(a, 9)`. -/

namespace PySlope
open Finset

/-- `Material(unit_weight=20, friction_angle=0, cohesion=c, depth_to_bottom=d)`. -/
noncomputable def nanMat (c d : ℝ) : Material ℝ :=
  { unitWeight := 20, frictionAngle := 0, cohesion := |c|, depth := |d|,
    tanPhi := Real.tan (0 * (Real.pi / 180)), name := "", userColor := none }

theorem nanMat_constructed (c d : ℝ) : Material.Constructed (nanMat c d) := by
  refine ⟨fun _ => false, .num 20, .num 0, .num c, .num d, .str "", .str "", ?_⟩
  rw [(C01_material (fun _ => false) (.num 20) (.num 0) (.num c) (.num d) (.str "") (.str "")).1
    20 0 c d "" "" ⟨rfl, by norm_num, by norm_num, rfl, le_rfl, rfl, rfl⟩ rfl rfl]
  simp [nanMat]

/-- `Slope(height=3, length=3)` with the three layers. -/
noncomputable def nanSoil (c : ℝ) : Slope ℝ :=
  { exSlope with materials := [mkLayer exSlope.extH 0 (nanMat 0 1), mkLayer exSlope.extH 1 (nanMat 1 2),
      mkLayer exSlope.extH 2 (nanMat c 5)] }

theorem nanSoil_eq (c : ℝ) :
    exSlope.setMaterials ([nanMat 0 1, nanMat 1 2, nanMat c 5].map some) = (nanSoil c, .ok ()) := by
  have e : exSlope.allMats [nanMat 0 1, nanMat 1 2, nanMat c 5] =
      [nanMat 0 1, nanMat 1 2, nanMat c 5] := by
    unfold Slope.allMats sortByKey pySort
    rw [exSlope_materials]
    simp only [List.map_nil, List.append_nil]
    apply List.mergeSort_of_pairwise
    simp [nanMat]; norm_num
  rw [setMaterials_eq exSlope_reachable.wf.geo _ (|5|) (by rw [e]; rfl), e, if_pos]
  · have : exSlope.deepen |5| = exSlope := by
      unfold Slope.deepen
      rw [if_neg]
      rw [exSlope_extH]; norm_num
    rw [this]
    rfl
  · simp [nanMat]

theorem nanSoil_reachable (c : ℝ) : Reachable (nanSoil c) := by
  have := Reachable.call exSlope_reachable
    (.setMaterials exSlope ([nanMat 0 1, nanMat 1 2, nanMat c 5].map some) (by
      intro m hm
      simp only [List.map_cons, List.map_nil, List.mem_cons, Option.some.injEq, List.not_mem_nil,
        or_false] at hm
      rcases hm with rfl | rfl | rfl <;> exact nanMat_constructed _ _))
  rwa [nanSoil_eq] at this

/-- The material at the level `y`. -/
theorem nanLayer (c y : ℝ) : ∃ l, layerAt (nanSoil c).materials y = some l ∧
    l.mat.unitWeight = 20 ∧ l.mat.frictionAngle = 0 ∧
    l.mat.cohesion = if 8 < y then 0 else if 7 < y then 1 else |c| := by
  have h1 : (mkLayer exSlope.extH 0 (nanMat 0 1)).rl = 8 := by
    simp [mkLayer, nanMat]; norm_num
  have h2 : (mkLayer exSlope.extH 1 (nanMat 1 2)).rl = 7 := by
    simp [mkLayer, nanMat]; norm_num
  have h3 : (mkLayer exSlope.extH 2 (nanMat c 5)).rl = 4 := by
    simp [mkLayer, nanMat]; norm_num
  unfold layerAt nanSoil
  simp only [List.find?_cons, List.find?_nil, h1, h2, h3]
  by_cases y8 : 8 < y
  · refine ⟨mkLayer exSlope.extH 0 (nanMat 0 1), by simp [y8], rfl, rfl, ?_⟩
    rw [if_pos y8]; simp [mkLayer, nanMat]
  · by_cases y7 : 7 < y
    · refine ⟨mkLayer exSlope.extH 1 (nanMat 1 2), by simp [y8, y7], rfl, rfl, ?_⟩
      rw [if_neg y8, if_pos y7]; simp [mkLayer, nanMat]
    · refine ⟨mkLayer exSlope.extH 2 (nanMat c 5), ?_, rfl, rfl, ?_⟩
      · by_cases y4 : 4 < y <;> simp [y8, y7, y4]
      · rw [if_neg y8, if_neg y7]; simp [mkLayer, nanMat]

/-- The circle that leaves the ground at `(x, 15 - x)` with a level tangent and enters it at `(a, 9)`. -/
structure NanCircle (x a r : ℝ) : Prop where
  face : 6 < x ∧ x ≤ 9
  crest : 0 ≤ a ∧ a ≤ 5
  wide : x - r < 6
  on : (x - a) ^ 2 = (x - 6) * (2 * r - (x - 6))

theorem nanB : NanCircle 7 5 (5 / 2) := ⟨by norm_num, by norm_num, by norm_num, by norm_num⟩
theorem nanA : NanCircle 8 5 (13 / 4) := ⟨by norm_num, by norm_num, by norm_num, by norm_num⟩
theorem nanC : NanCircle 9 4 (17 / 3) := ⟨by norm_num, by norm_num, by norm_num, by norm_num⟩

namespace NanCircle
variable {x a r : ℝ} (h : NanCircle x a r) (c : ℝ)
include h

theorem crossing (p : ℝ × ℝ) :
    Crossing (nanSoil c) x (15 - x + r) r p ↔ p = (a, 9) ∨ p = (x, 15 - x) := by
  obtain ⟨u, v⟩ := p
  obtain ⟨⟨x1, x2⟩, ⟨a1, a2⟩, hr, on⟩ := h
  simp only [Prod.mk.injEq]
  unfold Crossing OnCircle OnLine
  simp only [show (nanSoil c).topX = 6 from exSlope_topX, show (nanSoil c).topY = 9 from exSlope_topY,
    show (nanSoil c).botX = 9 from exSlope_botX, show (nanSoil c).botY = 6 from exSlope_botY,
    show (nanSoil c).extL = 15 from exSlope_extL]
  constructor
  · rintro ⟨e, ⟨rfl, h1, h2, h3⟩ | ⟨rfl, h1, h2, h3⟩ | ⟨h1, h2, h3⟩⟩
    · left
      have : (u - a) * (u - (2 * x - a)) = 0 := by linarith
      rcases mul_eq_zero.mp this with h | h
      · exact ⟨by linarith, rfl⟩
      · exfalso; linarith
    · right
      have hr0 : 0 < r := by linarith
      have : (u - x) ^ 2 + (9 - x) * ((9 - x) + 2 * r) = 0 := by linarith
      have h9 : 0 ≤ (9 - x) * ((9 - x) + 2 * r) := by
        apply mul_nonneg <;> linarith
      have h4 : (u - x) ^ 2 = 0 := by nlinarith [sq_nonneg (u - x)]
      have h5 : (9 - x) * ((9 - x) + 2 * r) = 0 := by linarith
      have h4 : u - x = 0 := by simpa using h4
      rcases mul_eq_zero.mp h5 with h | h
      · exact ⟨by linarith, by linarith⟩
      · exfalso; linarith
    · right
      have hv : v = 15 - u := by linarith
      subst hv
      have : (u - x) * (u - (x - r)) = 0 := by linarith
      rcases mul_eq_zero.mp this with h | h
      · exact ⟨by linarith, by linarith⟩
      · exfalso; linarith
  · rintro (⟨rfl, rfl⟩ | ⟨rfl, rfl⟩)
    · exact ⟨by linarith, .inl ⟨rfl, a1, by linarith, by linarith⟩⟩
    · exact ⟨by ring, .inr (.inr ⟨by ring, x1.le, x2⟩)⟩

theorem ends : (nanSoil c).circleExternalIntersection x (15 - x + r) r = .ok [(a, 9), (x, 15 - x)] := by
  obtain ⟨⟨x1, x2⟩, ⟨a1, a2⟩, hr, on⟩ := id h
  apply intersections_two (nanSoil_reachable c).wf.geo (h.crossing c)
  show 0.03 < x - a
  norm_num; linarith

theorem bishopEnds : (nanSoil c).bishopEnds x (15 - x + r) r none none = .ok ((a, 9), (x, 15 - x)) := by
  unfold Slope.bishopEnds
  rw [h.ends]
  simp only
  rw [setSize_nodup (by simp; intro e; have := h.crest.2; have := h.face.1; linarith)]
  rfl

theorem centre_mem {i : ℕ} (hi : i < 25) : a < centre a x 25 i ∧ centre a x 25 i < x := by
  have := h.crest.2
  have := h.face.1
  exact PySlope.centre_mem (by linarith) (by norm_num) (by simpa using hi)

theorem near : (x - a) ^ 2 < r ^ 2 ∧ √(r ^ 2 - (x - a) ^ 2) = r - (x - 6) ∧ 0 < r := by
  obtain ⟨⟨x1, x2⟩, ⟨a1, a2⟩, hr, on⟩ := id h
  have e : r ^ 2 - (x - a) ^ 2 = (r - (x - 6)) ^ 2 := by rw [on]; ring
  refine ⟨?_, ?_, by linarith⟩
  · have : 0 < (r - (x - 6)) ^ 2 := by apply pow_pos; linarith
    linarith
  · rw [e, Real.sqrt_sq (by linarith)]

/-- The base at a slice centre. -/
theorem base {u : ℝ} (h1 : a < u) (h2 : u < x) :
    (u - x) ^ 2 < r ^ 2 ∧ 15 - x < 15 - x + r - √(r ^ 2 - (u - x) ^ 2) ∧
    15 - x + r - √(r ^ 2 - (u - x) ^ 2) < groundY (nanSoil c) u := by
  obtain ⟨⟨x1, x2⟩, ⟨a1, a2⟩, hr, on⟩ := id h
  obtain ⟨n1, n2, n3⟩ := h.near
  have hlt : (u - x) ^ 2 < (x - a) ^ 2 := by nlinarith
  refine ⟨by linarith, ?_, ?_⟩
  · have : √(r ^ 2 - (u - x) ^ 2) < r := by
      rw [Real.sqrt_lt' n3]
      nlinarith
    linarith
  · unfold groundY
    rw [show (nanSoil c).topX = 6 from exSlope_topX, show (nanSoil c).extH = 9 from exSlope_extH,
      show (nanSoil c).length = 3 from rfl, show (nanSoil c).height = 3 from rfl]
    split
    · have : √(r ^ 2 - (x - a) ^ 2) < √(r ^ 2 - (u - x) ^ 2) := by
        apply Real.sqrt_lt_sqrt <;> linarith
      linarith
    · rename_i h6
      rw [if_pos (by linarith)]
      have : r - (x - u) < √(r ^ 2 - (u - x) ^ 2) := by
        rw [Real.lt_sqrt (by linarith)]
        nlinarith
      linarith

/-- The slices. -/
theorem slice {i : ℕ} (hi : i < 25) :
    let q := sliceOf (nanSoil c) x (15 - x + r) r a x i
    0 < q.b ∧ 0 < q.W ∧ 0 < q.sin ∧ 0 < q.cos ∧ q.tan = 0 ∧
    q.c = (let y := 15 - x + r - √(r ^ 2 - (centre a x 25 i - x) ^ 2)
      if 8 < y then 0 else if 7 < y then 1 else |c|) := by
  intro q
  have rc := nanSoil_reachable c
  have hm : (nanSoil c).materials ≠ [] := by simp [nanSoil]
  obtain ⟨m1, m2⟩ := h.centre_mem hi
  obtain ⟨b1, b2, b3⟩ := h.base c m1 m2
  obtain ⟨n1, n2, n3⟩ := h.near
  have hax : a < x := by linarith
  obtain ⟨f1, _, _, f2, _⟩ := slice_facts (cy := 15 - x + r) (i := i) rc hm n3 hax b1
  obtain ⟨l, hl, _, hφ, hc⟩ := nanLayer c (15 - x + r - √(r ^ 2 - (centre a x 25 i - x) ^ 2))
  refine ⟨f1, slice_weight_pos rc hm hax b3, ?_, f2, ?_, ?_⟩
  · change 0 < (x - centre a x 25 i) / r
    exact div_pos (by linarith) n3
  · unfold Slice.tan
    have : q.φ = l.mat.frictionAngle := by
      show (match layerAt (nanSoil c).materials
        (15 - x + r - √(r ^ 2 - (centre a x 25 i - x) ^ 2)) with
        | some l => l.mat.frictionAngle
        | none => 0) = _
      rw [hl]
    rw [this, hφ, zero_mul, Real.tan_zero]
  · rw [← hc]
    show (match layerAt (nanSoil c).materials
      (15 - x + r - √(r ^ 2 - (centre a x 25 i - x) ^ 2)) with
      | some l => l.mat.cohesion
      | none => 0) = _
    rw [hl]

theorem driving_pos : 0 < driving 25 (sliceOf (nanSoil c) x (15 - x + r) r a x) := by
  apply sum_pos _ ⟨0, by simp⟩
  intro i hi
  obtain ⟨_, h2, h3, _⟩ := h.slice c (mem_range.mp hi)
  exact mul_pos h2 h3

theorem ordinary : (nanSoil c).ordinary x (15 - x + r) r (some (a, 9)) (some (x, 15 - x)) =
    .ok (fellenius 25 (sliceOf (nanSoil c) x (15 - x + r) r a x)) := by
  obtain ⟨⟨x1, x2⟩, ⟨a1, a2⟩, hr, on⟩ := id h
  obtain ⟨n1, n2, n3⟩ := h.near
  rw [C55_ordinary_formula _ (nanSoil_reachable c)]
  refine ⟨by linarith, by linarith, n3, ?_, ?_, by simp [nanSoil], ⟨_, rfl⟩, h.driving_pos c, rfl⟩
  · show 1e-6 < x - a
    norm_num; linarith
  · intro i hi
    obtain ⟨m1, m2⟩ := h.centre_mem (i := i) hi
    have := (h.base c m1 m2).1
    exact abs_lt_of_sq_lt_sq this n3.le

/-- Without friction the factor of safety is `∑ c b / cos` over the driving sum. -/
theorem value : fellenius 25 (sliceOf (nanSoil c) x (15 - x + r) r a x) =
    (∑ i ∈ range 25, (sliceOf (nanSoil c) x (15 - x + r) r a x i).c *
      ((sliceOf (nanSoil c) x (15 - x + r) r a x i).b /
        (sliceOf (nanSoil c) x (15 - x + r) r a x i).cos)) /
      driving 25 (sliceOf (nanSoil c) x (15 - x + r) r a x) := by
  unfold fellenius
  congr 1
  apply sum_congr rfl
  intro i hi
  rw [(h.slice c (mem_range.mp hi)).2.2.2.2.1, mul_zero, add_zero]

/-- A circle with a positive value has that factor of safety. -/
theorem number (hF : fellenius 25 (sliceOf (nanSoil c) x (15 - x + r) r a x) ≠ 0) :
    (nanSoil c).bishopN x (15 - x + r) r =
      .ok (some (fellenius 25 (sliceOf (nanSoil c) x (15 - x + r) r a x))) := by
  apply (bishopN_of _ _ _ _).1
  refine (C56_no_friction _ (nanSoil_reachable c) ?_ _ _ _ _ _ (h.bishopEnds c)).2 _ (h.ordinary c) hF
  intro l hl
  simp only [nanSoil, List.mem_cons, List.not_mem_nil, or_false] at hl
  rcases hl with rfl | rfl | rfl <;> rfl

/-- A circle without strength has the factor of safety NaN. -/
theorem nan (hF : fellenius 25 (sliceOf (nanSoil c) x (15 - x + r) r a x) = 0) :
    (nanSoil c).bishopN x (15 - x + r) r = .ok none := by
  have rc := nanSoil_reachable c
  have ho := h.ordinary c
  have he := h.bishopEnds c
  rw [hF] at ho
  rw [(bishopN_of _ _ _ _).2.2.1 _ _ _ he ho (slices_computed rc ho)]
  obtain ⟨_, _, _, _, _, _, water, hw, hf, _, _⟩ := ordinary_spec rc ho
  rw [bishop_eq (by show (2 : ℤ) ≤ 25; norm_num) he ho hw, hf]
  obtain ⟨k, hk⟩ : ∃ k, (nanSoil c).maxIterations.toNat = k + 1 := ⟨_, rfl⟩
  rw [hk]
  unfold bishopLoop bishopStep
  have hany : (listOf (nanSoil c).slices.toNat (sliceOf (nanSoil c) x (15 - x + r) r a x)).any
      (fun f => pyEq (f.sinA * f.tanPhi) (@OfNat.ofNat ℝ 0 (Lit.natLit 0))) = true := by
    rw [List.any_eq_true]
    refine ⟨(sliceOf (nanSoil c) x (15 - x + r) r a x 0).forces, ?_, ?_⟩
    · unfold listOf
      exact List.mem_map_of_mem (List.mem_range.mpr (by show 0 < 25; norm_num))
    · have := (h.slice c (i := 0) (by norm_num)).2.2.2.2.1
      simp only [pyEq_real, lit_zero, decide_eq_true_eq]
      show _ * (sliceOf (nanSoil c) x (15 - x + r) r a x 0).tan = 0
      rw [this, mul_zero]
  simp only [bind, Except.bind, pyEq_real, lit_zero, decide_true, if_true, throw, throwThe,
    MonadExceptOf.throw] at hany ⊢
  rw [if_pos hany]
  rfl

end NanCircle

theorem SameSetup.bishopN {s t : Slope ℝ} (h : SameSetup s t) : t.bishopN = s.bishopN := by
  funext a b c
  have he : t.bishopEnds = s.bishopEnds := by
    funext a b c d e
    unfold Slope.bishopEnds
    rw [h.circleExternalIntersection]
  unfold Slope.bishopN
  rw [he, h.slices, h.sliceRows, h.sliceForces, h.ordinary, h.tolerance, h.maxIterations]

/-- The plane recorded for a circle. -/
noncomputable def nanPlane (x a r : ℝ) : Plane ℝ :=
  { lc := (a, 9), rc := (x, 15 - x), cx := x, cy := 15 - x + r, radius := r, fos := none }

/-- The slope with planes added. -/
noncomputable def nanReady (c : ℝ) (ps : List (Plane ℝ)) : Slope ℝ := { nanSoil c with individual := ps }

theorem nanReady_same (c : ℝ) (ps) : SameSetup (nanSoil c) (nanReady c ps) := by constructor <;> rfl

theorem nanReady_add {x a r : ℝ} (h : NanCircle x a r) (c : ℝ) (ps) :
    (nanReady c ps).addSingleCircularPlane x (15 - x + r) r =
      (nanReady c (ps ++ [nanPlane x a r]), .ok ()) := by
  unfold Slope.addSingleCircularPlane
  rw [(nanReady_same c ps).circleExternalIntersection, h.ends]
  simp only
  rw [setSize_nodup (by simp; intro e; have := h.crest.2; have := h.face.1; linarith)]
  rfl

theorem nanReady_reachable {c : ℝ} {ps} (rc : Reachable (nanReady c ps)) {x a r : ℝ}
    (h : NanCircle x a r) : Reachable (nanReady c (ps ++ [nanPlane x a r])) := by
  have := Reachable.call rc (.addSingleCircularPlane _ x (15 - x + r) r)
  rwa [nanReady_add h] at this

/-- The circle in the upper layer has no strength. -/
theorem nanB_zero (c : ℝ) : fellenius 25 (sliceOf (nanSoil c) 7 (15 - 7 + 5 / 2) (5 / 2) 5 7) = 0 := by
  rw [nanB.value, sum_eq_zero, zero_div]
  intro i hi
  have hi := mem_range.mp hi
  obtain ⟨m1, m2⟩ := nanB.centre_mem hi
  rw [(nanB.slice c hi).2.2.2.2.2]
  simp only
  rw [if_pos (by have := (nanB.base c m1 m2).2.1; linarith), zero_mul]

theorem nanDriving (c x a r : ℝ) : driving 25 (sliceOf (nanSoil c) x (15 - x + r) r a x) =
    driving 25 (sliceOf (nanSoil 0) x (15 - x + r) r a x) := by
  have hu : ∀ c, unitWeightAt (nanSoil c).materials = fun _ => 20 := by
    intro c
    funext y
    obtain ⟨l, hl, hu, _⟩ := nanLayer c y
    unfold unitWeightAt
    rw [hl]
    exact hu
  apply sum_congr rfl
  intro i _
  have hW : (sliceOf (nanSoil c) x (15 - x + r) r a x i).W =
      (sliceOf (nanSoil 0) x (15 - x + r) r a x i).W := by
    unfold sliceOf weightOn
    simp only [hu]
    rfl
  rw [hW]
  rfl

/-- The circle in the upper two layers has strength, whatever the lower one is. -/
theorem nanA_pos : ∃ F, 0 < F ∧
    ∀ c, fellenius 25 (sliceOf (nanSoil c) 8 (15 - 8 + 13 / 4) (13 / 4) 5 8) = F := by
  refine ⟨fellenius 25 (sliceOf (nanSoil 0) 8 (15 - 8 + 13 / 4) (13 / 4) 5 8), ?_, ?_⟩
  · rw [nanA.value]
    apply div_pos _ (nanA.driving_pos 0)
    apply sum_pos'
    · intro i hi
      obtain ⟨h1, _, _, h4, _, h6⟩ := nanA.slice 0 (mem_range.mp hi)
      apply mul_nonneg
      · rw [h6]; simp only; split_ifs <;> positivity
      · positivity
    · refine ⟨24, by simp, ?_⟩
      obtain ⟨m1, m2⟩ := nanA.centre_mem (i := 24) (by norm_num)
      obtain ⟨h1, _, _, h4, _, h6⟩ := nanA.slice 0 (i := 24) (by norm_num)
      apply mul_pos _ (by positivity)
      rw [h6]
      simp only
      have hc : centre 5 8 25 24 = 7.94 := by unfold centre; norm_num
      have hs : 9 / 4 < √((13 / 4 : ℝ) ^ 2 - (centre 5 8 25 24 - 8) ^ 2) := by
        rw [Real.lt_sqrt (by norm_num), hc]; norm_num
      rw [if_neg (by linarith), if_pos (by have := (nanA.base 0 m1 m2).2.1; linarith)]
      norm_num
  · intro c
    rw [nanA.value, nanA.value, nanDriving c]
    congr 1
    apply sum_congr rfl
    intro i hi
    have hi := mem_range.mp hi
    obtain ⟨m1, m2⟩ := nanA.centre_mem hi
    have h7 := (nanA.base c m1 m2).2.1
    rw [(nanA.slice c hi).2.2.2.2.2, (nanA.slice 0 hi).2.2.2.2.2]
    simp only
    rw [if_pos (show (7 : ℝ) < _ by linarith), if_pos (show (7 : ℝ) < _ by linarith)]
    rfl

/-- The circle that reaches the lowest layer is as strong as one likes. -/
theorem nanC_big (M : ℝ) :
    ∃ c, M < fellenius 25 (sliceOf (nanSoil c) 9 (15 - 9 + 17 / 3) (17 / 3) 4 9) := by
  obtain ⟨D, hD⟩ : ∃ D, driving 25 (sliceOf (nanSoil 0) 9 (15 - 9 + 17 / 3) (17 / 3) 4 9) = D := ⟨_, rfl⟩
  have hD0 : 0 < D := hD ▸ nanC.driving_pos 0
  obtain ⟨L, hL⟩ : ∃ L, (sliceOf (nanSoil 0) 9 (15 - 9 + 17 / 3) (17 / 3) 4 9 24).b /
      (sliceOf (nanSoil 0) 9 (15 - 9 + 17 / 3) (17 / 3) 4 9 24).cos = L := ⟨_, rfl⟩
  have hL0 : 0 < L := by
    obtain ⟨h1, _, _, h4, _⟩ := nanC.slice 0 (i := 24) (by norm_num)
    rw [← hL]
    exact div_pos h1 h4
  refine ⟨(|M| + 1) * D / L, ?_⟩
  rw [nanC.value, nanDriving, hD, lt_div_iff₀ hD0]
  set c := (|M| + 1) * D / L with hc
  have hc0 : 0 < c := by positivity
  have key : c * L ≤ ∑ i ∈ range 25, (sliceOf (nanSoil c) 9 (15 - 9 + 17 / 3) (17 / 3) 4 9 i).c *
      ((sliceOf (nanSoil c) 9 (15 - 9 + 17 / 3) (17 / 3) 4 9 i).b /
        (sliceOf (nanSoil c) 9 (15 - 9 + 17 / 3) (17 / 3) 4 9 i).cos) := by
    refine le_trans (le_of_eq ?_) (single_le_sum (f := fun i =>
      (sliceOf (nanSoil c) 9 (15 - 9 + 17 / 3) (17 / 3) 4 9 i).c *
      ((sliceOf (nanSoil c) 9 (15 - 9 + 17 / 3) (17 / 3) 4 9 i).b /
        (sliceOf (nanSoil c) 9 (15 - 9 + 17 / 3) (17 / 3) 4 9 i).cos)) ?_ (a := 24) (by simp))
    · obtain ⟨_, _, _, _, _, h6⟩ := nanC.slice c (i := 24) (by norm_num)
      rw [h6]
      have he : centre 4 9 25 24 = 8.9 := by unfold centre; norm_num
      have hs : 14 / 3 < √((17 / 3 : ℝ) ^ 2 - (centre 4 9 25 24 - 9) ^ 2) := by
        rw [Real.lt_sqrt (by norm_num), he]; norm_num
      simp only
      rw [if_neg (by linarith), if_neg (by linarith), abs_of_pos hc0, ← hL]
      rfl
    · intro i hi
      obtain ⟨h1, _, _, h4, _, h6⟩ := nanC.slice c (mem_range.mp hi)
      apply mul_nonneg
      · rw [h6]; simp only; split_ifs <;> positivity
      · positivity
  have : c * L = (|M| + 1) * D := by rw [hc]; field_simp
  have hM := le_abs_self M
  nlinarith

end PySlope
