import Verif.Props.RoundingSearchCase

/-! # Small changes of what is entered (C115) -/

namespace PySlope
open Finset

/-! ## The violation -/

section Beds

/-- `Material(unit_weight=20, friction_angle=0, cohesion=c, depth_to_bottom=d)`. -/
noncomputable def bed (c d : ℝ) : Material ℝ :=
  { unitWeight := 20, frictionAngle := 0, cohesion := |c|, depth := |d|
    tanPhi := Real.tan (0 * (Real.pi / 180)), name := "", userColor := none }

theorem bed_constructed (c d : ℝ) : Material.Constructed (bed c d) := by
  refine ⟨fun _ => false, .num 20, .num 0, .num c, .num d, .none, .none, ?_⟩
  rw [(C01_material _ _ _ _ _ _ _).1 20 0 c d "" ""
    ⟨rfl, by norm_num, by norm_num, rfl, by norm_num, rfl, rfl⟩ rfl rfl]
  simp [bed]

/-- `Slope(height=3, length=3)` in clay of cohesion 10 down to `d` and of cohesion 5 below. -/
noncomputable def exBeds (d : ℝ) : Slope ℝ :=
  { exSlope with materials := [mkLayer exSlope.extH 0 (bed 10 d), mkLayer exSlope.extH 1 (bed 5 8)] }

variable {d : ℝ}

theorem exBeds_eq (h0 : 0 < d) (h8 : d < 8) : exSlope.setMaterials [some (bed 10 d), some (bed 5 8)] = (exBeds d, .ok ()) := by
  have e : exSlope.allMats [bed 10 d, bed 5 8] = [bed 10 d, bed 5 8] := by
    change sortByKey Material.depth [bed 10 d, bed 5 8] = _
    unfold sortByKey pySort
    apply List.mergeSort_of_pairwise
    simp [bed, abs_of_pos h0]
    linarith
  rw [show [some (bed 10 d), some (bed 5 8)] = [bed 10 d, bed 5 8].map some from rfl,
    setMaterials_eq exSlope_reachable.wf.geo _ 8 (by rw [e]; simp [bed]), e,
    if_pos (by simp [bed, abs_of_pos h0]; linarith)]
  have : exSlope.deepen 8 = exSlope := by
    unfold Slope.deepen
    rw [if_neg]
    rw [exSlope_extH]; norm_num
  rw [this]
  rfl

theorem exBeds_reachable (h0 : 0 < d) (h8 : d < 8) : Reachable (exBeds d) := by
  have := Reachable.call exSlope_reachable (.setMaterials exSlope [some (bed 10 d), some (bed 5 8)] (by
    intro m hm
    simp at hm
    rcases hm with rfl | rfl <;> exact bed_constructed _ _))
  rwa [exBeds_eq h0 h8] at this

theorem exBeds_layer (h0 : 0 < d) (y : ℝ) : layerAt (exBeds d).materials y =
    some (if 9 - d < y then mkLayer exSlope.extH 0 (bed 10 d) else mkLayer exSlope.extH 1 (bed 5 8)) := by
  have e : (mkLayer exSlope.extH 0 (bed 10 d)).rl = 9 - d := by simp [mkLayer, bed, abs_of_pos h0]
  unfold layerAt exBeds
  simp only [List.find?_cons, List.find?_nil, e]
  by_cases h : 9 - d < y
  · simp [h]
  · rw [decide_eq_false h, if_neg h]
    by_cases h' : (mkLayer exSlope.extH 1 (bed 5 8)).rl < y
    · rw [decide_eq_true h']; rfl
    · rw [decide_eq_false h']; rfl

/-- The slices, compared with those in one clay. -/
theorem exBeds_slice (h0 : 0 < d) (i : ℕ) :
    let q := sliceOf (exBeds d) 9 (35 / 3) (17 / 3) 4 9 i
    let p := sliceOf exSoil 9 (35 / 3) (17 / 3) 4 9 i
    q.b = p.b ∧ q.W = p.W ∧ q.sin = p.sin ∧ q.cos = p.cos ∧ q.tan = 0 ∧
    q.c = if 9 - d < 35 / 3 - √((17 / 3) ^ 2 - (centre 4 9 25 i - 9) ^ 2) then 10 else 5 := by
  intro q p
  have hu : unitWeightAt (exBeds d).materials = unitWeightAt exSoil.materials := by
    funext y
    unfold unitWeightAt
    rw [exBeds_layer h0]
    obtain ⟨l, h1, h2⟩ := (exOf_ground (m := exMat 2) (exMat_constructed 2) (by norm_num [exMat])).layer y
    rw [show layerAt exSoil.materials y = some l from h1]
    simp only [h2]
    split <;> rfl
  refine ⟨rfl, ?_, rfl, rfl, ?_, ?_⟩
  · simp only [q, p, sliceOf, weightOn, hu]
    rfl
  · simp only [q, Slice.tan, sliceOf, exBeds_layer h0]
    split <;> simp [mkLayer, bed]
  · simp only [q, sliceOf, exBeds_layer h0]
    change (if 9 - d < 35 / 3 - √((17 / 3) ^ 2 - (centre 4 9 25 i - 9) ^ 2) then mkLayer exSlope.extH 0 (bed 10 d) else
      mkLayer exSlope.extH 1 (bed 5 8)).mat.cohesion = _
    split <;> simp [mkLayer, bed]

/-- The cohesion at the base of slice `i`. -/
noncomputable def bedCohesion (d : ℝ) (i : ℕ) : ℝ :=
  if 9 - d < 35 / 3 - √((17 / 3) ^ 2 - (centre 4 9 25 i - 9) ^ 2) then 10 else 5

/-- The factor of safety. -/
noncomputable def bedFos (d : ℝ) : ℝ :=
  (∑ i ∈ range 25, bedCohesion d i * ((sliceOf exSoil 9 (35 / 3) (17 / 3) 4 9 i).b /
    (sliceOf exSoil 9 (35 / 3) (17 / 3) 4 9 i).cos)) / driving 25 (sliceOf exSoil 9 (35 / 3) (17 / 3) 4 9)

theorem exSoil_drives : 0 < driving 25 (sliceOf exSoil 9 (35 / 3) (17 / 3) 4 9) :=
  (exOf_ground (m := exMat 2) (exMat_constructed 2) (by norm_num [exMat])).drives (by norm_num [exMat])

theorem exSoil_base {i : ℕ} (hi : i < 25) : 0 < (sliceOf exSoil 9 (35 / 3) (17 / 3) 4 9 i).b /
    (sliceOf exSoil 9 (35 / 3) (17 / 3) 4 9 i).cos := by
  obtain ⟨-, -, -, h4, -, -, -, h8, -⟩ := (exOf_ground (m := exMat 2) (exMat_constructed 2) (by norm_num [exMat])).slice hi
  rw [show (sliceOf exSoil 9 (35 / 3) (17 / 3) 4 9 i).b = 1 / 5 from h4]
  exact div_pos (by norm_num) h8

theorem bedCohesion_pos (d : ℝ) (i : ℕ) : 0 < bedCohesion d i := by
  unfold bedCohesion; split <;> norm_num

theorem bedFos_pos (d : ℝ) : 0 < bedFos d :=
  div_pos (sum_pos (fun i hi => mul_pos (bedCohesion_pos d i) (exSoil_base (mem_range.mp hi))) ⟨0, by simp⟩) exSoil_drives

theorem exBeds_fellenius (h0 : 0 < d) : fellenius 25 (sliceOf (exBeds d) 9 (35 / 3) (17 / 3) 4 9) = bedFos d ∧
    driving 25 (sliceOf (exBeds d) 9 (35 / 3) (17 / 3) 4 9) = driving 25 (sliceOf exSoil 9 (35 / 3) (17 / 3) 4 9) := by
  have hD : driving 25 (sliceOf (exBeds d) 9 (35 / 3) (17 / 3) 4 9) = driving 25 (sliceOf exSoil 9 (35 / 3) (17 / 3) 4 9) := by
    unfold driving
    refine sum_congr rfl fun i _ => ?_
    obtain ⟨-, h2, h3, -⟩ := exBeds_slice h0 i
    rw [h2, h3]
  refine ⟨?_, hD⟩
  unfold fellenius bedFos
  rw [hD]
  congr 1
  refine sum_congr rfl fun i _ => ?_
  obtain ⟨h1, -, -, h4, h5, h6⟩ := exBeds_slice h0 i
  rw [h1, h4, h5, h6, mul_zero, add_zero]
  rfl

theorem exBeds_bishop (h0 : 0 < d) (h8 : d < 8) : (exBeds d).bishop 9 (35 / 3) (17 / 3) none none = .ok (bedFos d) := by
  have rc := exBeds_reachable h0 h8
  have he : (exBeds d).bishopEnds 9 (35 / 3) (17 / 3) none none = .ok ((4, 9), (9, 6)) :=
    (exOf_ground (m := exMat 2) (exMat_constructed 2) (by norm_num [exMat])).ends
  refine (C56_no_friction _ rc ?_ _ _ _ _ _ he).2 _ ?_ (bedFos_pos d).ne'
  · intro l hl
    have hl : l ∈ [mkLayer exSlope.extH 0 (bed 10 d), mkLayer exSlope.extH 1 (bed 5 8)] := hl
    simp at hl
    rcases hl with rfl | rfl <;> rfl
  · rw [C55_ordinary_formula _ rc]
    refine ⟨by norm_num, by norm_num, by norm_num, by norm_num, ?_, by simp [exBeds], ⟨none, rfl⟩, ?_, (exBeds_fellenius h0).1.symm⟩
    · intro i hi
      have := (exOf_ground (m := exMat 2) (exMat_constructed 2) (by norm_num [exMat])).inside i hi
      exact abs_lt_of_sq_lt_sq this (by norm_num)
    · exact (exBeds_fellenius h0).2 ▸ exSoil_drives

/-- The level of the base of the first slice, below the crest. -/
noncomputable def bedDepth : ℝ := 9 - (35 / 3 - √((17 / 3) ^ 2 - (centre 4 9 25 0 - 9) ^ 2))

theorem bedDepth_pos : 0 < bedDepth ∧ bedDepth < 3 := by
  have e : (17 / 3 : ℝ) ^ 2 - (centre 4 9 25 0 - 9) ^ 2 = 7291 / 900 := by
    simp [centre]; norm_num
  unfold bedDepth
  rw [e]
  have h1 : (8 / 3 : ℝ) < √(7291 / 900) := by
    apply Real.lt_sqrt_of_sq_lt; norm_num
  have h2 : √(7291 / 900 : ℝ) < 17 / 3 := by
    rw [Real.sqrt_lt' (by norm_num)]; norm_num
  exact ⟨by linarith, by linarith⟩

/-- Moving the boundary of the beds down past the first base makes that base stronger at once. -/
theorem bedFos_jump (h : bedDepth < d) : bedFos bedDepth + 5 * ((sliceOf exSoil 9 (35 / 3) (17 / 3) 4 9 0).b /
    (sliceOf exSoil 9 (35 / 3) (17 / 3) 4 9 0).cos) / driving 25 (sliceOf exSoil 9 (35 / 3) (17 / 3) 4 9) ≤ bedFos d := by
  have hD := exSoil_drives
  unfold bedFos
  rw [← add_div]
  refine div_le_div_of_nonneg_right ?_ hD.le
  rw [sum_range_succ' _ 24, sum_range_succ' (fun i => bedCohesion d i * _) 24]
  have h1 : bedCohesion bedDepth 0 = 5 := by
    unfold bedCohesion
    rw [if_neg]
    unfold bedDepth
    linarith
  have h2 : bedCohesion d 0 = 10 := by
    unfold bedCohesion
    rw [if_pos]
    unfold bedDepth at h
    linarith
  rw [h1, h2]
  have : ∑ k ∈ range 24, bedCohesion bedDepth (k + 1) * ((sliceOf exSoil 9 (35 / 3) (17 / 3) 4 9 (k + 1)).b /
      (sliceOf exSoil 9 (35 / 3) (17 / 3) 4 9 (k + 1)).cos) ≤
    ∑ k ∈ range 24, bedCohesion d (k + 1) * ((sliceOf exSoil 9 (35 / 3) (17 / 3) 4 9 (k + 1)).b /
      (sliceOf exSoil 9 (35 / 3) (17 / 3) 4 9 (k + 1)).cos) := by
    refine sum_le_sum fun k hk => ?_
    have hk := mem_range.mp hk
    refine mul_le_mul_of_nonneg_right ?_ (exSoil_base (by omega)).le
    unfold bedCohesion
    split
    · rw [if_pos (by linarith)]
    · split <;> norm_num
  linarith

/-- **C115** (violation). The factor of safety reported for a circle jumps when the bottom of a bed is moved, however
little: with beds of clay with cohesions 10 and 5 and the same weight, a depth `d0` and an amount `δ` exist such that in every
neighbourhood of `d0` a depth is reported at least `δ` safer. -/
theorem C115_jump : ∃ d0 δ : ℝ, 0 < δ ∧ ∀ ε > 0, ∃ d, |d - d0| ≤ ε ∧ ∃ F F' : ℝ,
    (∀ x ∈ [(d0, F), (d, F')], ∃ s, exSlope.setMaterials [some (bed 10 x.1), some (bed 5 8)] = (s, .ok ()) ∧
      (s.addSingleCircularPlane 9 (35 / 3) (17 / 3)).2 = .ok () ∧
      ((s.addSingleCircularPlane 9 (35 / 3) (17 / 3)).1.analyseSlope none).1.getMinFos = .ok (some x.2)) ∧
    F + δ ≤ F' := by
  obtain ⟨d1, d2⟩ := bedDepth_pos
  have report : ∀ d, 0 < d → d < 8 → ∃ s, exSlope.setMaterials [some (bed 10 d), some (bed 5 8)] = (s, .ok ()) ∧
      (s.addSingleCircularPlane 9 (35 / 3) (17 / 3)).2 = .ok () ∧
      ((s.addSingleCircularPlane 9 (35 / 3) (17 / 3)).1.analyseSlope none).1.getMinFos = .ok (some (bedFos d)) := by
    intro d h0 h8
    obtain ⟨a, -, b⟩ := add_report (t := exBeds d) rfl (exBeds_bishop h0 h8)
    exact ⟨exBeds d, exBeds_eq h0 h8, a, b⟩
  refine ⟨bedDepth, 5 * ((sliceOf exSoil 9 (35 / 3) (17 / 3) 4 9 0).b /
    (sliceOf exSoil 9 (35 / 3) (17 / 3) 4 9 0).cos) / driving 25 (sliceOf exSoil 9 (35 / 3) (17 / 3) 4 9),
    div_pos (mul_pos (by norm_num) (exSoil_base (by norm_num))) exSoil_drives, fun ε hε => ?_⟩
  have hm : 0 < min ε 1 := lt_min hε one_pos
  have hm1 : min ε 1 ≤ 1 := min_le_right _ _
  refine ⟨bedDepth + min ε 1, ?_, bedFos bedDepth, bedFos (bedDepth + min ε 1), ?_, bedFos_jump (by linarith)⟩
  · rw [add_sub_cancel_left, abs_of_pos hm]; exact min_le_left _ _
  · intro x hx
    simp at hx
    rcases hx with rfl | rfl
    · exact report _ d1 (by linarith)
    · exact report _ (by linarith) (by linarith)

end Beds

/-! ## Away from coincidences -/

/-- Exact arithmetic has errors of any size at most. -/
theorem accurate_id {ε : ℝ} (h : 0 ≤ ε) : Accurate ε (id : ℝ → ℝ) where
  lt _ _ := Iff.rfl
  le _ _ := Iff.rfl
  neg _ := rfl
  add a b := by simp; positivity
  sub a b := by simp; positivity
  mul a b := by simp; positivity
  div a b _ := by simp; positivity
  nat n := by simp; positivity
  lit m e d := by simp; positivity
  sqrt a _ := by simp [PyNum.sqrt]; positivity
  sin a := by simp [PyNum.sin]; positivity
  cos a := by simp [PyNum.cos]; positivity
  atan a := by simp [PyNum.atan]; positivity

theorem accurateTan_id {ε : ℝ} (h : 0 ≤ ε) : AccurateTan ε (id : ℝ → ℝ) where
  pi := by simp [PyNum.pi]; positivity
  tan a _ := by simp [PyNum.tan]; positivity

/-- **C115** (proved part). Circles added one by one: if no coincidence is met, the reported factor of safety is
continuous in everything that is entered. For every `δ` an `ε` exists such that the same program with every number changed
by at most `ε` does not raise and reports a factor of safety within `δ`. Missing: programs with a coincidence, where it
fails (`C115_jump`). -/
theorem C115_program_partial (h a l : PyVal ℝ) (p : ProperBoundary h a l) (s0 : Slope ℝ) (e0 : Slope.new h a l = .ok s0)
    (ops : List (Op ℝ)) (valid : ∀ o ∈ ops, o.Valid) (nt : NoTiesRun ops s0)
    (hne : (runAll ops s0).individual ≠ [])
    (hv : ∀ p ∈ (runAll ops s0).individual, ∃ F, (runAll ops s0).bishop p.cx p.cy p.radius none none = .ok F)
    (ne : ∀ p ∈ (runAll ops s0).individual, NoTiesEnds (runAll ops s0) p.cx p.cy p.radius)
    (nb : ∀ p ∈ (runAll ops s0).individual, ∀ l q, FirstCrossings (runAll ops s0) p.cx p.cy p.radius l q →
      NoTiesBishop (runAll ops s0) p.cx p.cy p.radius l.1 q.1) (δ : ℝ) (hδ : 0 < δ) :
    ∃ F, ((runAll ops s0).analyseSlope none).1.getMinFos = .ok (some F) ∧
    ∃ ε > 0, ∀ (h' a' l' : PyVal ℝ) (ops' : List (Op ℝ)), CloseVal ε id h h' → CloseVal ε id a a' → CloseVal ε id l l' →
      List.Forall₂ (CloseOp ε id) ops ops' →
      ∃ t0, Slope.new h' a' l' = .ok t0 ∧ NoRaise ops' t0 ∧ ((runAll ops' t0).analyseSlope none).2 = .ok () ∧
        ∃ F', ((runAll ops' t0).analyseSlope none).1.getMinFos = .ok (some F') ∧ |F' - F| ≤ δ := by
  obtain ⟨F, hF, ε, hε, key⟩ := C111_program h a l p s0 e0 ops valid nt hne hv ne nb δ hδ
  exact ⟨F, hF, ε, hε, key ℝ id (accurate_id hε.le) (accurateTan_id hε.le)⟩

/-- **C115** (proved part). The same for the automatic search. -/
theorem C115_search_partial (h a l : PyVal ℝ) (p : ProperBoundary h a l) (s0 : Slope ℝ) (e0 : Slope.new h a l = .ok s0)
    (ops : List (Op ℝ)) (valid : ∀ o ∈ ops, o.Valid) (nt : NoTiesRun ops s0) (none_added : (runAll ops s0).individual = [])
    (ns : NoTiesSearch (runAll ops s0)) (ps : List (Plane ℝ)) (hs : (runAll ops s0).entryExitPlanes = .ok ps) (hne : ps ≠ [])
    (hv : ∀ p ∈ ps, ∃ F, (runAll ops s0).bishop p.cx p.cy p.radius none none = .ok F)
    (ne : ∀ p ∈ ps, NoTiesEnds (runAll ops s0) p.cx p.cy p.radius)
    (nb : ∀ p ∈ ps, ∀ l q, FirstCrossings (runAll ops s0) p.cx p.cy p.radius l q →
      NoTiesBishop (runAll ops s0) p.cx p.cy p.radius l.1 q.1) (δ : ℝ) (hδ : 0 < δ) :
    ∃ F, ((runAll ops s0).analyseSlope none).1.getMinFos = .ok (some F) ∧
    ∃ ε > 0, ∀ (h' a' l' : PyVal ℝ) (ops' : List (Op ℝ)), CloseVal ε id h h' → CloseVal ε id a a' → CloseVal ε id l l' →
      List.Forall₂ (CloseOp ε id) ops ops' →
      ∃ t0, Slope.new h' a' l' = .ok t0 ∧ NoRaise ops' t0 ∧ ((runAll ops' t0).analyseSlope none).2 = .ok () ∧
        ∃ F', ((runAll ops' t0).analyseSlope none).1.getMinFos = .ok (some F') ∧ |F' - F| ≤ δ := by
  obtain ⟨F, hF, ε, hε, key⟩ := C112_search h a l p s0 e0 ops valid nt none_added ns ps hs hne hv ne nb δ hδ
  exact ⟨F, hF, ε, hε, key ℝ id (accurate_id hε.le) (accurateTan_id hε.le)⟩

/-- A case of `C115_program_partial`: the height, the length and the circle of the clay cut are changed a little. -/
example (δ : ℝ) (hδ : 0 < δ) : ∃ ε > 0, ∀ e, |e| ≤ ε → ∃ t0, Slope.new (.num (12 + e)) (.num 30) (.num (2 / 25 - e)) = .ok t0 ∧
    ∃ F', ((runAll [.setMaterials [some (exFric 0 100)], .addSingleCircularPlane (32 - e) (36 + e) 10] t0).analyseSlope
        none).1.getMinFos = .ok (some F') ∧ |F' - clayFos| ≤ δ := by
  have main := C115_program_partial (.num 12) (.num 30) (.num (2 / 25)) ⟨⟨12, rfl, by norm_num⟩, ⟨30, rfl, by norm_num, by norm_num⟩,
    .inr ⟨_, rfl, by norm_num⟩⟩ cutSlope cutSlope_new cutOps cutOps_valid cutOps_noTies
  rw [cutOps_run] at main
  obtain ⟨G, hG, ε, hε, h⟩ := main (by simp [cutAdded]) cutAdded_bishop cutAdded_ends cutAdded_noTies δ hδ
  rw [cutAdded_report] at hG
  injection hG with hG
  injection hG with hG
  subst hG
  refine ⟨ε, hε, fun e he => ?_⟩
  have same : ∀ x : ℝ, |id x - x| ≤ ε := fun x => by simpa using hε.le
  have plus : ∀ x : ℝ, |id (x + e) - x| ≤ ε := fun x => by simpa using he
  have minus : ∀ x : ℝ, |id (x - e) - x| ≤ ε := fun x => by simpa using he
  obtain ⟨t0, h1, -, -, h2⟩ := h (.num (12 + e)) (.num 30) (.num (2 / 25 - e))
    [.setMaterials [some (exFric 0 100)], .addSingleCircularPlane (32 - e) (36 + e) 10] (plus _) (same _) (minus _)
    (.cons (.cons (.some ⟨same _, same _, same _, same _⟩) .nil) (.cons ⟨minus _, plus _, same _⟩ .nil))
  exact ⟨t0, h1, h2⟩

/-- A case of `C115_search_partial`: the search of C112 with a slightly different height. -/
example (δ : ℝ) (hδ : 0 < δ) : ∃ F, (searchCut.analyseSlope none).1.getMinFos = .ok (some F) ∧ ∃ ε > 0, ∀ e, |e| ≤ ε →
    ∃ t0, Slope.new (.num (12 + e)) (.num 30) (.num (2 / 25)) = .ok t0 ∧
      ∃ F', ((runAll searchOps t0).analyseSlope none).1.getMinFos = .ok (some F') ∧ |F' - F| ≤ δ := by
  obtain ⟨ps, hs, hne, hv, ne, nb⟩ := searchCut_case
  have main := C115_search_partial (.num 12) (.num 30) (.num (2 / 25)) ⟨⟨_, rfl, by norm_num⟩, ⟨_, rfl, by norm_num, by norm_num⟩,
    .inr ⟨_, rfl, by norm_num⟩⟩ cutSlope cutSlope_new searchOps searchOps_valid searchOps_noTies
  rw [searchOps_run] at main
  obtain ⟨F, hF, ε, hε, h⟩ := main rfl sc_noTiesSearch ps hs hne hv ne nb δ hδ
  refine ⟨F, hF, ε, hε, fun e he => ?_⟩
  have same : ∀ x : ℝ, |id x - x| ≤ ε := fun x => by simpa using hε.le
  have plus : ∀ x : ℝ, |id (x + e) - x| ≤ ε := fun x => by simpa using he
  obtain ⟨t0, h1, -, -, h2⟩ := h (.num (12 + e)) (.num 30) (.num (2 / 25)) searchOps (plus _) (same _) (same _)
    (.cons (.cons (.some ⟨same _, same _, same _, same _⟩) .nil) (.cons ⟨same _, same _, same _, same _⟩
        (.cons ⟨rfl, rfl, rfl, .some (same _), .none⟩ .nil)))
  exact ⟨t0, h1, h2⟩

end PySlope
