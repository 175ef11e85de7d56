import Verif.Lemmas.LimitRun
import Verif.Props.Rounding

/-! # A whole program with rounding errors (C111) -/

namespace PySlope
open Filter Topology Lit

section
variable {K : ℕ → Type} {val : ∀ n, K n → ℝ}

theorem Lim.near {x : ∀ n, K n} {a ε : ℝ} (h : Lim val x a) (hε : 0 < ε) : ∀ᶠ n in atTop, |val n (x n) - a| ≤ ε := by
  have := (Tendsto.sub_const h a).abs
  rw [sub_self, abs_zero] at this
  exact (this.eventually (gt_mem_nhds hε)).mono fun n h => le_of_lt h

theorem LimList.near {X : ℕ → Type} {Y : Type} {R : (∀ n, X n) → Y → Prop} {S : ∀ n, List (X n)} {s : List Y} (h : LimList R S s)
    {P : ∀ n, Y → X n → Prop} (k : ∀ x y, R x y → ∀ᶠ n in atTop, P n y (x n)) : ∀ᶠ n in atTop, List.Forall₂ (P n) s (S n) := by
  obtain ⟨L, h1, rfl, h3⟩ := h
  filter_upwards [h1, eventually_list fun p hp => k p.1 p.2 (h3 p hp)] with n a b
  rw [a, List.forall₂_map_left_iff, List.forall₂_map_right_iff, List.forall₂_same]
  exact b

theorem LimOpt.near {x : ∀ n, Option (K n)} {a : Option ℝ} {ε : ℝ} (h : LimOpt val x a) (hε : 0 < ε) :
    ∀ᶠ n in atTop, Option.Rel (fun a b => |val n b - a| ≤ ε) a (x n) := by
  rcases h with ⟨rfl, h⟩ | ⟨f, y, rfl, h, hf⟩
  · exact h.mono fun n hn => by rw [hn]; exact .none
  · filter_upwards [h, hf.near hε] with n a b
    rw [a]; exact .some b

theorem LimSlope.close {S : ∀ n, Slope (K n)} {s : Slope ℝ} (h : LimSlope val S s) {ε : ℝ} (hε : 0 < ε) :
    ∀ᶠ n in atTop, Close ε (val n) s (S n) := by
  filter_upwards [h.topX.near hε, h.topY.near hε, h.botX.near hε, h.botY.near hε, h.extL.near hε, h.extH.near hε,
    h.gradient.near hε, h.waterH.near hε, h.tolerance.near hε, h.slices, h.maxIterations,
    h.materials.near (P := fun n => CloseLayer ε (val n)) (fun x y r => by
      filter_upwards [r.mat.unitWeight.near hε, r.mat.cohesion.near hε, r.mat.tanPhi.near hε, r.rl.near hε] with n a b c d
      exact ⟨a, b, c, d⟩),
    h.udls.near (P := fun n a b => |val n b.load.magnitude - a.load.magnitude| ≤ ε ∧ |val n b.left - a.left| ≤ ε ∧
      |val n b.right - a.right| ≤ ε) (fun x y r => by
      filter_upwards [r.load.magnitude.near hε, r.left.near hε, r.right.near hε] with n a b c
      exact ⟨a, b, c⟩),
    h.lls.near (P := fun n a b => |val n b.load.magnitude - a.load.magnitude| ≤ ε ∧ |val n b.coord - a.coord| ≤ ε) (fun x y r => by
      filter_upwards [r.load.magnitude.near hε, r.coord.near hε] with n a b
      exact ⟨a, b⟩),
    h.waterRL.near hε] with n a1 a2 a3 a4 a5 a6 a7 a8 a9 a10 a11 a12 a13 a14 a15
  exact ⟨a1, a2, a3, a4, a5, a6, a7, a8, a9, a10, a11, a12, a13, a14, a15⟩

end

theorem reachable_runAll {s0 : Slope ℝ} (rs0 : Reachable s0) {ops : List (Op ℝ)} (valid : ∀ o ∈ ops, o.Valid) :
    Reachable (runAll ops s0) := by
  induction ops generalizing s0 with
  | nil => exact rs0
  | cons o os ih =>
    exact ih (.call rs0 (Op.call (valid o List.mem_cons_self))) fun o ho => valid o (List.mem_cons_of_mem _ ho)

/-- **C111**. The same program, run with rounding errors and with numbers that were rounded before, does not raise and
reports the same factor of safety up to `δ`, if the errors are small enough: a slope, any configuration of it by calls
without coincidences, and circles added one by one. -/
theorem C111_program (h a l : PyVal ℝ) (p : ProperBoundary h a l) (s0 : Slope ℝ) (e0 : Slope.new h a l = .ok s0)
    (ops : List (Op ℝ)) (valid : ∀ o ∈ ops, o.Valid) (nt : NoTiesRun ops s0)
    (hne : (runAll ops s0).individual ≠ [])
    (hv : ∀ p ∈ (runAll ops s0).individual, ∃ F, (runAll ops s0).bishop p.cx p.cy p.radius none none = .ok F)
    (ne : ∀ p ∈ (runAll ops s0).individual, NoTiesEnds (runAll ops s0) p.cx p.cy p.radius)
    (nb : ∀ p ∈ (runAll ops s0).individual, ∀ l q, FirstCrossings (runAll ops s0) p.cx p.cy p.radius l q →
      NoTiesBishop (runAll ops s0) p.cx p.cy p.radius l.1 q.1) (δ : ℝ) (hδ : 0 < δ) :
    ∃ F, ((runAll ops s0).analyseSlope none).1.getMinFos = .ok (some F) ∧
    ∃ ε > 0, ∀ (K : Type) [PyNum K] (val : K → ℝ), Accurate ε val → AccurateTan ε val →
      ∀ (h' a' l' : PyVal K) (ops' : List (Op K)), CloseVal ε val h h' → CloseVal ε val a a' → CloseVal ε val l l' →
      List.Forall₂ (CloseOp ε val) ops ops' →
      ∃ t0, Slope.new h' a' l' = .ok t0 ∧ NoRaise ops' t0 ∧ ((runAll ops' t0).analyseSlope none).2 = .ok () ∧
        ∃ F', ((runAll ops' t0).analyseSlope none).1.getMinFos = .ok (some F') ∧ |val F' - F| ≤ δ := by
  have rs0 : Reachable s0 := .init e0
  have rs := reachable_runAll rs0 valid
  obtain ⟨F, hF, ε0, hε0, key⟩ := C110_report _ rs hne hv ne nb δ hδ
  refine ⟨F, hF, ?_⟩
  by_contra hc
  push Not at hc
  choose K I val acc acct h' a' l' ops' ch ca cl co bad using
    fun n : ℕ => hc (1 / ((n : ℝ) + 1)) Nat.one_div_pos_of_nat
  have B := better_of acc
  obtain ⟨S, s, k1, k2, k3⟩ := B.built acct p ch ca cl
  rw [e0] at k1
  injection k1 with k1
  subst k1
  obtain ⟨m1, -, m2⟩ := B.runAll acct k3 rs0 valid co nt
  have m3 := m1.individual.near (P := fun n p p' => |val n p'.cx - p.cx| ≤ ε0 ∧ |val n p'.cy - p.cy| ≤ ε0 ∧
    |val n p'.radius - p.radius| ≤ ε0) (fun x y r => by
      filter_upwards [r.cx.near hε0, r.cy.near hε0, r.radius.near hε0] with n a b c
      exact ⟨a, b, c⟩)
  obtain ⟨n, w1, w2, w3, w4, w5⟩ := (k2.and (m2.and ((m1.close hε0).and (m3.and
    (B.zero.eventually (gt_mem_nhds hε0)))))).exists
  obtain ⟨v1, F', v2, v3⟩ := key (K n) (val n) ((acc n).mono w5.le) _ w3 w4
  exact absurd (bad n (S n) w1 w2 v1 F' v2) (not_lt.mpr v3)

theorem materialNew_of {K : Type} [PyNum K] {isColor : String → Bool} {name color : String} {γ φ c d : K} (h1 : ¬ γ < 1)
    (h2 : ¬ 50 < γ) (h3 : ¬ φ < 0) :
    Material.new isColor (.num γ) (.num φ) (.num c) (.num d) (.str name) (.str color) = .ok
      { unitWeight := γ, frictionAngle := φ, cohesion := pyAbs c, depth := pyAbs d, tanPhi := PyNum.tan (radians φ), name := name,
        userColor := if isColor color && color != "" then some color else none } := by
  simp [Material.new, assertRange, assertPositiveNumber, assertNumber, PyCmp.ltb, h1, h2, h3, strArg, Bind.bind, Except.bind,
    Pure.pure, Except.pure, PyVal.get!]

/-- **C111** (materials). The same holds for what a material holds: with rounding errors small enough the constructor
does not raise and every number of the material is within `ε`. -/
theorem C111_material (isColor : String → Bool) (γ φ c d : ℝ) (hγ : 1 < γ ∧ γ < 50) (hφ : 0 ≤ φ ∧ φ < 90) (name color : String)
    (ε : ℝ) (hε : 0 < ε) :
    ∃ m, Material.new isColor (.num γ) (.num φ) (.num c) (.num d) (.str name) (.str color) = .ok m ∧
    ∃ ε' > 0, ∀ (K : Type) [PyNum K] (val : K → ℝ), Accurate ε' val → AccurateTan ε' val →
      ∀ γ' φ' c' d' : K, |val γ' - γ| ≤ ε' → |val φ' - φ| ≤ ε' → 0 ≤ val φ' → |val c' - c| ≤ ε' → |val d' - d| ≤ ε' →
      ∃ m', Material.new isColor (.num γ') (.num φ') (.num c') (.num d') (.str name) (.str color) = .ok m' ∧
        CloseMaterial ε val m m' := by
  refine ⟨_, materialNew_of (by rw [lit_one]; exact hγ.1.not_gt) (by rw [lit_real]; exact_mod_cast hγ.2.not_gt)
    (by rw [lit_zero]; exact hφ.1.not_gt), ?_⟩
  by_contra hc
  push Not at hc
  choose K I val acc acct γ' φ' c' d' h1 h2 h3 h4 h5 bad using
    fun n : ℕ => hc (1 / ((n : ℝ) + 1)) Nat.one_div_pos_of_nat
  have B := better_of acc
  have l1 := B.of_close h1
  have l2 := B.of_close h2
  have l4 := B.of_close h4
  have l5 := B.of_close h5
  have er : radians φ = φ * (Real.pi / 180) := rfl
  have pi0 := Real.pi_pos
  have lt := B.tan acct (B.radians acct l2) (by
    rw [er, abs_of_nonneg (by have := hφ.1; positivity)]; nlinarith [hφ.2])
  obtain ⟨n, w1, w2, w3, w4, w5, w6⟩ := ((B.not_lt l1 (B.ofNat 1) (by exact_mod_cast hγ.1)).and
    ((B.not_lt (B.ofNat 50) l1 (by exact_mod_cast hγ.2)).and ((l1.near hε).and (((B.pyAbs l4).near hε).and
      ((lt.near hε).and ((B.pyAbs l5).near hε)))))).exists
  refine bad n _ (materialNew_of w1 w2 ?_) ⟨w3, ?_, w5, ?_⟩
  · intro h
    have := ((acc n).lt _ _).mp h
    rw [B.val_zero] at this
    linarith [h3 n]
  · rw [pyAbs_real]; exact w4
  · rw [pyAbs_real, pyAbs_real]; exact w6

theorem off_accurateTan {ε : ℝ} (h : 0 < ε) : AccurateTan ε (Off.val (ε := ε)) where
  pi := by
    change |Real.pi - Real.pi| ≤ ε
    rw [sub_self, abs_zero]; exact h.le
  tan a _ := by
    change |Real.tan a.val - Real.tan a.val| ≤ _
    rw [sub_self, abs_zero]; exact mul_nonneg h.le (abs_nonneg _)

/-- Double precision with a library that rounds correctly is also of this kind. -/
theorem exMachine_accurateTan : AccurateTan (1 / 2 ^ 51) (F64.val (A := exMachine)) where
  pi := by
    change |round53 Real.pi - Real.pi| ≤ _
    have := round53_roundsToEven.error Real.pi
    rw [abs_sub_comm]
    refine this.trans ?_
    rw [div_le_div_iff₀ (by positivity) (by positivity), abs_of_pos Real.pi_pos]
    have : (2 : ℝ) ^ 53 = 4 * 2 ^ 51 := by norm_num
    nlinarith [show (0 : ℝ) < 2 ^ 51 by positivity, Real.pi_le_four]
  tan a _ := by
    change |round53 (Real.tan a.val) - Real.tan a.val| ≤ _
    have := round53_roundsToEven.error (Real.tan a.val)
    rw [abs_sub_comm]
    refine this.trans ?_
    rw [div_eq_mul_one_div, mul_comm]
    exact mul_le_mul_of_nonneg_right (by gcongr <;> norm_num) (abs_nonneg _)

/-- A case: `Material(unit_weight=20, friction_angle=35, cohesion=2, depth_to_bottom=5)` with an error of `ε` in every number
and a relative one in every operation. -/
example : ∃ ε > 0, ∃ m : Material (Off ε), Material.new (fun _ => false) (.num ⟨20 - ε⟩) (.num ⟨35 + ε⟩) (.num ⟨2 + ε⟩)
    (.num ⟨5 - ε⟩) (.str "") (.str "") = .ok m ∧ |m.depth.val - 5| ≤ 1 / 1000 := by
  obtain ⟨m, hm, ε, hε, h⟩ := C111_material (fun _ => false) 20 35 2 5 (by norm_num) (by norm_num) "" "" (1 / 1000) (by norm_num)
  have up : ∀ x : ℝ, |x + ε - x| ≤ ε := fun x => by rw [add_sub_cancel_left, abs_of_pos hε]
  have down : ∀ x : ℝ, |x - ε - x| ≤ ε := fun x => by rw [sub_sub_cancel_left, abs_neg, abs_of_pos hε]
  obtain ⟨m', h1, h2⟩ := h (Off ε) Off.val (off_accurate hε) (off_accurateTan hε) ⟨20 - ε⟩ ⟨35 + ε⟩ ⟨2 + ε⟩ ⟨5 - ε⟩ (down _) (up _)
    (by change 0 ≤ 35 + ε; linarith) (up _) (down _)
  refine ⟨ε, hε, m', h1, ?_⟩
  have := h2.2.2.2
  have e : m.depth = 5 := by
    rw [materialNew_of (by rw [lit_one]; norm_num) (by rw [lit_real]; norm_num) (by rw [lit_zero]; norm_num)] at hm
    injection hm with hm
    rw [← hm]
    simp only [pyAbs_real]
    norm_num
  rwa [e] at this

/-- The clay of the example, with numbers that are too large by `ε`. -/
noncomputable def offFric (ε : ℝ) : Material (Off ε) :=
  { unitWeight := ⟨20 + ε⟩, frictionAngle := ⟨0⟩, cohesion := ⟨100 + ε⟩, depth := ⟨2 + ε⟩, tanPhi := ⟨0⟩, name := "",
    userColor := none }

/-- The calls of the case. -/
noncomputable def cutOps : List (Op ℝ) := [.setMaterials [some (exFric 0 100)], .addSingleCircularPlane 32 36 10]

/-- The slope after them. -/
noncomputable def cutAdded : Slope ℝ :=
  { cutOf (exFric 0 100) with individual := [⟨(22, 36), (24, 30), 32, 36, 10, none⟩], search := [] }

theorem cutClay_bishop : (cutOf (exFric 0 100)).bishop 32 36 10 none none = .ok clayFos := by
  have rs := cutOf_reachable (φ := 0) (c := 100) le_rfl
  obtain ⟨F, hF, -⟩ := cut_bishop (φ := 0) (c := 100) le_rfl (by norm_num) (by norm_num)
  have eF : F = clayFos := by
    obtain ⟨l, q, h1, h2⟩ := C41_converged_or_out_of_turns _ rs hF
    obtain ⟨rfl, rfl⟩ := cut_first _ h1
    exact cut_clay h2
  rw [← eF]
  exact hF

theorem cutClay_add : (cutOf (exFric 0 100)).addSingleCircularPlane 32 36 10 = (cutAdded, .ok ()) := by
  have rs := cutOf_reachable (φ := 0) (c := 100) le_rfl
  unfold Slope.addSingleCircularPlane
  rw [intersections_two rs.wf.geo (cut_crossing _) (by norm_num)]
  simp only
  rw [setSize_nodup (by simp)]
  rfl

theorem cutOps_run : runAll cutOps cutSlope = cutAdded := by
  change ((cutSlope.setMaterials [some (exFric 0 100)]).1.addSingleCircularPlane 32 36 10).1 = _
  rw [cut_setMaterials 0 100, cutClay_add]

theorem cutOps_valid : ∀ o ∈ cutOps, o.Valid := by
  intro o ho
  rcases List.mem_cons.mp ho with rfl | ho
  · intro m hm
    simp at hm
    subst hm
    exact exFric_constructed 0 100 le_rfl
  · obtain rfl := List.mem_singleton.mp ho
    trivial

theorem cutOps_noTies : NoTiesRun cutOps cutSlope := by
  refine ⟨⟨by simp, ?_⟩, ?_, ?_⟩
  · change [cutSlope.extH, 2].Nodup
    rw [cutSlope_extH]
    norm_num
  · change (cutSlope.setMaterials [some (exFric 0 100)]).2 = _
    rw [cut_setMaterials 0 100]
  · change NoTiesRun _ (cutSlope.setMaterials [some (exFric 0 100)]).1
    rw [cut_setMaterials 0 100]
    refine ⟨cut_noTiesEnds _, ?_, trivial⟩
    change ((cutOf (exFric 0 100)).addSingleCircularPlane 32 36 10).2 = _
    rw [cutClay_add]

theorem cutAdded_bishop : ∀ p ∈ cutAdded.individual, ∃ F, cutAdded.bishop p.cx p.cy p.radius none none = .ok F := by
  intro p hp
  obtain rfl := List.mem_singleton.mp hp
  exact ⟨clayFos, cutClay_bishop⟩

theorem cutAdded_ends : ∀ p ∈ cutAdded.individual, NoTiesEnds cutAdded p.cx p.cy p.radius := by
  intro p hp
  obtain rfl := List.mem_singleton.mp hp
  have h := cut_noTiesEnds (exFric 0 100)
  exact ⟨h.face, h.crest, h.toe, h.line, h.left_corner, h.crest_corner, h.toe_corner, h.right_corner, h.gap⟩

theorem cutAdded_noTies : ∀ p ∈ cutAdded.individual, ∀ l q, FirstCrossings cutAdded p.cx p.cy p.radius l q →
    NoTiesBishop cutAdded p.cx p.cy p.radius l.1 q.1 := by
  intro p hp l q hl
  obtain rfl := List.mem_singleton.mp hp
  obtain ⟨rfl, rfl⟩ := cut_first (exFric 0 100) hl
  have h := cut_noTiesBishop
  exact ⟨⟨h.centre_x, h.centre_y, h.base, h.load, h.water⟩, h.value, h.denominator, h.stop⟩

theorem cutAdded_report : (cutAdded.analyseSlope none).1.getMinFos = .ok (some clayFos) := by
  have := (add_report (t := cutOf (exFric 0 100)) rfl cutClay_bishop).2.2
  rwa [cutClay_add] at this

/-- A case of C111: the clay cut and a circle, `Slope(height=12, length=0.08)`, `set_materials`,
`add_single_circular_plane(32, 36, 10)`, `analyse_slope`. Run with numbers that are all too large by `ε`, in an arithmetic
whose results are all wrong by the factor `1 + ε`, the program reports a factor of safety as near to the exact one as one
likes. -/
example (δ : ℝ) (hδ : 0 < δ) : ∃ ε > 0, ∃ t0 : Slope (Off ε), Slope.new (.num ⟨12 + ε⟩) (.num ⟨30 + ε⟩) (.num ⟨2 / 25 + ε⟩) = .ok t0 ∧
    ∃ F', ((runAll [.setMaterials [some (offFric ε)], .addSingleCircularPlane ⟨32 + ε⟩ ⟨36 + ε⟩ ⟨10 + ε⟩] t0).analyseSlope
        none).1.getMinFos = .ok (some F') ∧ |F'.val - clayFos| ≤ δ := by
  have main := C111_program (.num 12) (.num 30) (.num (2 / 25)) ⟨⟨12, rfl, by norm_num⟩, ⟨30, rfl, by norm_num, by norm_num⟩,
    .inr ⟨_, rfl, by norm_num⟩⟩ cutSlope cutSlope_new cutOps cutOps_valid cutOps_noTies
  rw [cutOps_run] at main
  obtain ⟨G, hG, ε, hε, h⟩ := main (by simp [cutAdded]) cutAdded_bishop cutAdded_ends cutAdded_noTies δ hδ
  rw [cutAdded_report] at hG
  injection hG with hG
  injection hG with hG
  subst hG
  have off : ∀ x : ℝ, |x + ε - x| ≤ ε := fun x => by rw [add_sub_cancel_left, abs_of_pos hε]
  obtain ⟨t0, h1, -, -, h2⟩ := h (Off ε) Off.val (off_accurate hε) (off_accurateTan hε) (.num ⟨12 + ε⟩) (.num ⟨30 + ε⟩)
    (.num ⟨2 / 25 + ε⟩) [.setMaterials [some (offFric ε)], .addSingleCircularPlane ⟨32 + ε⟩ ⟨36 + ε⟩ ⟨10 + ε⟩] (off _) (off _) (off _)
    (by
      refine .cons (.cons (.some ⟨off _, ?_, ?_, off _⟩) .nil) (.cons ⟨off _, off _, off _⟩ .nil)
      · change |100 + ε - abs (100 : ℝ)| ≤ ε
        rw [abs_of_pos (show (0 : ℝ) < 100 by norm_num)]
        exact off _
      · change |0 - Real.tan (abs 0 * (Real.pi / 180))| ≤ ε
        simpa using hε.le)
  exact ⟨ε, hε, t0, h1, h2⟩

end PySlope
