import Verif.Props.RoundingDynamic
import Verif.Props.RoundingSearchCase
import Verif.Spec.ExampleDynamic
import Verif.Spec.ExampleNan

/-! # A dynamic analysis with rounding errors: a case of C116

`Slope(height=3, length=3)` in clay with one dynamic line load of 100 at the crest and the circle that enters the ground at
`(5, 9)` and leaves the face at `(8, 7)` with a level tangent. With the load on the sliding mass the factor of safety is
below 1.34, with the load left of it it is 2. -/

namespace PySlope
open Finset Lit

/-! ## The slices -/

theorem kBase (c o : ℝ) {u : ℝ} (h1 : 5 < u) (h2 : u < 8) : (u - 8) ^ 2 < (13 / 4 : ℝ) ^ 2 ∧
    7 < 41 / 4 - √((13 / 4) ^ 2 - (u - 8) ^ 2) ∧ 41 / 4 - √((13 / 4) ^ 2 - (u - 8) ^ 2) < groundY (exDyn c 3 o) u := by
  have h := nanA.base c h1 h2
  rw [show (15 : ℝ) - 8 + 13 / 4 = 41 / 4 by norm_num, show (15 : ℝ) - 8 = 7 by norm_num] at h
  exact h

/-- Slice centres. -/
noncomputable def kX (i : ℕ) : ℝ := 5 + ((i : ℝ) + 1 / 2) * (3 / 25)

theorem kX_mem {i : ℕ} (hi : i < 25) : 5 < kX i ∧ kX i < 8 := by
  have hi' : (i : ℝ) + 1 ≤ 25 := by exact_mod_cast hi
  have h0 : (0 : ℝ) ≤ i := Nat.cast_nonneg i
  unfold kX
  constructor <;> linarith

/-- Level of the base of a slice. -/
noncomputable def kLevel (i : ℕ) : ℝ := 41 / 4 - √((13 / 4) ^ 2 - (kX i - 8) ^ 2)

theorem kGround (c o : ℝ) {i : ℕ} (hi : i < 25) : groundY (exDyn c 3 o) (kX i) = cGround (kX i) := by
  obtain ⟨a, b⟩ := kX_mem hi
  unfold groundY cGround
  have e1 : (exDyn c 3 o).topX = 6 := (exClay_geo c).2.1
  have e2 : (exDyn c 3 o).extH = 9 := exSlope_extH
  have e3 : (exDyn c 3 o).length = 3 := rfl
  have e4 : (exDyn c 3 o).height = 3 := rfl
  rw [e1, e2, e3, e4]
  split
  · rfl
  · rw [if_pos (by linarith)]; ring

/-- The load on a slice. -/
noncomputable def kOn (o : ℝ) (i : ℕ) : ℝ :=
  if 5 + (i : ℝ) * (3 / 25) ≤ max 0 (6 - |o|) ∧ max 0 (6 - |o|) < 5 + ((i : ℝ) + 1) * (3 / 25) then 100 else 0

/-- The slices of the example. -/
theorem kSlice (c o : ℝ) {i : ℕ} (hi : i < 25) :
    let q := sliceOf (exDyn c 3 o) 8 (41 / 4) (13 / 4) 5 8 i
    q.b = 3 / 25 ∧ q.c = |c| ∧ q.φ = 0 ∧ q.sin = (8 - kX i) / (13 / 4) ∧ 0 < q.cos ∧
    q.cos = √((13 / 4) ^ 2 - (kX i - 8) ^ 2) / (13 / 4) ∧
    q.W = 3 / 25 * (20 * (cGround (kX i) - kLevel i)) + kOn o i := by
  intro q
  obtain ⟨a, b⟩ := kX_mem hi
  obtain ⟨hin, -, hlt⟩ := kBase c o a b
  rw [kGround c o hi] at hlt
  have hn : (((exDyn c 3 o).slices : ℤ) : ℝ) = 25 := by
    change (((25 : ℤ)) : ℝ) = 25; norm_num
  have hlay : ∀ y, ∃ l, layerAt (exDyn c 3 o).materials y = some l ∧ l.mat = exFric 0 c :=
    (exFric_ground 0 c le_rfl).layer
  have hint : ∀ x y : ℝ, (∫ z in x..y, unitWeightAt (exDyn c 3 o).materials z) = 20 * (y - x) := by
    intro x y
    have : ∀ z, unitWeightAt (exDyn c 3 o).materials z = 20 := by
      intro z
      obtain ⟨l, hl, hm⟩ := hlay z
      unfold unitWeightAt
      rw [hl]
      simp only [hm]
      rfl
    simp only [this, intervalIntegral.integral_const, smul_eq_mul]
    ring
  obtain ⟨l, hl, hm⟩ := hlay (kLevel i)
  have hsq : 0 < √((13 / 4 : ℝ) ^ 2 - (kX i - 8) ^ 2) := Real.sqrt_pos.mpr (by linarith)
  have hx : (5 : ℝ) + ((i : ℝ) + 1 / 2) * (3 / 25) = kX i := rfl
  have hb : 41 / 4 - √((13 / 4 : ℝ) ^ 2 - (kX i - 8) ^ 2) = kLevel i := rfl
  have h38 : (8 : ℝ) - 5 = 3 := by norm_num
  have hq : q = sliceOf (exDyn c 3 o) 8 (41 / 4) (13 / 4) 5 8 i := rfl
  have hlt' : kLevel i < cGround (kX i) := hlt
  unfold sliceOf at hq
  simp only [hn, h38, hx, hb, kGround c o hi, hl, max_eq_left hlt'.le] at hq
  rw [hq]
  refine ⟨rfl, ?_, ?_, rfl, ?_, rfl, ?_⟩
  · simp only [hm]; simp [exFric]
  · simp only [hm]; simp [exFric]
  · exact div_pos hsq (by norm_num)
  · simp only
    unfold weightOn
    rw [hint]
    have hu : (exDyn c 3 o).udls = [] := rfl
    have hl' : (exDyn c 3 o).lls = [placeLl exSlope.topX (dynLl o)] := rfl
    have hco : (placeLl exSlope.topX (dynLl o)).coord = max 0 (6 - |o|) := by
      simp [placeLl, dynLl]
    have hma : (placeLl exSlope.topX (dynLl o)).load.magnitude = 100 := rfl
    rw [hu, hl']
    unfold kOn
    simp only [List.map_nil, List.sum_nil, List.map_cons, List.sum_cons, add_zero, hco, hma]
    ring_nf

/-- Driving sum without the load. -/
noncomputable def kD : ℝ := ∑ i ∈ range 25, 3 / 25 * (20 * (cGround (kX i) - kLevel i)) * ((8 - kX i) / (13 / 4))

/-- Resistance for a cohesion of 1. -/
noncomputable def kK : ℝ := ∑ i ∈ range 25, 3 / 25 / (√((13 / 4) ^ 2 - (kX i - 8) ^ 2) / (13 / 4))

/-- Driving sum of the load. -/
noncomputable def kL (o : ℝ) : ℝ := ∑ i ∈ range 25, kOn o i * ((8 - kX i) / (13 / 4))

theorem kDepth {i : ℕ} (hi : i < 25) : 0 < cGround (kX i) - kLevel i ∧ cGround (kX i) - kLevel i ≤ 2 := by
  obtain ⟨a, b⟩ := kX_mem hi
  obtain ⟨-, h1, h2⟩ := kBase 1 0 a b
  rw [kGround 1 0 hi] at h2
  change 7 < kLevel i at h1
  change kLevel i < _ at h2
  refine ⟨by linarith, ?_⟩
  have : cGround (kX i) ≤ 9 := by
    unfold cGround
    split <;> linarith
  linarith

theorem kD_pos : 0 < kD := by
  refine sum_pos (fun i hi => ?_) ⟨0, by simp⟩
  have hi := mem_range.mp hi
  have h1 := (kDepth hi).1
  have h2 : 0 < 8 - kX i := by linarith [(kX_mem hi).2]
  positivity

theorem kD_le : kD ≤ 120 := by
  have : kD ≤ ∑ i ∈ range 25, (24 / 5 : ℝ) := by
    refine sum_le_sum fun i hi => ?_
    have hi := mem_range.mp hi
    obtain ⟨h1, h2⟩ := kDepth hi
    obtain ⟨h3, h4⟩ := kX_mem hi
    have h5 : 0 ≤ (8 - kX i) / (13 / 4) := div_nonneg (by linarith) (by norm_num)
    have h6 : (8 - kX i) / (13 / 4) ≤ 1 := by rw [div_le_one (by norm_num)]; linarith
    nlinarith
  simpa using this.trans_eq (by norm_num)

theorem kK_pos : 0 < kK := by
  refine sum_pos (fun i hi => ?_) ⟨0, by simp⟩
  obtain ⟨a, b⟩ := kX_mem (mem_range.mp hi)
  have := (kBase 1 0 a b).1
  have hsq : 0 < √((13 / 4 : ℝ) ^ 2 - (kX i - 8) ^ 2) := Real.sqrt_pos.mpr (by linarith)
  positivity

theorem kL_term (o : ℝ) {i : ℕ} (hi : i < 25) : 0 ≤ kOn o i * ((8 - kX i) / (13 / 4)) := by
  obtain ⟨a, b⟩ := kX_mem hi
  refine mul_nonneg ?_ (div_nonneg (by linarith) (by norm_num))
  unfold kOn
  split <;> norm_num

theorem kL_nonneg (o : ℝ) : 0 ≤ kL o := sum_nonneg fun _ hi => kL_term o (mem_range.mp hi)

/-- The load at the crest. -/
theorem kL_zero : 60 ≤ kL 0 := by
  have h : kOn 0 8 * ((8 - kX 8) / (13 / 4)) ≤ kL 0 :=
    single_le_sum (f := fun i => kOn 0 i * ((8 - kX i) / (13 / 4))) (fun i hi => kL_term 0 (mem_range.mp hi)) (by simp)
  have e : kOn 0 8 = 100 := by
    unfold kOn
    rw [if_pos]
    norm_num
  rw [e] at h
  refine le_trans ?_ h
  unfold kX
  norm_num

/-- The load left of the circle. -/
theorem kL_outside {o : ℝ} (ho : 1 < o) : kL o = 0 := by
  refine sum_eq_zero fun i hi => ?_
  unfold kOn
  rw [if_neg, zero_mul]
  rintro ⟨h, -⟩
  have : max 0 (6 - |o|) < 5 := max_lt (by norm_num) (by linarith [le_abs_self o])
  have : (0 : ℝ) ≤ (i : ℝ) * (3 / 25) := by positivity
  linarith

/-- The cohesion. -/
noncomputable def kC : ℝ := 2 * kD / kK

theorem kC_pos : 0 < kC := div_pos (mul_pos two_pos kD_pos) kK_pos

/-- The factor of safety with the load at `o`. -/
noncomputable def kFos (o : ℝ) : ℝ := 2 * kD / (kD + kL o)

theorem kFos_pos (o : ℝ) : 0 < kFos o :=
  div_pos (mul_pos two_pos kD_pos) (add_pos_of_pos_of_nonneg kD_pos (kL_nonneg o))

theorem kFos_outside {o : ℝ} (ho : 1 < o) : kFos o = 2 := by
  unfold kFos
  rw [kL_outside ho, add_zero, mul_div_assoc, div_self kD_pos.ne', mul_one]

theorem kFos_zero : kFos 0 < 1.34 := by
  unfold kFos
  have := kL_zero
  have := kD_le
  have := kD_pos
  rw [div_lt_iff₀ (by linarith)]
  norm_num
  linarith

theorem kDyn_driving (o : ℝ) : driving 25 (sliceOf (exDyn kC 3 o) 8 (41 / 4) (13 / 4) 5 8) = kD + kL o := by
  unfold driving kD kL
  rw [← sum_add_distrib]
  refine sum_congr rfl fun i hi => ?_
  obtain ⟨_, _, _, h4, _, _, h7⟩ := kSlice kC o (mem_range.mp hi)
  rw [h4, h7]
  ring

theorem kDyn_fellenius (o : ℝ) : fellenius 25 (sliceOf (exDyn kC 3 o) 8 (41 / 4) (13 / 4) 5 8) = kFos o := by
  unfold fellenius kFos
  rw [kDyn_driving]
  congr 1
  have : 2 * kD = |kC| * kK := by
    rw [abs_of_pos kC_pos]
    unfold kC
    rw [div_mul_cancel₀ _ kK_pos.ne']
  rw [this, kK, mul_sum]
  refine sum_congr rfl fun i hi => ?_
  obtain ⟨h1, h2, h3, _, _, h6, _⟩ := kSlice kC o (mem_range.mp hi)
  have ht : (sliceOf (exDyn kC 3 o) 8 (41 / 4) (13 / 4) 5 8 i).tan = 0 := by
    unfold Slice.tan; rw [h3]; simp
  rw [ht, mul_zero, add_zero, h1, h2, h6]

/-! ## The circle -/

theorem kCrossing (o : ℝ) (p : ℝ × ℝ) : Crossing (exDyn kC 3 o) 8 (41 / 4) (13 / 4) p ↔ p = (5, 9) ∨ p = (8, 7) := by
  have h := nanA.crossing kC p
  rw [show (15 : ℝ) - 8 + 13 / 4 = 41 / 4 by norm_num, show (15 : ℝ) - 8 = 7 by norm_num] at h
  exact h

theorem kFirst (o : ℝ) {l q : ℝ × ℝ} (h : FirstCrossings (exDyn kC 3 o) 8 (41 / 4) (13 / 4) l q) : l = (5, 9) ∧ q = (8, 7) := by
  obtain ⟨h1, h2, h3, h4⟩ := h
  rcases (kCrossing o l).mp h1 with rfl | rfl <;> rcases (kCrossing o q).mp h2 with rfl | rfl
  · norm_num at h3
  · exact ⟨rfl, rfl⟩
  · norm_num at h3
  · norm_num at h3

theorem kEnds (o : ℝ) : NoTiesEnds (exDyn kC 3 o) 8 (41 / 4) (13 / 4) := by
  have hh : (exDyn kC 3 o).height = 3 := rfl
  have hl : (exDyn kC 3 o).length = 3 := rfl
  have e1 : (exDyn kC 3 o).topX = 6 := (exClay_geo kC).2.1
  have e2 : (exDyn kC 3 o).topY = 9 := (exClay_geo kC).2.2.1
  have e3 : (exDyn kC 3 o).botX = 9 := (exClay_geo kC).2.2.2.1
  have e4 : (exDyn kC 3 o).botY = 6 := (exClay_geo kC).2.2.2.2.1
  have e5 : (exDyn kC 3 o).extL = 15 := (exClay_geo kC).2.2.2.2.2
  refine ⟨?_, ?_, ?_, ?_, ?_, ?_, ?_, ?_, fun p q h1 h2 => ?_⟩
  on_goal 9 =>
    rcases (kCrossing o _).mp h1 with rfl | rfl <;> rcases (kCrossing o _).mp h2 with rfl | rfl <;> norm_num
  all_goals
    simp only [OnCircle, hh, hl, e1, e2, e3, e4, e5]
    norm_num

theorem kDyn_ends {o : ℝ} (ho : |o| ≤ 10 / 3) :
    (exDyn kC 3 o).bishopEnds 8 (41 / 4) (13 / 4) none none = .ok ((5, 9), (8, 7)) := by
  unfold Slope.bishopEnds
  rw [intersections_two (exDyn_reachable le_rfl (by norm_num) ho).wf.geo (kCrossing o) (by norm_num)]
  simp only
  rw [setSize_nodup (by simp)]
  rfl

theorem kFrictionless (o : ℝ) : Frictionless (exDyn kC 3 o) := by
  intro l hl
  obtain rfl : l = _ := List.mem_singleton.mp hl
  change |(0 : ℝ)| = 0
  simp

theorem kDyn_bishop {o : ℝ} (ho : |o| ≤ 10 / 3) : (exDyn kC 3 o).bishop 8 (41 / 4) (13 / 4) none none = .ok (kFos o) := by
  have rc := exDyn_reachable (c := kC) le_rfl (by norm_num) ho
  have hord : (exDyn kC 3 o).ordinary 8 (41 / 4) (13 / 4) (some (5, 9)) (some (8, 7)) = .ok (kFos o) := by
    rw [C55_ordinary_formula _ rc]
    refine ⟨by norm_num, by norm_num, by norm_num, by norm_num, ?_, (exFric_ground 0 kC le_rfl).ne, ⟨_, rfl⟩, ?_, (kDyn_fellenius o).symm⟩
    · intro i hi
      obtain ⟨m1, m2⟩ := kX_mem (i := i) hi
      have := (kBase kC o m1 m2).1
      have hn : (((exDyn kC 3 o).slices : ℤ) : ℝ) = 25 := by
        change (((25 : ℤ)) : ℝ) = 25; norm_num
      rw [hn, show ((8, 7) : ℝ × ℝ).1 - ((5, 9) : ℝ × ℝ).1 = 3 by norm_num]
      exact abs_lt_of_sq_lt_sq this (by norm_num)
    · exact (kDyn_driving o).symm ▸ add_pos_of_pos_of_nonneg kD_pos (kL_nonneg o)
  exact (C56_no_friction _ rc (kFrictionless o) _ _ _ _ _ (kDyn_ends ho)).2 _ hord (kFos_pos o).ne'

theorem kNoTies {o : ℝ} (h : o = 0 ∨ 1 < o) (ho : |o| ≤ 10 / 3) : NoTiesBishop (exDyn kC 3 o) 8 (41 / 4) (13 / 4) 5 8 := by
  have rc := exDyn_reachable (c := kC) le_rfl (by norm_num) ho
  have hn : (((exDyn kC 3 o).slices : ℤ) : ℝ) = 25 := by
    change (((25 : ℤ)) : ℝ) = 25; norm_num
  obtain ⟨l, q, h1, h2⟩ := C41_converged_or_out_of_turns _ rc (kDyn_bishop ho)
  obtain ⟨rfl, rfl⟩ := kFirst o h1
  refine clay_noTiesBishop rc (kFrictionless o) (exFric_ground 0 kC le_rfl).ne (kFos_pos o) h2 ?_
    ⟨by norm_num, by norm_num, ?_, ?_, ?_⟩ fun i hi => (kSlice kC o (i := i) hi).2.2.2.2.1
  · change (0 : ℝ) < 0.005
    norm_num
  · intro i hi l hl
    obtain rfl : l = _ := List.mem_singleton.mp hl
    have hrl : (mkLayer exSlope.extH 0 (exFric 0 kC)).rl = 7 := by
      change exSlope.extH - 2 = 7
      rw [exSlope_extH]; norm_num
    obtain ⟨m1, m2⟩ := kX_mem (i := i) hi
    have := (kBase kC o m1 m2).2.1
    rw [hn, show (8 : ℝ) - 5 = 3 by norm_num]
    change (mkLayer exSlope.extH 0 (exFric 0 kC)).rl ≠ _
    rw [hrl]
    exact this.ne
  · intro i hi l hl
    obtain rfl : l = _ := List.mem_singleton.mp hl
    have hco : (placeLl exSlope.topX (dynLl o)).coord = max 0 (6 - |o|) := by
      simp [placeLl, dynLl]
    rw [hn, hco, show (8 : ℝ) - 5 = 3 by norm_num]
    rcases h with rfl | h
    · rw [abs_zero, sub_zero, max_eq_right (by norm_num)]
      intro e
      have : (3 * i : ℝ) = 25 := by linarith
      have : 3 * i = 25 := by exact_mod_cast this
      omega
    · have : max 0 (6 - |o|) < 5 := max_lt (by norm_num) (by linarith [le_abs_self o])
      have : (0 : ℝ) ≤ (i : ℝ) * (3 / 25) := by positivity
      linarith
  · intro z hz
    cases hz

/-! ## The states -/

/-- The plane of the circle. -/
noncomputable def kPlane (v : Option (Option ℝ)) : Plane ℝ :=
  { lc := (5, 9), rc := (8, 7), cx := 8, cy := 41 / 4, radius := 13 / 4, fos := v }

/-- The slope with the circle and the load at `o`, with some results. -/
noncomputable def kState (o : ℝ) (v : Option (Option ℝ)) (d : List (ℝ × ℝ)) (m : UdlMax ℝ) (r : List (Plane ℝ)) : Slope ℝ :=
  { exDyn kC 3 o with individual := [kPlane v], dynResults := d, udlMax := m, search := r }

variable {o o' : ℝ} {v : Option (Option ℝ)} {d : List (ℝ × ℝ)} {m : UdlMax ℝ} {r : List (Plane ℝ)}

theorem kState_bishop (ho : |o| ≤ 10 / 3) : (kState o v d m r).bishop 8 (41 / 4) (13 / 4) none none = .ok (kFos o) := by
  have : SameSetup (exDyn kC 3 o) (kState o v d m r) := by constructor <;> rfl
  rw [this.bishop]
  exact kDyn_bishop ho

theorem kMoved (h0 : 0 ≤ o') : (dynLl o).movedTo o' = dynLl o' := by
  simp [LineLoad.movedTo, dynLl, abs_of_nonneg h0]

theorem kCalls (h0 : 0 ≤ o') : offsetCalls (kState o v d m r) o' =
    [.removeUdls [] true, .removeLls [] true, .setLls [some (dynLl o')]] := by
  rw [← kMoved (o := o) h0]
  rfl

/-- Setting the load again. -/
theorem kSet (h1 : |o'| ≤ 10 / 3) : (((kState o v d m r).removeUdls [] true).1.removeLls [] true).1.setLls [some (dynLl o')] =
    (kState o' v d (.num 0) [], .ok ()) := by
  rw [cleared_eq, setLl_small _ (by norm_num [dynLl]) (by change |o'| * 3 ≤ 10; linarith) (by intro p hp; cases hp)]
  have : (@OfNat.ofNat ℝ 0 (Lit.natLit 0)) = 0 := lit_zero
  rw [this]
  rfl

theorem kRun (h0 : 0 ≤ o') (h1 : o' ≤ 10 / 3) :
    runAll (offsetCalls (kState o v d m r) o') (kState o v d m r) = kState o' v d (.num 0) [] := by
  rw [kCalls h0]
  change ((((kState o v d m r).removeUdls [] true).1.removeLls [] true).1.setLls [some (dynLl o')]).1 = _
  rw [kSet (by rwa [abs_of_nonneg h0])]

theorem kAnalyse (ho : |o| ≤ 10 / 3) : ∃ r', (kState o v d m r).analyseSlope none = (kState o (some (some (kFos o))) d m r', .ok ()) ∧
    (kState o (some (some (kFos o))) d m r').getMinFos = .ok (some (kFos o)) := by
  have hb := kState_bishop (v := v) (d := d) (m := m) (r := r) ho
  have hA := analyseSlope_of (s := kState o v d m r) (ps := [kPlane v]) (.inl ⟨by simp [kState], rfl⟩) (by
    intro p hp x hx
    rw [List.mem_singleton] at hp
    subst hp
    unfold FosRaises at hx
    change (kState o v d m r).bishop 8 (41 / 4) (13 / 4) none none = _ at hx
    rw [hb] at hx
    cases hx) none
  have hfo : fosOf (kState o v d m r) (kPlane v) = some (kFos o) := fosOf_some.mpr hb
  have hwf : withFos (kState o v d m r) (kPlane v) = kPlane (some (some (kFos o))) := by
    unfold withFos
    rw [hfo]
    rfl
  have hind : ((kState o v d m r).analysedTo none [kPlane v]).individual = [kPlane (some (some (kFos o)))] := by
    change [kPlane v].map (withFos (kState o v d m r)) = _
    rw [List.map_cons, List.map_nil, hwf]
  have hsearch : ((kState o v d m r).analysedTo none [kPlane v]).search = [kPlane (some (some (kFos o)))] := by
    change tidySearch none ([kPlane v].map (withFos (kState o v d m r))) = _
    rw [List.map_cons, List.map_nil, tidySearch_eq, hwf]
    have : (kPlane (some (some (kFos o)))).fosVal.isSome := rfl
    simp [this, sortByKey, pySort, keeps]
  refine ⟨[kPlane (some (some (kFos o)))], ?_, rfl⟩
  rw [hA]
  congr 1
  have e : (kState o v d m r).analysedTo none [kPlane v] = { kState o v d m r with
    individual := ((kState o v d m r).analysedTo none [kPlane v]).individual,
    search := ((kState o v d m r).analysedTo none [kPlane v]).search } := rfl
  rw [e, hind, hsearch]
  rfl

/-- Nothing coincides at the crest and left of the circle. -/
theorem kOffset (h : o' = 0 ∨ 1 < o') (h1 : o' < 10 / 3) : NoTiesOffset (kState o v d m r) o' := by
  have h0 : 0 ≤ o' := by rcases h with rfl | h <;> linarith
  have ha : |o'| ≤ 10 / 3 := by rw [abs_of_nonneg h0]; exact h1.le
  refine ⟨?_, ?_, ?_⟩
  · rw [kCalls h0]
    intro c hc
    simp only [List.mem_cons, List.not_mem_nil, or_false] at hc
    rcases hc with rfl | rfl | rfl
    · trivial
    · trivial
    · intro u hu
      simp at hu
      subst hu
      exact dynLl_constructed o'
  · rw [kCalls h0]
    refine ⟨trivial, rfl, trivial, rfl, ⟨?_, ?_⟩, ?_, trivial⟩
    · intro u hu
      simp at hu
      subst hu
      norm_num [dynLl]
    · change [(10 : ℝ), |o'| * 3].Nodup
      rw [abs_of_nonneg h0]
      simp
      linarith
    · change ((((kState o v d m r).removeUdls [] true).1.removeLls [] true).1.setLls [some (dynLl o')]).2 = _
      rw [kSet ha]
  · rw [kRun h0 h1.le]
    refine ⟨[kPlane v], by simp, .inl ⟨by simp [kState], rfl⟩, fun p hp => ?_⟩
    rw [List.mem_singleton] at hp
    subst hp
    refine ⟨⟨_, kState_bishop ha⟩, ?_, ?_⟩
    · have h := kEnds o'
      exact ⟨h.face, h.crest, h.toe, h.line, h.left_corner, h.crest_corner, h.toe_corner, h.right_corner, h.gap⟩
    · intro l q hl
      obtain ⟨rfl, rfl⟩ := kFirst o' hl
      have h := kNoTies h ha
      exact ⟨⟨h.centre_x, h.centre_y, h.base, h.load, h.water⟩, h.value, h.denominator, h.stop⟩

theorem kAfter (h0 : 0 ≤ o') (h1 : o' ≤ 10 / 3) {s' : Slope ℝ} {F : ℝ} (h : AfterOffset (kState o v d m r) o' s' F) :
    F = kFos o' ∧ ∃ r', s' = kState o' (some (some (kFos o'))) (d ++ [(o', kFos o')]) (.num 0) r' := by
  obtain ⟨e1, e2⟩ := h
  rw [kRun h0 h1] at e1 e2
  obtain ⟨r', k1, k2⟩ := kAnalyse (o := o') (v := v) (d := d) (m := .num 0) (r := []) (by rwa [abs_of_nonneg h0])
  rw [k1] at e1 e2
  change (kState o' _ d _ r').getMinFos = _ at e1
  rw [k2] at e1
  injection e1 with e1
  injection e1 with e1
  subst e1
  exact ⟨rfl, r', e2⟩

/-- Nothing coincides in the dynamic analysis with the critical factor of safety 1.995: it tries 0 and 2.99, and then an offset
that is still left of the circle, whose factor of safety, 2, is near enough. -/
theorem kDynamic : NoTiesDynamic (kState 0 v d m r) 1.995 := by
  have hfar : farthest (kState 0 v d m r) = 2.99 := by
    change (3 : ℝ) - 0.01 = 2.99
    norm_num
  have hf1 := kFos_zero
  refine ⟨(by intro p hp; cases hp), kOffset (.inl rfl) (by norm_num), fun s1 F1 a1 => ?_⟩
  obtain ⟨rfl, r1, rfl⟩ := kAfter le_rfl (by norm_num) (d := []) a1
  refine ⟨by norm_num at hf1 ⊢; linarith, fun _ => ?_⟩
  rw [hfar]
  refine ⟨by norm_num, kOffset (.inr (by norm_num)) (by norm_num), fun s2 F2 a2 => ?_⟩
  obtain ⟨rfl, r2, rfl⟩ := kAfter (by norm_num) (by norm_num) a2
  rw [kFos_outside (o := 2.99) (by norm_num)]
  refine ⟨by norm_num, fun _ => ?_⟩
  have hmid : 1 < 0 + (1.995 - kFos 0) * (2.99 - 0) / (2 - kFos 0) ∧ 0 + (1.995 - kFos 0) * (2.99 - 0) / (2 - kFos 0) < 2.99 := by
    have hp : 0 < 2 - kFos 0 := by norm_num at hf1; linarith
    rw [zero_add, lt_div_iff₀ hp, div_lt_iff₀ hp]
    norm_num at hf1 ⊢
    constructor <;> linarith
  unfold NoTiesTurns
  simp only
  obtain ⟨c1, c2⟩ := hmid
  generalize 0 + (1.995 - kFos 0) * (2.99 - 0) / (2 - kFos 0) = mid at c1 c2
  refine ⟨?_, kOffset (.inr c1) (by norm_num at c2; linarith), fun s3 F3 a3 => ?_⟩
  · intro e he
    change e ∈ [] ++ [((0 : ℝ), kFos 0)] ++ [(2.99, 2)] at he
    simp only [List.nil_append, List.mem_append, List.mem_singleton] at he
    rcases he with rfl | rfl
    · exact (by linarith : (0 : ℝ) < mid).ne
    · exact c2.ne'
  · obtain ⟨rfl, r3, rfl⟩ := kAfter (by linarith) (by norm_num at c2; linarith) a3
    rw [kFos_outside c1]
    refine ⟨by norm_num, by norm_num, by norm_num, by norm_num, 2000, by norm_num, by norm_num, fun h => ?_⟩
    exact absurd ⟨.inr (by norm_num), by norm_num⟩ h

theorem kTry (h : o' = 0 ∨ 1 < o') (h1 : o' < 10 / 3) (hd : ∀ e ∈ d, e.1 ≠ o') : ∃ r', (kState o v d m r).tryOffset o' =
    (kState o' (some (some (kFos o'))) (d ++ [(o', kFos o')]) (.num 0) r', .ok (kFos o')) := by
  have h0 : 0 ≤ o' := by rcases h with rfl | h <;> linarith
  obtain ⟨r', k1, k2⟩ := kAnalyse (o := o') (v := v) (d := d) (m := .num 0) (r := []) (by rw [abs_of_nonneg h0]; exact h1.le)
  refine ⟨r', ?_⟩
  unfold Slope.tryOffset
  rw [setDynamicOffset_run (noRaise_of (kOffset h h1).2.1), kRun h0 h1.le, andThen_goes, k1, andThen_goes, k2]
  change ({ kState o' (some (some (kFos o'))) d (.num 0) r' with dynResults := dictSet d o' (kFos o') }, _) = _
  rw [dictSet_fresh (fun e he => by rw [pyEq_real]; exact decide_eq_false (hd e he))]
  rfl

/-- The offset of the first turn. -/
noncomputable def kMid : ℝ := 0 + (1.995 - kFos 0) / ((2 - kFos 0) / (2.99 - 0))

theorem kMid_mem : 1 < kMid ∧ kMid < 2.99 := by
  have hf1 := kFos_zero
  have hp : 0 < 2 - kFos 0 := by norm_num at hf1; linarith
  unfold kMid
  rw [zero_add, div_div_eq_mul_div, lt_div_iff₀ hp, div_lt_iff₀ hp]
  norm_num at hf1 ⊢
  constructor <;> linarith

/-- What the dynamic analysis finds. -/
theorem kResult : ((kState 0 v d m r).analyseDynamic 1.995 false).2 = .ok none ∧
    ((kState 0 v d m r).analyseDynamic 1.995 false).1.dynResults.Perm [(0, kFos 0), (2.99, 2), (kMid, 2)] := by
  have z0 : (@OfNat.ofNat ℝ 0 (Lit.natLit 0)) = 0 := lit_zero
  have hf1 := kFos_zero
  obtain ⟨c1, c2⟩ := kMid_mem
  have hm : maxOffset (kState 0 v d m r).topX (kState 0 v d m r).udls (kState 0 v d m r).length = .ok 3 := rfl
  obtain ⟨r1, e1⟩ := kTry (o := 0) (o' := 0) (v := v) (d := []) (m := m) (r := r) (.inl rfl) (by norm_num) (by simp)
  have first := analyseDynamic_first (o := 2.99) 1.995 hm (by rw [z0]; exact e1) (by
    change (3 : ℝ) - 0.01 = 2.99
    norm_num)
  rw [if_neg (by norm_num at hf1 ⊢; linarith)] at first
  obtain ⟨r2, e2⟩ := kTry (o := 0) (o' := 2.99) (v := some (some (kFos 0))) (d := [] ++ [(0, kFos 0)]) (m := .num 0) (r := r1)
    (.inr (by norm_num)) (by norm_num) (by simp; norm_num)
  rw [kFos_outside (o := 2.99) (by norm_num)] at e2
  rw [e2, andThen_goes, if_neg (by norm_num), z0] at first
  obtain ⟨r3, e3⟩ := kTry (o := 2.99) (o' := kMid) (v := some (some 2)) (d := [] ++ [(0, kFos 0)] ++ [(2.99, 2)]) (m := .num 0) (r := r2)
    (.inr c1) (by norm_num at c2; linarith) (by
      simp only [List.nil_append, List.mem_append, List.mem_singleton]
      rintro e (rfl | rfl)
      · exact (by linarith : (0 : ℝ) < kMid).ne
      · exact c2.ne')
  rw [kFos_outside c1] at e3
  have turn := dynLoop_turn (k := 9) (s := kState 2.99 (some (some 2)) ([] ++ [(0, kFos 0)] ++ [(2.99, 2)]) (.num 0) r2)
    (crit := 1.995) (left := 2.99) (right := 0) (prev := 0) (lf := 2) (rf := kFos 0) (f := 2)
    (dictGet_new (d := [] ++ [((0 : ℝ), kFos 0)]) (by simp [pyEq_real]; norm_num) (by rw [pyEq_real]; exact decide_eq_true rfl))
    (dictGet_old (dictGet_new (d := []) (by simp) (by rw [pyEq_real]; exact decide_eq_true rfl)))
    (by rw [pyEq_real, z0]; norm_num) (by
      rw [pyEq_real, z0]
      refine decide_eq_false (div_ne_zero ?_ (by norm_num))
      norm_num at hf1
      linarith) e3
  have stop : dynStops (1.995 : ℝ) 0 2 = true := by
    unfold dynStops
    rw [pyEq_real, pyAbs_real, pyAbs_real, pyRound_exact (z := 2000) (by norm_num)]
    norm_num
  rw [if_pos stop] at turn
  rw [turn, andThen_goes] at first
  rw [first]
  exact ⟨rfl, sortByKey_perm _ _⟩

/-! ## The program -/

/-- The program of the case. -/
noncomputable def kOps : List (Op ℝ) :=
  [.setMaterials [some (exFric 0 kC)], .addSingleCircularPlane 8 (41 / 4) (13 / 4), .setLls [some (dynLl 0)]]

/-- The slope with the circle. -/
noncomputable def kAdded : Slope ℝ := { exOf (exFric 0 kC) with individual := [kPlane none], search := [] }

theorem kAdd : (exOf (exFric 0 kC)).addSingleCircularPlane 8 (41 / 4) (13 / 4) = (kAdded, .ok ()) := by
  unfold Slope.addSingleCircularPlane
  rw [intersections_two (exClay_geo kC).1.wf.geo (kCrossing 0) (by norm_num)]
  simp only
  rw [setSize_nodup (by simp)]
  rfl

theorem kMaterials : exSlope.setMaterials [some (exFric 0 kC)] = (exOf (exFric 0 kC), .ok ()) :=
  exOf_eq (by norm_num [exFric])

theorem kLoad : kAdded.setLls [some (dynLl 0)] = (kState 0 none [] kAdded.udlMax [], .ok ()) := by
  rw [setLl_small _ (by norm_num [dynLl]) (by change |(0 : ℝ)| * 3 ≤ 10; norm_num) (by intro p hp; cases hp)]
  rfl

theorem kOps_run : runAll kOps exSlope = kState 0 none [] kAdded.udlMax [] := by
  change (((exSlope.setMaterials [some (exFric 0 kC)]).1.addSingleCircularPlane 8 (41 / 4) (13 / 4)).1.setLls [some (dynLl 0)]).1 = _
  rw [kMaterials, kAdd, kLoad]

theorem kOps_valid : ∀ o ∈ kOps, o.Valid := by
  intro o ho
  simp only [kOps, List.mem_cons, List.not_mem_nil, or_false] at ho
  rcases ho with rfl | rfl | rfl
  · intro m hm
    simp at hm
    subst hm
    exact exFric_constructed 0 kC le_rfl
  · trivial
  · intro u hu
    simp at hu
    subst hu
    exact dynLl_constructed 0

theorem kOps_noTies : NoTiesRun kOps exSlope := by
  refine ⟨⟨by simp, ?_⟩, ?_, ?_⟩
  · change [exSlope.extH, 2].Nodup
    rw [exSlope_extH]; norm_num
  · change (exSlope.setMaterials [some (exFric 0 kC)]).2 = _
    rw [kMaterials]
  · change NoTiesRun _ (exSlope.setMaterials [some (exFric 0 kC)]).1
    rw [kMaterials]
    refine ⟨?_, ?_, ?_⟩
    · have h := kEnds 0
      exact ⟨h.face, h.crest, h.toe, h.line, h.left_corner, h.crest_corner, h.toe_corner, h.right_corner, h.gap⟩
    · change ((exOf (exFric 0 kC)).addSingleCircularPlane _ _ _).2 = _
      rw [kAdd]
    · change NoTiesRun _ ((exOf (exFric 0 kC)).addSingleCircularPlane _ _ _).1
      rw [kAdd]
      refine ⟨⟨?_, ?_⟩, ?_, trivial⟩
      · intro u hu
        simp at hu
        subst hu
        norm_num [dynLl]
      · change [(10 : ℝ), |0| * 3].Nodup
        norm_num
      · change (kAdded.setLls [some (dynLl 0)]).2 = _
        rw [kLoad]

/-- The clay, with numbers that are too large by `ε`. -/
noncomputable def offClay (ε : ℝ) : Material (Off ε) :=
  { unitWeight := ⟨20 + ε⟩, frictionAngle := ⟨0⟩, cohesion := ⟨kC + ε⟩, depth := ⟨2 + ε⟩, tanPhi := ⟨0⟩, name := "", userColor := none }

/-- The load, with numbers that are too large by `ε`. -/
noncomputable def offLoad (ε : ℝ) : LineLoad (Off ε) := { magnitude := ⟨100 + ε⟩, offset := ⟨0 + ε⟩, color := "blue", dynamic := true }

/-- A case of C116: `Slope(height=3, length=3)`, `set_materials`, `add_single_circular_plane(8, 10.25, 3.25)`, `set_lls` with a
dynamic load and `analyse_dynamic(1.995)`. Run with numbers that are all too large by `ε`, in an arithmetic whose results
are all wrong by the factor `1 + ε`, it returns the same and finds three offsets and factors of safety, as near to the exact
ones as one likes. -/
example (δ : ℝ) (hδ : 0 < δ) : ∃ ε > 0, ∃ t0 : Slope (Off ε), Slope.new (.num ⟨3 + ε⟩) (.num ⟨30 + ε⟩) (.num ⟨3 + ε⟩) = .ok t0 ∧
    ∃ t, (runAll [.setMaterials [some (offClay ε)], .addSingleCircularPlane ⟨8 + ε⟩ ⟨41 / 4 + ε⟩ ⟨13 / 4 + ε⟩,
        .setLls [some (offLoad ε)]] t0).analyseDynamic ⟨1.995 + ε⟩ false = (t, .ok none) ∧
      ∃ x y z : Off ε × Off ε, [x, y, z].Perm t.dynResults ∧ (|x.1.val - 0| ≤ δ ∧ |x.2.val - kFos 0| ≤ δ) ∧
        (|y.1.val - 2.99| ≤ δ ∧ |y.2.val - 2| ≤ δ) ∧ (|z.1.val - kMid| ≤ δ ∧ |z.2.val - 2| ≤ δ) := by
  have main := C116_dynamic (.num 3) (.num 30) (.num 3) ⟨⟨3, rfl, by norm_num⟩, ⟨30, rfl, by norm_num, by norm_num⟩,
    .inr ⟨_, rfl, by norm_num⟩⟩ exSlope exSlope_new kOps kOps_valid kOps_noTies 1.995
  rw [kOps_run] at main
  obtain ⟨ε, hε, h⟩ := main kDynamic δ hδ
  have off : ∀ x : ℝ, |x + ε - x| ≤ ε := fun x => by rw [add_sub_cancel_left, abs_of_pos hε]
  obtain ⟨t0, code, h1, -, h2, h3, q, h4, h5⟩ := h (Off ε) Off.val (off_accurate hε) (off_accurateTan hε) (fun _ => rfl)
    (.num ⟨3 + ε⟩) (.num ⟨30 + ε⟩) (.num ⟨3 + ε⟩) [.setMaterials [some (offClay ε)],
      .addSingleCircularPlane ⟨8 + ε⟩ ⟨41 / 4 + ε⟩ ⟨13 / 4 + ε⟩, .setLls [some (offLoad ε)]] ⟨1.995 + ε⟩ (off _) (off _) (off _)
    (by
      refine .cons (.cons (.some ⟨off _, ?_, ?_, off _⟩) .nil) (.cons ⟨off _, off _, off _⟩ (.cons (.cons (.some ⟨off _, ?_, rfl⟩) .nil) .nil))
      · change |kC + ε - abs kC| ≤ ε
        rw [abs_of_pos kC_pos]
        exact off _
      · change |0 - Real.tan (abs 0 * (Real.pi / 180))| ≤ ε
        simpa using hε.le
      · change |0 + ε - abs 0| ≤ ε
        rw [abs_zero]
        exact off _) (off _)
  obtain ⟨k1, k2⟩ := kResult (v := none) (d := []) (m := kAdded.udlMax) (r := [])
  rw [k1] at h2
  injection h2 with h2
  subst h2
  obtain ⟨w, w1, w2⟩ := List.perm_comp_forall₂ k2.symm h5
  obtain _ | ⟨x1, _ | ⟨x2, _ | ⟨x3, _ | _⟩⟩⟩ := w1
  exact ⟨ε, hε, t0, h1, _, Prod.ext rfl h3, _, _, _, w2.trans h4, x1, x2, x3⟩

end PySlope
