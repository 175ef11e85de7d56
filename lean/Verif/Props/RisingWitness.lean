import Verif.Props.Rising

/-! # Property C100 is violated: a higher water table raises the factor of safety -/

namespace PySlope
open Finset

/-- An iteration that starts at most at `V`, where Bishop's equation gives at most `V`, stays there. -/
theorem BishopValue.le {s : Slope ℝ} {cx cy r xl xr F V : ℝ} (h : BishopValue s cx cy r xl xr F)
    (hD : Dips s.slices.toNat (sliceOf s cx cy r xl xr)) (hp : 0 < fellenius s.slices.toNat (sliceOf s cx cy r xl xr))
    (h0 : fellenius s.slices.toNat (sliceOf s cx cy r xl xr) ≤ V)
    (h1 : bishopRhs s.slices.toNat (sliceOf s cx cy r xl xr) V ≤ V) : F ≤ V := by
  obtain ⟨_, k, f, _, e0, es, rfl, _, _⟩ := h
  have : ∀ i ≤ k, 0 < f i ∧ f i ≤ V := by
    intro i
    induction i with
    | zero => intro _; rw [e0]; exact ⟨hp, h0⟩
    | succ i ih =>
      intro hi
      obtain ⟨a, b⟩ := ih (by omega)
      rw [es i (by omega)]
      exact ⟨hD.rhs_pos a, le_trans (hD.rhs_mono a b) h1⟩
  exact (this k le_rfl).2

/-- An iteration that starts at least at `V`, where Bishop's equation gives at least `V`, stays there. -/
theorem BishopValue.ge {s : Slope ℝ} {cx cy r xl xr F V : ℝ} (h : BishopValue s cx cy r xl xr F)
    (hD : Dips s.slices.toNat (sliceOf s cx cy r xl xr)) (hV : 0 < V)
    (h0 : V ≤ fellenius s.slices.toNat (sliceOf s cx cy r xl xr))
    (h1 : V ≤ bishopRhs s.slices.toNat (sliceOf s cx cy r xl xr) V) : V ≤ F := by
  obtain ⟨_, k, f, _, e0, es, rfl, _, _⟩ := h
  have : ∀ i ≤ k, V ≤ f i := by
    intro i
    induction i with
    | zero => intro _; rw [e0]; exact h0
    | succ i ih =>
      intro hi
      rw [es i (by omega)]
      exact le_trans h1 (hD.rhs_mono hV (ih (by omega)))
  exact this k le_rfl

/-! ## A bank 2 m high and 1 m wide -/

/-- The object built by `Slope(height=2, length=1)`. -/
noncomputable def bankSlope : Slope ℝ := freshSlope 2 1

theorem bankSlope_new : Slope.new (.num 2) (.num 30) (.num 1) = .ok bankSlope := by
  rw [new_eq]
  have e : boundaryInputs (.num 2) (.num 30) (.num 1) = .ok ((2 : ℝ), (1 : ℝ)) := by
    have h90 : ¬ ((@OfNat.ofNat ℝ 90 (Lit.natLit 90)) < 30) := not_lt.mpr (by
      change (30 : ℝ) ≤ 90; norm_num)
    have h1 : ¬ ((30 : ℝ) < 0) := by norm_num
    have h2 : ¬ ((2 : ℝ) < 0) := by norm_num
    have h3 : ¬ ((1 : ℝ) < 0) := by norm_num
    simp [boundaryInputs, assertStrictlyPositiveNumber, assertPositiveNumber, assertRange,
      PyCmp.ltb, PyCmp.eqb, bind, Except.bind, pure, Except.pure, PyVal.get!, h90, h1, h2, h3]
    try norm_num
  rw [e]; rfl

theorem bankSlope_reachable : Reachable bankSlope := .init bankSlope_new

/-- `s = Slope(height=2, length=1); s.set_materials(Material(20, 45, 0.01, 2))`. -/
noncomputable def bankDry : Slope ℝ :=
  { bankSlope with materials := [mkLayer bankSlope.extH 0 (exFric 45 (1 / 100))] }

/-- The same after `s.set_water_table(d)`. -/
noncomputable def bankWet (d : ℝ) : Slope ℝ :=
  { bankDry with waterRL := some (max 0 (bankDry.topY - d)), waterDepth := some d }

theorem bankSlope_extH : bankSlope.extH = 6 := by
  change max (max (3 * (2 : ℝ)) 6) (5 * 1 / 2) = 6
  norm_num

theorem bankSlope_extL : bankSlope.extL = 10 := by
  change max (max (5 * (1 : ℝ)) 10) (4 * 2) = 10
  norm_num

theorem bankDry_reachable : Reachable bankDry := by
  have e : bankSlope.setMaterials [some (exFric 45 (1 / 100))] = (bankDry, .ok ()) := by
    rw [setMaterials_one bankSlope_reachable.wf.geo rfl]
    have : bankSlope.deepen (exFric 45 (1 / 100)).depth = bankSlope := by
      unfold Slope.deepen
      rw [if_neg]
      rw [bankSlope_extH]; simp [exFric]; norm_num
    rw [this]
    rfl
  have := Reachable.call bankSlope_reachable (.setMaterials bankSlope [some (exFric 45 (1 / 100))] (by
    intro m' hm; simp only [List.mem_singleton, Option.some.injEq] at hm; subst hm; exact exFric_constructed 45 (1 / 100) (by norm_num)))
  rwa [e] at this

theorem bankWet_eq {d : ℝ} (hd : 0 ≤ d) : bankDry.setWaterTable (.num d) = (bankWet d, .ok ()) := by
  have h : ¬ d < 0 := not_lt.mpr hd
  have h0 : bankDry.search = [] := rfl
  simp [Slope.setWaterTable, assertPositiveNumber, PyCmp.ltb, PyVal.get!, Slope.resetResults, bankWet, h, h0]
  try rfl

theorem bankWet_reachable {d : ℝ} (hd : 0 ≤ d) : Reachable (bankWet d) := by
  have := Reachable.call bankDry_reachable (.setWaterTable _ (.num d))
  rwa [bankWet_eq hd] at this

theorem bankDry_topY : bankDry.topY = 6 := by
  rw [bankDry_reachable.wf.geo.topY]; exact bankSlope_extH

section Bank
variable {d : ℝ}

theorem bank_extH : (bankWet d).extH = 6 := bankSlope_extH
theorem bank_extL : (bankWet d).extL = 10 := bankSlope_extL
theorem bank_topX : (bankWet d).topX = 9 / 2 := by
  change bankSlope.topX = _
  rw [bankSlope_reachable.wf.geo.topX, bankSlope_extL]
  change (10 - 1 : ℝ) / 2 = _
  norm_num
theorem bank_topY : (bankWet d).topY = 6 := bankDry_topY
theorem bank_botX : (bankWet d).botX = 11 / 2 := by
  change bankSlope.botX = _
  rw [bankSlope_reachable.wf.geo.botX]
  change (bankWet d).topX + (1 : ℝ) = _
  rw [bank_topX]; norm_num
theorem bank_botY : (bankWet d).botY = 4 := by
  change bankSlope.botY = _
  rw [bankSlope_reachable.wf.geo.botY, bankSlope_extH]
  change (6 - 2 : ℝ) = _
  norm_num
theorem bank_waterH : (bankWet d).waterH = 1 / 5 := by
  change Real.cos (Real.arctan (2 / 1)) ^ 2 = _
  rw [Real.cos_sq_arctan]; norm_num
theorem bank_RL (h : d ≤ 6) : (bankWet d).waterRL = some (6 - d) := by
  change some (max 0 (bankDry.topY - d)) = _
  rw [bankDry_topY, max_eq_right (by linarith)]

theorem bank_crossing (p : ℝ × ℝ) : Crossing (bankWet d) 7 6 (5 / 2) p ↔
    p = (9 / 2, 6) ∨ p = (11 / 2, 4) ∨ p = (17 / 2, 4) := by
  obtain ⟨x, y⟩ := p
  simp only [Prod.mk.injEq]
  unfold Crossing OnCircle OnLine
  simp only [bank_topX, bank_topY, bank_botX, bank_botY, bank_extL]
  constructor
  · rintro ⟨h, ⟨rfl, h1, h2, h3⟩ | ⟨rfl, h1, h2, h3⟩ | ⟨h1, h2, h3⟩⟩
    · left
      have : (x - 9 / 2) * (x - 19 / 2) = 0 := by linarith
      rcases mul_eq_zero.mp this with h | h
      · exact ⟨by linarith, rfl⟩
      · exfalso; linarith
    · right
      have : (x - 11 / 2) * (x - 17 / 2) = 0 := by linarith
      rcases mul_eq_zero.mp this with h | h
      · exact .inl ⟨by linarith, rfl⟩
      · exact .inr ⟨by linarith, rfl⟩
    · have hy : y = 6 - 2 * (x - 9 / 2) := by linarith
      subst hy
      have : (x - 9 / 2) * (x - 11 / 2) = 0 := by linarith
      rcases mul_eq_zero.mp this with h | h
      · exact .inl ⟨by linarith, by linarith⟩
      · exact .inr (.inl ⟨by linarith, by linarith⟩)
  · rintro (⟨rfl, rfl⟩ | ⟨rfl, rfl⟩ | ⟨rfl, rfl⟩) <;> norm_num

theorem bank_first {l rt : ℝ × ℝ} (h : FirstCrossings (bankWet d) 7 6 (5 / 2) l rt) :
    l = (9 / 2, 6) ∧ rt = (11 / 2, 4) := by
  obtain ⟨h1, h2, h3, h4⟩ := h
  have a := h4 (9 / 2, 6) ((bank_crossing _).mpr (.inl rfl))
  have b := h4 (11 / 2, 4) ((bank_crossing _).mpr (.inr (.inl rfl)))
  rcases (bank_crossing l).mp h1 with rfl | rfl | rfl <;>
    rcases (bank_crossing rt).mp h2 with rfl | rfl | rfl <;>
    first | exact ⟨rfl, rfl⟩ | (norm_num at h3; done) | (norm_num at a; done) | (norm_num at b; done)

theorem bank_ground {x : ℝ} (h1 : 9 / 2 < x) (h2 : x < 11 / 2) : groundY (bankWet d) x = 6 - (x - 9 / 2) * 2 := by
  unfold groundY
  rw [bank_topX, bank_extH, if_neg (by linarith)]
  change (if x < 9 / 2 + 1 then (6 : ℝ) - (x - 9 / 2) * (2 / 1) else _) = _
  rw [if_pos (by linarith)]; norm_num

theorem bank_cuts : CutsMass (bankWet d) 7 6 (5 / 2) (9 / 2) (11 / 2) := by
  refine ⟨by norm_num, ?_⟩
  intro x h1 h2
  rw [bank_ground h1 h2]
  have : 2 * (x - 9 / 2) < √((5 / 2 : ℝ) ^ 2 - (x - 7) ^ 2) := by
    apply Real.lt_sqrt_of_sq_lt
    have := mul_pos (sub_pos.mpr h1) (sub_pos.mpr h2)
    nlinarith
  linarith

/-- The inclinations of the bases: sine and cosine; the height of a slice. -/
noncomputable def bkSin (i : ℕ) : ℝ := 1 - (2 * i + 1) / 125
noncomputable def bkCos (i : ℕ) : ℝ := √(1 - bkSin i ^ 2)
noncomputable def bkH (i : ℕ) : ℝ := 5 / 2 * bkCos i - (2 * i + 1) / 25

/-- The cosines to four digits. -/
def bkTable (i : ℕ) : ℕ := [1262, 2177, 2800, 3299, 3725, 4101, 4440, 4749, 5034, 5299, 5547, 5780, 5999, 6207, 6404, 6591, 6769, 6939, 7101, 7257, 7405, 7547, 7683, 7814, 7939].getD i 0

theorem bkCos_table : ∀ i < 25, (bkTable i : ℝ) / 10000 ≤ bkCos i ∧ bkCos i ≤ ((bkTable i : ℝ) + 1) / 10000 := by
  intro i hi
  interval_cases i <;> unfold bkCos bkSin bkTable <;>
    refine ⟨Real.le_sqrt_of_sq_le ?_, Real.sqrt_le_iff.mpr ⟨?_, ?_⟩⟩ <;> norm_num

theorem bkTable_pos {i : ℕ} (hi : i < 25) : 0 < (bkTable i : ℝ) / 10000 := by
  unfold bkTable
  interval_cases i <;> norm_num

theorem bkCos_pos {i : ℕ} (hi : i < 25) : 0 < bkCos i := lt_of_lt_of_le (bkTable_pos hi) (bkCos_table i hi).1

theorem bkSin_pos {i : ℕ} (hi : i < 25) : 0 < bkSin i := by
  unfold bkSin
  have hi' : (i : ℝ) ≤ 24 := by exact_mod_cast Nat.lt_succ_iff.mp hi
  linarith

theorem bkH_pos {i : ℕ} (hi : i < 25) : 0 < bkH i := by
  have h := (bkCos_table i hi).1
  unfold bkH
  have : ((2 : ℝ) * i + 1) / 25 < 5 / 2 * ((bkTable i : ℝ) / 10000) := by
    unfold bkTable
    interval_cases i <;> norm_num
  linarith

theorem bkCos_sq {i : ℕ} (hi : i < 25) : bkCos i * bkCos i = 1 - bkSin i ^ 2 :=
  Real.mul_self_sqrt (Real.sqrt_pos.mp (bkCos_pos hi)).le

/-- The water pressure on base `i`. -/
noncomputable def bkU (d : ℝ) (i : ℕ) : ℝ :=
  max (min (6 - d) (6 - (2 * i + 1) / 25) - (6 - 5 / 2 * bkCos i)) 0 * 9.81 *
    (if d < (2 * i + 1) / 25 then 1 / 5 else 1)

theorem bank_slice (hd : d < 6) {i : ℕ} (hi : i < 25) :
    sliceOf (bankWet d) 7 6 (5 / 2) (9 / 2) (11 / 2) i =
      { b := 1 / 25, W := 4 / 5 * bkH i, u := bkU d i, c := 1 / 100, φ := 45, sin := bkSin i, cos := bkCos i } := by
  have hi' : (i : ℝ) ≤ 24 := by exact_mod_cast Nat.lt_succ_iff.mp hi
  have h0 : (0 : ℝ) ≤ i := Nat.cast_nonneg i
  have hsl : (bankWet d).slices = 25 := rfl
  have hb : ((11 / 2 : ℝ) - 9 / 2) / ((bankWet d).slices : ℝ) = 1 / 25 := by rw [hsl]; norm_num
  have hx : (9 / 2 : ℝ) + ((i : ℝ) + 1 / 2) * (1 / 25) = 7 - 5 / 2 * bkSin i := by unfold bkSin; ring
  have hroot : √((5 / 2 : ℝ) ^ 2 - (7 - 5 / 2 * bkSin i - 7) ^ 2) = 5 / 2 * bkCos i := by
    unfold bkCos
    rw [show (5 / 2 : ℝ) ^ 2 - (7 - 5 / 2 * bkSin i - 7) ^ 2 = (5 / 2) ^ 2 * (1 - bkSin i ^ 2) by ring,
      Real.sqrt_mul (by norm_num), Real.sqrt_sq (by norm_num)]
  have hg : groundY (bankWet d) (7 - 5 / 2 * bkSin i) = 6 - (2 * i + 1) / 25 := by
    rw [bank_ground (by rw [← hx]; linarith) (by rw [← hx]; linarith), ← hx]; ring
  have hH := bkH_pos hi
  unfold bkH at hH
  have hlay : ∀ y, layerAt (bankWet d).materials y = some (mkLayer bankSlope.extH 0 (exFric 45 (1 / 100))) := by
    intro y
    change layerAt [mkLayer bankSlope.extH 0 (exFric 45 (1 / 100))] y = _
    unfold layerAt
    simp only [List.find?_cons, List.find?_nil, List.getLast?_singleton]
    split <;> rfl
  have hint : ∀ a b : ℝ, (∫ y in a..b, unitWeightAt (bankWet d).materials y) = 20 * (b - a) := by
    intro a b
    have : ∀ y, unitWeightAt (bankWet d).materials y = 20 := by
      intro y
      unfold unitWeightAt
      rw [hlay]; rfl
    simp only [this, intervalIntegral.integral_const, smul_eq_mul]
    ring
  unfold sliceOf
  simp only [hb, hx, hroot, hg, hlay]
  rw [max_eq_left (by linarith)]
  congr 1
  · unfold weightOn
    rw [hint]
    change _ + (List.map _ []).sum + (List.map _ []).sum = _
    simp only [List.map_nil, List.sum_nil, add_zero]
    unfold bkH
    ring
  · unfold pressureAt bkU
    have hlen : (bankWet d).length = 1 := rfl
    rw [bank_RL hd.le, hg, bank_topX, bank_waterH, hlen]
    simp only
    rw [if_neg (by linarith)]
    congr 1
    have h1 : 7 - 5 / 2 * bkSin i < 9 / 2 + 1 := by rw [← hx]; linarith
    by_cases h2 : d < (2 * i + 1) / 25
    · rw [if_pos h2, if_pos ⟨by linarith, h1⟩]
    · rw [if_neg h2, if_neg (by rintro ⟨h3, _⟩; exact h2 (by linarith))]
  · change |(1 / 100 : ℝ)| = _
    rw [abs_of_pos (by norm_num)]
  · change |(45 : ℝ)| = _
    rw [abs_of_pos (by norm_num)]
  · ring
  · ring

theorem tan45 : Real.tan (45 * (Real.pi / 180)) = 1 := by
  rw [show (45 : ℝ) * (Real.pi / 180) = Real.pi / 4 by ring, Real.tan_pi_div_four]

/-- With the water at the crest every slice is under water. -/
theorem bkU_high {i : ℕ} (hi : i < 25) : bkU 0 i = 9.81 / 5 * bkH i := by
  have h0 : (0 : ℝ) ≤ i := Nat.cast_nonneg i
  have hH := bkH_pos hi
  unfold bkH at hH ⊢
  unfold bkU
  have : (0 : ℝ) < (2 * i + 1) / 25 := by positivity
  rw [if_pos this, min_eq_right (by linarith), max_eq_left (by linarith)]
  ring

/-- With the water 60 cm below the crest the first eight are not. -/
theorem bkU_low_left {i : ℕ} (hi : i < 8) : bkU (3 / 5) i = 9.81 * max (5 / 2 * bkCos i - 3 / 5) 0 := by
  have hi' : (i : ℝ) ≤ 7 := by exact_mod_cast Nat.lt_succ_iff.mp hi
  unfold bkU
  rw [if_neg (by linarith), min_eq_left (by linarith)]
  rw [show (6 : ℝ) - 3 / 5 - (6 - 5 / 2 * bkCos i) = 5 / 2 * bkCos i - 3 / 5 by ring]
  ring

theorem bkU_right (hd : d ≤ 0.67) {i : ℕ} (h8 : 8 ≤ i) (hi : i < 25) : bkU d i = 9.81 / 5 * bkH i := by
  have hi' : (8 : ℝ) ≤ i := by exact_mod_cast h8
  have hH := bkH_pos hi
  unfold bkH at hH ⊢
  unfold bkU
  rw [if_pos (by linarith), min_eq_right (by linarith), max_eq_left (by linarith)]
  ring

theorem bkU_nonneg (d : ℝ) (i : ℕ) : 0 ≤ bkU d i := by
  unfold bkU
  refine mul_nonneg (mul_nonneg (le_max_right _ _) (by norm_num)) ?_
  split <;> norm_num

theorem bkU_le {i : ℕ} (hi : i < 25) : bkU d i ≤ 9.81 * bkH i := by
  have hH := bkH_pos hi
  have h1 : max (min (6 - d) (6 - (2 * (i : ℝ) + 1) / 25) - (6 - 5 / 2 * bkCos i)) 0 ≤ bkH i := by
    refine max_le ?_ hH.le
    have := min_le_right (6 - d) (6 - (2 * (i : ℝ) + 1) / 25)
    unfold bkH; linarith
  have h0 : 0 ≤ max (min (6 - d) (6 - (2 * (i : ℝ) + 1) / 25) - (6 - 5 / 2 * bkCos i)) 0 := le_max_right _ _
  unfold bkU
  split <;> linarith

theorem bank_driving (hd : d < 6) : driving 25 (sliceOf (bankWet d) 7 6 (5 / 2) (9 / 2) (11 / 2)) =
    ∑ i ∈ range 25, 4 / 5 * bkH i * bkSin i := by
  unfold driving
  apply sum_congr rfl
  intro i hi
  rw [bank_slice hd (mem_range.mp hi)]

theorem bank_driving_pos : 0 < ∑ i ∈ range 25, 4 / 5 * bkH i * bkSin i := by
  apply sum_pos
  · intro i hi
    have := bkH_pos (mem_range.mp hi)
    have := bkSin_pos (mem_range.mp hi)
    positivity
  · exact ⟨0, by simp⟩

theorem bank_driving_ge : (6.684 : ℝ) ≤ ∑ i ∈ range 25, 4 / 5 * bkH i * bkSin i := by
  have h : ∀ i ∈ range 25, 4 / 5 * (5 / 2 * ((bkTable i : ℝ) / 10000) - (2 * i + 1) / 25) * bkSin i ≤
      4 / 5 * bkH i * bkSin i := by
    intro i hi
    have hi := mem_range.mp hi
    refine mul_le_mul_of_nonneg_right ?_ (bkSin_pos hi).le
    have := (bkCos_table i hi).1
    unfold bkH; linarith
  refine le_trans ?_ (sum_le_sum h)
  simp only [sum_range_succ, sum_range_zero, bkTable, bkSin]
  norm_num

theorem bank_driving_le : ∑ i ∈ range 25, 4 / 5 * bkH i * bkSin i ≤ (6.689 : ℝ) := by
  have h : ∀ i ∈ range 25, 4 / 5 * bkH i * bkSin i ≤
      4 / 5 * (5 / 2 * (((bkTable i : ℝ) + 1) / 10000) - (2 * i + 1) / 25) * bkSin i := by
    intro i hi
    have hi := mem_range.mp hi
    refine mul_le_mul_of_nonneg_right ?_ (bkSin_pos hi).le
    have := (bkCos_table i hi).2
    unfold bkH; linarith
  refine le_trans (sum_le_sum h) ?_
  simp only [sum_range_succ, sum_range_zero, bkTable, bkSin]
  norm_num

theorem bank_dips (hd : d < 6) : Dips 25 (sliceOf (bankWet d) 7 6 (5 / 2) (9 / 2) (11 / 2)) := by
  have hold : ∀ i < 25, 0 < (sliceOf (bankWet d) 7 6 (5 / 2) (9 / 2) (11 / 2) i).hold := by
    intro i hi
    rw [bank_slice hd hi]
    have := bkU_le (d := d) hi
    have := bkH_pos hi
    simp only [Slice.hold, Slice.tan, tan45]
    linarith
  refine ⟨?_, ?_, ?_, fun i hi => (hold i hi).le, ⟨0, by norm_num, hold 0 (by norm_num)⟩, ?_⟩
  · intro i hi; rw [bank_slice hd hi]; exact bkCos_pos hi
  · intro i hi; rw [bank_slice hd hi]; exact (bkSin_pos hi).le
  · intro i hi
    rw [bank_slice hd hi]
    simp only [Slice.tan, tan45]
    norm_num
  · rw [bank_driving hd]; exact bank_driving_pos

theorem bank_fellenius (hd : d < 6) : fellenius 25 (sliceOf (bankWet d) 7 6 (5 / 2) (9 / 2) (11 / 2)) =
    (∑ i ∈ range 25, (1 / 2500 / bkCos i + max 0 (4 / 5 * bkH i * bkCos i - bkU d i * (1 / 25 / bkCos i)))) /
      ∑ i ∈ range 25, 4 / 5 * bkH i * bkSin i := by
  unfold fellenius
  rw [bank_driving hd]
  congr 1
  apply sum_congr rfl
  intro i hi
  rw [bank_slice hd (mem_range.mp hi)]
  simp only [Slice.tan, tan45]
  ring

theorem bank_fellenius_pos (hd : d < 6) : 0 < fellenius 25 (sliceOf (bankWet d) 7 6 (5 / 2) (9 / 2) (11 / 2)) := by
  rw [bank_fellenius hd]
  apply div_pos _ bank_driving_pos
  apply sum_pos
  · intro i hi
    have := bkCos_pos (mem_range.mp hi)
    exact add_pos_of_pos_of_nonneg (by positivity) (le_max_left _ _)
  · exact ⟨0, by simp⟩

theorem bank_rhs (hd : d < 6) {F : ℝ} (hF : 0 < F) :
    bishopRhs 25 (sliceOf (bankWet d) 7 6 (5 / 2) (9 / 2) (11 / 2)) F =
    (∑ i ∈ range 25, (1 / 2500 + (4 / 5 * bkH i - bkU d i * (1 / 25))) / (bkCos i + bkSin i / F)) /
      ∑ i ∈ range 25, 4 / 5 * bkH i * bkSin i := by
  unfold bishopRhs
  rw [if_neg hF.ne', bank_driving hd]
  congr 1
  apply sum_congr rfl
  intro i hi
  rw [bank_slice hd (mem_range.mp hi)]
  simp only [Slice.tan, tan45]
  norm_num

/-- Upper bounds of the terms of the ordinary method with the lower water, times 10000. -/
def bkUpper (i : ℕ) : ℕ := [312, 759, 16, 14, 12, 11, 11, 10, 1439, 1569, 1663, 1724, 1755, 1756, 1728, 1674, 1594, 1489, 1361, 1208, 1036, 842, 628, 393, 140].getD i 0

theorem sub_max_le_of_le {X u B : ℝ} (h : X ≤ B) : X - max 0 u ≤ B := by linarith [le_max_left 0 u]
theorem sub_max_le_of_sub_le {X u B : ℝ} (h : X - u ≤ B) : X - max 0 u ≤ B := by linarith [le_max_right 0 u]

theorem bank_low_start : fellenius 25 (sliceOf (bankWet (3 / 5)) 7 6 (5 / 2) (9 / 2) (11 / 2)) ≤ 0.36 := by
  rw [bank_fellenius (by norm_num), div_le_iff₀ bank_driving_pos]
  have h : ∀ i ∈ range 25, 1 / 2500 / bkCos i +
      max 0 (4 / 5 * bkH i * bkCos i - bkU (3 / 5) i * (1 / 25 / bkCos i)) ≤ (bkUpper i : ℝ) / 10000 := by
    intro i hi
    have hi := mem_range.mp hi
    have hc := bkCos_pos hi
    have ht := bkTable_pos hi
    obtain ⟨t1, t2⟩ := bkCos_table i hi
    have hsq := bkCos_sq hi
    have h1 : 1 / 2500 / bkCos i ≤ 1 / 2500 / ((bkTable i : ℝ) / 10000) :=
      div_le_div_of_nonneg_left (by norm_num) ht t1
    have h0 : (0 : ℝ) ≤ i := Nat.cast_nonneg i
    have h2 : 4 / 5 * bkH i * bkCos i ≤
        4 / 5 * (5 / 2 * (1 - bkSin i ^ 2) - (2 * i + 1) / 25 * ((bkTable i : ℝ) / 10000)) := by
      have e : 4 / 5 * bkH i * bkCos i = 4 / 5 * (5 / 2 * (bkCos i * bkCos i) - (2 * i + 1) / 25 * bkCos i) := by
        unfold bkH; ring
      rw [e, hsq]
      have : (2 * (i : ℝ) + 1) / 25 * ((bkTable i : ℝ) / 10000) ≤ (2 * i + 1) / 25 * bkCos i :=
        mul_le_mul_of_nonneg_left t1 (by positivity)
      linarith
    have hinv : 1 / bkCos i ≤ 1 / ((bkTable i : ℝ) / 10000) := one_div_le_one_div_of_le ht t1
    rw [← le_sub_iff_add_le']
    apply max_le
    · have : 1 / 2500 / ((bkTable i : ℝ) / 10000) ≤ (bkUpper i : ℝ) / 10000 := by
        unfold bkTable bkUpper
        interval_cases i <;> norm_num
      linarith
    · rcases Nat.lt_or_ge i 8 with h8 | h8
      · have hu : 9.81 * (5 / 2 - 3 / 5 * (1 / ((bkTable i : ℝ) / 10000))) * (1 / 25) ≤
            bkU (3 / 5) i * (1 / 25 / bkCos i) := by
          rw [bkU_low_left h8]
          have e : 9.81 * (5 / 2 * bkCos i - 3 / 5) * (1 / 25 / bkCos i) =
              9.81 * (5 / 2 - 3 / 5 * (1 / bkCos i)) * (1 / 25) := by
            field_simp
          have h3 : 9.81 * (5 / 2 * bkCos i - 3 / 5) * (1 / 25 / bkCos i) ≤
              9.81 * max (5 / 2 * bkCos i - 3 / 5) 0 * (1 / 25 / bkCos i) :=
            mul_le_mul_of_nonneg_right (mul_le_mul_of_nonneg_left (le_max_left _ _) (by norm_num)) (by positivity)
          rw [e] at h3
          refine le_trans ?_ h3
          linarith
        have hu0 : 0 ≤ bkU (3 / 5) i * (1 / 25 / bkCos i) := mul_nonneg (bkU_nonneg _ _) (by positivity)
        have : 1 / 2500 / ((bkTable i : ℝ) / 10000) +
            4 / 5 * (5 / 2 * (1 - bkSin i ^ 2) - (2 * i + 1) / 25 * ((bkTable i : ℝ) / 10000)) -
            max 0 (9.81 * (5 / 2 - 3 / 5 * (1 / ((bkTable i : ℝ) / 10000))) * (1 / 25)) ≤ (bkUpper i : ℝ) / 10000 := by
          clear hu hu0 hinv h2 h1 t1 t2 hsq hc ht hi h0
          unfold bkTable bkUpper bkSin
          interval_cases i <;> first
            | (refine sub_max_le_of_le ?_; norm_num; done)
            | (refine sub_max_le_of_sub_le ?_; norm_num; done)
        have := max_le hu0 hu
        linarith
      · rw [bkU_right (by norm_num) h8 hi]
        have e : 9.81 / 5 * bkH i * (1 / 25 / bkCos i) =
            9.81 / 125 * (5 / 2 - (2 * i + 1) / 25 * (1 / bkCos i)) := by
          unfold bkH; field_simp; ring
        rw [e]
        have h3 : (2 * (i : ℝ) + 1) / 25 * (1 / bkCos i) ≤ (2 * i + 1) / 25 * (1 / ((bkTable i : ℝ) / 10000)) :=
          mul_le_mul_of_nonneg_left hinv (by positivity)
        have : 1 / 2500 / ((bkTable i : ℝ) / 10000) +
            4 / 5 * (5 / 2 * (1 - bkSin i ^ 2) - (2 * i + 1) / 25 * ((bkTable i : ℝ) / 10000)) -
            9.81 / 125 * (5 / 2 - (2 * i + 1) / 25 * (1 / ((bkTable i : ℝ) / 10000))) ≤ (bkUpper i : ℝ) / 10000 := by
          clear h3 e hinv h2 h1 t1 t2 hsq hc ht h0
          unfold bkTable bkUpper bkSin
          interval_cases i <;> norm_num
        linarith
  refine le_trans (sum_le_sum h) (le_trans ?_ (mul_le_mul_of_nonneg_left bank_driving_ge (by norm_num)))
  simp only [sum_range_succ, sum_range_zero, bkUpper]
  norm_num

theorem bank_low_turn : bishopRhs 25 (sliceOf (bankWet (3 / 5)) 7 6 (5 / 2) (9 / 2) (11 / 2)) 0.36 ≤ 0.36 := by
  rw [bank_rhs (by norm_num) (by norm_num), div_le_iff₀ bank_driving_pos]
  -- what is left of the weight: a bound for the first two slices, the next six, the others
  have h : ∀ i ∈ range 25, (1 / 2500 + (4 / 5 * bkH i - bkU (3 / 5) i * (1 / 25))) / (bkCos i + bkSin i / 0.36) ≤
      (1 / 2500 + (if i < 2 then 4 / 5 * (5 / 2 * (((bkTable i : ℝ) + 1) / 10000) - (2 * i + 1) / 25)
        else if i < 8 then 1.019 * (((bkTable i : ℝ) + 1) / 10000) - 4 / 5 * ((2 * i + 1) / 25) + 0.23544
        else 0.72152 * (5 / 2 * (((bkTable i : ℝ) + 1) / 10000) - (2 * i + 1) / 25))) /
      ((bkTable i : ℝ) / 10000 + bkSin i / 0.36) := by
    intro i hi
    have hi := mem_range.mp hi
    have hc := bkCos_pos hi
    have hs := bkSin_pos hi
    have ht := bkTable_pos hi
    obtain ⟨t1, t2⟩ := bkCos_table i hi
    have hH := bkH_pos hi
    have hd0 : 0 < (bkTable i : ℝ) / 10000 + bkSin i / 0.36 := by positivity
    have hd1 : (bkTable i : ℝ) / 10000 + bkSin i / 0.36 ≤ bkCos i + bkSin i / 0.36 := by linarith
    have hn : 4 / 5 * bkH i - bkU (3 / 5) i * (1 / 25) ≤
        (if i < 2 then 4 / 5 * (5 / 2 * (((bkTable i : ℝ) + 1) / 10000) - (2 * i + 1) / 25)
        else if i < 8 then 1.019 * (((bkTable i : ℝ) + 1) / 10000) - 4 / 5 * ((2 * i + 1) / 25) + 0.23544
        else 0.72152 * (5 / 2 * (((bkTable i : ℝ) + 1) / 10000) - (2 * i + 1) / 25)) := by
      split
      · have := bkU_nonneg (3 / 5) i
        unfold bkH; linarith
      · split
        · rename_i h8
          rw [bkU_low_left h8]
          have := le_max_left (5 / 2 * bkCos i - 3 / 5) 0
          unfold bkH; linarith
        · rename_i h8
          push Not at h8
          rw [bkU_right (by norm_num) h8 hi]
          unfold bkH; linarith
    have hw : 0 ≤ 4 / 5 * bkH i - bkU (3 / 5) i * (1 / 25) := by
      have := bkU_le (d := 3 / 5) hi
      linarith
    apply div_le_div₀ _ (by linarith) hd0 hd1
    linarith
  refine le_trans (sum_le_sum h) (le_trans ?_ (mul_le_mul_of_nonneg_left bank_driving_ge (by norm_num)))
  simp only [sum_range_succ, sum_range_zero, bkTable, bkSin]
  norm_num

/-- Lower bounds of the terms of the ordinary method with the higher water, times 10000. -/
def bkLower (i : ℕ) : ℕ := [0, 0, 0, 140, 498, 800, 1052, 1260, 1427, 1557, 1652, 1714, 1744, 1745, 1718, 1663, 1584, 1479, 1351, 1198, 1026, 832, 618, 383, 131].getD i 0

theorem bank_high_start : 0.361 ≤ fellenius 25 (sliceOf (bankWet 0) 7 6 (5 / 2) (9 / 2) (11 / 2)) := by
  rw [bank_fellenius (by norm_num), le_div_iff₀ bank_driving_pos]
  have h : ∀ i ∈ range 25, (bkLower i : ℝ) / 10000 ≤ 1 / 2500 / bkCos i +
      max 0 (4 / 5 * bkH i * bkCos i - bkU 0 i * (1 / 25 / bkCos i)) := by
    intro i hi
    have hi := mem_range.mp hi
    have hc := bkCos_pos hi
    obtain ⟨t1, t2⟩ := bkCos_table i hi
    have hsq := bkCos_sq hi
    have h0 : (0 : ℝ) ≤ i := Nat.cast_nonneg i
    have hp : 0 ≤ 1 / 2500 / bkCos i := by positivity
    have e1 : 4 / 5 * bkH i * bkCos i = 4 / 5 * (5 / 2 * (1 - bkSin i ^ 2) - (2 * i + 1) / 25 * bkCos i) := by
      rw [← hsq]; unfold bkH; ring
    have e2 : bkU 0 i * (1 / 25 / bkCos i) = 9.81 / 125 * (5 / 2 - (2 * i + 1) / 25 * (1 / bkCos i)) := by
      rw [bkU_high hi]; unfold bkH; field_simp; ring
    have h1 : (2 * (i : ℝ) + 1) / 25 * bkCos i ≤ (2 * i + 1) / 25 * (((bkTable i : ℝ) + 1) / 10000) :=
      mul_le_mul_of_nonneg_left t2 (by positivity)
    have h2 : (2 * (i : ℝ) + 1) / 25 * (1 / (((bkTable i : ℝ) + 1) / 10000)) ≤ (2 * i + 1) / 25 * (1 / bkCos i) :=
      mul_le_mul_of_nonneg_left (one_div_le_one_div_of_le hc t2) (by positivity)
    have h3 : (bkLower i : ℝ) / 10000 ≤ max 0 (4 / 5 * (5 / 2 * (1 - bkSin i ^ 2) -
        (2 * i + 1) / 25 * (((bkTable i : ℝ) + 1) / 10000)) -
        9.81 / 125 * (5 / 2 - (2 * i + 1) / 25 * (1 / (((bkTable i : ℝ) + 1) / 10000)))) := by
      clear h1 h2 e1 e2 hp t1 t2 hsq hc h0
      unfold bkTable bkLower bkSin
      interval_cases i <;> first
        | (refine le_max_of_le_left ?_; norm_num; done)
        | (refine le_max_of_le_right ?_; norm_num; done)
    have h4 : max 0 (4 / 5 * (5 / 2 * (1 - bkSin i ^ 2) -
        (2 * i + 1) / 25 * (((bkTable i : ℝ) + 1) / 10000)) -
        9.81 / 125 * (5 / 2 - (2 * i + 1) / 25 * (1 / (((bkTable i : ℝ) + 1) / 10000)))) ≤
        max 0 (4 / 5 * bkH i * bkCos i - bkU 0 i * (1 / 25 / bkCos i)) := by
      apply max_le_max le_rfl
      rw [e1, e2]
      linarith
    linarith
  refine le_trans (mul_le_mul_of_nonneg_left bank_driving_le (by norm_num)) (le_trans ?_ (sum_le_sum h))
  simp only [sum_range_succ, sum_range_zero, bkLower]
  norm_num

theorem bank_high_turn : 0.361 ≤ bishopRhs 25 (sliceOf (bankWet 0) 7 6 (5 / 2) (9 / 2) (11 / 2)) 0.361 := by
  rw [bank_rhs (by norm_num) (by norm_num), le_div_iff₀ bank_driving_pos]
  have h : ∀ i ∈ range 25, (0.72152 * (5 / 2 * ((bkTable i : ℝ) / 10000) - (2 * i + 1) / 25)) /
      (((bkTable i : ℝ) + 1) / 10000 + bkSin i / 0.361) ≤
      (1 / 2500 + (4 / 5 * bkH i - bkU 0 i * (1 / 25))) / (bkCos i + bkSin i / 0.361) := by
    intro i hi
    have hi := mem_range.mp hi
    have hc := bkCos_pos hi
    have hs := bkSin_pos hi
    obtain ⟨t1, t2⟩ := bkCos_table i hi
    have hH := bkH_pos hi
    rw [bkU_high hi]
    apply div_le_div₀
    · linarith
    · unfold bkH; linarith
    · positivity
    · linarith
  refine le_trans (mul_le_mul_of_nonneg_left bank_driving_le (by norm_num)) (le_trans ?_ (sum_le_sum h))
  simp only [sum_range_succ, sum_range_zero, bkTable, bkSin]
  norm_num

/-- What an analysis of the circle reports. -/
theorem bank_report (h0 : 0 ≤ d) (h6 : d < 6) :
    let t := ((bankWet d).addSingleCircularPlane 7 6 (5 / 2)).1.analyseSlope none
    t.2 = .ok () ∧ ∃ F, BishopValue (bankWet d) 7 6 (5 / 2) (9 / 2) (11 / 2) F ∧ t.1.getMinFos = .ok (some F) := by
  have rc := bankWet_reachable h0
  have hmats : (bankWet d).materials = [mkLayer bankSlope.extH 0 (exFric 45 (1 / 100))] := rfl
  obtain ⟨h1, l, rt, F, h2, _, h4, h5⟩ := C74_slip_circle_has_fos (bankWet d) rc
    (by intro l hl; rw [hmats] at hl; simp only [List.mem_singleton] at hl; subst hl
        change |(45 : ℝ)| ≤ 90; norm_num)
    (.inr (by intro l hl; rw [hmats] at hl; simp only [List.mem_singleton] at hl; subst hl
              change (9.81 : ℝ) ≤ 20; norm_num))
    (by intro z hz; rw [bank_RL h6.le] at hz; obtain rfl := Option.some.inj hz; rw [bank_topY]; linarith)
    (by rw [hmats]; simp)
    (.inl (by intro l hl; rw [hmats] at hl; simp only [List.mem_singleton] at hl; subst hl
              change (0 : ℝ) < |1 / 100|; norm_num))
    (cx := 7) (cy := 6) (r := 5 / 2) (by norm_num) ((bank_crossing _).mpr (.inl rfl))
    ((bank_crossing _).mpr (.inr (.inl rfl))) (by norm_num)
    (by intro l rt h
        obtain ⟨rfl, rfl⟩ := bank_first h
        exact bank_cuts) none
  have e : (bankWet d).removeIndividualPlanes.1 = bankWet d := rfl
  rw [e] at h1 h5
  obtain ⟨rfl, rfl⟩ := bank_first h2
  exact ⟨h1, F, h4, (h5 (by intro M hM; cases hM)).1⟩

end Bank

theorem bank_notUnder {i : ℕ} (_hi : i < 25) :
    ¬ GoesUnder bankDry 0.61 0.67 (centre (9 / 2) (11 / 2) bankDry.slices i) := by
  rintro ⟨h1, h2, h3⟩
  have hi' : (0 : ℝ) ≤ i := Nat.cast_nonneg i
  have e : centre (9 / 2) (11 / 2) bankDry.slices i = 9 / 2 + (2 * i + 1) / 50 := by
    unfold centre
    have : (bankDry.slices : ℝ) = 25 := by change ((25 : ℤ) : ℝ) = 25; norm_num
    rw [this]; ring
  have hg : groundY bankDry = groundY (bankWet 0) := rfl
  have ht : bankDry.topX + bankDry.length = 11 / 2 := by
    change (bankWet 0).topX + 1 = _
    rw [bank_topX]; norm_num
  rw [e, ht] at h1
  rw [e, hg, bank_ground (by linarith [show (0 : ℝ) < (2 * i + 1) / 50 by positivity]) h1, bankDry_topY] at h2 h3
  have a : (7 : ℝ) < i := by linarith
  have b : (i : ℝ) < 8 := by linarith
  have a' : 7 < i := by exact_mod_cast a
  have b' : i < 8 := by exact_mod_cast b
  omega

theorem bank_inside : ∀ i < 25, (centre (9 / 2) (11 / 2) bankDry.slices i - 7) ^ 2 < (5 / 2 : ℝ) ^ 2 := by
  intro i hi
  have hi' : (i : ℝ) ≤ 24 := by exact_mod_cast Nat.lt_succ_iff.mp hi
  have h0 : (0 : ℝ) ≤ i := Nat.cast_nonneg i
  unfold centre
  have : (bankDry.slices : ℝ) = 25 := by change ((25 : ℤ) : ℝ) = 25; norm_num
  rw [this]
  nlinarith

/-- A case of `C100_ordinary_partial`: water 67 cm and 61 cm below the crest. -/
example : ∃ F F', (bankWet 0.61).ordinary 7 6 (5 / 2) (some (9 / 2, 6)) (some (11 / 2, 4)) = .ok F ∧
    (bankWet 0.67).ordinary 7 6 (5 / 2) (some (9 / 2, 6)) (some (11 / 2, 4)) = .ok F' ∧ F ≤ F' := by
  have rc := bankWet_reachable (d := 0.61) (by norm_num)
  have e := (C55_ordinary_formula (bankWet 0.61) rc 7 6 (5 / 2) (9 / 2, 6) (11 / 2, 4) _).mpr
    ⟨by norm_num, by norm_num, by norm_num, by norm_num, by
      intro i hi
      have := bank_inside i hi
      rw [sq_lt_sq, abs_of_pos (by norm_num : (0 : ℝ) < 5 / 2)] at this
      exact this, by change [_] ≠ []; simp, waterX_ok rc.wf.geo (by
      intro z hz; rw [bank_RL (by norm_num)] at hz; obtain rfl := Option.some.inj hz; rw [bank_topY]; norm_num),
      by change 0 < driving 25 _; rw [bank_driving (by norm_num)]; exact bank_driving_pos, rfl⟩
  obtain ⟨F', h1, h2⟩ := C100_ordinary_partial bankDry _ _ bankDry_reachable (by
    intro l hl
    obtain rfl : l = _ := List.mem_singleton.mp hl
    change |(45 : ℝ)| ≤ 90
    norm_num) 0.61 0.67 (by norm_num) (bankWet_eq (by norm_num)) (bankWet_eq (by norm_num)) 7 6 (5 / 2) (9 / 2, 6) (11 / 2, 4)
    (.inr fun i hi => bank_notUnder hi) _ e
  exact ⟨_, F', e, h1, h2⟩

/-- A case of `C100_bishop_partial`. -/
example : ∃ F F', 0 < F ∧ 0 < F' ∧ bishopRhs 25 (sliceOf (bankWet 0.61) 7 6 (5 / 2) (9 / 2) (11 / 2)) F = F ∧
    bishopRhs 25 (sliceOf (bankWet 0.67) 7 6 (5 / 2) (9 / 2) (11 / 2)) F' = F' ∧ F ≤ F' := by
  have sol : ∀ d : ℝ, d ≤ 0.67 → ∃ F, 0 < F ∧ bishopRhs 25 (sliceOf (bankWet d) 7 6 (5 / 2) (9 / 2) (11 / 2)) F = F := by
    intro d hd
    have hd6 : d < 6 := by norm_num at hd ⊢; linarith
    have D := bank_dips hd6
    obtain ⟨L, h1, h2⟩ := D.solution_above (F0 := 0.05) (by norm_num) (by
      rw [bank_rhs hd6 (by norm_num), le_div_iff₀ bank_driving_pos]
      refine le_trans (mul_le_mul_of_nonneg_left bank_driving_le (by norm_num)) ?_
      have h : ∀ i ∈ range 25, (if i < 8 then 0.4076 else 0.72152) * (5 / 2 * ((bkTable i : ℝ) / 10000) - (2 * i + 1) / 25) /
          (((bkTable i : ℝ) + 1) / 10000 + bkSin i / 0.05) ≤
          (1 / 2500 + (4 / 5 * bkH i - bkU d i * (1 / 25))) / (bkCos i + bkSin i / 0.05) := by
        intro i hi
        have hi := mem_range.mp hi
        have hc := bkCos_pos hi
        have hs := bkSin_pos hi
        obtain ⟨t1, t2⟩ := bkCos_table i hi
        have hH := bkH_pos hi
        have hU := bkU_le (d := d) hi
        apply div_le_div₀
        · linarith
        · split
          · unfold bkH at *; linarith
          · rename_i h8
            push Not at h8
            rw [bkU_right hd h8 hi]
            unfold bkH at *; linarith
        · positivity
        · linarith
      refine le_trans ?_ (sum_le_sum h)
      simp only [sum_range_succ, sum_range_zero, bkTable, bkSin]
      norm_num)
    exact ⟨L, lt_of_lt_of_le (by norm_num) h1, h2⟩
  obtain ⟨F, h1, h2⟩ := sol 0.61 (by norm_num)
  obtain ⟨F', h3, h4⟩ := sol 0.67 (by norm_num)
  exact ⟨F, F', h1, h3, h2, h4, C100_bishop_partial bankDry _ _ bankDry_reachable 0.61 0.67 (by norm_num)
    (bankWet_eq (by norm_num)) (bankWet_eq (by norm_num)) (by change [_] ≠ []; simp) 7 6 (5 / 2) (by norm_num)
    (9 / 2, 6) (11 / 2, 4) (by norm_num) bank_inside (.inr fun i hi => bank_notUnder hi)
    (bank_dips (by norm_num)) F F' h1 h3 h2 h4⟩

/-- C100 is violated: a bank 2 m high and 1 m wide, unit weight 20, friction angle 45 degrees, cohesion 0.01. Raising
the water table from 60 cm below the crest to the crest raises the factor of safety the analysis reports for the circle
through crest and toe with its centre 2.5 m right of the crest (computed: 0.34 and 0.47). On the slices that go under
water the pressure is multiplied by the factor for submerged slopes, here 1/5. -/
theorem C100_higher_water_raises : ∃ (s t t' : Slope ℝ) (d d' cx cy r F F' : ℝ), Reachable s ∧ d < d' ∧
    s.setWaterTable (.num d) = (t, .ok ()) ∧ s.setWaterTable (.num d') = (t', .ok ()) ∧
    ((t.addSingleCircularPlane cx cy r).1.analyseSlope none).2 = .ok () ∧
    ((t'.addSingleCircularPlane cx cy r).1.analyseSlope none).2 = .ok () ∧
    ((t.addSingleCircularPlane cx cy r).1.analyseSlope none).1.getMinFos = .ok (some F) ∧
    ((t'.addSingleCircularPlane cx cy r).1.analyseSlope none).1.getMinFos = .ok (some F') ∧ F' < F := by
  obtain ⟨a1, F, a2, a3⟩ := bank_report (d := 0) le_rfl (by norm_num)
  obtain ⟨b1, F', b2, b3⟩ := bank_report (d := 3 / 5) (by norm_num) (by norm_num)
  refine ⟨bankDry, bankWet 0, bankWet (3 / 5), 0, 3 / 5, 7, 6, 5 / 2, F, F', bankDry_reachable, by norm_num,
    bankWet_eq le_rfl, bankWet_eq (by norm_num), a1, b1, a3, b3, ?_⟩
  have h1 : 0.361 ≤ F := a2.ge (bank_dips (by norm_num)) (by norm_num) bank_high_start bank_high_turn
  have h2 : F' ≤ 0.36 := b2.le (bank_dips (by norm_num)) (bank_fellenius_pos (by norm_num)) bank_low_start bank_low_turn
  norm_num at h1 h2
  linarith

end PySlope
