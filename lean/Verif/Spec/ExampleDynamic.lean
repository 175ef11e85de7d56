import Verif.Lemmas.Dynamic
import Verif.Props.FosLaws

/-! # Examples of dynamic analyses

`Slope(height=3, length=3)` in clay (unit weight 20, cohesion `c`) with one dynamic line load of 100
at the offset `o` and the circle that enters the ground at `(e, 9)` and touches the level of the toe
at the toe `(9, 6)`. -/

namespace PySlope
open Finset

/-- `LineLoad(magnitude=100, offset=o, dynamic_offset=True)`. -/
noncomputable def dynLl (o : ℝ) : LineLoad ℝ :=
  { magnitude := 100, offset := |o|, color := "blue", dynamic := true }

theorem dynLl_constructed (o : ℝ) : LineLoad.Constructed (dynLl o) := by
  refine ⟨fun _ => true, .num 100, .num o, "blue", true, ?_⟩
  rw [(C02_signs_do_not_matter _ _ _).2.2.2.2.2.1]
  simp [dynLl]

/-- The radius of the circle. -/
noncomputable def cRad (e : ℝ) : ℝ := ((9 - e) ^ 2 + 9) / 6

/-- The plane of the circle. -/
noncomputable def cPlane (e : ℝ) : Plane ℝ :=
  { lc := (e, 9), rc := (9, 6), cx := 9, cy := 6 + cRad e, radius := cRad e, fos := none }

/-- The clay with the circle. -/
noncomputable def exClay (c e : ℝ) : Slope ℝ := { exOf (exFric 0 c) with individual := [cPlane e] }

/-- The clay with the circle and the load. -/
noncomputable def exDyn (c e o : ℝ) : Slope ℝ :=
  { exClay c e with lls := [placeLl exSlope.topX (dynLl o)] }

section
variable {c e : ℝ} (h3 : 3 ≤ e) (h4 : e ≤ 4)
include h3 h4

theorem cRad_gt : 5 < cRad e := by unfold cRad; nlinarith

/-- The crossings of the circle, for any loads. -/
theorem cCrossing {s : Slope ℝ} (hs : s.topX = 6 ∧ s.topY = 9 ∧ s.botX = 9 ∧ s.botY = 6 ∧ s.extL = 15)
    (p : ℝ × ℝ) : Crossing s 9 (6 + cRad e) (cRad e) p ↔ p = (e, 9) ∨ p = (9, 6) := by
  obtain ⟨x, y⟩ := p
  obtain ⟨s1, s2, s3, s4, s5⟩ := hs
  have hr := cRad_gt h3 h4
  have hre : 6 * cRad e = (9 - e) ^ 2 + 9 := by unfold cRad; ring
  simp only [Prod.mk.injEq]
  unfold Crossing OnCircle OnLine
  simp only [s1, s2, s3, s4, s5]
  constructor
  · rintro ⟨h, ⟨rfl, h1, h2, h3⟩ | ⟨rfl, h1, h2, h3⟩ | ⟨h1, h2, h3⟩⟩
    · left
      have : (x - e) * (x - (18 - e)) = 0 := by nlinarith
      rcases mul_eq_zero.mp this with h | h
      · exact ⟨by linarith, rfl⟩
      · exfalso; linarith
    · right
      have : (x - 9) * (x - 9) = 0 := by nlinarith
      rcases mul_eq_zero.mp this with h | h <;> exact ⟨by linarith, rfl⟩
    · right
      have hy : y = 15 - x := by linarith
      subst hy
      have : (x - 9) * (x - (9 - cRad e)) = 0 := by nlinarith
      rcases mul_eq_zero.mp this with h | h
      · exact ⟨by linarith, by linarith⟩
      · exfalso; linarith
  · rintro (⟨rfl, rfl⟩ | ⟨rfl, rfl⟩)
    · refine ⟨by nlinarith, .inl ⟨rfl, ?_⟩⟩
      refine ⟨?_, ?_, ?_⟩ <;> norm_num <;> linarith
    · refine ⟨by nlinarith, .inr (.inl ⟨rfl, ?_⟩)⟩
      norm_num

theorem cIntersections {s : Slope ℝ} (g : Geo s)
    (hs : s.topX = 6 ∧ s.topY = 9 ∧ s.botX = 9 ∧ s.botY = 6 ∧ s.extL = 15) :
    s.circleExternalIntersection 9 (6 + cRad e) (cRad e) = .ok [(e, 9), (9, 6)] :=
  intersections_two g (cCrossing h3 h4 hs) (by norm_num; linarith)

omit h3 h4 in
theorem exClay_geo (c : ℝ) : Reachable (exOf (exFric 0 c)) ∧ (exOf (exFric 0 c)).topX = 6 ∧
    (exOf (exFric 0 c)).topY = 9 ∧ (exOf (exFric 0 c)).botX = 9 ∧ (exOf (exFric 0 c)).botY = 6 ∧
    (exOf (exFric 0 c)).extL = 15 := by
  have g := exFric_ground 0 c le_rfl
  exact ⟨g.reach, g.topX, g.topY, g.botX, g.botY, g.extL⟩

theorem exClay_eq : (exOf (exFric 0 c)).addSingleCircularPlane 9 (6 + cRad e) (cRad e) = (exClay c e, .ok ()) := by
  obtain ⟨h1, h2⟩ := exClay_geo c
  unfold Slope.addSingleCircularPlane
  rw [cIntersections h3 h4 h1.wf.geo h2]
  simp only
  rw [setSize_nodup (by simp)]
  rfl

theorem exClay_reachable : Reachable (exClay c e) := by
  have := Reachable.call (exClay_geo c).1 (.addSingleCircularPlane _ 9 (6 + cRad e) (cRad e))
  rwa [exClay_eq h3 h4] at this

omit h3 h4 in
theorem exDyn_eq {o : ℝ} (ho : |o| ≤ 10 / 3) : (exClay c e).setLls [some (dynLl o)] = (exDyn c e o, .ok ()) := by
  have := setLl_small (s := exClay c e) (dynLl o) (by norm_num [dynLl])
    (by change |o| * 3 ≤ 10; linarith) (by intro p hp; cases hp)
  rw [this]
  rfl

theorem exDyn_reachable {o : ℝ} (ho : |o| ≤ 10 / 3) : Reachable (exDyn c e o) := by
  have := Reachable.call (exClay_reachable (c := c) h3 h4) (.setLls _ [some (dynLl o)] (by
    intro u hu; simp at hu; subst hu; exact dynLl_constructed o))
  rwa [exDyn_eq ho] at this

/-- Slice centres. -/
noncomputable def cX (e : ℝ) (i : ℕ) : ℝ := e + ((i : ℝ) + 1 / 2) * ((9 - e) / 25)

/-- Level of the base of a slice. -/
noncomputable def cBase (e : ℝ) (i : ℕ) : ℝ := 6 + cRad e - √((cRad e) ^ 2 - (cX e i - 9) ^ 2)

theorem cX_mem {i : ℕ} (hi : i < 25) : e < cX e i ∧ cX e i < 9 := by
  have h := centre_mem (xl := e) (xr := 9) (n := 25) (by linarith) (by norm_num) (by simpa using hi)
  unfold centre at h
  exact_mod_cast h

theorem cX_in {i : ℕ} (hi : i < 25) : (cX e i - 9) ^ 2 < (cRad e) ^ 2 := by
  obtain ⟨a, b⟩ := cX_mem h3 h4 hi
  have hr : 6 * cRad e = (9 - e) ^ 2 + 9 := by unfold cRad; ring
  have : (cX e i - 9) ^ 2 < (9 - e) ^ 2 := by nlinarith
  nlinarith [sq_nonneg (cRad e - 3)]

/-- The ground of the example. -/
noncomputable def cGround (x : ℝ) : ℝ := if x ≤ 6 then 9 else 15 - x

theorem cBase_lt {i : ℕ} (hi : i < 25) : cBase e i < cGround (cX e i) := by
  obtain ⟨a, b⟩ := cX_mem h3 h4 hi
  have hr := cRad_gt h3 h4
  have hre : 6 * cRad e = (9 - e) ^ 2 + 9 := by unfold cRad; ring
  unfold cBase cGround
  split
  · have : cRad e - 3 < √((cRad e) ^ 2 - (cX e i - 9) ^ 2) := by
      rw [Real.lt_sqrt (by linarith)]
      have : (cX e i - 9) ^ 2 < (9 - e) ^ 2 := by nlinarith
      nlinarith
    linarith
  · rename_i h6
    push Not at h6
    have : cRad e - (9 - cX e i) < √((cRad e) ^ 2 - (cX e i - 9) ^ 2) := by
      rw [Real.lt_sqrt (by linarith)]
      nlinarith
    linarith

/-- The slices of the example. -/
theorem cSlice (c o : ℝ) {i : ℕ} (hi : i < 25) :
    let q := sliceOf (exDyn c e o) 9 (6 + cRad e) (cRad e) e 9 i
    q.b = (9 - e) / 25 ∧ q.c = |c| ∧ q.φ = 0 ∧ 0 < q.sin ∧ q.sin = (9 - cX e i) / cRad e ∧ 0 < q.cos ∧
    q.cos = √((cRad e) ^ 2 - (cX e i - 9) ^ 2) / cRad e ∧
    q.W = (9 - e) / 25 * (20 * (cGround (cX e i) - cBase e i)) +
      if e + (i : ℝ) * ((9 - e) / 25) ≤ max 0 (6 - |o|) ∧
        max 0 (6 - |o|) < e + ((i : ℝ) + 1) * ((9 - e) / 25) then 100 else 0 := by
  intro q
  obtain ⟨a, b⟩ := cX_mem h3 h4 hi
  have hr := cRad_gt h3 h4
  have hin := cX_in h3 h4 hi
  have hlt := cBase_lt h3 h4 hi
  obtain ⟨_, t1, t2, t3, t4, t5⟩ := exClay_geo c
  have hn : (((exDyn c e o).slices : ℤ) : ℝ) = 25 := by
    change (((25 : ℤ)) : ℝ) = 25; norm_num
  have hlay : ∀ y, ∃ l, layerAt (exDyn c e o).materials y = some l ∧ l.mat = exFric 0 c :=
    (exFric_ground 0 c le_rfl).layer
  have hgr : groundY (exDyn c e o) (cX e i) = cGround (cX e i) := by
    unfold groundY cGround
    have e1 : (exDyn c e o).topX = 6 := t1
    have e2 : (exDyn c e o).extH = 9 := exSlope_extH
    have e3 : (exDyn c e o).length = 3 := rfl
    have e4 : (exDyn c e o).height = 3 := rfl
    rw [e1, e2, e3, e4]
    split
    · rfl
    · rw [if_pos (by linarith)]; ring
  have hint : ∀ x y : ℝ, (∫ z in x..y, unitWeightAt (exDyn c e o).materials z) = 20 * (y - x) := by
    intro x y
    have : ∀ z, unitWeightAt (exDyn c e o).materials z = 20 := by
      intro z
      obtain ⟨l, hl, hm⟩ := hlay z
      unfold unitWeightAt
      rw [hl]
      simp only [hm]
      rfl
    simp only [this, intervalIntegral.integral_const, smul_eq_mul]
    ring
  obtain ⟨l, hl, hm⟩ := hlay (cBase e i)
  have hsq : 0 < √((cRad e) ^ 2 - (cX e i - 9) ^ 2) := Real.sqrt_pos.mpr (by linarith)
  have hx : e + ((i : ℝ) + 1 / 2) * ((9 - e) / 25) = cX e i := rfl
  have hb : 6 + cRad e - √((cRad e) ^ 2 - (cX e i - 9) ^ 2) = cBase e i := rfl
  have hq : q = sliceOf (exDyn c e o) 9 (6 + cRad e) (cRad e) e 9 i := rfl
  unfold sliceOf at hq
  simp only [hn, hx, hb, hgr, hl, max_eq_left hlt.le] at hq
  rw [hq]
  refine ⟨rfl, ?_, ?_, ?_, rfl, ?_, rfl, ?_⟩
  · simp only [hm]; simp [exFric]
  · simp only [hm]; simp [exFric]
  · exact div_pos (by linarith) (by linarith)
  · exact div_pos hsq (by linarith)
  · simp only
    unfold weightOn
    rw [hint]
    have hu : (exDyn c e o).udls = [] := rfl
    have hl' : (exDyn c e o).lls = [placeLl exSlope.topX (dynLl o)] := rfl
    have hco : (placeLl exSlope.topX (dynLl o)).coord = max 0 (6 - |o|) := by
      simp [placeLl, dynLl]
    have hma : (placeLl exSlope.topX (dynLl o)).load.magnitude = 100 := rfl
    rw [hu, hl']
    simp only [List.map_nil, List.sum_nil, List.map_cons, List.sum_cons, add_zero, hco, hma]
    ring_nf

/-- Driving sum without the load. -/
noncomputable def cD (e : ℝ) : ℝ :=
  ∑ i ∈ range 25, (9 - e) / 25 * (20 * (cGround (cX e i) - cBase e i)) * ((9 - cX e i) / cRad e)

/-- Resistance for a cohesion of 1. -/
noncomputable def cK (e : ℝ) : ℝ :=
  ∑ i ∈ range 25, (9 - e) / 25 / (√((cRad e) ^ 2 - (cX e i - 9) ^ 2) / cRad e)

/-- Driving sum of the load. -/
noncomputable def cL (e o : ℝ) : ℝ :=
  ∑ i ∈ range 25, (if e + (i : ℝ) * ((9 - e) / 25) ≤ max 0 (6 - |o|) ∧
        max 0 (6 - |o|) < e + ((i : ℝ) + 1) * ((9 - e) / 25) then 100 else 0) * ((9 - cX e i) / cRad e)

theorem cD_pos : 0 < cD e := by
  have hr := cRad_gt h3 h4
  apply sum_pos
  · intro i hi
    have hi := mem_range.mp hi
    obtain ⟨a, b⟩ := cX_mem h3 h4 hi
    have := cBase_lt h3 h4 hi
    have h1 : 0 < 9 - e := by linarith
    have h2 : 0 < cGround (cX e i) - cBase e i := by linarith
    have h3 : 0 < 9 - cX e i := by linarith
    positivity
  · exact ⟨0, by simp⟩

theorem cK_pos : 0 < cK e := by
  have hr := cRad_gt h3 h4
  apply sum_pos
  · intro i hi
    have hi := mem_range.mp hi
    have hin := cX_in h3 h4 hi
    have hsq : 0 < √((cRad e) ^ 2 - (cX e i - 9) ^ 2) := Real.sqrt_pos.mpr (by linarith)
    have h1 : 0 < 9 - e := by linarith
    positivity
  · exact ⟨0, by simp⟩

theorem cL_term {o : ℝ} {i : ℕ} (hi : i < 25) :
    0 ≤ (if e + (i : ℝ) * ((9 - e) / 25) ≤ max 0 (6 - |o|) ∧
        max 0 (6 - |o|) < e + ((i : ℝ) + 1) * ((9 - e) / 25) then (100 : ℝ) else 0) * ((9 - cX e i) / cRad e) := by
  have hr := cRad_gt h3 h4
  obtain ⟨a, b⟩ := cX_mem h3 h4 hi
  apply mul_nonneg
  · split <;> norm_num
  · exact div_nonneg (by linarith) (by linarith)

theorem cL_nonneg (o : ℝ) : 0 ≤ cL e o := by
  apply sum_nonneg
  intro i hi
  exact cL_term h3 h4 (mem_range.mp hi)

/-- The load is on the circle. -/
theorem cL_inside {o : ℝ} (ho : e ≤ 6 - |o|) : 0 < cL e o := by
  have hr := cRad_gt h3 h4
  have hmax : max 0 (6 - |o|) = 6 - |o| := max_eq_right (by linarith)
  have hw : 0 < (9 - e) / 25 := by linarith
  have habs := abs_nonneg o
  have hk0 : 0 ≤ (6 - |o| - e) / ((9 - e) / 25) := div_nonneg (by linarith) hw.le
  have hk1 : (6 - |o| - e) / ((9 - e) / 25) < 25 := by rw [div_lt_iff₀ hw]; linarith
  have hk : ⌊(6 - |o| - e) / ((9 - e) / 25)⌋₊ < 25 := (Nat.floor_lt hk0).mpr (by exact_mod_cast hk1)
  apply sum_pos'
  · intro i hi
    exact cL_term h3 h4 (mem_range.mp hi)
  · refine ⟨⌊(6 - |o| - e) / ((9 - e) / 25)⌋₊, mem_range.mpr hk, ?_⟩
    have l1 := Nat.floor_le hk0
    have l2 := Nat.lt_floor_add_one ((6 - |o| - e) / ((9 - e) / 25))
    rw [le_div_iff₀ hw] at l1
    rw [div_lt_iff₀ hw] at l2
    rw [if_pos (by rw [hmax]; exact ⟨by linarith, by linarith⟩)]
    obtain ⟨a, b⟩ := cX_mem h3 h4 hk
    have : 0 < 9 - cX e ⌊(6 - |o| - e) / ((9 - e) / 25)⌋₊ := by linarith
    positivity

/-- The load is left of the circle. -/
theorem cL_outside {o : ℝ} (ho : 6 - |o| < e) : cL e o = 0 := by
  apply sum_eq_zero
  intro i hi
  rw [if_neg, zero_mul]
  rintro ⟨h, _⟩
  have hw : 0 < (9 - e) / 25 := by linarith
  have : max 0 (6 - |o|) < e := max_lt (by linarith) ho
  have : (0 : ℝ) ≤ (i : ℝ) * ((9 - e) / 25) := by positivity
  linarith

/-- The factor of safety with the load at `o`. -/
noncomputable def cFos (c e o : ℝ) : ℝ := |c| * cK e / (cD e + cL e o)

theorem exDyn_driving (c o : ℝ) :
    driving 25 (sliceOf (exDyn c e o) 9 (6 + cRad e) (cRad e) e 9) = cD e + cL e o := by
  unfold driving cD cL
  rw [← sum_add_distrib]
  apply sum_congr rfl
  intro i hi
  obtain ⟨_, _, _, _, h5, _, _, h8⟩ := cSlice h3 h4 c o (mem_range.mp hi)
  rw [h5, h8]
  ring

theorem exDyn_fellenius (c o : ℝ) :
    fellenius 25 (sliceOf (exDyn c e o) 9 (6 + cRad e) (cRad e) e 9) = cFos c e o := by
  unfold fellenius cFos
  rw [exDyn_driving h3 h4, cK, mul_sum]
  congr 1
  apply sum_congr rfl
  intro i hi
  obtain ⟨h1, h2, h3, _, _, _, h7, _⟩ := cSlice h3 h4 c o (mem_range.mp hi)
  have ht : (sliceOf (exDyn c e o) 9 (6 + cRad e) (cRad e) e 9 i).tan = 0 := by
    unfold Slice.tan; rw [h3]; simp
  rw [ht, mul_zero, add_zero, h1, h2, h7]

theorem exDyn_bishop {c o : ℝ} (hc : c ≠ 0) (ho : |o| ≤ 10 / 3) :
    (exDyn c e o).bishop 9 (6 + cRad e) (cRad e) none none = .ok (cFos c e o) := by
  have rc := exDyn_reachable (c := c) h3 h4 ho
  have hr := cRad_gt h3 h4
  have hin : ∀ i < (exDyn c e o).slices.toNat, (centre e 9 (exDyn c e o).slices i - 9) ^ 2 < (cRad e) ^ 2 := by
    intro i hi
    have := cX_in h3 h4 (i := i) hi
    unfold cX at this
    unfold centre
    have hn : (((exDyn c e o).slices : ℤ) : ℝ) = 25 := by
      change (((25 : ℤ)) : ℝ) = 25; norm_num
    rw [hn]
    exact this
  have hd : 0 < cD e + cL e o := add_pos_of_pos_of_nonneg (cD_pos h3 h4) (cL_nonneg h3 h4 o)
  have hne : (exDyn c e o).materials ≠ [] := (exFric_ground 0 c le_rfl).ne
  have hw : (exDyn c e o).waterX = .ok none := rfl
  have hf := forces_eq (cy := 6 + cRad e) rc hne hw (by linarith) hin
  have hord : (exDyn c e o).ordinary 9 (6 + cRad e) (cRad e) (some (e, 9)) (some (9, 6)) = .ok (cFos c e o) := by
    have hf' : (exDyn c e o).forces none 9 (6 + cRad e) (cRad e) (e, (9 : ℝ)).1 (9, (6 : ℝ)).1 =
        listOf 25 (sliceOf (exDyn c e o) 9 (6 + cRad e) (cRad e) e 9) := hf
    rw [ordinary_eq (by change (2 : ℤ) ≤ 25; norm_num) ⟨by norm_num, by linarith, by linarith⟩
      (by norm_num; linarith) hin hne hw, hf', listOf_driving, exDyn_driving h3 h4, if_neg (not_le.mpr hd)]
    congr 1
    rw [← exDyn_fellenius h3 h4]
    exact listOf_ordinary (fun i => rfl)
  have he : (exDyn c e o).bishopEnds 9 (6 + cRad e) (cRad e) none none = .ok ((e, 9), (9, 6)) := by
    unfold Slope.bishopEnds
    rw [cIntersections h3 h4 rc.wf.geo (exClay_geo c).2]
    simp only
    rw [setSize_nodup (by simp)]
    rfl
  refine (C56_no_friction _ rc ?_ _ _ _ _ _ he).2 _ hord ?_
  · intro l hl
    obtain rfl : l = _ := List.mem_singleton.mp hl
    change |(0 : ℝ)| = 0
    simp
  · unfold cFos
    have := cK_pos h3 h4
    have := abs_pos.mpr hc
    positivity

end

/-- The example with the load at `o`, whatever results it has. -/
structure DynState (c e o : ℝ) (t : Slope ℝ) : Prop where
  setup : SameSetup (exDyn c e o) t
  ind : ∃ v, t.individual = [{ cPlane e with fos := v }]
  ml : t.minExtL = 10
  wfs : WFS t

theorem exDyn_state {c e o : ℝ} (h3 : 3 ≤ e) (h4 : e ≤ 4) (ho : |o| ≤ 10 / 3) :
    DynState c e o (exDyn c e o) :=
  ⟨.refl _, ⟨none, rfl⟩, rfl, (exDyn_reachable h3 h4 ho).wfs⟩

theorem DynState.dyn {c e o : ℝ} {t : Slope ℝ} (h : DynState c e o t) (d) :
    DynState c e o { t with dynResults := d } := by
  obtain ⟨⟨a1, a2, a3, a4, a5, a6, a7, a8, a9, a10, a11, a12, a13, a14, a15, a16, a17, a18, a19, a20, a21⟩,
    b, d', w⟩ := h
  exact ⟨⟨a1, a2, a3, a4, a5, a6, a7, a8, a9, a10, a11, a12, a13, a14, a15, a16, a17, a18, a19, a20, a21⟩,
    b, d', w.dyn _⟩

/-- An attempt in the example. -/
theorem DynState.try {c e o : ℝ} {t : Slope ℝ} (h : DynState c e o t) (h3 : 3 ≤ e) (h4 : e ≤ 4) (hc : c ≠ 0)
    {o' : ℝ} (h0 : 0 ≤ o') (ho : o' ≤ 10 / 3) :
    ∃ u, t.tryOffset o' = (u, .ok (cFos c e o')) ∧ DynState c e o' u := by
  obtain ⟨hs, ⟨v, hv⟩, hml, hw⟩ := h
  have hud : t.udls = [] := hs.udls
  have hll : t.lls = [placeLl exSlope.topX (dynLl o)] := hs.lls
  have htop : t.topX = exSlope.topX := hs.topX
  have hmv : (dynLl o).movedTo o' = dynLl o' := by
    simp [LineLoad.movedTo, dynLl, abs_of_nonneg h0]
  obtain ⟨m, r⟩ := setDynamicOffset_small hw o' (by rw [hud]; intro p hp; cases hp) (by
    rw [hll]
    intro p hp
    rw [List.mem_singleton] at hp
    subst hp
    change ((dynLl o).movedTo o').offset * 3 ≤ _
    rw [hmv, hml]
    change |o'| * 3 ≤ 10
    rw [abs_of_nonneg h0]
    linarith)
  have hlm : t.lls.map (fun p => placeLl t.topX (p.load.movedTo o')) = [placeLl exSlope.topX (dynLl o')] := by
    rw [hll, htop, ← hmv]; rfl
  have hum : t.udls.map (fun p => placeUdl t.topX (p.load.movedTo o')) = [] := by rw [hud]; rfl
  rw [hlm, hum] at r
  generalize ha : ({ t with udls := [], udlMax := m, lls := [placeLl exSlope.topX (dynLl o')], search := [] } : Slope ℝ) = a at r
  have hsa : SameSetup (exDyn c e o') a := by
    obtain ⟨a1, a2, a3, a4, a5, a6, a7, a8, a9, a10, a11, a12, a13, a14, a15, a16, a17, a18, a19, a20, a21⟩ := hs
    rw [← ha]
    exact ⟨a1, a2, a3, a4, a5, a6, a7, a8, a9, a10, a11, a12, rfl, rfl, a15, a16, a17, a18, a19, a20, a21⟩
  have hia : a.individual = [{ cPlane e with fos := v }] := by rw [← ha]; exact hv
  have hb : a.bishop 9 (6 + cRad e) (cRad e) none none = .ok (cFos c e o') := by
    rw [hsa.bishop]
    exact exDyn_bishop h3 h4 hc (by rw [abs_of_nonneg h0]; exact ho)
  have hA := analyseSlope_of (s := a) (ps := a.individual) (.inl ⟨by rw [hia]; simp, rfl⟩) (by
    intro p hp x hx
    rw [hia, List.mem_singleton] at hp
    subst hp
    unfold FosRaises at hx
    change a.bishop 9 (6 + cRad e) (cRad e) none none = _ at hx
    rw [hb] at hx
    cases hx) none
  have hfo : ∀ w, fosOf a { cPlane e with fos := w } = some (cFos c e o') := fun w => fosOf_some.mpr hb
  have hsearch : (a.analysedTo none a.individual).search = [withFos a { cPlane e with fos := v }] := by
    rw [hia]
    change tidySearch none [withFos a { cPlane e with fos := v }] = _
    rw [tidySearch_eq]
    have : (withFos a { cPlane e with fos := v }).fosVal.isSome := by
      rw [fosVal_withFos, hfo]; rfl
    simp [this, sortByKey, pySort, keeps]
  have hmin : (a.analysedTo none a.individual).getMinFos = .ok (some (cFos c e o')) := by
    unfold Slope.getMinFos
    rw [hsearch]
    simp only [withFos, hfo]
  have ht : t.tryOffset o' = ({ a.analysedTo none a.individual with
      dynResults := dictSet (a.analysedTo none a.individual).dynResults o' (cFos c e o') }, .ok (cFos c e o')) := by
    unfold Slope.tryOffset
    rw [r, andThen_done, hA, andThen_done, hmin]
  refine ⟨_, ht, ?_⟩
  have hw' := hw.tryOffset o'
  rw [ht] at hw'
  refine ⟨?_, ⟨some (some (cFos c e o')), ?_⟩, ?_, hw'⟩
  · obtain ⟨a1, a2, a3, a4, a5, a6, a7, a8, a9, a10, a11, a12, a13, a14, a15, a16, a17, a18, a19, a20, a21⟩ := hsa
    exact ⟨a1, a2, a3, a4, a5, a6, a7, a8, a9, a10, a11, a12, a13, a14, a15, a16, a17, a18, a19, a20, a21⟩
  · change a.individual.map (withFos a) = _
    rw [hia]
    simp only [List.map_cons, List.map_nil, withFos, hfo]
  · change a.minExtL = 10
    rw [← ha]; exact hml

end PySlope
