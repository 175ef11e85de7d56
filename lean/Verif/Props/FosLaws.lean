import Verif.Props.Fos
import Verif.Lemmas.Scaling
import Verif.Lemmas.Bishop

/-! # Properties C42–C45, C56: laws of the factor of safety -/

namespace PySlope
open Finset Filter Topology

/-- There is no water: none was set, or its level is 0, the bottom of the model, which counts as
none. -/
def Dry (s : Slope ℝ) : Prop := s.waterRL = none ∨ s.waterRL = some 0

theorem Dry.waterX {s : Slope ℝ} (h : Dry s) : s.waterX = .ok none := by
  unfold Slope.waterX
  rcases h with h | h <;> rw [h]
  simp

theorem Dry.pressure {s : Slope ℝ} (h : Dry s) (x yb yt : ℝ) : pressureAt s x yb yt = 0 := by
  unfold pressureAt
  rcases h with h | h <;> rw [h]
  simp

/-! ## C42 -/

theorem forall2_map {α β : Type} {R : α → α → Prop} {a b : List α} (h : List.Forall₂ R a b)
    {f : α → β} (hR : ∀ x y, R x y → f y = f x) : b.map f = a.map f := by
  induction h with
  | nil => rfl
  | cons hxy _ ih => rw [List.map_cons, List.map_cons, ih, hR _ _ hxy]

/-- C42: without water, multiplying unit weights, cohesions and loads by `k > 0` changes neither
value, on any circle with any end points, nor what an analysis does: the same exception or the same
planes with the same values in the same order. -/
theorem C42_scale_free (k : ℝ) (hk : 0 < k) (s t : Slope ℝ) (hd : Dry s) (h : Scaled k s t) :
    (∀ cx cy r l rt, t.ordinary cx cy r l rt = s.ordinary cx cy r l rt) ∧
    (∀ cx cy r l rt, t.bishop cx cy r l rt = s.bishop cx cy r l rt) ∧
    ∀ m : Option ℝ, (t.analyseSlope m).2 = (s.analyseSlope m).2 ∧
      ((s.analyseSlope m).2 = .ok () →
        (t.analyseSlope m).1.search = (s.analyseSlope m).1.search ∧
        (t.analyseSlope m).1.getMinFos = (s.analyseSlope m).1.getMinFos) := by
  have hb := fun cx cy r l rt => h.bishop hk hd.waterX cx cy r l rt
  refine ⟨fun cx cy r l rt => h.ordinary hk hd.waterX cx cy r l rt, hb, ?_⟩
  intro m
  have hp := h.entryExitPlanes (forall2_map h.udls fun x y hxy => hxy.2.1)
    (forall2_map h.lls fun x y hxy => hxy.2)
  obtain ⟨h1, h2⟩ := analyse_congr hp h.individual (fun cx cy r => hb cx cy r none none) m
  refine ⟨h1, fun ho => ⟨h2 ho, ?_⟩⟩
  unfold Slope.getMinFos
  rw [h2 ho]

/-- `exFric` twice as heavy and cohesive. -/
noncomputable def exHeavy : Material ℝ := { exFric 30 5 with unitWeight := 40, cohesion := 10 }

theorem exHeavy_constructed : Material.Constructed exHeavy := by
  refine ⟨fun _ => false, .num 40, .num 30, .num 10, .num 2, .str "", .str "", ?_⟩
  rw [(C01_material (fun _ => false) (.num 40) (.num 30) (.num 10) (.num 2) (.str "") (.str "")).1
    40 30 10 2 "" "" ⟨rfl, by norm_num, by norm_num, rfl, by norm_num, rfl, rfl⟩ rfl rfl]
  simp [exHeavy, exFric]

/-- A case of C42: a material with friction, and one twice as heavy and cohesive; on the circle of
the example both have a value. -/
example : Scaled 2 (exOf (exFric 30 5)) (exOf exHeavy) ∧ Dry (exOf (exFric 30 5)) ∧
    Reachable (exOf (exFric 30 5)) ∧ Reachable (exOf exHeavy) ∧
    ∃ F, (exOf exHeavy).ordinary 9 (35 / 3) (17 / 3) (some (4, 9)) (some (9, 6)) = .ok F := by
  have g := exOf_ground exHeavy_constructed (by simp [exHeavy, exFric]; norm_num)
  refine ⟨⟨by constructor <;> rfl, ?_, .nil, .nil⟩, .inl rfl, (exFric_ground 30 5 (by norm_num)).reach,
    g.reach, ⟨_, g.ordinary (by norm_num [exHeavy]) rfl⟩⟩
  refine .cons ⟨?_, ?_, rfl, rfl, rfl⟩ .nil
  · change (40 : ℝ) = 2 * 20; norm_num
  · change (10 : ℝ) = 2 * |5|; norm_num

/-! ## C43 -/

/-- What `set_water_table` changes. -/
theorem setWaterTable_frame {s t : Slope ℝ} {d : PyVal ℝ} (h : s.setWaterTable d = (t, .ok ())) :
    ∃ rl wd, t = ({ s with waterRL := rl, waterDepth := wd } : Slope ℝ).resetResults := by
  unfold Slope.setWaterTable at h
  split at h
  · cases h; exact ⟨_, _, rfl⟩
  · split at h
    · cases h
    · cases h; exact ⟨_, _, rfl⟩

/-- C43 (partial): a water table does not raise the factor of safety of the ordinary method, on any
circle with any end points, provided no friction angle is above 90 degrees: where there is a number
with water there is one without, and it is not lower. Missing: with friction angles above 90 degrees,
which `Material` accepts, it fails (`C43_water_can_raise`). -/
theorem C43_water_never_raises_partial (s t : Slope ℝ) (rc : Reachable s) (hs : SoundFriction s)
    (hd : Dry s) (d : PyVal ℝ) (h : s.setWaterTable d = (t, .ok ())) (cx cy r : ℝ) (l rt : ℝ × ℝ)
    (F' : ℝ) (e : t.ordinary cx cy r (some l) (some rt) = .ok F') :
    ∃ F, s.ordinary cx cy r (some l) (some rt) = .ok F ∧ F' ≤ F := by
  have rt' : Reachable t := by
    have := Reachable.call rc (.setWaterTable s d)
    rwa [h] at this
  obtain ⟨rl, wd, rfl⟩ := setWaterTable_frame h
  obtain ⟨h1, h2, h3, h4, h5, h6, h7, h8, rfl⟩ := (C55_ordinary_formula _ rt' cx cy r l rt F').mp e
  refine ⟨_, (C55_ordinary_formula s rc cx cy r l rt _).mpr
    ⟨h1, h2, h3, h4, h5, h6, ⟨_, hd.waterX⟩, h8, rfl⟩, ?_⟩
  unfold fellenius
  refine div_le_div_of_nonneg_right (sum_le_sum ?_) h8.le
  intro i hi
  have hx : l.1 < rt.1 := by norm_num at h4; linarith
  have hin : (centre l.1 rt.1 s.slices i - cx) ^ 2 < r ^ 2 := by
    have := h5 i (mem_range.mp hi)
    rw [← abs_of_pos h3, ← sq_lt_sq] at this
    exact this
  obtain ⟨a1, a2, a3, a4, a5, a6, a7⟩ := slice_facts (cy := cy) rt' h6 h3 hx hin
  obtain ⟨b1, b2, b3, b4, b5, b6, b7⟩ := slice_facts (cy := cy) rc h6 h3 hx hin
  have hu : (sliceOf s cx cy r l.1 rt.1 i).u = 0 := hd.pressure _ _ _
  refine add_le_add (le_refl _) (mul_le_mul_of_nonneg_right (max_le_max (le_refl _) ?_) (b7 hs))
  rw [hu, zero_mul, sub_zero]
  exact sub_le_self _ (mul_nonneg a6 (div_nonneg a1.le a4.le))

/-- `exOf` under water up to the crest: `s.set_water_table(0)`. -/
noncomputable def exWet (m : Material ℝ) : Slope ℝ :=
  { exOf m with waterRL := some (max 0 ((exOf m).topY - 0)), waterDepth := some 0 }

theorem exWet_eq (m : Material ℝ) : (exOf m).setWaterTable (.num 0) = (exWet m, .ok ()) := by
  simp [Slope.setWaterTable, assertPositiveNumber, PyCmp.ltb, PyVal.get!, Slope.resetResults, exWet,
    exOf, exSlope_search]

theorem exWet_RL (m : Material ℝ) : (exWet m).waterRL = some 9 := by
  change some (max 0 (exSlope.topY - 0)) = _
  rw [exSlope_topY]; norm_num

theorem exWet_ground {m : Material ℝ} (hc : Material.Constructed m) (hd : m.depth ≤ 9) :
    ExGround (exWet m) m := by
  have g := exOf_ground hc hd
  have r : Reachable (exWet m) := by
    have := Reachable.call g.reach (.setWaterTable _ (.num 0))
    rwa [exWet_eq] at this
  exact ⟨r, g.topX, g.extH, g.extL, g.length, g.height, rfl, rfl, rfl, g.mats⟩

theorem exWet_waterX {m : Material ℝ} (hc : Material.Constructed m) (hd : m.depth ≤ 9) :
    (exWet m).waterX = .ok (some (9, 6)) := by
  have g := exWet_ground hc hd
  unfold Slope.waterX Slope.getExternalX
  rw [exWet_RL, g.topY, g.botY, g.topX, g.extH]
  simp only [pyEq_real, lit_zero]
  norm_num

/-- A case of C43: the ground under water. -/
example : ∃ F F', (exWet (exFric 30 5)).ordinary 9 (35 / 3) (17 / 3) (some (4, 9)) (some (9, 6)) = .ok F' ∧
    (exOf (exFric 30 5)).ordinary 9 (35 / 3) (17 / 3) (some (4, 9)) (some (9, 6)) = .ok F ∧ F' ≤ F := by
  have hc := exFric_constructed 30 5 (by norm_num)
  have hd : (exFric 30 5).depth ≤ 9 := by simp [exFric]; norm_num
  have g := exWet_ground hc hd
  have e := g.ordinary (by norm_num [exFric]) (exWet_waterX hc hd)
  obtain ⟨F, h1, h2⟩ := C43_water_never_raises_partial _ _ (exOf_ground hc hd).reach (by
    intro l hl
    obtain rfl : l = _ := List.mem_singleton.mp hl
    change |(30 : ℝ)| ≤ 90
    norm_num) (.inl rfl) _ (exWet_eq _) _ _ _ _ _ _ e
  exact ⟨F, _, e, h1, h2⟩

/-- With a negative friction, water raises what a slice contributes. -/
theorem wetter {p q : Slice} (hc : p.c = q.c) (hb : p.b = q.b) (hcos : p.cos = q.cos) (hW : p.W = q.W)
    (hp : p.tan = -1) (hq : q.tan = -1) (hu : q.u = 0) (hu' : 0 ≤ p.u) (b0 : 0 < q.b) (c0 : 0 < q.cos)
    (W0 : 0 < q.W) :
    q.c * (q.b / q.cos) + max 0 (q.W * q.cos - q.u * (q.b / q.cos)) * q.tan ≤
      p.c * (p.b / p.cos) + max 0 (p.W * p.cos - p.u * (p.b / p.cos)) * p.tan ∧
    (0 < p.u → q.c * (q.b / q.cos) + max 0 (q.W * q.cos - q.u * (q.b / q.cos)) * q.tan <
      p.c * (p.b / p.cos) + max 0 (p.W * p.cos - p.u * (p.b / p.cos)) * p.tan) := by
  have h1 := mul_pos W0 c0
  have h2 := div_pos b0 c0
  rw [hc, hb, hcos, hW, hp, hq, hu, zero_mul, sub_zero, max_eq_right h1.le]
  constructor
  · have : max 0 (q.W * q.cos - p.u * (q.b / q.cos)) ≤ q.W * q.cos :=
      max_le h1.le (by linarith [mul_nonneg hu' h2.le])
    linarith
  · intro h3
    have : max 0 (q.W * q.cos - p.u * (q.b / q.cos)) < q.W * q.cos :=
      max_lt h1 (by linarith [mul_pos h3 h2])
    linarith

/-- C43 is violated: with `Material(20, 135, 0, 2)`, which is accepted, `set_water_table(0)` raises
the value the ordinary method gives the circle with centre (9, 35/3) and radius 17/3. -/
theorem C43_water_can_raise : ∃ s t : Slope ℝ, Reachable s ∧ s.waterRL = none ∧
    s.setWaterTable (.num 0) = (t, .ok ()) ∧ ∃ F F' : ℝ,
    s.ordinary 9 (35 / 3) (17 / 3) (some (4, 9)) (some (9, 6)) = .ok F ∧
    t.ordinary 9 (35 / 3) (17 / 3) (some (4, 9)) (some (9, 6)) = .ok F' ∧ F < F' := by
  have hc := exFric_constructed 135 0 (by norm_num)
  have hd : (exFric 135 0).depth ≤ 9 := by simp [exFric]; norm_num
  have g := exOf_ground hc hd
  have g' := exWet_ground hc hd
  refine ⟨_, _, g.reach, rfl, exWet_eq _, _, _, g.ordinary (by norm_num [exFric]) (water := none) rfl,
    g'.ordinary (by norm_num [exFric]) (exWet_waterX hc hd), ?_⟩
  unfold fellenius
  apply div_lt_div_of_pos_right _ (g.drives (by norm_num [exFric]))
  have ht : ∀ i < 25, (sliceOf (exOf (exFric 135 0)) 9 (35 / 3) (17 / 3) 4 9 i).tan = -1 := by
    intro i hi
    unfold Slice.tan
    rw [(g.slice hi).2.2.2.2.2.1]
    simp only [exFric]
    rw [abs_of_pos (by norm_num), tan_135]
  have key : ∀ i < 25, _ ∧ _ := fun i hi => by
    obtain ⟨c1, c2, c3, c4, c5, c6, c7, c8, c9, c10⟩ := g.slice hi
    have hW := g.weight_pos (by norm_num [exFric]) hi
    have hu0 : (sliceOf (exOf (exFric 135 0)) 9 (35 / 3) (17 / 3) 4 9 i).u = 0 := by rw [c10]; rfl
    have hwu := (slice_facts (cy := 35 / 3) (i := i) g'.reach g'.ne (by norm_num : (0 : ℝ) < 17 / 3)
      (by norm_num : (4 : ℝ) < 9) (g'.inside i (by rw [g'.slices]; exact hi))).2.2.2.2.2.1
    exact wetter (p := sliceOf (exWet (exFric 135 0)) 9 (35 / 3) (17 / 3) 4 9 i)
      (q := sliceOf (exOf (exFric 135 0)) 9 (35 / 3) (17 / 3) 4 9 i) rfl rfl rfl rfl (ht i hi) (ht i hi)
      hu0 hwu (by rw [c4]; norm_num) c8 hW
  apply sum_lt_sum
  · intro i hi
    exact (key i (mem_range.mp hi)).1
  · refine ⟨0, by simp, (key 0 (by norm_num)).2 ?_⟩
    obtain ⟨d1, d2, d3, d4, d5, d6, d7, d8, d9, d10⟩ := g'.slice (i := 0) (by norm_num)
    rw [d10]
    have hx : centre 4 9 25 0 = 41 / 10 := by unfold centre; norm_num
    have hgr : groundY (exWet (exFric 135 0)) (centre 4 9 25 0) = 9 := by
      unfold groundY
      rw [hx, g'.topX, g'.extH, if_pos (by norm_num)]
    rw [hgr] at d3 ⊢
    unfold pressureAt
    rw [exWet_RL, hgr]
    simp only
    rw [if_neg (by norm_num), if_neg (by norm_num), min_self, max_eq_left (by linarith), mul_one]
    exact mul_pos (by linarith) (by norm_num)

/-! ## C44 -/

theorem layerAt_forall2 {R : Layer ℝ → Layer ℝ → Prop} {a b : List (Layer ℝ)} (h : List.Forall₂ R a b)
    (hrl : ∀ x y, R x y → y.rl = x.rl) (y : ℝ) :
    (layerAt a y = none ∧ layerAt b y = none) ∨
      ∃ l l', layerAt a y = some l ∧ layerAt b y = some l' ∧ R l l' := by
  have hf : (a.find? (fun l => decide (l.rl < y)) = none ∧ b.find? (fun l => decide (l.rl < y)) = none) ∨
      ∃ l l', a.find? (fun l => decide (l.rl < y)) = some l ∧
        b.find? (fun l => decide (l.rl < y)) = some l' ∧ R l l' := by
    induction h with
    | nil => exact .inl ⟨rfl, rfl⟩
    | @cons u v us vs huv _ ih =>
      rw [List.find?_cons, List.find?_cons, hrl u v huv]
      by_cases c : u.rl < y
      · simp only [c, decide_true]; exact .inr ⟨_, _, rfl, rfl, huv⟩
      · simp only [c, decide_false]; exact ih
  unfold layerAt
  rcases hf with ⟨e1, e2⟩ | ⟨l, l', e1, e2, e3⟩
  · rw [e1, e2]
    simpa using forall2_getLast? h
  · rw [e1, e2]
    exact .inr ⟨l, l', rfl, rfl, e3⟩

theorem unitWeightAt_stronger {s t : Slope ℝ} (h : Stronger s t) :
    unitWeightAt t.materials = unitWeightAt s.materials := by
  funext y
  unfold unitWeightAt
  rcases layerAt_forall2 h.materials (fun x y hxy => hxy.2.2.2) y with ⟨e1, e2⟩ | ⟨l, l', e1, e2, e3⟩
  · rw [e1, e2]
  · rw [e1, e2]; exact e3.1

/-- The slices of a configuration with more cohesion. -/
theorem Stronger.slice {s t : Slope ℝ} (h : Stronger s t) (cx cy r xl xr : ℝ) (i : ℕ) :
    let p := sliceOf t cx cy r xl xr i
    let q := sliceOf s cx cy r xl xr i
    p.b = q.b ∧ p.W = q.W ∧ p.u = q.u ∧ p.φ = q.φ ∧ p.sin = q.sin ∧ p.cos = q.cos ∧ q.c ≤ p.c := by
  have hg : groundY t = groundY s := by
    funext x; unfold groundY; rw [h.topX, h.length, h.extH, h.height]
  have hp : pressureAt t = pressureAt s := by
    funext x yb yt; unfold pressureAt; rw [h.waterRL, hg, h.topX, h.length, h.waterH]
  have hw : weightOn t = weightOn s := by
    funext a b yb yt; unfold weightOn; rw [unitWeightAt_stronger h, h.udls, h.lls]
  intro p q
  simp only [p, q, sliceOf, h.slices, hg, hp, hw, true_and, and_true]
  rcases layerAt_forall2 h.materials (fun x y hxy => hxy.2.2.2)
    (cy - √(r ^ 2 - (xl + ((i : ℝ) + 1 / 2) * ((xr - xl) / s.slices) - cx) ^ 2))
    with ⟨e1, e2⟩ | ⟨l, l', e1, e2, e3⟩
  · simp only [e1, e2, le_refl, and_self]
  · simp only [e1, e2]
    exact ⟨e3.2.2.1, e3.2.1⟩

/-- C44: raising cohesions does not lower the factor of safety of the ordinary method, on any circle
with any end points. Nor does it lower the solution of Bishop's equation when the bases dip to the
toe. -/
theorem C44_cohesion_never_lowers (s t : Slope ℝ) (rs : Reachable s) (rt : Reachable t)
    (h : Stronger s t) (cx cy r : ℝ) (a b : ℝ × ℝ) :
    (∀ F, s.ordinary cx cy r (some a) (some b) = .ok F →
      ∃ F', t.ordinary cx cy r (some a) (some b) = .ok F' ∧ F ≤ F') ∧
    (Dips s.slices.toNat (sliceOf s cx cy r a.1 b.1) → a.1 ≤ b.1 →
      ∀ F F', 0 < F → 0 < F' → bishopRhs s.slices.toNat (sliceOf s cx cy r a.1 b.1) F = F →
        bishopRhs t.slices.toNat (sliceOf t cx cy r a.1 b.1) F' = F' → F ≤ F') := by
  have hsl := fun i => h.slice cx cy r a.1 b.1 i
  have hdr : driving s.slices.toNat (sliceOf t cx cy r a.1 b.1) =
      driving s.slices.toNat (sliceOf s cx cy r a.1 b.1) := by
    unfold driving
    apply sum_congr rfl
    intro i _
    obtain ⟨_, h2, _, _, h5, _⟩ := hsl i
    rw [h2, h5]
  constructor
  · intro F e
    obtain ⟨h1, h2, h3, h4, h5, h6, ⟨w, hw⟩, h8, rfl⟩ := (C55_ordinary_formula s rs cx cy r a b F).mp e
    have hm : t.materials ≠ [] := by
      intro c
      have := h.materials
      rw [c] at this
      cases hs : s.materials with
      | nil => exact h6 hs
      | cons x xs => rw [hs] at this; cases this
    have hwt : t.waterX = s.waterX := by
      unfold Slope.waterX Slope.getExternalX
      rw [h.waterRL, h.gradient, h.topX, h.topY, h.botX, h.botY, h.extL, h.extH]
    refine ⟨_, (C55_ordinary_formula t rt cx cy r a b _).mpr
      ⟨h1, h2, h3, h4, by rw [h.slices]; exact h5, hm, ⟨w, by rw [hwt, hw]⟩, by rw [h.slices, hdr]; exact h8,
        rfl⟩, ?_⟩
    unfold fellenius
    rw [h.slices, hdr]
    apply div_le_div_of_nonneg_right _ h8.le
    apply sum_le_sum
    intro i hi
    have hx : a.1 < b.1 := by norm_num at h4; linarith
    have hin : (centre a.1 b.1 s.slices i - cx) ^ 2 < r ^ 2 := by
      have := h5 i (mem_range.mp hi)
      rw [← abs_of_pos h3, ← sq_lt_sq] at this
      exact this
    obtain ⟨a1, a2, a3, a4, a5, a6, a7⟩ := slice_facts (cy := cy) rs h6 h3 hx hin
    obtain ⟨b1, b2, b3, b4, b5, b6, b7⟩ := hsl i
    unfold Slice.tan
    rw [b1, b2, b3, b4, b6]
    exact add_le_add (mul_le_mul_of_nonneg_right b7 (div_nonneg a1.le a4.le)) (le_refl _)
  · intro hD hab F F' hF hF' e e'
    rw [h.slices] at e'
    refine hD.solution_mono hdr ?_ hF hF' e e'
    intro i _
    obtain ⟨b1, b2, b3, b4, b5, b6, b7⟩ := hsl i
    refine ⟨b6, b5, by unfold Slice.tan; rw [b4], ?_⟩
    unfold Slice.hold Slice.tan
    rw [b1, b2, b3, b4]
    have hsl : 10 ≤ s.slices := rs.wf.sl.1
    have hn : (0 : ℝ) < s.slices := by
      have : (0 : Int) < s.slices := by omega
      exact_mod_cast this
    have : 0 ≤ (sliceOf s cx cy r a.1 b.1 i).b := div_nonneg (by linarith) hn.le
    exact add_le_add (mul_le_mul_of_nonneg_right b7 this) (le_refl _)

/-- A case of C44: cohesion 5 and cohesion 8; both have a value on the circle of the example. -/
example : Stronger (exOf (exFric 30 5)) (exOf (exFric 30 8)) ∧ Reachable (exOf (exFric 30 5)) ∧
    Reachable (exOf (exFric 30 8)) ∧
    ∃ F, (exOf (exFric 30 5)).ordinary 9 (35 / 3) (17 / 3) (some (4, 9)) (some (9, 6)) = .ok F := by
  have g := exFric_ground 30 5 (by norm_num)
  refine ⟨⟨by constructor <;> rfl, ?_, rfl, rfl⟩, g.reach, (exFric_ground 30 8 (by norm_num)).reach,
    ⟨_, g.ordinary (by norm_num [exFric]) rfl⟩⟩
  refine .cons ⟨rfl, ?_, rfl, rfl⟩ .nil
  change |(5 : ℝ)| ≤ |8|; norm_num

/-! ## C45 -/

/-- No material is lighter than water. -/
def HeavierThanWater (s : Slope ℝ) : Prop := ∀ l ∈ s.materials, 9.81 ≤ l.mat.unitWeight

/-- In ground not lighter than water the pressure on a base carries no more than the slice. -/
theorem pressure_le_weight {s : Slope ℝ} (rc : Reachable s) (hm : s.materials ≠ [])
    (hh : HeavierThanWater s) {cx cy r xl xr : ℝ} (hx : xl < xr) (i : ℕ) :
    (sliceOf s cx cy r xl xr i).u * (sliceOf s cx cy r xl xr i).b ≤ (sliceOf s cx cy r xl xr i).W := by
  have hsl : 10 ≤ s.slices := rc.wf.sl.1
  have hn : (0 : ℝ) < s.slices := by
    have : (0 : Int) < s.slices := by omega
    exact_mod_cast this
  have hb : 0 < (xr - xl) / s.slices := div_pos (by linarith) hn
  set b := (xr - xl) / s.slices with hbd
  set x := xl + ((i : ℝ) + 1 / 2) * b with hxd
  set yb := cy - √(r ^ 2 - (x - cx) ^ 2) with hyb
  have hyt : yb ≤ max (groundY s x) yb := le_max_right _ _
  set yt := max (groundY s x) yb with hytd
  change pressureAt s x yb yt * b ≤ weightOn s (xl + i * b) (xl + (i + 1) * b) yb yt
  have h1 : pressureAt s x yb yt ≤ 9.81 * (yt - yb) := by
    unfold pressureAt
    have h0 : (0 : ℝ) ≤ 9.81 * (yt - yb) := mul_nonneg (by norm_num) (by linarith)
    cases s.waterRL with
    | none => exact h0
    | some z =>
      simp only
      split
      · exact h0
      · have h2 : max (min z yt - yb) 0 ≤ yt - yb :=
          max_le (by linarith [min_le_right z yt]) (by linarith)
        have h3 : 0 ≤ max (min z yt - yb) 0 := le_max_right _ _
        have h4 : max (min z yt - yb) 0 * 9.81 ≤ 9.81 * (yt - yb) := by
          rw [mul_comm]
          exact mul_le_mul_of_nonneg_left h2 (by norm_num)
        refine le_trans ?_ h4
        apply mul_le_of_le_one_right (mul_nonneg h3 (by norm_num))
        split
        · exact rc.wf.wh.2
        · exact le_refl _
  have h2 : 9.81 * (yt - yb) ≤ ∫ y in yb..yt, unitWeightAt s.materials y := by
    have h3 : (∫ _ in yb..yt, (9.81 : ℝ)) = 9.81 * (yt - yb) := by
      rw [intervalIntegral.integral_const, smul_eq_mul, mul_comm]
    rw [← h3]
    apply intervalIntegral.integral_mono_on hyt
    · exact intervalIntegrable_const
    · exact unitWeightAt_integrable _ _ _
    · intro y _
      unfold unitWeightAt
      obtain ⟨l, hl, hlm, _⟩ := strengthAt_eq rc hm y
      rw [hl]
      exact hh l hlm
  have h4 : 0 ≤ (s.udls.map fun u => u.load.magnitude *
      common (xl + i * b) (xl + (i + 1) * b) u.left u.right).sum := by
    apply list_sum_nonneg
    intro u hu
    exact mul_nonneg (rc.sane.udl u.load (List.mem_map_of_mem hu)).1.le (le_max_right _ _)
  have h5 : 0 ≤ (s.lls.map fun l => if xl + i * b ≤ l.coord ∧ l.coord < xl + (i + 1) * b then
      l.load.magnitude else 0).sum := by
    apply list_sum_nonneg
    intro u hu
    split
    · exact (rc.sane.ll u.load (List.mem_map_of_mem hu)).le
    · exact le_refl _
  unfold weightOn
  have h6 : xl + ((i : ℝ) + 1) * b - (xl + i * b) = b := by ring
  rw [h6]
  have h7 := mul_le_mul_of_nonneg_right (h1.trans h2) hb.le
  linarith

/-- The slices of a circle whose bases dip to the toe. -/
theorem dips_of {s : Slope ℝ} (rc : Reachable s) (hs : SoundFriction s) (hh : HeavierThanWater s)
    {cx cy r F0 : ℝ} {l rt : ℝ × ℝ} (e : s.ordinary cx cy r (some l) (some rt) = .ok F0) (h0 : F0 ≠ 0)
    (hd : ∀ i < s.slices.toNat, 0 ≤ (sliceOf s cx cy r l.1 rt.1 i).sin) :
    0 < F0 ∧ Dips s.slices.toNat (sliceOf s cx cy r l.1 rt.1) := by
  have hF : 0 < F0 := lt_of_le_of_ne (fellenius_nonneg rc hs e) (Ne.symm h0)
  obtain ⟨h1, h2, h3, h4, h5, h6, water, hw, hf, hdr, rfl⟩ := ordinary_spec rc e
  have hx : l.1 < rt.1 := by norm_num at h4; linarith
  have facts := fun i hi => slice_facts (cy := cy) (i := i) rc h5 h3 hx (h6 i hi)
  have hle := fun i => pressure_le_weight (cx := cx) (cy := cy) (r := r) rc h5 hh hx i
  have hhold : ∀ i < s.slices.toNat, 0 ≤ (sliceOf s cx cy r l.1 rt.1 i).hold := by
    intro i hi
    obtain ⟨a1, a2, a3, a4, a5, a6, a7⟩ := facts i hi
    exact add_nonneg (mul_nonneg a2 a1.le) (mul_nonneg (sub_nonneg.mpr (hle i)) (a7 hs))
  refine ⟨hF, fun i hi => (facts i hi).2.2.2.1, hd, fun i hi => (facts i hi).2.2.2.2.2.2 hs, hhold, ?_,
    hdr⟩
  by_contra hc
  push Not at hc
  apply h0
  unfold fellenius
  rw [div_eq_zero_iff]
  left
  apply sum_eq_zero
  intro i hi
  have hi := mem_range.mp hi
  obtain ⟨a1, a2, a3, a4, a5, a6, a7⟩ := facts i hi
  have z := le_antisymm (hc i hi) (hhold i hi)
  have z1 := mul_nonneg a2 a1.le
  have z2 := mul_nonneg (sub_nonneg.mpr (hle i)) (a7 hs)
  unfold Slice.hold at z
  have z3 : (sliceOf s cx cy r l.1 rt.1 i).c * (sliceOf s cx cy r l.1 rt.1 i).b = 0 := by linarith
  have z4 : ((sliceOf s cx cy r l.1 rt.1 i).W - (sliceOf s cx cy r l.1 rt.1 i).u *
      (sliceOf s cx cy r l.1 rt.1 i).b) * (sliceOf s cx cy r l.1 rt.1 i).tan = 0 := by linarith
  have z5 : (sliceOf s cx cy r l.1 rt.1 i).c = 0 := (mul_eq_zero.mp z3).resolve_right a1.ne'
  rw [z5, zero_mul, zero_add]
  rcases mul_eq_zero.mp z4 with z6 | z6
  · have hcos : (sliceOf s cx cy r l.1 rt.1 i).cos ≤ 1 := by
      change √(r ^ 2 - (centre l.1 rt.1 s.slices i - cx) ^ 2) / r ≤ 1
      rw [div_le_one h3, Real.sqrt_le_left h3.le]
      linarith [sq_nonneg (centre l.1 rt.1 s.slices i - cx)]
    have : (sliceOf s cx cy r l.1 rt.1 i).W * (sliceOf s cx cy r l.1 rt.1 i).cos -
        (sliceOf s cx cy r l.1 rt.1 i).u *
          ((sliceOf s cx cy r l.1 rt.1 i).b / (sliceOf s cx cy r l.1 rt.1 i).cos) ≤ 0 := by
      rw [← mul_div_assoc, ← sub_eq_zero.mp z6, sub_nonpos, le_div_iff₀ a4]
      have := mul_le_one₀ hcos a4.le hcos
      nlinarith
    rw [max_eq_left this, zero_mul]
  · rw [z6, mul_zero]

/-- C45: suppose every base of a circle dips to the toe, no material is lighter than water, no
friction angle is above 90 degrees, and the ordinary method gives a number other than 0. Then the
iterates of Bishop's equation from that number are positive, go one way and converge to a solution of
the equation, which is its only positive solution if it has one. And for every tolerance the code
reports an iterate that differs from the one before by less than the tolerance, given enough turns;
with fewer turns it reports the last one. -/
theorem C45_converges (s : Slope ℝ) (rc : Reachable s) (hs : SoundFriction s) (hh : HeavierThanWater s)
    (cx cy r F0 : ℝ) (l rt : ℝ × ℝ) (he : s.bishopEnds cx cy r none none = .ok (l, rt))
    (e : s.ordinary cx cy r (some l) (some rt) = .ok F0) (h0 : F0 ≠ 0)
    (hd : ∀ i < s.slices.toNat, 0 ≤ (sliceOf s cx cy r l.1 rt.1 i).sin) :
    let n := s.slices.toNat
    let q := sliceOf s cx cy r l.1 rt.1
    let f : ℕ → ℝ := fun k => (bishopRhs n q)^[k] F0
    (∀ k, 0 < f k) ∧ (Monotone f ∨ Antitone f) ∧
    (∃ L, 0 ≤ L ∧ Tendsto f atTop (𝓝 L) ∧ bishopRhs n q L = L ∧
      ∀ G, 0 < G → bishopRhs n q G = G → L = G) ∧
    ∀ tol : ℝ, 0 < tol → ∃ K : ℕ, |f (K + 1) - f K| < tol ∧
      ∀ m : Int, ({ s with tolerance := tol, maxIterations := m } : Slope ℝ).bishop cx cy r none none =
        .ok (f (min m.toNat (K + 1))) := by
  intro n q f
  obtain ⟨hF, hD⟩ := dips_of rc hs hh e h0 hd
  refine ⟨hD.iter_pos hF, hD.iter_monotone hF, hD.iter_tendsto hF, ?_⟩
  intro tol ht
  obtain ⟨K, hK, hK'⟩ := hD.settles hF ht
  refine ⟨K, hK, ?_⟩
  intro m
  have hsl : 10 ≤ s.slices := rc.wf.sl.1
  obtain ⟨_, _, _, _, _, _, water, hw, hf, _⟩ := ordinary_spec rc e
  have he' : ({ s with tolerance := tol, maxIterations := m } : Slope ℝ).bishopEnds cx cy r none none =
      .ok (l, rt) := he
  have e' : ({ s with tolerance := tol, maxIterations := m } : Slope ℝ).ordinary cx cy r (some l)
      (some rt) = .ok F0 := e
  have e1 : ({ s with tolerance := tol, maxIterations := m } : Slope ℝ).bishop cx cy r none none =
      bishopLoop (s.width l.1 rt.1) tol (s.forces water cx cy r l.1 rt.1) m.toNat F0 :=
    bishop_eq (s := { s with tolerance := tol, maxIterations := m }) (by change 2 ≤ s.slices; omega)
      he' e' hw
  rw [e1, hf]
  exact hD.loop (fun _ => rfl) hF hK hK' m.toNat

/-- A case of C45: the circle of the example in a soil with friction. -/
example : ∃ (s : Slope ℝ) (F0 : ℝ), Reachable s ∧ SoundFriction s ∧ HeavierThanWater s ∧
    s.bishopEnds 9 (35 / 3) (17 / 3) none none = .ok ((4, 9), (9, 6)) ∧
    s.ordinary 9 (35 / 3) (17 / 3) (some (4, 9)) (some (9, 6)) = .ok F0 ∧ F0 ≠ 0 ∧
    ∀ i < s.slices.toNat, 0 ≤ (sliceOf s 9 (35 / 3) (17 / 3) 4 9 i).sin := by
  have g := exFric_ground 30 5 (by norm_num)
  refine ⟨exOf (exFric 30 5), _, g.reach, ?_, ?_, g.ends, g.ordinary (by norm_num [exFric]) (water := none) rfl,
    ?_, ?_⟩
  · intro l hl
    obtain rfl : l = _ := List.mem_singleton.mp hl
    change |(30 : ℝ)| ≤ 90
    norm_num
  · intro l hl
    obtain rfl : l = _ := List.mem_singleton.mp hl
    change (9.81 : ℝ) ≤ 20
    norm_num
  · apply ne_of_gt
    unfold fellenius
    apply div_pos _ (g.drives (by norm_num [exFric]))
    apply sum_pos
    · intro i hi
      obtain ⟨_, _, _, a4, a5, a6, a7, a8, a9, a10⟩ := g.slice (mem_range.mp hi)
      apply add_pos_of_pos_of_nonneg
      · rw [a5, a4]
        have : (0 : ℝ) < (exFric 30 5).cohesion := by change (0 : ℝ) < |5|; norm_num
        positivity
      · apply mul_nonneg (le_max_left _ _)
        unfold Slice.tan
        rw [a6]
        exact tan_nonneg_deg (by simp [exFric]) (by change |(30 : ℝ)| ≤ 90; norm_num)
    · exact ⟨0, by simp⟩
  · intro i hi
    exact (g.slice (by rw [g.slices] at hi; exact hi)).2.2.2.2.2.2.1.le

/-! ## C56 -/

/-- C56: without friction, what Bishop's method reports for a circle is what the ordinary method
gives it, whatever the tolerance and the number of turns; and if the ordinary method gives a number
other than 0, Bishop's method reports one. -/
theorem C56_no_friction (s : Slope ℝ) (rc : Reachable s)
    (hφ : ∀ l ∈ s.materials, l.mat.frictionAngle = 0) (cx cy r : ℝ) (l rt : ℝ × ℝ)
    (he : s.bishopEnds cx cy r none none = .ok (l, rt)) :
    (∀ F, s.bishop cx cy r none none = .ok F → s.ordinary cx cy r (some l) (some rt) = .ok F) ∧
    ∀ F, s.ordinary cx cy r (some l) (some rt) = .ok F → F ≠ 0 →
      s.bishop cx cy r none none = .ok F := by
  have htan : s.materials ≠ [] → ∀ i, (sliceOf s cx cy r l.1 rt.1 i).tan = 0 := by
    intro hm i
    obtain ⟨ly, hl, hlm, _⟩ := strengthAt_eq rc hm
      (cy - √(r ^ 2 - (l.1 + ((i : ℝ) + 1 / 2) * ((rt.1 - l.1) / s.slices) - cx) ^ 2))
    unfold Slice.tan sliceOf
    simp only [hl, hφ ly hlm, zero_mul, Real.tan_zero]
  have hrhs : s.materials ≠ [] → ∀ F, F ≠ 0 →
      bishopRhs s.slices.toNat (sliceOf s cx cy r l.1 rt.1) F =
        fellenius s.slices.toNat (sliceOf s cx cy r l.1 rt.1) := by
    intro hm F hF
    unfold bishopRhs fellenius
    rw [if_neg hF]
    congr 1
    apply sum_congr rfl
    intro i _
    rw [htan hm i]
    simp only [mul_zero, add_zero, zero_div]
    ring
  constructor
  · intro F e
    obtain ⟨l', rt', F0, he', ho, hl⟩ := bishop_spec rc e
    rw [he] at he'
    cases he'
    obtain ⟨_, _, _, _, hm, _, _, _, _, _, hF⟩ := ordinary_spec rc ho
    obtain ⟨k, f, h1, h2, h3, h4, h5, h6⟩ :=
      bishopLoop_ok (w := (rt.1 - l.1) / s.slices) (fun _ => rfl) _ _ _ hl
    have key : ∀ i ≤ k, f i = F0 := by
      intro i hi
      induction i with
      | zero => exact h2
      | succ i ih =>
        rw [(h4 i (by omega)).1, ih (by omega)]
        by_cases c : F0 = 0
        · rw [c]; simp [bishopRhs]
        · rw [hrhs hm F0 c, hF]
    rw [← h3, key k le_rfl]
    exact ho
  · intro F ho hF
    have hsl : 10 ≤ s.slices := rc.wf.sl.1
    obtain ⟨_, _, h3, h4, hm, hin, water, hw, hf, hdr, hFe⟩ := ordinary_spec rc ho
    have hx : l.1 < rt.1 := by norm_num at h4; linarith
    rw [bishop_eq (by omega) he ho hw, hf]
    have hlist : ∀ g ∈ listOf s.slices.toNat (sliceOf s cx cy r l.1 rt.1),
        g.tanPhi = 0 ∧ 0 < g.cosA ∧ 0 ≤ g.c := by
      intro g hg
      unfold listOf at hg
      obtain ⟨i, hi, rfl⟩ := List.mem_map.mp hg
      obtain ⟨a1, a2, a3, a4, _⟩ := slice_facts (cy := cy) rc hm h3 hx (hin i (List.mem_range.mp hi))
      exact ⟨htan hm i, a4, a2⟩
    apply bishopLoop_undrained _ hlist _ _ hF
    · rw [hFe]
      exact (listOf_ordinary (w := (rt.1 - l.1) / s.slices) (fun i => rfl)).symm
    · have hn : (0 : ℝ) < s.slices := by
        have : (0 : Int) < s.slices := by omega
        exact_mod_cast this
      exact div_pos (by linarith) hn
    · rw [listOf_driving]; exact hdr

/-- A case of C56: the example. -/
example : (∀ l ∈ exSoil.materials, l.mat.frictionAngle = 0) ∧
    exSoil.bishop 9 (35 / 3) (17 / 3) none none = .ok exFos := by
  refine ⟨?_, exBishop⟩
  intro l hl
  obtain rfl : l = _ := List.mem_singleton.mp hl
  rfl

end PySlope
