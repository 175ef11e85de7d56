import Verif.Props.PlotFlat
import Verif.Props.WebTotal
import Verif.Props.Session

/-! # A form the web application accepts

A steep slope of clay, 3 m high and 1 m long, with limits that let the slips start within a millimetre
and end within a millimetre. For a suitable cohesion the critical factor of safety is at most 5 and the
critical failure is drawn. This is the case for C77 and C78 in which a form is accepted, one for C81
with a search, and one for C71 with limits. -/

namespace PySlope

noncomputable def accMat (c : ℝ) : Material ℝ :=
  { unitWeight := 20, frictionAngle := 0, cohesion := |c|, depth := |2|
    tanPhi := Real.tan (0 * (Real.pi / 180)), name := "", userColor := none }

noncomputable def accForm (c : ℝ) : WebForm ℝ :=
  { byLength := true, height := 3, angle := 45, length := 1, slices := 25, iterations := 1000
    materials := [some { unitWeight := 20, frictionAngle := 0, cohesion := c, depth := 2, name := "", color := "" }]
    lls := [none], udls := [none]
    considerWater := false, waterDepth := 1, considerLimits := true, considerInternal := true
    leftX := 5, rightX := 6.5, leftXRight := 5.001, rightXLeft := 6.499, normal := true, critical := 1.5 }

noncomputable def steepSlope : Slope ℝ := freshSlope 3 1

noncomputable def accSlope (c : ℝ) : Slope ℝ :=
  { steepSlope with materials := [mkLayer steepSlope.extH 0 (accMat c)]
                    lim1 := 5, lim2 := 5.001, lim3 := 6.499, lim4 := 6.5, search := [] }

theorem accForm_valid (c : ℝ) : (accForm c).Valid := by
  constructor <;> norm_num [accForm]

theorem steep_extL : steepSlope.extL = 12 := by
  change max (max (5 * (1 : ℝ)) 10) (4 * 3) = 12
  norm_num

theorem steep_extH : steepSlope.extH = 9 := by
  change max (max (3 * (3 : ℝ)) 6) (5 * 1 / 2) = 9
  norm_num

theorem accForm_new (c : ℝ) : (accForm c).newSlope = .ok steepSlope := by
  obtain ⟨s, h⟩ := (newSlope_total (accForm c)).1 (by norm_num [accForm]) (by norm_num [accForm])
    (by norm_num [accForm])
  rw [h, (newSlope_eq h).2]
  congr 2
  change (if (true : Bool) = true then max (1 : ℝ) 0.001 else _) = 1
  norm_num

theorem steep_geo : Geo steepSlope := (newSlope_eq (accForm_new 1)).1.wf.geo

theorem steep_reachable : Reachable steepSlope := (newSlope_eq (accForm_new 1)).1

theorem steep_topX : steepSlope.topX = 5.5 := by
  have := steep_geo.topX
  rw [steep_extL] at this
  rw [this]
  change ((12 : ℝ) - 1) / 2 = 5.5
  norm_num

theorem setLls_zero {s : Slope ℝ} {u : LineLoad ℝ} (h : ¬ 0 < u.magnitude) :
    s.setLls [some u] = (s.updateLlCoordinates.resetResults, .ok ()) := by
  have : s.addLl (some u) = (s, .ok ()) := by
    unfold Slope.addLl
    simp only [lit_zero]
    rw [if_neg h]
  unfold Slope.setLls Slope.forEach Slope.forEach
  rw [this]
  rfl

theorem setUdls_zero {s : Slope ℝ} {u : Udl ℝ} (h : ¬ 0 < u.magnitude) :
    s.setUdls [some u] = (({ s.updateUdlCoordinates with
      udlMax := maxMagnitude s.updateUdlCoordinates.udls s.udlMax } : Slope ℝ).resetResults, .ok ()) := by
  have : s.addUdl (some u) = (s, .ok ()) := by
    unfold Slope.addUdl
    simp only [lit_zero]
    rw [if_neg h]
  unfold Slope.setUdls Slope.forEach Slope.forEach
  rw [this]
  rfl

theorem accForm_prepare (isColor : String → Bool) (c : ℝ) :
    (accForm c).prepare isColor = .ok (accSlope c) := by
  have e1 : steepSlope.updateAnalysisOptions (some (accForm c).slices) (some (accForm c).iterations) none none none =
      (steepSlope, .ok ()) := rfl
  have e2 : steepSlope.webMaterial isColor (some { unitWeight := 20, frictionAngle := 0, cohesion := c, depth := 2, name := "", color := "" }) =
      .ok { steepSlope with materials := [mkLayer steepSlope.extH 0 (accMat c)] } := by
    unfold Slope.webMaterial
    simp only [Option.getD_some]
    rw [(C01_material isColor _ _ _ _ _ _).1 20 0 c 2 "" "" ⟨rfl, by norm_num, by norm_num, rfl, by norm_num, rfl, rfl⟩ rfl rfl]
    simp only [bind, Except.bind]
    rw [setMaterials_one steep_geo rfl]
    have : steepSlope.deepen |2| = steepSlope := by
      unfold Slope.deepen
      rw [if_neg]
      rw [steep_extH]; norm_num
    simp only
    rw [this, Out.get_ok]
    simp [accMat]
    rfl
  set s2 : Slope ℝ := { steepSlope with materials := [mkLayer steepSlope.extH 0 (accMat c)] } with hs2
  have e3 : s2.webLl isColor none = .ok s2 := by
    unfold Slope.webLl
    simp only [bind, Except.bind]
    rw [(C02_signs_do_not_matter _ _ _).2.2.2.2.2.1]
    simp only
    rw [Out.get_ok, setLls_zero (by simp [WebLl.default])]
    rfl
  have e4 : s2.webUdl isColor none = .ok s2 := by
    unfold Slope.webUdl
    simp only [bind, Except.bind]
    rw [(C02_signs_do_not_matter _ _ _).2.1]
    simp only
    rw [Out.get_ok, setUdls_zero (by simp [WebUdl.default])]
    rfl
  have r2 : Reachable s2 := by
    have := steep_reachable.call (.setMaterials steepSlope [some (accMat c)] (by
      intro m hm; simp at hm; subst hm
      refine ⟨fun _ => false, .num 20, .num 0, .num c, .num 2, .none, .none, ?_⟩
      rw [(C01_material _ _ _ _ _ _ _).1 20 0 c 2 "" ""
        ⟨rfl, by norm_num, by norm_num, rfl, by norm_num, rfl, rfl⟩ rfl rfl]
      simp [accMat]))
    rw [setMaterials_one steep_geo rfl] at this
    have hd : steepSlope.deepen (accMat c).depth = steepSlope := by
      unfold Slope.deepen
      rw [if_neg]
      rw [steep_extH]; simp [accMat]; norm_num
    rw [hd] at this
    exact this
  have e5 : s2.webLimits (accForm c) = .ok (accSlope c) := by
    have hX : s2.topX = 5.5 := steep_topX
    have hL : s2.extL = 12 := steep_extL
    have := (C22_limits_ordered s2 r2).2.2.1 5 6.5 5.001 6.499 (by norm_num) (by norm_num) (by norm_num)
      (by norm_num) (by rw [hX]; norm_num) (by rw [hX, hL]; norm_num)
    change (s2.setAnalysisLimits (.num 5) (.num 6.5) (.num 5.001) (.num 6.499)).get = _
    rw [this, Out.get_ok]
    have h1 : min (5.001 : ℝ) s2.topX = 5.001 := by rw [hX]; norm_num
    have h2 : max (6.499 : ℝ) s2.topX = 6.499 := by rw [hX]; norm_num
    have h3 : min (6.5 : ℝ) s2.extL = 6.5 := by rw [hL]; norm_num
    rw [h1, h2, h3]
    rfl
  unfold WebForm.prepare
  rw [accForm_new]
  simp only [bind, Except.bind]
  rw [Out.get_ok.mpr e1]
  simp only
  have f1 : (accForm c).materials.foldlM (Slope.webMaterial isColor) steepSlope = .ok s2 := by
    change (steepSlope.webMaterial isColor (some _)).bind _ = _
    rw [e2]
    rfl
  have f2 : (accForm c).lls.foldlM (Slope.webLl isColor) s2 = .ok s2 := by
    change (s2.webLl isColor none).bind _ = _
    rw [e3]
    rfl
  have f3 : (accForm c).udls.foldlM (Slope.webUdl isColor) s2 = .ok s2 := by
    change (s2.webUdl isColor none).bind _ = _
    rw [e4]
    rfl
  rw [f1]
  simp only
  rw [f2]
  simp only
  rw [f3]
  exact e5

theorem accSlope_reachable (c : ℝ) : Reachable (accSlope c) :=
  (prepare_spec (accForm_valid c) (accForm_prepare (fun _ => true) c)).1

theorem acc_topX (c : ℝ) : (accSlope c).topX = 5.5 := steep_topX

theorem acc_topY (c : ℝ) : (accSlope c).topY = 9 := by
  rw [(accSlope_reachable c).wf.geo.topY]; exact steep_extH

theorem acc_botX (c : ℝ) : (accSlope c).botX = 6.5 := by
  rw [(accSlope_reachable c).wf.geo.botX, acc_topX]
  change (5.5 : ℝ) + 1 = 6.5
  norm_num

theorem acc_gradient (c : ℝ) : (accSlope c).gradient = 3 := by
  rw [(accSlope_reachable c).wf.geo.grad]
  change (3 : ℝ) / 1 = 3
  norm_num

theorem acc_slices (c : ℝ) : (accSlope c).slices = 25 := rfl

theorem acc_layer (c y : ℝ) : layerAt (accSlope c).materials y =
    some (mkLayer steepSlope.extH 0 (accMat c)) := by
  change layerAt [mkLayer steepSlope.extH 0 (accMat c)] y = _
  unfold layerAt
  simp only [List.find?_cons, List.find?_nil, List.getLast?_singleton]
  split <;> rfl

theorem acc_slice (c cx cy r xl xr : ℝ) (i : ℕ) :
    sliceOf (accSlope c) cx cy r xl xr i =
      { sliceOf (accSlope 1) cx cy r xl xr i with c := |c| } := by
  have hu : ∀ c, unitWeightAt (accSlope c).materials = fun _ => 20 := by
    intro c
    funext y
    unfold unitWeightAt
    rw [acc_layer]
    rfl
  unfold sliceOf weightOn
  simp only [hu, acc_layer]
  rfl

theorem acc_fellenius (c cx cy r xl xr : ℝ) :
    fellenius 25 (sliceOf (accSlope c) cx cy r xl xr) =
      |c| * fellenius 25 (sliceOf (accSlope 1) cx cy r xl xr) := by
  have h1 : ∀ i, (sliceOf (accSlope 1) cx cy r xl xr i).c = 1 := by
    intro i
    unfold sliceOf
    simp [acc_layer, mkLayer, accMat]
  have h2 : ∀ i, (sliceOf (accSlope 1) cx cy r xl xr i).tan = 0 := by
    intro i
    unfold sliceOf Slice.tan
    simp [acc_layer, mkLayer, accMat]
  unfold fellenius driving
  rw [← mul_div_assoc, Finset.mul_sum]
  congr 1
  · refine Finset.sum_congr rfl fun i _ => ?_
    rw [h1, h2, acc_slice]
    have : ({ sliceOf (accSlope 1) cx cy r xl xr i with c := |c| } : Slice).tan = 0 := h2 i
    rw [this]
    ring
  · refine Finset.sum_congr rfl fun i _ => ?_
    rw [acc_slice]

theorem acc_strong {c : ℝ} (hc : c ≠ 0) : HasStrength (accSlope c) := by
  left
  intro l hl
  obtain rfl : l = _ := List.mem_singleton.mp hl
  exact abs_pos.mpr hc

theorem acc_friction (c : ℝ) : ∀ l ∈ (accSlope c).materials, l.mat.frictionAngle = 0 := by
  intro l hl
  obtain rfl : l = _ := List.mem_singleton.mp hl
  rfl

theorem acc_sound (c : ℝ) : SoundFriction (accSlope c) := by
  intro l hl
  rw [acc_friction c l hl]
  norm_num

/-- The entry points of the search. -/
noncomputable def accEntries : List (ℝ × ℝ) :=
  (List.range 14).map fun (k : ℕ) => (5 + ((k : ℝ) / ((14 - 1 : ℤ) : ℝ)) * (5.001 - 5), steepSlope.topY)

theorem acc_entries (c : ℝ) : (accSlope c).entryPoints = .ok accEntries := by
  have hn : numPointsTop 1000 = 14 := (Nat.eq_sqrt.mpr ⟨by decide, by decide⟩).symm
  rw [entryPoints_eq]
  change (if (numPointsTop 1000 : ℤ) - 0 - 0 = 1 then _ else Except.ok (List.map _
    (List.range ((numPointsTop 1000 : ℤ) - 0 - 0).toNat) ++ [] ++ [])) = _
  rw [if_neg (by rw [hn]; decide), List.append_nil, List.append_nil]
  simp only [show (accSlope c).lls.length = 0 from rfl, show (accSlope c).udls.length = 0 from rfl,
    show (accSlope c).iterations.toNat = 1000 from rfl, hn]
  rfl

theorem acc_bounds {c : ℝ} {q : (ℝ × ℝ) × (ℝ × ℝ)} (hq : q ∈ farPairs (accSlope c) accEntries) :
    (5 ≤ q.1.1 ∧ q.1.1 ≤ 5.001) ∧ 6.499 < q.2.1 ∧ q.2.1 ≤ 6.5 := by
  unfold farPairs at hq
  obtain ⟨l, hl, hq⟩ := List.mem_flatMap.mp (List.mem_filter.mp hq).1
  obtain ⟨p, hp, hq⟩ := List.mem_filterMap.mp hq
  obtain ⟨h1, h2, y, h3, h4⟩ := exitPoints_mem (accSlope_reachable c).wf hp
  rw [h3] at hq
  cases hq
  refine ⟨?_, h1, h2⟩
  obtain ⟨k, hk, rfl⟩ := List.mem_map.mp hl
  exact even_mem (n := 14) (by simpa using List.mem_range.mp hk) (by decide) (a := 5) (b := 5.001) (by norm_num)

theorem acc_crestFace {c : ℝ} {q : (ℝ × ℝ) × (ℝ × ℝ)} (hq : q ∈ farPairs (accSlope c) accEntries) :
    CrestFace (accSlope c) q.1 q.2 ∧ 0.03 < q.2.1 - q.1.1 ∧ q.2.1 - q.1.1 ≤ q.1.2 - q.2.2 := by
  have far : ∀ q ∈ farPairs (accSlope c) accEntries, 0.03 < q.2.1 - q.1.1 := by
    intro q hq
    obtain ⟨⟨h1, h2⟩, h3, h4⟩ := acc_bounds hq
    norm_num at *
    linarith
  have cf := (search_arcs (accSlope_reachable c) (acc_entries c) (by
    intro l hl
    obtain ⟨k, hk, rfl⟩ := List.mem_map.mp hl
    have := even_mem (n := 14) (by simpa using List.mem_range.mp hk) (by decide) (a := 5) (b := 5.001) (by norm_num)
    rw [acc_topX]
    simp only
    norm_num at *
    constructor <;> linarith) (by rw [acc_botX]; exact le_refl _) far).1 q hq
  refine ⟨cf, far q hq, ?_⟩
  obtain ⟨⟨h1, h2⟩, h3, h4⟩ := acc_bounds hq
  rw [cf.crestY, cf.faceY, acc_topX, acc_gradient]
  norm_num at *
  linarith

theorem acc_far (c : ℝ) : farPairs (accSlope c) accEntries = farPairs (accSlope 1) accEntries := rfl

theorem acc_iterations (c : ℝ) : (accSlope c).iterations.toNat = 1000 := rfl

theorem acc_planes (c : ℝ) : (accSlope c).entryExitPlanes = .ok
    ((farPairs (accSlope 1) accEntries).flatMap fun q => arcPlanes q.1 q.2 5) := by
  rw [← acc_far c, show (5 : ℕ) = circlesFor (accSlope c).iterations.toNat from by
    rw [acc_iterations]; decide]
  exact (search_arcs (accSlope_reachable c) (acc_entries c) (by
    intro l hl
    obtain ⟨k, hk, rfl⟩ := List.mem_map.mp hl
    have := even_mem (n := 14) (by simpa using List.mem_range.mp hk) (by decide) (a := 5) (b := 5.001) (by norm_num)
    rw [acc_topX]
    simp only
    norm_num at *
    constructor <;> linarith) (by rw [acc_botX]; exact le_refl _) fun q hq => (acc_crestFace hq).2.1).2

theorem acc_pairs : farPairs (accSlope 1) accEntries ≠ [] := by
  have hb : (accSlope 1).exitPoints ≠ [] := by
    rw [exitPoints_eq]
    intro h
    rw [List.map_eq_nil_iff] at h
    have : numPointsBot 1000 = 0 := by
      rw [← acc_iterations 1]
      simpa using congrArg List.length h
    revert this
    have hn : numPointsTop 1000 = 14 := (Nat.eq_sqrt.mpr ⟨by decide, by decide⟩).symm
    unfold numPointsBot
    rw [hn]
    decide
  obtain ⟨p, hp⟩ := List.exists_mem_of_ne_nil _ hb
  obtain ⟨h1, h2, y, h3, h4⟩ := exitPoints_mem (accSlope_reachable 1).wf hp
  have hl : (5 + (((0 : ℕ) : ℝ) / ((14 - 1 : ℤ) : ℝ)) * (5.001 - 5), steepSlope.topY) ∈ accEntries :=
    List.mem_map.mpr ⟨0, by simp, rfl⟩
  have : ((5 + (((0 : ℕ) : ℝ) / ((14 - 1 : ℤ) : ℝ)) * (5.001 - 5), steepSlope.topY), (p.1, y)) ∈
      farPairs (accSlope 1) accEntries := by
    unfold farPairs
    refine List.mem_filter.mpr ⟨List.mem_flatMap.mpr ⟨_, hl, List.mem_filterMap.mpr ⟨p, hp, by rw [h3]; rfl⟩⟩, ?_⟩
    simp only [decide_eq_true_eq]
    have hd : (accSlope 1).minFailureDist ≤ 0 := min_le_left _ _
    refine lt_of_le_of_lt hd (Real.sqrt_pos.mpr ?_)
    have h6 : (6.499 : ℝ) < p.1 := h1
    have : 0 < (5 + (((0 : ℕ) : ℝ) / ((14 - 1 : ℤ) : ℝ)) * (5.001 - 5) - p.1) ^ 2 := by
      apply sq_pos_of_ne_zero
      norm_num at *
      intro h
      linarith
    positivity
  exact List.ne_nil_of_mem this

/-- The factor of safety of a circle is proportional to the cohesion. -/
theorem acc_fos {c : ℝ} (hc : c ≠ 0) {q : (ℝ × ℝ) × (ℝ × ℝ)} (hq : q ∈ farPairs (accSlope 1) accEntries)
    {p : Plane ℝ} (hp : p ∈ arcPlanes q.1 q.2 5) :
    fosOf (accSlope c) p = some (|c| * fellenius 25 (sliceOf (accSlope 1) p.cx p.cy p.radius q.1.1 q.2.1)) ∧
    0 < fellenius 25 (sliceOf (accSlope 1) p.cx p.cy p.radius q.1.1 q.2.1) := by
  obtain ⟨cf, far, steep⟩ := acc_crestFace (c := c) hq
  obtain ⟨σ, s0, s1, s2, rfl⟩ := mem_arcPlanes cf.lt hp
  have rc := accSlope_reachable c
  obtain ⟨F, f1, f2, -⟩ := cf.fos rc (acc_sound c) (.inl rfl) (by intro z hz; cases hz)
    (by intro h; cases h) (acc_strong hc) far steep s0 s1
  obtain ⟨rest, g1, g2⟩ := cf.found rc.wf.geo s0 s2 far
  have he : (accSlope c).bishopEnds (arcPlane q.1 q.2 σ).cx (arcPlane q.1 q.2 σ).cy
      (arcPlane q.1 q.2 σ).radius none none = .ok (q.1, q.2) := by
    unfold Slope.bishopEnds
    rw [g1]
    simp only
    rw [if_neg g2]
  have h1 := (C56_no_friction _ rc (acc_friction c) _ _ _ _ _ he).1 F (fosOf_some.mp f2)
  obtain ⟨-, -, -, -, -, -, -, -, h2⟩ := (C55_ordinary_formula _ rc _ _ _ _ _ _).mp h1
  have h3 : F = |c| * fellenius 25 (sliceOf (accSlope 1) (arcPlane q.1 q.2 σ).cx (arcPlane q.1 q.2 σ).cy
      (arcPlane q.1 q.2 σ).radius q.1.1 q.2.1) := by
    rw [← acc_fellenius]; exact h2
  rw [f2, h3]
  refine ⟨rfl, ?_⟩
  rw [h3] at f1
  exact (mul_pos_iff_of_pos_left (abs_pos.mpr hc)).mp f1

/-- The first arc, in terms of the distance across and the length of the chord. -/
theorem firstHeight_range {L R : ℝ × ℝ} (hx : L.1 < R.1) :
    (R.1 - L.1) / 4.4 ≤ firstHeight L R ∧ firstHeight L R ≤ (R.1 - L.1) / 2.2 ∧
    firstHeight L R = (R.1 - L.1) / 4.4 + firstHeight L R ^ 2 * (R.1 - L.1) / (1.1 * chordLength L R ^ 2) := by
  have hd : 0 < R.1 - L.1 := sub_pos.mpr hx
  obtain ⟨b1, b2⟩ := firstHeight_bounds hx
  have hQ : 0 < chordLength L R ^ 2 := by have := chordLength_pos hx; positivity
  have hQ' := chordLength_sq L R
  have hr : 0 < 1.1 * (chordLength L R ^ 2 / (2 * (R.1 - L.1))) := by positivity
  have hge : chordLength L R ^ 2 / 4 ≤ (1.1 * (chordLength L R ^ 2 / (2 * (R.1 - L.1)))) ^ 2 := by
    have h1 : (R.1 - L.1) ^ 2 ≤ chordLength L R ^ 2 := by rw [hQ']; nlinarith [sq_nonneg (L.2 - R.2)]
    rw [mul_pow, div_pow, div_le_iff₀ (by norm_num), mul_div_assoc', div_mul_eq_mul_div, le_div_iff₀ (by positivity)]
    nlinarith [mul_le_mul_of_nonneg_left h1 hQ.le]
  have hle : firstHeight L R ≤ 1.1 * (chordLength L R ^ 2 / (2 * (R.1 - L.1))) := by
    unfold firstHeight
    rw [hQ']
    exact sub_le_self _ (Real.sqrt_nonneg _)
  have heq : firstHeight L R ^ 2 + chordLength L R ^ 2 / 4 =
      2 * (1.1 * (chordLength L R ^ 2 / (2 * (R.1 - L.1)))) * firstHeight L R := by
    have h1 := Real.sq_sqrt (sub_nonneg.mpr hge)
    have h2 : firstHeight L R = 1.1 * (chordLength L R ^ 2 / (2 * (R.1 - L.1))) -
        √((1.1 * (chordLength L R ^ 2 / (2 * (R.1 - L.1)))) ^ 2 - chordLength L R ^ 2 / 4) := by
      rw [hQ']; rfl
    rw [h2]
    nlinarith [h1]
  generalize firstHeight L R = e at *
  generalize chordLength L R ^ 2 = Q at *
  generalize R.1 - L.1 = W at *
  have h3 : e ^ 2 * W + Q / 4 * W = 1.1 * Q * e := by
    have := congrArg (· * W) heq
    rw [add_mul] at this
    rw [this]
    field_simp
  have h4 : e * W * 2 ≤ 1.1 * Q := by
    rw [mul_div_assoc', le_div_iff₀ (by positivity)] at hle
    nlinarith
  refine ⟨?_, ?_, ?_⟩
  · rw [div_le_iff₀ (by norm_num)]
    have : 0 ≤ e ^ 2 * W := by positivity
    have : W * Q ≤ e * 4.4 * Q := by linarith
    exact le_of_mul_le_mul_right this hQ
  · rw [le_div_iff₀ (by norm_num)]
    have h5 : e ^ 2 * W * 2 ≤ 1.1 * Q * e := by nlinarith
    have : e * 2.2 * Q ≤ W * Q := by linarith
    exact le_of_mul_le_mul_right this hQ
  · field_simp
    linarith

theorem mem_arcPlanes_ge {L R : ℝ × ℝ} (hx : L.1 < R.1) {n : ℕ} {p : Plane ℝ} (hp : p ∈ arcPlanes L R n) :
    ∃ σ, firstHeight L R / n ≤ σ ∧ σ ≤ firstHeight L R ∧ p = arcPlane L R σ := by
  obtain ⟨b1, b2⟩ := firstHeight_bounds hx
  obtain ⟨i, hi, rfl⟩ := List.mem_map.mp hp
  rw [List.mem_range] at hi
  have hn : (0 : ℝ) < n := by exact_mod_cast (by omega : 0 < n)
  have hi' : (i : ℝ) + 1 ≤ n := by exact_mod_cast hi
  have hi0 : (0 : ℝ) ≤ i := Nat.cast_nonneg i
  refine ⟨_, ?_, ?_, rfl⟩
  · rw [div_le_div_iff_of_pos_right hn]
    nlinarith
  · rw [div_le_iff₀ hn]
    exact mul_le_mul_of_nonneg_left (by linarith) b1.le

theorem arc_numbers {W H D e σ : ℝ} (w1 : 1.498 ≤ W) (w2 : W ≤ 1.5) (g1 : 2.997 ≤ H) (g2 : H ≤ 3)
    (hD : 0 < D) (hDD : D ^ 2 = H ^ 2 + W ^ 2) (f0 : 0 < e) (f1 : W / 4.4 ≤ e) (f2 : e ≤ W / 2.2)
    (f3 : e = W / 4.4 + e ^ 2 * W / (1.1 * D ^ 2)) (s1 : e / 5 ≤ σ) (s2 : σ ≤ e) :
    0 < σ ∧ 0 ≤ arcRadius D σ ∧ arcRadius D σ * (Real.pi / 180) + 0.0015 ≤ 0.3664 ∧
    σ * (H / D) ≤ 0.36 := by
  have hWp : 0 < W := by norm_num at *; linarith
  have hHp : 0 < H := by norm_num at *; linarith
  have d1 : 11.226 ≤ D ^ 2 := by
    rw [hDD]
    have a1 : 2.997 * 2.997 ≤ H * H := mul_le_mul g1 g1 (by norm_num) hHp.le
    have a2 : 1.498 * 1.498 ≤ W * W := mul_le_mul w1 w1 (by norm_num) hWp.le
    norm_num at *; nlinarith
  have d2 : D ^ 2 ≤ 11.25 := by
    rw [hDD]
    have a1 : H * H ≤ 3 * 3 := mul_le_mul g2 g2 hHp.le (by norm_num)
    have a2 : W * W ≤ 1.5 * 1.5 := mul_le_mul w2 w2 hWp.le (by norm_num)
    norm_num at *; nlinarith
  have e1 : e ≤ 0.4 := by
    have a1 : e ≤ 0.682 := by norm_num at *; linarith
    have a2 : e ^ 2 ≤ 0.4652 := by norm_num at *; nlinarith
    have a3 : e ^ 2 * W / (1.1 * D ^ 2) ≤ 0.0566 := by
      rw [div_le_iff₀ (by positivity)]
      have : e ^ 2 * W ≤ 0.4652 * 1.5 := mul_le_mul a2 w2 hWp.le (by norm_num)
      norm_num at *; linarith
    rw [f3]
    norm_num at *; linarith
  have s0 : 0.068 ≤ σ := by norm_num at *; linarith
  have hσ : 0 < σ := by norm_num at *; linarith
  have hρ : arcRadius D σ ≤ 20.9 := by
    unfold arcRadius
    rw [div_le_iff₀ (by positivity)]
    have : σ ^ 2 ≤ 0.4 * σ := by nlinarith
    norm_num at *; nlinarith
  have hρ0 : 0 ≤ arcRadius D σ := by unfold arcRadius; positivity
  have hε : arcRadius D σ * (Real.pi / 180) + 0.0015 ≤ 0.3664 := by
    have a1 : Real.pi / 180 ≤ 0.017454 := by
      have := Real.pi_lt_d4
      norm_num at *; linarith
    have : arcRadius D σ * (Real.pi / 180) ≤ 20.9 * 0.017454 :=
      mul_le_mul hρ a1 (by positivity) (by norm_num)
    norm_num at *; linarith
  have hh : H / D ≤ 0.9 := by
    rw [div_le_iff₀ hD]
    refine le_of_sq_le_sq ?_ (by positivity)
    rw [mul_pow, hDD]
    have a1 : H * H ≤ 3 * 3 := mul_le_mul g2 g2 hHp.le (by norm_num)
    have a2 : 1.498 * 1.498 ≤ W * W := mul_le_mul w1 w1 (by norm_num) hWp.le
    norm_num at *; nlinarith
  have hsh : σ * (H / D) ≤ 0.36 := by
    have : σ * (H / D) ≤ 0.4 * 0.9 := mul_le_mul (le_trans s2 e1) hh (by positivity) (by norm_num)
    norm_num at *; linarith
  exact ⟨hσ, hρ0, hε, hsh⟩

/-- Each of these circles has a point of its lower half well between its end points and well under
the crest. -/
theorem acc_drawn {c : ℝ} {q : (ℝ × ℝ) × (ℝ × ℝ)} (hq : q ∈ farPairs (accSlope c) accEntries)
    {p : Plane ℝ} (hp : p ∈ arcPlanes q.1 q.2 5) : 0 ≤ p.radius ∧ ∃ z : ℝ × ℝ,
    OnCircle p.cx p.cy p.radius z ∧ z.2 ≤ p.cy ∧
    p.lc.1 + (p.radius * (Real.pi / 180) + 0.0015) ≤ z.1 ∧
    z.1 ≤ p.rc.1 - (p.radius * (Real.pi / 180) + 0.0015) ∧
    z.2 ≤ p.lc.2 - (p.radius * (Real.pi / 180) + 0.0015) := by
  obtain ⟨⟨b1, b2⟩, b3, b4⟩ := acc_bounds hq
  obtain ⟨cf, -, -⟩ := acc_crestFace hq
  obtain ⟨σ, s1, s2, rfl⟩ := mem_arcPlanes_ge cf.lt hp
  obtain ⟨f1, f2, f3⟩ := firstHeight_range cf.lt
  have f0 := (firstHeight_bounds cf.lt).1
  have hD := chordLength_pos cf.lt
  have hDD := chordLength_sq q.1 q.2
  have hH : q.1.2 - q.2.2 = 3 * (q.2.1 - 5.5) := by
    rw [cf.crestY, cf.faceY, acc_topX, acc_gradient]; ring
  obtain ⟨⟨x, y⟩, ⟨x', y'⟩⟩ := q
  simp only [arcPlane] at *
  generalize chordLength (x, y) (x', y') = D at *
  generalize firstHeight (x, y) (x', y') = e at *
  set W := x' - x with hW
  set H := y - y' with hHd
  have w1 : 1.498 ≤ W := by norm_num at *; linarith
  have w2 : W ≤ 1.5 := by norm_num at *; linarith
  have g1 : 2.997 ≤ H := by norm_num at *; linarith
  have g2 : H ≤ 3 := by norm_num at *; linarith
  have hWp : 0 < W := by norm_num at *; linarith
  have hHp : 0 < H := by norm_num at *; linarith
  obtain ⟨hσ, hρ0, hε, hsh⟩ := arc_numbers w1 w2 g1 g2 hD hDD f0 f1 f2 f3 (by simpa using s1) s2
  have hsh0 : 0 ≤ σ * (H / D) := by positivity
  have hsw0 : 0 ≤ σ * (W / D) := by positivity
  have hone : (H / D) ^ 2 + (W / D) ^ 2 = 1 := by
    rw [div_pow, div_pow, ← add_div, ← hDD]
    exact div_self (by positivity)
  refine ⟨hρ0, ((x + x') / 2 - σ * (H / D), (y + y') / 2 - σ * (W / D)), ?_, ?_, ?_, ?_, ?_⟩
  · unfold OnCircle
    simp only
    have : arcRadius D σ ^ 2 = arcRadius D σ ^ 2 * ((H / D) ^ 2 + (W / D) ^ 2) := by rw [hone, mul_one]
    rw [this]
    ring
  · simp only
    have : 0 ≤ W / D * arcRadius D σ := by positivity
    linarith
  · norm_num at hε hsh w1 ⊢; linarith
  · norm_num at hε w1 ⊢; linarith
  · norm_num at hε g1 ⊢; linarith

/-- Analysed with the limit 5 and the suitable cohesion, the slope has a critical failure, and it is
drawn. -/
theorem acc_plot : ∃ c : ℝ, c ≠ 0 ∧ ∃ t p, (accSlope c).analyseSlope (some 5) = (t, .ok ()) ∧
    t.plotCritical = .ok p := by
  obtain ⟨q, hq⟩ := List.exists_mem_of_ne_nil _ acc_pairs
  have hp : arcPlane q.1 q.2 (firstHeight q.1 q.2 * (((5 : ℕ) : ℝ) - (0 : ℕ)) / (5 : ℕ)) ∈ arcPlanes q.1 q.2 5 :=
    List.mem_map.mpr ⟨0, by simp, rfl⟩
  generalize arcPlane q.1 q.2 (firstHeight q.1 q.2 * (((5 : ℕ) : ℝ) - (0 : ℕ)) / (5 : ℕ)) = p at hp
  have hF := (acc_fos one_ne_zero hq hp).2
  set F := fellenius 25 (sliceOf (accSlope 1) p.cx p.cy p.radius q.1.1 q.2.1) with hFd
  have hc : 1 / F ≠ 0 := (div_pos one_pos hF).ne'
  refine ⟨1 / F, hc, ?_⟩
  have rc := accSlope_reachable (1 / F)
  have hall : ∀ p' ∈ (farPairs (accSlope 1) accEntries).flatMap fun q => arcPlanes q.1 q.2 5,
      ∃ G, fosOf (accSlope (1 / F)) p' = some G ∧ 0 < G := by
    intro p' hp'
    obtain ⟨q', hq', h⟩ := List.mem_flatMap.mp hp'
    obtain ⟨h1, h2⟩ := acc_fos hc hq' h
    exact ⟨_, h1, mul_pos (abs_pos.mpr hc) h2⟩
  obtain ⟨a1, a2, a3⟩ := analyse_all (s := accSlope (1 / F)) (.inr ⟨rfl, acc_planes _⟩)
    (fun p' hp' => (hall p' hp').imp fun G h => h.1) (some 5)
  have a3 := a3 5 (by norm_num)
  have he : (accSlope (1 / F)).analyseSlope (some 5) =
      (((accSlope (1 / F)).analyseSlope (some 5)).1, .ok ()) := Prod.ext rfl a1
  have hmem : withFos (accSlope (1 / F)) p ∈ ((accSlope (1 / F)).analyseSlope (some 5)).1.search := by
    rw [a3]
    refine List.mem_filter.mpr ⟨a2.mem_iff.mpr (List.mem_map.mpr ⟨p, List.mem_flatMap.mpr ⟨q, hq, hp⟩, rfl⟩), ?_⟩
    have := (acc_fos hc hq hp).1
    rw [← hFd, abs_of_pos (div_pos one_pos hF), div_mul_cancel₀ _ hF.ne'] at this
    rw [decide_eq_true_eq]
    unfold fosKey
    rw [fosVal_withFos, this]
    norm_num
  have hsub : ∀ x ∈ ((accSlope (1 / F)).analyseSlope (some 5)).1.search, ∃ q' ∈ farPairs (accSlope 1) accEntries,
      ∃ p' ∈ arcPlanes q'.1 q'.2 5, x = withFos (accSlope (1 / F)) p' := by
    intro x hx
    rw [a3] at hx
    obtain ⟨p', hp', rfl⟩ := List.mem_map.mp (a2.mem_iff.mp (List.mem_filter.mp hx).1)
    obtain ⟨q', hq', h⟩ := List.mem_flatMap.mp hp'
    exact ⟨q', hq', p', h, rfl⟩
  obtain ⟨m1, m2, m3, m4⟩ : (((accSlope (1 / F)).analyseSlope (some 5)).1.materials = (accSlope (1 / F)).materials ∧
      ((accSlope (1 / F)).analyseSlope (some 5)).1.topY = (accSlope (1 / F)).topY ∧
      ((accSlope (1 / F)).analyseSlope (some 5)).1.waterRL = none ∧
      ((accSlope (1 / F)).analyseSlope (some 5)).1.udls = []) := by
    obtain ⟨ps, _, _, h⟩ := analyseSlope_ok he
    rw [h]
    exact ⟨rfl, rfl, rfl, rfl⟩
  generalize ht : ((accSlope (1 / F)).analyseSlope (some 5)).1 = t at *
  have rt : Reachable t := by
    have := rc.call (.analyseSlope _ (some 5))
    rwa [ht] at this
  obtain ⟨b, hb, -⟩ := C62_plot_ends_partial t rt (by
    intro l hl
    rw [m1] at hl
    obtain rfl : l = _ := List.mem_singleton.mp hl
    rw [m2, acc_topY]
    change steepSlope.extH - |2| = 9 - |2| ∧ |(2 : ℝ)| ≤ 9
    rw [steep_extH]
    norm_num) (by rw [m3]; intro y hy; cases hy) (.inl m4)
  obtain ⟨x, rest, hx⟩ : ∃ x rest, t.search = x :: rest := by
    cases h : t.search with
    | nil => rw [h] at hmem; cases hmem
    | cons x rest => exact ⟨x, rest, rfl⟩
  obtain ⟨q', hq', p', hp', rfl⟩ := hsub x (by rw [hx]; simp)
  obtain ⟨d0, z, d1, d2, d3, d4, d5⟩ := acc_drawn hq' hp'
  obtain ⟨G, g1, g2⟩ := hall p' (List.mem_flatMap.mpr ⟨q', hq', hp'⟩)
  obtain ⟨line, colour, h⟩ := C82_critical_drawn_partial (accSlope (1 / F)) t (some 5) he hb
    (F := G) (cx := p'.cx) (cy := p'.cy) (r := p'.radius) (l := p'.lc) (rt := p'.rc)
    (by unfold Slope.getMinFos; rw [hx]; simp only [withFos]; rw [g1])
    (by unfold Slope.getMinFosCircle; rw [hx]; rfl)
    (by unfold Slope.getMinFosEndPoints; rw [hx]; rfl) g2.le d0 d1 d2 d3 d4 d5
  exact ⟨t, _, he, h⟩

/-- There is a form whose slope is analysed and drawn. -/
theorem C77_accepted_form (isColor : String → Bool) : ∃ f : WebForm ℝ, f.Valid ∧ f.considerLimits = true ∧
    Accepted isColor f := by
  obtain ⟨c, -, t, p, h1, h2⟩ := acc_plot
  refine ⟨accForm c, accForm_valid c, rfl, t, p, ?_, h2⟩
  unfold WebForm.createSlope
  rw [accForm_prepare]
  change ((accSlope c).analyseSlope (some 5)).get = .ok t
  rw [Out.get_ok]
  exact h1

/-- A case of C77 and C78 in which a form was accepted: the page shows it, after the report was asked
for as well, and the report is made or the plot of all planes says why not. -/
example (isColor : String → Bool) : ∃ f : WebForm ℝ, f.Valid ∧
    LastAccepted isColor [.get, .post (some f), .pdf (some 2)] f ∧
    (∃ s search p, f.createSlope isColor = .ok s ∧ Shows s search p ∧
      ((Session.fresh.after isColor [.get, .post (some f), .pdf (some 2)]).serve isColor .get).2 =
        .page (some f) search p ∧ ((Session.fresh : Session ℝ).serve isColor (.post (some f))).2 =
        .page (some f) search p) ∧
    ((Session.fresh.after isColor [.get, .post (some f), .pdf (some 2)]).serve isColor (.pdf none)).2 =
      .failed .valueError := by
  obtain ⟨f, hv, -, ha⟩ := C77_accepted_form isColor
  have hl : LastAccepted isColor [.get, .post (some f), .pdf (some 2)] f :=
    ⟨[.get], [.pdf (some 2)], rfl, ha, by simp, by simp⟩
  obtain ⟨s, search, p, h1, h2, h3⟩ := (C77_page isColor _).1 f hl
  obtain ⟨s', search', p', h1', h2', h3'⟩ := (C77_form isColor Session.fresh f).1 ha
  rw [h1] at h1'
  cases h1'
  have e1 : p' = p := by
    have a := h2.1
    rw [h2'.1] at a
    exact Except.ok.inj a
  have e2 : search' = search := by
    have key : ∀ l : List (PagePlane ℝ), (∀ q ∈ l, q.2 = pageTrace q.1) →
        l = (l.map Prod.fst).map fun q => (q, pageTrace q) := by
      intro l hl
      rw [List.map_map]
      conv_lhs => rw [← List.map_id l]
      exact List.map_congr_left fun q hq => Prod.ext rfl (hl q hq)
    rw [key _ h2'.2.2, key _ h2.2.2, h2'.2.1, h2.2.1]
  exact ⟨f, hv, hl, ⟨s, search, p, h1, h2, h3, by rw [h3', e1, e2]⟩,
    (C78_report isColor _ none (.inl ⟨f, hl, h1⟩)).1 rfl⟩

/-- A case of C81 with a search: the slope of the form, with any cohesion. -/
example (c : ℝ) (hc : c ≠ 0) : Reachable (accSlope c) ∧ (accSlope c).individual = [] ∧
    0 < ((accSlope c).analyseSlope none).1.search.length := by
  refine ⟨accSlope_reachable c, rfl, ?_⟩
  obtain ⟨-, h, -⟩ := C81_steep_search (accSlope c) (accSlope_reachable c) (acc_sound c) (.inl rfl)
    (by intro z hz; cases hz) (by intro h; cases h) (acc_strong hc) rfl (acc_entries c) (by
      intro l hl
      obtain ⟨k, hk, rfl⟩ := List.mem_map.mp hl
      have := even_mem (n := 14) (by simpa using List.mem_range.mp hk) (by decide) (a := 5) (b := 5.001) (by norm_num)
      rw [acc_topX]
      simp only
      norm_num at *
      constructor <;> linarith) (by rw [acc_botX]; exact le_refl _) fun q hq => (acc_crestFace hq).2
  rw [h, acc_far, acc_iterations]
  exact Nat.mul_pos (List.length_pos_iff.mpr acc_pairs) (by decide)

end PySlope
