import Verif.Props.Accepted
import Verif.Props.Surcharge
import Verif.Props.Circles
import Verif.Props.Total
import Verif.Props.Dynamic
import Mathlib.Order.Filter.AtTopBot.Archimedean

/-! # A form whose offset the page never finds

A slope of clay, 2.5 m high and 2 m long, and a dynamic load 0.38 m wide. For a load that is heavy enough the factor
of safety with the load at the crest is below the one with the load far from the crest, so for a critical value
between them the dynamic analysis finds an offset. This is the case for `C69_never_found`. -/

namespace PySlope

open Finset

noncomputable def nfMat : Material ℝ :=
  { unitWeight := 20, frictionAngle := 0, cohesion := |1|, depth := |2|
    tanPhi := Real.tan (0 * (Real.pi / 180)), name := "", userColor := none }

/-- The form, with a load of `P` entered at the offset `o`, and the critical factor of safety `k`. -/
noncomputable def nfForm (P o k : ℝ) : WebForm ℝ :=
  { byLength := true, height := 2.5, angle := 45, length := 2, slices := 25, iterations := 1000
    materials := [some { unitWeight := 20, frictionAngle := 0, cohesion := 1, depth := 2, name := "", color := "" }]
    lls := [none], udls := [some { magnitude := P, offset := o, length := 0.38, color := "red", dynamic := true }]
    considerWater := false, waterDepth := 1, considerLimits := true, considerInternal := true
    leftX := 3.62, rightX := 5.995, leftXRight := 3.63, rightXLeft := 5.99, normal := false, critical := k }

noncomputable def nfFresh : Slope ℝ := freshSlope 2.5 2

noncomputable def nfUdl (P o : ℝ) : Udl ℝ :=
  { magnitude := |P|, offset := |o|, length := some |0.38|, color := "red", dynamic := true }

/-- The slope of the form. -/
noncomputable def nfSlope (P o : ℝ) : Slope ℝ :=
  { nfFresh with materials := [mkLayer nfFresh.extH 0 nfMat]
                 udls := [placeUdl nfFresh.topX (nfUdl P o)]
                 udlMax := maxMagnitude [placeUdl nfFresh.topX (nfUdl P o)] nfFresh.udlMax
                 lim1 := 3.62, lim2 := 3.63, lim3 := 5.99, lim4 := 5.995, search := [] }

theorem nfForm_valid {P o k : ℝ} (h0 : 0 ≤ k) (h5 : k ≤ 5) : (nfForm P o k).Valid := by
  constructor
  · norm_num [nfForm]
  · norm_num [nfForm]
  · exact ⟨h0, h5⟩

theorem nf_extL : nfFresh.extL = 10 := by
  change max (max (5 * (2 : ℝ)) 10) (4 * 2.5) = 10
  norm_num

theorem nf_extH : nfFresh.extH = 7.5 := by
  change max (max (3 * (2.5 : ℝ)) 6) (5 * 2 / 2) = 7.5
  norm_num

theorem nfForm_new (P o k : ℝ) : (nfForm P o k).newSlope = .ok nfFresh := by
  obtain ⟨s, h⟩ := (newSlope_total (nfForm P o k)).1 (by norm_num [nfForm]) (by norm_num [nfForm])
    (by norm_num [nfForm])
  rw [h, (newSlope_eq h).2]
  congr 2
  change (if (true : Bool) = true then max (2 : ℝ) 0.001 else _) = 2
  norm_num

theorem nf_reachable0 : Reachable nfFresh := (newSlope_eq (nfForm_new 1 0 1)).1

theorem nf_geo0 : Geo nfFresh := nf_reachable0.wf.geo

theorem nf_topX0 : nfFresh.topX = 4 := by
  have := nf_geo0.topX
  rw [nf_extL] at this
  rw [this]
  change ((10 : ℝ) - 2) / 2 = 4
  norm_num

theorem nf_minLength {P o : ℝ} (h0 : 0 ≤ o) (h1 : o ≤ 3.61) : (nfUdl P o).minLength ≤ nfFresh.minExtL := by
  have e : (nfUdl P o).minLength = (|o| + |0.38|) * 2.5 := by
    unfold Udl.minLength nfUdl
    simp only [lit_zero]
    rw [if_neg (by norm_num)]
  rw [e, abs_of_nonneg h0]
  change _ ≤ (10 : ℝ)
  norm_num [abs_of_pos] at *
  linarith

theorem setUdls_fits {s : Slope ℝ} {u : Udl ℝ} (hu : s.udls = []) (h : 0 < u.magnitude) (hm : u.minLength ≤ s.minExtL) :
    s.setUdls [some u] = ({ s with udls := [placeUdl s.topX u]
                                   udlMax := maxMagnitude [placeUdl s.topX u] s.udlMax
                                   search := [] }, .ok ()) := by
  have : s.addUdl (some u) = ({ s with udls := [placeUdl s.topX u] }, .ok ()) := by
    unfold Slope.addUdl
    simp only [lit_zero]
    rw [if_pos h, hu, if_neg (not_lt.mpr hm)]
    rfl
  unfold Slope.setUdls Slope.forEach Slope.forEach
  rw [this]
  rfl

theorem nfForm_prepare (isColor : String → Bool) {P o : ℝ} (k : ℝ) (hP : 0 < P) (h0 : 0 ≤ o) (h1 : o ≤ 3.61) :
    (nfForm P o k).prepare isColor = .ok (nfSlope P o) := by
  have e1 : nfFresh.updateAnalysisOptions (some (nfForm P o k).slices) (some (nfForm P o k).iterations) none none none =
      (nfFresh, .ok ()) := rfl
  have e2 : nfFresh.webMaterial isColor (some { unitWeight := 20, frictionAngle := 0, cohesion := 1, depth := 2, name := "", color := "" }) =
      .ok { nfFresh with materials := [mkLayer nfFresh.extH 0 nfMat] } := by
    unfold Slope.webMaterial
    simp only [Option.getD_some]
    rw [(C01_material isColor _ _ _ _ _ _).1 20 0 1 2 "" "" ⟨rfl, by norm_num, by norm_num, rfl, by norm_num, rfl, rfl⟩ rfl rfl]
    simp only [bind, Except.bind]
    rw [setMaterials_one nf_geo0 rfl]
    have : nfFresh.deepen |2| = nfFresh := by
      unfold Slope.deepen
      rw [if_neg]
      rw [nf_extH]; norm_num
    simp only
    rw [this, Out.get_ok]
    simp [nfMat]
    rfl
  set s2 : Slope ℝ := { nfFresh with materials := [mkLayer nfFresh.extH 0 nfMat] } with hs2
  set s3 : Slope ℝ := { s2 with udls := [placeUdl nfFresh.topX (nfUdl P o)]
                                udlMax := maxMagnitude [placeUdl nfFresh.topX (nfUdl P o)] nfFresh.udlMax
                                search := [] } with hs3
  have e3 : s2.webLl isColor none = .ok s2 := by
    unfold Slope.webLl
    simp only [bind, Except.bind]
    rw [(C02_signs_do_not_matter _ _ _).2.2.2.2.2.1]
    simp only
    rw [Out.get_ok, setLls_zero (by simp [WebLl.default])]
    rfl
  have hset := setUdls_fits (s := s2) (u := nfUdl P o) rfl (abs_pos.mpr hP.ne') (nf_minLength h0 h1)
  have e4 : s2.webUdl isColor (some { magnitude := P, offset := o, length := 0.38, color := "red", dynamic := true }) =
      .ok s3 := by
    unfold Slope.webUdl
    simp only [bind, Except.bind, Option.getD_some]
    rw [(C02_signs_do_not_matter _ _ _).2.1]
    simp only
    rw [if_neg (by norm_num), ite_self, Out.get_ok]
    exact hset
  have r2 : Reachable s2 := by
    have := nf_reachable0.call (.setMaterials nfFresh [some nfMat] (by
      intro m hm; simp at hm; subst hm
      refine ⟨fun _ => false, .num 20, .num 0, .num 1, .num 2, .none, .none, ?_⟩
      rw [(C01_material _ _ _ _ _ _ _).1 20 0 1 2 "" ""
        ⟨rfl, by norm_num, by norm_num, rfl, by norm_num, rfl, rfl⟩ rfl rfl]
      simp [nfMat]))
    rw [setMaterials_one nf_geo0 rfl] at this
    have hd : nfFresh.deepen nfMat.depth = nfFresh := by
      unfold Slope.deepen
      rw [if_neg]
      rw [nf_extH]; simp [nfMat]; norm_num
    rw [hd] at this
    exact this
  have r3 : Reachable s3 := by
    have := r2.call (.setUdls s2 [some (nfUdl P o)] (by
      intro u hu; simp at hu; subst hu
      refine ⟨fun _ => false, .num P, .num o, .num 0.38, "red", true, ?_⟩
      rw [(C02_signs_do_not_matter _ _ _).2.1, if_neg (by norm_num), ite_self]
      rfl))
    rw [hset] at this
    exact this
  have e5 : s3.webLimits (nfForm P o k) = .ok (nfSlope P o) := by
    have hX : s3.topX = 4 := nf_topX0
    have hL : s3.extL = 10 := nf_extL
    have := (C22_limits_ordered s3 r3).2.2.1 3.62 5.995 3.63 5.99 (by norm_num) (by norm_num) (by norm_num)
      (by norm_num) (by rw [hX]; norm_num) (by rw [hX, hL]; norm_num)
    change (s3.setAnalysisLimits (.num 3.62) (.num 5.995) (.num 3.63) (.num 5.99)).get = _
    rw [this, Out.get_ok]
    have h1 : min (3.63 : ℝ) s3.topX = 3.63 := by rw [hX]; norm_num
    have h2 : max (5.99 : ℝ) s3.topX = 5.99 := by rw [hX]; norm_num
    have h3 : min (5.995 : ℝ) s3.extL = 5.995 := by rw [hL]; norm_num
    rw [h1, h2, h3]
    rfl
  unfold WebForm.prepare
  rw [nfForm_new]
  simp only [bind, Except.bind]
  rw [Out.get_ok.mpr e1]
  simp only
  have f1 : (nfForm P o k).materials.foldlM (Slope.webMaterial isColor) nfFresh = .ok s2 := by
    change (nfFresh.webMaterial isColor (some _)).bind _ = _
    rw [e2]
    rfl
  have f2 : (nfForm P o k).lls.foldlM (Slope.webLl isColor) s2 = .ok s2 := by
    change (s2.webLl isColor none).bind _ = _
    rw [e3]
    rfl
  have f3 : (nfForm P o k).udls.foldlM (Slope.webUdl isColor) s2 = .ok s3 := by
    change (s2.webUdl isColor (some _)).bind _ = _
    rw [e4]
    rfl
  rw [f1]
  simp only
  rw [f2]
  simp only
  rw [f3]
  exact e5

theorem nf_reachable {P o : ℝ} (hP : 0 < P) (h0 : 0 ≤ o) (h1 : o ≤ 3.61) : Reachable (nfSlope P o) :=
  (prepare_spec (nfForm_valid (P := P) (o := o) (k := 1) (by norm_num) (by norm_num))
    (nfForm_prepare (fun _ => true) 1 hP h0 h1)).1

theorem nf_topX (P o : ℝ) : (nfSlope P o).topX = 4 := nf_topX0

theorem nf_botX (P o : ℝ) : (nfSlope P o).botX = 6 := by
  change nfFresh.botX = 6
  rw [nf_geo0.botX, nf_topX0]
  change (4 : ℝ) + 2 = 6
  norm_num

theorem nf_topY (P o : ℝ) : (nfSlope P o).topY = 7.5 := by
  change nfFresh.topY = 7.5
  rw [nf_geo0.topY, nf_extH]

theorem nf_gradient (P o : ℝ) : (nfSlope P o).gradient = 1.25 := by
  change nfFresh.gradient = 1.25
  rw [nf_geo0.grad]
  change (2.5 : ℝ) / 2 = 1.25
  norm_num

theorem nf_slices (P o : ℝ) : (nfSlope P o).slices = 25 := rfl

theorem nf_friction (P o : ℝ) : Frictionless (nfSlope P o) := by
  intro l hl
  obtain rfl : l = _ := List.mem_singleton.mp hl
  rfl

theorem nf_sound (P o : ℝ) : SoundFriction (nfSlope P o) := by
  intro l hl
  rw [nf_friction P o l hl]
  norm_num

theorem nf_strong (P o : ℝ) : HasStrength (nfSlope P o) := by
  left
  intro l hl
  obtain rfl : l = _ := List.mem_singleton.mp hl
  exact abs_pos.mpr one_ne_zero

theorem nf_place {P o : ℝ} (h0 : 0 ≤ o) (h1 : o ≤ 3.61) : placeUdl nfFresh.topX (nfUdl P o) =
    { load := nfUdl P o, left := 3.62 - o, right := 4 - o } := by
  have e1 : (nfUdl P o).offset = o := abs_of_nonneg h0
  have e2 : (nfUdl P o).length = some 0.38 := by
    change some |(0.38 : ℝ)| = _
    norm_num [abs_of_pos]
  unfold placeUdl
  simp only [e1, e2, nf_topX0, lit_zero]
  rw [if_neg (by norm_num [pyEq])]
  congr 1
  rw [pyMax_real, max_eq_right (by norm_num at *; linarith)]
  norm_num
  ring

/-! ## The circles of the search -/

/-- The entry points with the load at `o`. -/
noncomputable def nfEntries (o : ℝ) : List (ℝ × ℝ) :=
  (List.range 13).map (fun (k : ℕ) => (3.62 + ((k : ℝ) / ((13 - 1 : ℤ) : ℝ)) * (3.63 - 3.62), nfFresh.topY)) ++
    [(3.62 - o - 0.001, nfFresh.topY)]

theorem nf_entries {P o : ℝ} (h0 : 0 ≤ o) (h1 : o ≤ 3.61) : (nfSlope P o).entryPoints = .ok (nfEntries o) := by
  have hn : numPointsTop 1000 = 14 := (Nat.eq_sqrt.mpr ⟨by decide, by decide⟩).symm
  rw [entryPoints_eq]
  have hu : (nfSlope P o).udls.map (fun u => (u.left - 0.001, (nfSlope P o).topY)) =
      [(3.62 - o - 0.001, nfFresh.topY)] := by
    change [((placeUdl nfFresh.topX (nfUdl P o)).left - 0.001, _)] = _
    rw [nf_place h0 h1]
    rfl
  simp only [hu, show (nfSlope P o).lls = [] from rfl, show (nfSlope P o).udls.length = 1 from rfl,
    show (nfSlope P o).iterations.toNat = 1000 from rfl, hn]
  rw [if_neg (by decide)]
  rfl

theorem nf_entries_mem {o : ℝ} {l : ℝ × ℝ} (h : l ∈ nfEntries o) :
    (3.62 ≤ l.1 ∧ l.1 ≤ 3.63) ∨ l.1 = 3.62 - o - 0.001 := by
  rcases List.mem_append.mp h with h | h
  · obtain ⟨k, hk, rfl⟩ := List.mem_map.mp h
    exact .inl (even_mem (n := 13) (by simpa using List.mem_range.mp hk) (by decide) (a := 3.62) (b := 3.63) (by norm_num))
  · rw [List.mem_singleton] at h
    exact .inr (by rw [h])

theorem nf_bounds {P o : ℝ} (hP : 0 < P) (h0 : 0 ≤ o) (h1 : o ≤ 3.61) {q : (ℝ × ℝ) × (ℝ × ℝ)}
    (hq : q ∈ farPairs (nfSlope P o) (nfEntries o)) :
    ((3.62 ≤ q.1.1 ∧ q.1.1 ≤ 3.63) ∨ q.1.1 = 3.62 - o - 0.001) ∧ 5.99 < q.2.1 ∧ q.2.1 ≤ 5.995 := by
  unfold farPairs at hq
  obtain ⟨l, hl, hq⟩ := List.mem_flatMap.mp (List.mem_filter.mp hq).1
  obtain ⟨p, hp, hq⟩ := List.mem_filterMap.mp hq
  obtain ⟨h1, h2, y, h3, h4⟩ := exitPoints_mem (nf_reachable hP h0 h1).wf hp
  rw [h3] at hq
  cases hq
  exact ⟨nf_entries_mem hl, h1, h2⟩

/-- The circles with the load at `o`. -/
noncomputable def nfPlanes (o : ℝ) : List (Plane ℝ) :=
  (farPairs (nfSlope 1 0) (nfEntries o)).flatMap fun q => arcPlanes q.1 q.2 5

theorem nf_search {P o : ℝ} (hP : 0 < P) (h0 : 0 ≤ o) (h1 : o ≤ 3.61) :
    (∀ q ∈ farPairs (nfSlope 1 0) (nfEntries o), CrestFace (nfSlope P o) q.1 q.2 ∧
      ((3.62 ≤ q.1.1 ∧ q.1.1 ≤ 3.63) ∨ q.1.1 = 3.62 - o - 0.001) ∧ 5.99 < q.2.1 ∧ q.2.1 ≤ 5.995) ∧
    (nfSlope P o).entryExitPlanes = .ok (nfPlanes o) := by
  have hf : farPairs (nfSlope P o) (nfEntries o) = farPairs (nfSlope 1 0) (nfEntries o) := rfl
  obtain ⟨a, b⟩ := search_arcs (nf_reachable hP h0 h1) (nf_entries h0 h1) (by
    intro l hl
    rw [nf_topX]
    rcases nf_entries_mem hl with h | h
    · norm_num at *
      constructor <;> linarith
    · rw [h]
      norm_num at *
      constructor <;> linarith) (by rw [nf_botX]; change (5.995 : ℝ) ≤ 6; norm_num) (by
    intro q hq
    obtain ⟨h2, h3, h4⟩ := nf_bounds hP h0 h1 hq
    rcases h2 with h2 | h2
    · norm_num at *
      linarith
    · rw [h2]
      norm_num at *
      linarith)
  rw [hf] at a b
  refine ⟨fun q hq => ⟨a q hq, nf_bounds hP h0 h1 (hf ▸ hq)⟩, ?_⟩
  rw [b]
  unfold nfPlanes
  congr 3
  funext q
  rw [show (nfSlope P o).iterations.toNat = 1000 from rfl]
  rfl

/-! ## The factor of safety of a circle -/

/-- The slope without the load. -/
noncomputable def nfBare : Slope ℝ := { nfSlope 1 0 with udls := [] }

theorem nf_frame (P o : ℝ) : SameFrame nfBare (nfSlope P o) := by constructor <;> rfl

/-- The cohesion along the bases of the slices of a circle. -/
noncomputable def nfK (cx cy r xl xr : ℝ) : ℝ :=
  ∑ i ∈ range 25, (sliceOf nfBare cx cy r xl xr i).c *
    ((sliceOf nfBare cx cy r xl xr i).b / (sliceOf nfBare cx cy r xl xr i).cos)

/-- The part of a slice under the load at `o`. -/
noncomputable def nfPart (o xl xr : ℝ) (i : ℕ) : ℝ :=
  common (xl + i * ((xr - xl) / 25)) (xl + (i + 1) * ((xr - xl) / 25)) (3.62 - o) (4 - o)

/-- The driving of a load of one at `o`. -/
noncomputable def nfPush (o cx r xl xr : ℝ) : ℝ :=
  ∑ i ∈ range 25, nfPart o xl xr i * ((cx - (xl + (i + 1 / 2) * ((xr - xl) / 25))) / r)

theorem nf_bare_slices : ((nfBare.slices : ℤ) : ℝ) = 25 := by
  change (((25 : ℤ)) : ℝ) = 25
  norm_num

theorem nf_loadOn {P o : ℝ} (hP : 0 < P) (h0 : 0 ≤ o) (h1 : o ≤ 3.61) (a b : ℝ) :
    loadOn (nfSlope P o) a b = P * common a b (3.62 - o) (4 - o) := by
  unfold loadOn
  change ([placeUdl nfFresh.topX (nfUdl P o)].map _).sum + (List.map _ []).sum = _
  rw [nf_place h0 h1]
  simp only [List.map_cons, List.map_nil, List.sum_cons, List.sum_nil]
  change common a b _ _ * |P| + 0 + 0 = _
  rw [abs_of_pos hP]
  ring

theorem nf_driving {P o : ℝ} (hP : 0 < P) (h0 : 0 ≤ o) (h1 : o ≤ 3.61) (cx cy r xl xr : ℝ) :
    driving 25 (sliceOf (nfSlope P o) cx cy r xl xr) =
      driving 25 (sliceOf nfBare cx cy r xl xr) + P * nfPush o cx r xl xr := by
  unfold driving nfPush
  rw [Finset.mul_sum, ← Finset.sum_add_distrib]
  refine Finset.sum_congr rfl fun i _ => ?_
  obtain ⟨d, e, hd⟩ := (nf_frame P o).slice rfl cx cy r xl xr i
  rw [e]
  dsimp only
  have hb : ∀ a b, loadOn nfBare a b = 0 := by
    intro a b
    unfold loadOn
    change (List.map _ []).sum + (List.map _ []).sum = _
    simp
  have hs : (sliceOf nfBare cx cy r xl xr i).sin = (cx - (xl + (i + 1 / 2) * ((xr - xl) / 25))) / r := by
    rw [← nf_bare_slices]
    rfl
  rw [hd, hb, sub_zero, nf_loadOn hP h0 h1, hs, nf_bare_slices, add_mul, mul_assoc]
  rfl

theorem nf_layer (y : ℝ) : layerAt nfBare.materials y = some (mkLayer nfFresh.extH 0 nfMat) := by
  change layerAt [mkLayer nfFresh.extH 0 nfMat] y = _
  unfold layerAt
  simp only [List.find?_cons, List.find?_nil, List.getLast?_singleton]
  split <;> rfl

theorem nf_slice_c (cx cy r xl xr : ℝ) (i : ℕ) : (sliceOf nfBare cx cy r xl xr i).c = 1 := by
  unfold sliceOf
  simp [nf_layer, mkLayer, nfMat]

theorem nf_fellenius {P o : ℝ} (hP : 0 < P) (h0 : 0 ≤ o) (h1 : o ≤ 3.61) (cx cy r xl xr : ℝ) :
    fellenius 25 (sliceOf (nfSlope P o) cx cy r xl xr) =
      nfK cx cy r xl xr / (driving 25 (sliceOf nfBare cx cy r xl xr) + P * nfPush o cx r xl xr) := by
  have hφ : Frictionless nfBare := nf_friction 1 0
  rw [(nf_frame P o).resisting rfl hφ, nf_driving hP h0 h1]
  rfl

/-- What a factor of safety of a circle of the search is. -/
theorem nf_value {P o : ℝ} (hP : 0 < P) (h0 : 0 ≤ o) (h1 : o ≤ 3.61) {L R : ℝ × ℝ}
    (h : CrestFace (nfSlope P o) L R) (far : 0.03 < R.1 - L.1) {σ : ℝ} (s0 : 0 < σ)
    (s1 : σ < chordLength L R / 2) {F : ℝ} (hF : fosOf (nfSlope P o) (arcPlane L R σ) = some F) :
    let p := arcPlane L R σ
    0 < p.radius ∧
    (∀ i : ℕ, i < 25 → |L.1 + ((i : ℝ) + 1 / 2) * ((R.1 - L.1) / 25) - p.cx| < p.radius) ∧
    0 < driving 25 (sliceOf nfBare p.cx p.cy p.radius L.1 R.1) + P * nfPush o p.cx p.radius L.1 R.1 ∧
    F = nfK p.cx p.cy p.radius L.1 R.1 /
      (driving 25 (sliceOf nfBare p.cx p.cy p.radius L.1 R.1) + P * nfPush o p.cx p.radius L.1 R.1) := by
  intro p
  have rc := nf_reachable hP h0 h1
  obtain ⟨rest, f1, f2⟩ := h.found rc.wf.geo s0 s1 far
  have he : (nfSlope P o).bishopEnds p.cx p.cy p.radius none none = .ok (L, R) := by
    unfold Slope.bishopEnds
    rw [f1]
    simp only
    rw [if_neg f2]
  rw [fosOf_some, clay_bishop rc (nf_friction P o)] at hF
  change (do
      let q ← (nfSlope P o).bishopEnds p.cx p.cy p.radius none none
      let F ← (nfSlope P o).ordinary p.cx p.cy p.radius (some q.1) (some q.2)
      if (nfSlope P o).maxIterations.toNat ≠ 0 ∧ F = 0 then throw (Stop.raise .nonreal) else pure F) = _ at hF
  rw [he] at hF
  simp only [bind, Except.bind] at hF
  cases ho : (nfSlope P o).ordinary p.cx p.cy p.radius (some L) (some R) with
  | error e => rw [ho] at hF; cases hF
  | ok G =>
    rw [ho] at hF
    simp only at hF
    split at hF
    · cases hF
    · cases hF
      rw [C55_ordinary_formula _ rc] at ho
      obtain ⟨a1, a2, a3, a4, a5, a6, -, a8, a9⟩ := ho
      have hn : (nfSlope P o).slices.toNat = 25 := rfl
      have hc : (((nfSlope P o).slices : ℤ) : ℝ) = 25 := nf_bare_slices
      rw [hn] at a5 a8 a9
      rw [hc] at a5
      rw [nf_driving hP h0 h1] at a8
      exact ⟨a3, a5, a8, by rw [a9, nf_fellenius hP h0 h1]⟩

/-- The cohesion along the bases is at least the distance across. -/
theorem nf_K_ge {cx cy r xl xr : ℝ} (hr : 0 < r) (hx : xl < xr)
    (hin : ∀ i : ℕ, i < 25 → |xl + ((i : ℝ) + 1 / 2) * ((xr - xl) / 25) - cx| < r) :
    xr - xl ≤ nfK cx cy r xl xr := by
  have e : xr - xl = ∑ i ∈ range 25, (xr - xl) / 25 := by
    rw [Finset.sum_const, card_range, nsmul_eq_mul]
    push_cast
    ring
  rw [e]
  refine Finset.sum_le_sum fun i hi => ?_
  rw [nf_slice_c, one_mul]
  have hb : (sliceOf nfBare cx cy r xl xr i).b = (xr - xl) / 25 := by rw [← nf_bare_slices]; rfl
  have hc : (sliceOf nfBare cx cy r xl xr i).cos =
      √(r ^ 2 - (xl + ((i : ℝ) + 1 / 2) * ((xr - xl) / 25) - cx) ^ 2) / r := by rw [← nf_bare_slices]; rfl
  have hd : 0 < r ^ 2 - (xl + ((i : ℝ) + 1 / 2) * ((xr - xl) / 25) - cx) ^ 2 := by
    have := hin i (mem_range.mp hi)
    rw [← abs_of_pos hr] at this
    have := sq_lt_sq.mpr this
    linarith
  rw [hb, hc, le_div_iff₀ (by positivity)]
  have h1 : √(r ^ 2 - (xl + ((i : ℝ) + 1 / 2) * ((xr - xl) / 25) - cx) ^ 2) / r ≤ 1 := by
    rw [div_le_one hr, Real.sqrt_le_left hr.le]
    nlinarith [sq_nonneg (xl + ((i : ℝ) + 1 / 2) * ((xr - xl) / 25) - cx)]
  have h2 : 0 < (xr - xl) / 25 := by linarith
  nlinarith

theorem nfPart_nonneg (o xl xr : ℝ) (i : ℕ) : 0 ≤ nfPart o xl xr i := le_max_right _ _

theorem nfPart_sum (o xl xr : ℝ) (hx : xl ≤ xr) : ∑ i ∈ range 25, nfPart o xl xr i = common xl xr (3.62 - o) (4 - o) := by
  have h := common_tile (3.62 - o) (4 - o) xl ((xr - xl) / 25) (by linarith) 25
  have e : xl + ((25 : ℕ) : ℝ) * ((xr - xl) / 25) = xr := by push_cast; ring
  rw [e] at h
  exact h

/-- The driving of a load of one is at most its width. -/
theorem nf_push_le {o cx r xl xr : ℝ} (hr : 0 < r) (hx : xl < xr)
    (hin : ∀ i : ℕ, i < 25 → |xl + ((i : ℝ) + 1 / 2) * ((xr - xl) / 25) - cx| < r) :
    nfPush o cx r xl xr ≤ common xl xr (3.62 - o) (4 - o) := by
  rw [← nfPart_sum o xl xr hx.le]
  refine Finset.sum_le_sum fun i hi => ?_
  have := (abs_lt.mp (hin i (mem_range.mp hi))).1
  have h1 : (cx - (xl + ((i : ℝ) + 1 / 2) * ((xr - xl) / 25))) / r ≤ 1 := by
    rw [div_le_one hr]; linarith
  exact mul_le_of_le_one_right (nfPart_nonneg _ _ _ _) h1

/-! ## One circle -/

noncomputable def nfA : ℝ × ℝ := (3.62, 7.5)

noncomputable def nfB : ℝ × ℝ := (5.995, 5.00625)

/-- The height of the flattest of the five arcs between the first entry point and the last exit point. -/
noncomputable def nfArc : ℝ := firstHeight nfA nfB * ((5 : ℕ) - (4 : ℕ)) / (5 : ℕ)

theorem nf_chord : chordLength nfA nfB = 3.44375 := by
  change √(((7.5 : ℝ) - 5.00625) ^ 2 + (5.995 - 3.62) ^ 2) = 3.44375
  rw [show ((7.5 : ℝ) - 5.00625) ^ 2 + (5.995 - 3.62) ^ 2 = 3.44375 ^ 2 by norm_num]
  exact Real.sqrt_sq (by norm_num)

theorem nf_arc_bounds : 0.1213 ≤ nfArc ∧ nfArc ≤ 0.1214 := by
  have hs : 2.1395 ≤ √((1.1 * ((((7.5 : ℝ) - 5.00625) ^ 2 + (5.995 - 3.62) ^ 2) / (2 * (5.995 - 3.62)))) ^ 2 -
      (((7.5 : ℝ) - 5.00625) ^ 2 + (5.995 - 3.62) ^ 2) / 4) := by
    apply Real.le_sqrt_of_sq_le
    norm_num
  have hs' : √((1.1 * ((((7.5 : ℝ) - 5.00625) ^ 2 + (5.995 - 3.62) ^ 2) / (2 * (5.995 - 3.62)))) ^ 2 -
      (((7.5 : ℝ) - 5.00625) ^ 2 + (5.995 - 3.62) ^ 2) / 4) ≤ 2.1397 := by
    apply Real.sqrt_le_iff.mpr
    norm_num
  have e : nfArc = (1.1 * ((((7.5 : ℝ) - 5.00625) ^ 2 + (5.995 - 3.62) ^ 2) / (2 * (5.995 - 3.62))) -
      √((1.1 * ((((7.5 : ℝ) - 5.00625) ^ 2 + (5.995 - 3.62) ^ 2) / (2 * (5.995 - 3.62)))) ^ 2 -
      (((7.5 : ℝ) - 5.00625) ^ 2 + (5.995 - 3.62) ^ 2) / 4)) * ((5 : ℕ) - (4 : ℕ)) / (5 : ℕ) := rfl
  rw [e]
  generalize √((1.1 * ((((7.5 : ℝ) - 5.00625) ^ 2 + (5.995 - 3.62) ^ 2) / (2 * (5.995 - 3.62)))) ^ 2 -
      (((7.5 : ℝ) - 5.00625) ^ 2 + (5.995 - 3.62) ^ 2) / 4) = z at *
  norm_num at *
  constructor <;> linarith

/-- The circle. -/
noncomputable def nfC : Plane ℝ := arcPlane nfA nfB nfArc

theorem nf_radius : 12.27 ≤ nfC.radius ∧ nfC.radius ≤ 12.29 := by
  obtain ⟨h1, h2⟩ := nf_arc_bounds
  have e : nfC.radius = ((3.44375 : ℝ) ^ 2 / 4 + nfArc ^ 2) / (2 * nfArc) := by
    rw [← nf_chord]; rfl
  have hp : 0 < nfArc := by norm_num at *; linarith
  rw [e]
  constructor
  · rw [le_div_iff₀ (by linarith)]
    norm_num at *
    nlinarith
  · rw [div_le_iff₀ (by linarith)]
    norm_num at *
    nlinarith

theorem nf_centre (x : ℝ) : nfC.cx - x = (4.8075 - x) + 21 / 29 * (nfC.radius - nfArc) := by
  have e : nfC.cx = (3.62 + 5.995) / 2 + ((7.5 : ℝ) - 5.00625) / chordLength nfA nfB * (nfC.radius - nfArc) := rfl
  rw [e, nf_chord]
  norm_num
  ring

/-- How steep the bases of the circle are. -/
theorem nf_sin {x : ℝ} (h1 : 3.62 ≤ x) (h2 : x ≤ 5.995) : 0 ≤ (nfC.cx - x) / nfC.radius ∧
    (nfC.cx - x) / nfC.radius ≤ 0.8216 ∧ (x ≤ 4.0475 → 0.77 ≤ (nfC.cx - x) / nfC.radius) := by
  obtain ⟨a1, a2⟩ := nf_arc_bounds
  obtain ⟨r1, r2⟩ := nf_radius
  have hr : 0 < nfC.radius := by norm_num at *; linarith
  rw [nf_centre]
  refine ⟨div_nonneg ?_ hr.le, ?_, fun h3 => ?_⟩
  · norm_num at *; linarith
  · rw [div_le_iff₀ hr]
    norm_num at *; linarith
  · rw [le_div_iff₀ hr]
    norm_num at *; linarith

theorem nf_span (i : ℕ) (hi : i < 25) : 3.62 ≤ (3.62 : ℝ) + ((i : ℝ) + 1 / 2) * ((5.995 - 3.62) / 25) ∧
    (3.62 : ℝ) + ((i : ℝ) + 1 / 2) * ((5.995 - 3.62) / 25) ≤ 5.995 := by
  have h1 : (i : ℝ) + 1 ≤ 25 := by exact_mod_cast hi
  have h2 : (0 : ℝ) ≤ i := Nat.cast_nonneg i
  norm_num
  constructor <;> linarith

theorem nf_K_le : nfK nfC.cx nfC.cy nfC.radius 3.62 5.995 ≤ 4.17 := by
  have hr : 0 < nfC.radius := by have := nf_radius.1; norm_num at *; linarith
  have : nfK nfC.cx nfC.cy nfC.radius 3.62 5.995 ≤ ∑ i ∈ range 25, (4.17 / 25 : ℝ) := by
    refine Finset.sum_le_sum fun i hi => ?_
    have hi := mem_range.mp hi
    rw [nf_slice_c, one_mul]
    have hb : (sliceOf nfBare nfC.cx nfC.cy nfC.radius 3.62 5.995 i).b = (5.995 - 3.62) / 25 := by
      rw [← nf_bare_slices]; rfl
    have hc : (sliceOf nfBare nfC.cx nfC.cy nfC.radius 3.62 5.995 i).cos =
        √(nfC.radius ^ 2 - (3.62 + ((i : ℝ) + 1 / 2) * ((5.995 - 3.62) / 25) - nfC.cx) ^ 2) / nfC.radius := by
      rw [← nf_bare_slices]; rfl
    obtain ⟨x1, x2⟩ := nf_span i hi
    obtain ⟨s1, s2, -⟩ := nf_sin x1 x2
    set x := (3.62 : ℝ) + ((i : ℝ) + 1 / 2) * ((5.995 - 3.62) / 25) with hx
    have hcos : 0.57 ≤ √(nfC.radius ^ 2 - (x - nfC.cx) ^ 2) / nfC.radius := by
      rw [le_div_iff₀ hr]
      apply Real.le_sqrt_of_sq_le
      have e : nfC.cx - x = (nfC.cx - x) / nfC.radius * nfC.radius := by field_simp
      have e2 : (x - nfC.cx) ^ 2 = ((nfC.cx - x) / nfC.radius) ^ 2 * nfC.radius ^ 2 := by
        rw [← mul_pow, ← e]; ring
      rw [e2]
      generalize (nfC.cx - x) / nfC.radius = z at *
      have hz : z ^ 2 ≤ 0.8216 ^ 2 := by gcongr
      have : (0 : ℝ) ≤ nfC.radius ^ 2 := sq_nonneg _
      norm_num at *
      nlinarith
    rw [hb, hc, div_le_iff₀ (lt_of_lt_of_le (by norm_num) hcos)]
    norm_num at *
    linarith
  refine this.trans (le_of_eq ?_)
  rw [Finset.sum_const, card_range, nsmul_eq_mul]
  norm_num

theorem nf_push_ge : 0.2926 ≤ nfPush 0 nfC.cx nfC.radius 3.62 5.995 := by
  have h : ∑ i ∈ range 25, nfPart 0 3.62 5.995 i * 0.77 ≤ nfPush 0 nfC.cx nfC.radius 3.62 5.995 := by
    refine Finset.sum_le_sum fun i hi => ?_
    have hi := mem_range.mp hi
    obtain ⟨x1, x2⟩ := nf_span i hi
    obtain ⟨s1, s2, s3⟩ := nf_sin x1 x2
    by_cases h4 : (4 : ℝ) ≤ 3.62 + (i : ℝ) * ((5.995 - 3.62) / 25)
    · have : nfPart 0 3.62 5.995 i = 0 := by
        unfold nfPart common
        refine max_eq_right (sub_nonpos.mpr ?_)
        refine (min_le_right _ _).trans (le_trans ?_ (le_max_left _ _))
        linarith
      rw [this, zero_mul, zero_mul]
    · refine mul_le_mul_of_nonneg_left (s3 ?_) (nfPart_nonneg _ _ _ _)
      norm_num at *
      linarith
  rw [← Finset.sum_mul, nfPart_sum 0 3.62 5.995 (by norm_num)] at h
  have : common (3.62 : ℝ) 5.995 (3.62 - 0) (4 - 0) = 0.38 := by
    unfold common
    norm_num
  rw [this] at h
  norm_num at *
  linarith

/-- The circle is one of the search, wherever the load is. -/
theorem nf_pair (o : ℝ) : (nfA, nfB) ∈ farPairs (nfSlope 1 0) (nfEntries o) := by
  have hl : nfA ∈ nfEntries o := by
    refine List.mem_append_left _ (List.mem_map.mpr ⟨0, by simp, ?_⟩)
    have : nfFresh.topY = 7.5 := nf_topY 1 0
    rw [this]
    unfold nfA
    norm_num
  have hn : numPointsBot 1000 = 15 := by
    have hn : numPointsTop 1000 = 14 := (Nat.eq_sqrt.mpr ⟨by decide, by decide⟩).symm
    unfold numPointsBot
    rw [hn]
    decide
  have hr : ((5.995 : ℝ), some (5.00625 : ℝ)) ∈ (nfSlope 1 0).exitPoints := by
    rw [exitPoints_eq]
    refine List.mem_map.mpr ⟨14, ?_, ?_⟩
    · rw [show (nfSlope 1 0).iterations.toNat = 1000 from rfl, hn]
      simp
    · rw [show (nfSlope 1 0).iterations.toNat = 1000 from rfl, hn, show (nfSlope 1 0).lim3 = 5.99 from rfl,
        show (nfSlope 1 0).lim4 = 5.995 from rfl]
      have e : (5.99 : ℝ) + (((14 + 1 : ℕ) : ℝ) / ((15 : ℕ) : ℝ)) * (5.995 - 5.99) = 5.995 := by norm_num
      rw [e]
      congr 1
      unfold Slope.getExternalY
      rw [nf_topX, nf_botX, nf_topY, nf_gradient, show (nfSlope 1 0).extL = 10 from nf_extL]
      simp only [lit_zero]
      rw [if_neg (by norm_num), if_neg (by norm_num), if_neg (by norm_num)]
      norm_num
  unfold farPairs
  refine List.mem_filter.mpr ⟨List.mem_flatMap.mpr ⟨_, hl, List.mem_filterMap.mpr ⟨_, hr, rfl⟩⟩, ?_⟩
  simp only [decide_eq_true_eq]
  have hd : (nfSlope 1 0).minFailureDist ≤ 0 := min_le_left _ _
  refine lt_of_le_of_lt hd (Real.sqrt_pos.mpr ?_)
  norm_num [nfA, nfB]

theorem nfC_mem (o : ℝ) : nfC ∈ nfPlanes o :=
  List.mem_flatMap.mpr ⟨_, nf_pair o, List.mem_map.mpr ⟨4, by simp, rfl⟩⟩

theorem nfC_value {P o : ℝ} (hP : 0 < P) (h0 : 0 ≤ o) (h1 : o ≤ 3.61) :
    0 < driving 25 (sliceOf nfBare nfC.cx nfC.cy nfC.radius 3.62 5.995) + P * nfPush o nfC.cx nfC.radius 3.62 5.995 ∧
    0 < nfK nfC.cx nfC.cy nfC.radius 3.62 5.995 ∧
    fosOf (nfSlope P o) nfC = some (nfK nfC.cx nfC.cy nfC.radius 3.62 5.995 /
      (driving 25 (sliceOf nfBare nfC.cx nfC.cy nfC.radius 3.62 5.995) +
        P * nfPush o nfC.cx nfC.radius 3.62 5.995)) := by
  have cf : CrestFace (nfSlope P o) nfA nfB := ((nf_search hP h0 h1).1 _ (nf_pair o)).1
  have far : (0.03 : ℝ) < nfB.1 - nfA.1 := by norm_num [nfA, nfB]
  obtain ⟨b1, b2⟩ := firstHeight_bounds cf.lt
  have s0 : 0 < nfArc := by have := nf_arc_bounds.1; norm_num at *; linarith
  have s1 : nfArc ≤ firstHeight nfA nfB := by
    unfold nfArc
    norm_num
    linarith
  obtain ⟨F, f1, f2, -⟩ := cf.fos (nf_reachable hP h0 h1) (nf_sound P o) (.inl rfl) (by intro z hz; cases hz)
    (by intro h; cases h) (nf_strong P o) far (by norm_num [nfA, nfB]) s0 s1
  obtain ⟨-, v2, v3, v4⟩ := nf_value hP h0 h1 cf far s0 (lt_of_le_of_lt s1 b2) f2
  refine ⟨v3, ?_, f2.trans (congrArg some v4)⟩
  have hr : 0 < nfC.radius := by have := nf_radius.1; norm_num at *; linarith
  have := nf_K_ge (cx := nfC.cx) (cy := nfC.cy) hr (show (3.62 : ℝ) < 5.995 by norm_num) v2
  exact lt_of_lt_of_le (by norm_num) this

/-! ## The attempts -/

/-- The least factor of safety of the search with the load at `o`. -/
def NfLeast (P o f : ℝ) : Prop :=
  (∃ p ∈ nfPlanes o, fosOf (nfSlope P o) p = some f) ∧
  ∀ p ∈ nfPlanes o, ∀ F, fosOf (nfSlope P o) p = some F → f ≤ F

theorem NfLeast.unique {P o f g : ℝ} (h : NfLeast P o f) (h' : NfLeast P o g) : f = g := by
  obtain ⟨p, hp, e⟩ := h.1
  obtain ⟨q, hq, e'⟩ := h'.1
  exact le_antisymm (h.2 _ hq _ e') (h'.2 _ hp _ e)

/-- The slope with the load at `o`, whatever results it has. -/
structure NfState (P o : ℝ) (t : Slope ℝ) : Prop where
  setup : SameSetup (nfSlope P o) t
  ind : t.individual = []
  ml : t.minExtL = 10
  wfs : WFS t

theorem nf_state {P o : ℝ} (hP : 0 < P) (h0 : 0 ≤ o) (h1 : o ≤ 3.61) : NfState P o (nfSlope P o) :=
  ⟨.refl _, rfl, rfl, (nf_reachable hP h0 h1).wfs⟩

theorem NfState.dyn {P o : ℝ} {t : Slope ℝ} (h : NfState P o t) (d) : NfState P o { t with dynResults := d } := by
  obtain ⟨⟨a1, a2, a3, a4, a5, a6, a7, a8, a9, a10, a11, a12, a13, a14, a15, a16, a17, a18, a19, a20, a21⟩,
    b, d', w⟩ := h
  exact ⟨⟨a1, a2, a3, a4, a5, a6, a7, a8, a9, a10, a11, a12, a13, a14, a15, a16, a17, a18, a19, a20, a21⟩,
    b, d', w.dyn _⟩

/-- No circle of the search raises. -/
theorem nf_quiet {P o : ℝ} (hP : 0 < P) (h0 : 0 ≤ o) (h1 : o ≤ 3.61) :
    ∀ p ∈ nfPlanes o, ∀ e, ¬ FosRaises (nfSlope P o) p e := by
  have h := (C70_analysis_ends (nfSlope P o) (nf_reachable hP h0 h1) none (by intro p hp; cases hp)
    (by intro z hz; cases hz) (by
      intro _
      refine ⟨fun u hu => ?_, fun l hl => (by cases hl), ?_⟩
      · rw [List.mem_singleton.mp hu, nf_place h0 h1, nf_topX]
        change (3.62 : ℝ) - o ≤ 4
        norm_num at *
        linarith
      · have hn : topPointsFor 1000 = 14 := (Nat.eq_sqrt.mpr ⟨by decide, by decide⟩).symm
        rw [show (nfSlope P o).iterations.toNat = 1000 from rfl, hn]
        change 1 + 0 + 1 ≠ 14
        decide)).2 (by
      intro l hl
      refine ⟨nf_friction P o l hl, ?_⟩
      obtain rfl : l = _ := List.mem_singleton.mp hl
      exact abs_pos.mpr one_ne_zero)
  have hA : Analysed (nfSlope P o) (nfPlanes o) := .inr ⟨rfl, (nf_search hP h0 h1).2⟩
  rcases analyseSlope_cases (nfSlope P o) none with ⟨ps, k1, k2, -⟩ | ⟨x, -, -, k⟩ | ⟨pre, p, post, x, ind, -, -, -, -, k⟩
  · rw [hA.unique k1]
    exact k2
  · rw [k] at h; cases h
  · rw [k] at h; cases h

/-- What an analysis gives. -/
theorem nf_analyse {P o : ℝ} (hP : 0 < P) (h0 : 0 ≤ o) (h1 : o ≤ 3.61) {a : Slope ℝ}
    (ha : SameSetup (nfSlope P o) a) (hi : a.individual = []) :
    ∃ f, NfLeast P o f ∧ a.analyseSlope none = (a.analysedTo none (nfPlanes o), .ok ()) ∧
      (a.analysedTo none (nfPlanes o)).getMinFos = .ok (some f) := by
  have hA : Analysed a (nfPlanes o) := .inr ⟨hi, by rw [ha.entryExitPlanes]; exact (nf_search hP h0 h1).2⟩
  have e := analyseSlope_of hA (by
    intro p hp x hx
    exact nf_quiet hP h0 h1 p hp x ((ha.raises p x).mp hx)) none
  have hmem : ∀ q, q ∈ (a.analysedTo none (nfPlanes o)).search ↔
      ∃ p ∈ nfPlanes o, ∃ F, fosOf (nfSlope P o) p = some F ∧ q = { p with fos := some (some F) } := by
    intro q
    change q ∈ tidySearch none ((nfPlanes o).map (withFos a)) ↔ _
    rw [tidySearch_eq, List.mem_filter, (sortByKey_perm _ _).mem_iff, List.mem_filter, List.mem_map]
    constructor
    · rintro ⟨⟨⟨p, hp, rfl⟩, h⟩, -⟩
      rw [fosVal_withFos, ha.fosOf, Option.isSome_iff_exists] at h
      obtain ⟨F, hF⟩ := h
      refine ⟨p, hp, F, hF, ?_⟩
      unfold withFos
      rw [ha.fosOf, hF]
    · rintro ⟨p, hp, F, hF, rfl⟩
      have e : withFos a p = { p with fos := some (some F) } := by
        unfold withFos
        rw [ha.fosOf, hF]
      rw [← e]
      refine ⟨⟨⟨p, hp, rfl⟩, ?_⟩, rfl⟩
      rw [fosVal_withFos, ha.fosOf, hF]
      rfl
  have hok : (a.analyseSlope none).2 = .ok () := by rw [e]
  have hs : (a.analyseSlope none).1 = a.analysedTo none (nfPlanes o) := by rw [e]
  have hne : (a.analysedTo none (nfPlanes o)).search ≠ [] := by
    intro h
    have := (hmem _).mpr ⟨nfC, nfC_mem o, _, (nfC_value hP h0 h1).2.2, rfl⟩
    rw [h] at this
    cases this
  obtain ⟨f, hf⟩ : ∃ f, (a.analysedTo none (nfPlanes o)).getMinFos = .ok (some f) := by
    cases hc : (a.analysedTo none (nfPlanes o)).search with
    | nil => exact absurd hc hne
    | cons q rest =>
      obtain ⟨p, -, F, -, rfl⟩ := (hmem q).mp (by rw [hc]; simp)
      refine ⟨F, ?_⟩
      unfold Slope.getMinFos
      rw [hc]
  refine ⟨f, ?_, e, hf⟩
  have hm := (min_of hok f).mp (by rw [hs]; exact hf)
  rw [hs] at hm
  obtain ⟨⟨q, hq, hqf⟩, hm2⟩ := hm
  obtain ⟨p, hp, F, hF, rfl⟩ := (hmem q).mp hq
  refine ⟨⟨p, hp, ?_⟩, ?_⟩
  · rw [hF]
    exact Option.some.inj hqf
  · intro p hp F hF
    exact hm2 _ ((hmem _).mpr ⟨p, hp, F, hF, rfl⟩) F rfl

/-- An attempt. -/
theorem NfState.try {P o o' : ℝ} {t : Slope ℝ} (h : NfState P o t) (hP : 0 < P)
    (h0' : 0 ≤ o') (h1' : o' ≤ 3.61) :
    ∃ u f, t.tryOffset o' = (u, .ok f) ∧ NfState P o' u ∧ NfLeast P o' f := by
  obtain ⟨hs, hi, hml, hw⟩ := h
  have hud : t.udls = [placeUdl nfFresh.topX (nfUdl P o)] := hs.udls
  have hll : t.lls = [] := hs.lls
  have htop : t.topX = nfFresh.topX := hs.topX
  have hmv : (nfUdl P o).movedTo o' = nfUdl P o' := by
    simp [Udl.movedTo, nfUdl, abs_of_nonneg h0']
  obtain ⟨m, r⟩ := setDynamicOffset_small hw o' (by
    rw [hud]
    intro p hp
    rw [List.mem_singleton.mp hp]
    change ((nfUdl P o).movedTo o').minLength ≤ _
    rw [hmv, hml]
    exact nf_minLength h0' h1') (by rw [hll]; intro p hp; cases hp)
  have hum : t.udls.map (fun p => placeUdl t.topX (p.load.movedTo o')) = [placeUdl nfFresh.topX (nfUdl P o')] := by
    rw [hud, htop, ← hmv]; rfl
  have hlm : t.lls.map (fun p => placeLl t.topX (p.load.movedTo o')) = [] := by rw [hll]; rfl
  rw [hum, hlm] at r
  generalize ha : ({ t with udls := [placeUdl nfFresh.topX (nfUdl P o')], udlMax := m, lls := [], search := [] } : Slope ℝ) = a at r
  have hsa : SameSetup (nfSlope P o') a := by
    obtain ⟨a1, a2, a3, a4, a5, a6, a7, a8, a9, a10, a11, a12, a13, a14, a15, a16, a17, a18, a19, a20, a21⟩ := hs
    rw [← ha]
    exact ⟨a1, a2, a3, a4, a5, a6, a7, a8, a9, a10, a11, a12, rfl, rfl, a15, a16, a17, a18, a19, a20, a21⟩
  have hia : a.individual = [] := by rw [← ha]; exact hi
  obtain ⟨f, hf, hA, hmin⟩ := nf_analyse hP h0' h1' hsa hia
  have ht : t.tryOffset o' = ({ a.analysedTo none (nfPlanes o') with
      dynResults := dictSet (a.analysedTo none (nfPlanes o')).dynResults o' f }, .ok f) := by
    unfold Slope.tryOffset
    rw [r, andThen_done, hA, andThen_done, hmin]
  refine ⟨_, f, ht, ?_, hf⟩
  have hw' := hw.tryOffset o'
  rw [ht] at hw'
  refine ⟨?_, ?_, ?_, hw'⟩
  · obtain ⟨a1, a2, a3, a4, a5, a6, a7, a8, a9, a10, a11, a12, a13, a14, a15, a16, a17, a18, a19, a20, a21⟩ := hsa
    exact ⟨a1, a2, a3, a4, a5, a6, a7, a8, a9, a10, a11, a12, a13, a14, a15, a16, a17, a18, a19, a20, a21⟩
  · change a.individual.map (withFos a) = _
    rw [hia]
    rfl
  · change a.minExtL = 10
    rw [← ha]; exact hml

theorem NfState.attempts {P o : ℝ} {s t : Slope ℝ} {l : List (ℝ × ℝ)} (h : Attempts s l t)
    (hs : NfState P o s) (hP : 0 < P) (h0 : 0 ≤ o) (h1 : o ≤ 3.61) (hl : ∀ a ∈ l, 0 ≤ a.1 ∧ a.1 ≤ 3.61) :
    (∃ o', 0 ≤ o' ∧ o' ≤ 3.61 ∧ NfState P o' t) ∧ ∀ a ∈ l, NfLeast P a.1 a.2 := by
  induction h with
  | nil d => exact ⟨⟨o, h0, h1, hs.dyn _⟩, by simp⟩
  | @snoc l t o2 f u h k ih =>
    obtain ⟨⟨o', k0, k1, h1⟩, h2⟩ := ih (fun a ha => hl a (by simp [ha]))
    obtain ⟨h5, h6⟩ := hl (o2, f) (by simp)
    obtain ⟨v, f', e1, h7, h10⟩ := h1.try hP h5 h6
    obtain ⟨w, e2, h8⟩ := k.try
    rw [e1] at e2
    obtain ⟨rfl, h9⟩ := Prod.mk.inj e2
    have h9 := Except.ok.inj h9
    refine ⟨⟨o2, h5, h6, by rw [h8]; exact h7.dyn _⟩, ?_⟩
    intro a ha
    rcases List.mem_append.mp ha with ha | ha
    · exact h2 a ha
    · simp at ha; subst ha; rw [← h9]; exact h10

theorem nf_greatest (P o : ℝ) : GreatestOffset (nfSlope P o) 3.61 := by
  have e1 : (nfSlope P o).length = 2 := rfl
  have e2 : (nfUdl P o).length = some 0.38 := by
    change some |(0.38 : ℝ)| = _
    norm_num [abs_of_pos]
  refine ⟨.inr ⟨_, List.mem_singleton.mpr rfl, rfl, 0.38, ?_, ?_⟩, ?_, ?_⟩
  · exact e2
  · rw [nf_topX]; norm_num
  · rw [e1]; norm_num
  · intro p hp _
    rw [List.mem_singleton.mp hp]
    exact ⟨0.38, e2, by rw [nf_topX]; norm_num⟩

/-! ## A heavy load -/

/-- The factor of safety of the circle with the load at the crest. -/
noncomputable def nfFos (P : ℝ) : ℝ :=
  nfK nfC.cx nfC.cy nfC.radius 3.62 5.995 /
    (driving 25 (sliceOf nfBare nfC.cx nfC.cy nfC.radius 3.62 5.995) + P * nfPush 0 nfC.cx nfC.radius 3.62 5.995)

theorem nf_below_five : ∀ᶠ P in Filter.atTop, nfFos P < 5 := by
  have hL := nf_push_ge
  have hL0 : 0 < nfPush 0 nfC.cx nfC.radius 3.62 5.995 := lt_of_lt_of_le (by norm_num) hL
  filter_upwards [Filter.eventually_gt_atTop 0, Filter.eventually_gt_atTop
    ((nfK nfC.cx nfC.cy nfC.radius 3.62 5.995 / 5 - driving 25 (sliceOf nfBare nfC.cx nfC.cy nfC.radius 3.62 5.995)) /
      nfPush 0 nfC.cx nfC.radius 3.62 5.995)] with P hP h
  obtain ⟨h1, -, -⟩ := nfC_value hP (le_refl (0 : ℝ)) (by norm_num)
  rw [div_lt_iff₀ hL0] at h
  unfold nfFos
  rw [div_lt_iff₀ h1]
  linarith

/-- With a heavy load far from the crest every circle is safer than that one with the load at the crest. -/
theorem nf_safer {p : Plane ℝ} (hp : p ∈ nfPlanes 3.61) :
    ∀ᶠ P in Filter.atTop, 0 < P → ∀ F, fosOf (nfSlope P 3.61) p = some F → nfFos P < F := by
  obtain ⟨q, hq, hp⟩ := List.mem_flatMap.mp hp
  have cf0 := (nf_search (P := 1) one_pos (show (0 : ℝ) ≤ 3.61 by norm_num) le_rfl).1 q hq
  obtain ⟨cf0, hent, x1, x2⟩ := cf0
  obtain ⟨σ, s0, s1, s2, rfl⟩ := mem_arcPlanes cf0.lt hp
  have far : (0.03 : ℝ) < q.2.1 - q.1.1 := by
    rcases hent with h | h
    · norm_num at *; linarith
    · rw [h]; norm_num at *; linarith
  set c := arcPlane q.1 q.2 σ with hc
  by_cases hin : 0 < c.radius ∧ ∀ i : ℕ, i < 25 →
      |q.1.1 + ((i : ℝ) + 1 / 2) * ((q.2.1 - q.1.1) / 25) - c.cx| < c.radius
  · obtain ⟨hr, hin⟩ := hin
    have hK := nf_K_ge (cy := c.cy) hr cf0.lt hin
    have hL := nf_push_le (o := 3.61) hr cf0.lt hin
    have hKA := nf_K_le
    have hLA := nf_push_ge
    obtain ⟨-, hKA0, -⟩ := nfC_value one_pos (le_refl (0 : ℝ)) (by norm_num)
    set K := nfK c.cx c.cy c.radius q.1.1 q.2.1
    set D := driving 25 (sliceOf nfBare c.cx c.cy c.radius q.1.1 q.2.1) with hD
    set Λ := nfPush 3.61 c.cx c.radius q.1.1 q.2.1
    set KA := nfK nfC.cx nfC.cy nfC.radius 3.62 5.995 with eKA
    set DA := driving 25 (sliceOf nfBare nfC.cx nfC.cy nfC.radius 3.62 5.995) with eDA
    set ΛA := nfPush 0 nfC.cx nfC.radius 3.62 5.995 with eΛA
    have hκ : 0 < K * ΛA - KA * Λ := by
      rcases hent with h | h
      · have hz : common q.1.1 q.2.1 (3.62 - 3.61) (4 - 3.61) = 0 := by
          unfold common
          refine max_eq_right (sub_nonpos.mpr ((min_le_right _ _).trans (le_trans ?_ (le_max_left _ _))))
          norm_num at *
          linarith
        rw [hz] at hL
        have : KA * Λ ≤ 0 := mul_nonpos_of_nonneg_of_nonpos hKA0.le hL
        have : 0 < K * ΛA := mul_pos (by norm_num at *; linarith) (by norm_num at *; linarith)
        linarith
      · have hz : common q.1.1 q.2.1 (3.62 - 3.61) (4 - 3.61) ≤ 0.38 := by
          unfold common
          refine max_le ?_ (by norm_num)
          have a1 := min_le_right q.2.1 ((4 : ℝ) - 3.61)
          have a2 := le_max_right q.1.1 ((3.62 : ℝ) - 3.61)
          have a3 : (4 : ℝ) - 3.61 - (3.62 - 3.61) = 0.38 := by norm_num
          linarith
        have a1 : KA * Λ ≤ 4.17 * 0.38 := by
          have : KA * Λ ≤ KA * 0.38 := by gcongr; linarith
          refine this.trans ?_
          gcongr
        have a2 : 5.98 * 0.2926 ≤ K * ΛA := by
          have : (5.98 : ℝ) ≤ K := by
            rw [h] at hK
            norm_num at *
            linarith
          gcongr
        norm_num at *
        linarith
    filter_upwards [Filter.eventually_gt_atTop ((KA * D - K * DA) / (K * ΛA - KA * Λ))] with P hPP hP F hF
    have cf := ((nf_search hP (show (0 : ℝ) ≤ 3.61 by norm_num) le_rfl).1 q hq).1
    obtain ⟨-, -, v3, v4⟩ := nf_value hP (show (0 : ℝ) ≤ 3.61 by norm_num) le_rfl cf far s0 s2 hF
    obtain ⟨w1, -, -⟩ := nfC_value hP (le_refl (0 : ℝ)) (by norm_num)
    rw [div_lt_iff₀ hκ] at hPP
    rw [v4]
    change KA / (DA + P * ΛA) < K / (D + P * Λ)
    rw [div_lt_div_iff₀ w1 v3]
    have e1 : KA * (D + P * Λ) = KA * D + P * (KA * Λ) := by ring
    have e2 : K * (DA + P * ΛA) = K * DA + P * (K * ΛA) := by ring
    rw [e1, e2]
    rw [mul_sub] at hPP
    linarith
  · refine Filter.Eventually.of_forall fun P hP F hF => absurd ?_ hin
    have cf := ((nf_search hP (show (0 : ℝ) ≤ 3.61 by norm_num) le_rfl).1 q hq).1
    obtain ⟨v1, v2, -, -⟩ := nf_value hP (show (0 : ℝ) ≤ 3.61 by norm_num) le_rfl cf far s0 s2 hF
    exact ⟨v1, v2⟩

/-- A load that is heavy enough. -/
theorem nf_heavy : ∃ P, 0 < P ∧ nfFos P < 5 ∧
    ∀ p ∈ nfPlanes 3.61, ∀ F, fosOf (nfSlope P 3.61) p = some F → nfFos P < F := by
  have h : ∀ᶠ P in Filter.atTop, ∀ p ∈ nfPlanes 3.61, 0 < P → ∀ F, fosOf (nfSlope P 3.61) p = some F → nfFos P < F :=
    (Filter.eventually_all_finite (List.finite_toSet (nfPlanes 3.61))).mpr fun p hp => nf_safer hp
  obtain ⟨P, ⟨h1, h2⟩, h3⟩ := (((Filter.eventually_gt_atTop (0 : ℝ)).and nf_below_five).and h).exists
  exact ⟨P, h1, h2, fun p hp => h3 p hp h1⟩

theorem nf_left {P left : ℝ} (hgl : GreatestOffset (nfSlope P 0) left) : left = 3.61 := by
  obtain ⟨l, hl, hl'⟩ := hgl.2.2 _ (List.mem_singleton.mpr rfl) rfl
  have e2 : (nfUdl P 0).length = some 0.38 := by
    change some |(0.38 : ℝ)| = _
    norm_num [abs_of_pos]
  have : l = 0.38 := Option.some.inj (hl.symm.trans e2)
  rw [this, nf_topX] at hl'
  rcases hgl.1 with h | ⟨p, hp, -, l', h2, h3⟩
  · change left + 0.01 = 2 at h
    norm_num at *
    linarith
  · rw [List.mem_singleton.mp hp] at h2
    have : l' = 0.38 := Option.some.inj (h2.symm.trans e2)
    rw [this, nf_topX] at h3
    norm_num at *
    linarith

/-- C69 is violated: a form for which the dynamic analysis, given a number, finds an offset (it returns no code), and
for which the page shows the load at the greatest offset all the same. This is also the case for
`C69_never_found`. -/
theorem C69_offset_not_shown (isColor : String → Bool) : ∃ f : WebForm ℝ, f.Valid ∧ f.normal = false ∧
    ∃ p t s, f.prepare isColor = .ok p ∧ p.analyseDynamic f.critical false = (t, .ok none) ∧
      f.createSlope isColor = .ok s ∧ GreatestOffset p 3.61 ∧ f.Loads (fun _ => 3.61) s := by
  obtain ⟨P, hP, h5, hs⟩ := nf_heavy
  have z0 : (0 : ℝ) ≤ 3.61 := by norm_num
  obtain ⟨u0, f, -, -, hf⟩ := (nf_state hP (le_refl 0) z0).try hP (le_refl (0 : ℝ)) z0
  obtain ⟨u1, g, -, -, hg⟩ := (nf_state hP (le_refl 0) z0).try hP z0 (le_refl (3.61 : ℝ))
  have hfA : f ≤ nfFos P := hf.2 _ (nfC_mem 0) _ (nfC_value hP (le_refl 0) z0).2.2
  have hAg : nfFos P < g := by
    obtain ⟨p, hp, e⟩ := hg.1
    exact hs p hp g e
  have hA0 : 0 < nfFos P := by
    obtain ⟨a, b, -⟩ := nfC_value hP (le_refl (0 : ℝ)) z0
    exact div_pos b a
  obtain ⟨k, k1, k2, k3⟩ : ∃ k, nfFos P < k ∧ k ≤ g ∧ k ≤ 5 :=
    ⟨min g 5, lt_min hAg h5, min_le_left _ _, min_le_right _ _⟩
  have hv : (nfForm P 0 k).Valid := nfForm_valid (by linarith) k3
  have hp := nfForm_prepare isColor k hP (le_refl (0 : ℝ)) z0
  have rc := nf_reachable hP (le_refl (0 : ℝ)) z0
  have st := nf_state hP (le_refl (0 : ℝ)) z0
  obtain ⟨t, r, ht⟩ := C58_completes_partial (nfSlope P 0) rc k (nf_greatest P 0) (by norm_num) (by
    intro l u hl ha o h0 h1
    obtain ⟨⟨o', -, -, h⟩, -⟩ := NfState.attempts hl st hP (le_refl 0) z0 ha
    obtain ⟨v, f, e, -, -⟩ := h.try hP h0 h1
    obtain ⟨_, _, _, h4, _⟩ := tryOffset_spec h.wfs o
    rw [e] at h4
    exact ⟨v, f, (h4 _ rfl).1⟩) (by
    intro v hv
    have := (NfState.attempts hv st hP (le_refl 0) z0 (by simp [z0])).2 _ (List.mem_singleton.mpr rfl)
    have := hf.unique this
    linarith)
  have hr : r = none := by
    obtain ⟨left, hgl, h⟩ := C49_return_codes_partial _ rc _ _ ht
    have hleft := nf_left hgl
    subst hleft
    rcases h with ⟨-, f', h, hlt⟩ | ⟨-, f', g', h, h6, h7⟩ | ⟨h, -⟩
    · have := (NfState.attempts h st hP (le_refl 0) z0 (by simp [z0])).2 _ (List.mem_singleton.mpr rfl)
      have := hf.unique this
      linarith
    · have := (NfState.attempts h st hP (le_refl 0) z0 (by simp [z0])).2 (3.61, g') (by simp)
      have := hg.unique this
      linarith
    · exact h
  subst hr
  have hsens : (nfForm P 0 k).Sensible := by
    constructor
    · norm_num [nfForm]
    · norm_num [nfForm]
    · norm_num [nfForm]
    · norm_num [nfForm]
    · norm_num [nfForm]
    · norm_num [nfForm]
  obtain ⟨q, hq, -, hq2⟩ := (C71_web_answers_partial isColor (nfForm P 0 k) hv).2 hsens
  have hfit : (nfForm P 0 k).LimitsFit q := by
    by_contra hno
    obtain ⟨q', hq', -, e⟩ := prepare_limits isColor (nfForm P 0 k) hv hsens
    rw [hq] at hq'
    cases hq'
    rw [e rfl hno] at hp
    cases hp
  obtain ⟨s, hs⟩ := (hq2 (fun _ => hfit) (.inr (by norm_num [WebForm.faceLength, nfForm])) (by
    have hn : topPointsFor 1000 = 14 := (Nat.eq_sqrt.mpr ⟨by decide, by decide⟩).symm
    rw [show (nfForm P 0 k).iterations.toNat = 1000 from rfl, hn]
    have hle : (nfForm P 0 k).loadCount ≤ 2 := by
      unfold WebForm.loadCount WebForm.udlsEntered WebForm.llsEntered
      rw [List.length_map, List.length_map]
      exact Nat.add_le_add (List.length_filter_le _ _) (List.length_filter_le _ _)
    omega)).2 (by norm_num [nfForm])
  refine ⟨nfForm P 0 k, hv, rfl, _, t, s, hp, ht, hs, nf_greatest P 0, ?_⟩
  obtain ⟨left, hg, hl⟩ := C69_never_found isColor (nfForm P 0 k) hv rfl hp ht hs
  rw [nf_left hg] at hl
  exact hl

end PySlope
