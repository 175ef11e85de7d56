import Verif.Props.CrestFace
import Verif.Props.Pairs

/-! # Every circle of a steep pair gets a factor of safety (C81) -/

namespace PySlope

/-- The centre is right of the right end when the chord is at least as high as wide. -/
theorem arcPlane_steep {L R : ℝ × ℝ} (hx : L.1 < R.1) (steep : R.1 - L.1 ≤ L.2 - R.2) {σ : ℝ}
    (h0 : 0 < σ) (h1 : σ ≤ firstHeight L R) : R.1 ≤ (arcPlane L R σ).cx := by
  obtain ⟨b1, b2⟩ := firstHeight_bounds hx
  have hD := chordLength_pos hx
  have hDD := chordLength_sq L R
  change firstHeight L R < chordLength L R / 2 at b2
  set D := chordLength L R with hDdef
  set W := R.1 - L.1 with hW
  set H := L.2 - R.2 with hH
  have hWp : 0 < W := sub_pos.mpr hx
  set e := firstHeight L R with he
  -- the first circle
  have hrad : arcRadius D e = 1.1 * (D ^ 2 / (2 * W)) := by
    obtain ⟨ps, hps, _⟩ : ∃ ps, exSlope.generatePlanes L R (0 : ℕ) = .ok ps ∧ True := by
      rw [generatePlanes_start hx]; exact ⟨_, rfl, trivial⟩
    exact (C31_radii exSlope hx 0 hps).2.2
  have hd0 : D * H / (2 * W) ≤ arcRadius D e - e := by
    have hr2 : arcRadius D e * (2 * e) = D ^ 2 / 4 + e ^ 2 := by
      unfold arcRadius; field_simp
    have hsq : (arcRadius D e - e) ^ 2 = arcRadius D e ^ 2 - D ^ 2 / 4 := by linarith
    have hpos : 0 ≤ arcRadius D e - e := (sub_pos.mpr (arcRadius_gt b1 b2)).le
    have hle : (D * H / (2 * W)) ^ 2 ≤ (arcRadius D e - e) ^ 2 := by
      rw [hsq, hrad]
      have h1 : D ^ 2 / (2 * W) ≤ 1.1 * (D ^ 2 / (2 * W)) := by
        have : 0 ≤ D ^ 2 / (2 * W) := by positivity
        norm_num; linarith
      have h2 : (D ^ 2 / (2 * W)) ^ 2 ≤ (1.1 * (D ^ 2 / (2 * W))) ^ 2 :=
        pow_le_pow_left₀ (by positivity) h1 2
      have h3 : (D * H / (2 * W)) ^ 2 = (D ^ 2 / (2 * W)) ^ 2 - D ^ 2 / 4 := by
        field_simp
        rw [hDD]; ring
      linarith
    exact le_of_sq_le_sq hle hpos
  -- a flatter one
  have hmono : arcRadius D e - e ≤ arcRadius D σ - σ := by
    unfold arcRadius
    rw [show (D ^ 2 / 4 + e ^ 2) / (2 * e) - e = (D ^ 2 / 4 - e ^ 2) / (2 * e) by field_simp; ring,
      show (D ^ 2 / 4 + σ ^ 2) / (2 * σ) - σ = (D ^ 2 / 4 - σ ^ 2) / (2 * σ) by field_simp; ring]
    apply div_le_div₀ <;> nlinarith
  change R.1 ≤ (L.1 + R.1) / 2 + H / D * (arcRadius D σ - σ)
  have h5 : H / D * (D * H / (2 * W)) ≤ H / D * (arcRadius D σ - σ) :=
    mul_le_mul_of_nonneg_left (hd0.trans hmono) (div_nonneg (by linarith) hD.le)
  have h6 : W / 2 ≤ H / D * (D * H / (2 * W)) := by
    rw [show H / D * (D * H / (2 * W)) = H ^ 2 / (2 * W) by field_simp, le_div_iff₀ (by positivity)]
    nlinarith
  linarith

/-- Such a circle gets a factor of safety. -/
theorem CrestFace.fos {s : Slope ℝ} (rc : Reachable s) (hs : SoundFriction s)
    (hh : s.waterRL = none ∨ HeavierThanWater s) (hw : ∀ z, s.waterRL = some z → z ≤ s.topY)
    (hm : s.materials ≠ []) (strong : HasStrength s) {L R : ℝ × ℝ} (h : CrestFace s L R)
    (far : 0.03 < R.1 - L.1) (steep : R.1 - L.1 ≤ L.2 - R.2) {σ : ℝ} (h0 : 0 < σ)
    (h1 : σ ≤ firstHeight L R) : let p := arcPlane L R σ
    ∃ F, 0 < F ∧ fosOf s p = some F ∧ BishopValue s p.cx p.cy p.radius L.1 R.1 F := by
  intro p
  have g := rc.wf.geo
  have h2 : σ < chordLength L R / 2 := lt_of_le_of_lt h1 (firstHeight_bounds h.lt).2
  obtain ⟨rest, f1, f2⟩ := h.found g h0 h2 far
  have he : s.bishopEnds p.cx p.cy p.radius none none = .ok (L, R) := by
    unfold Slope.bishopEnds
    rw [f1]
    simp only
    rw [if_neg f2]
  have hcx := arcPlane_steep h.lt steep h0 h1
  have hl := h.left
  have hlt := h.lt
  have hr := arcRadius_gt h0 h2
  have hD := chordLength_pos h.lt
  have hcy : 0 ≤ p.cy := by
    change 0 ≤ (L.2 + R.2) / 2 + (R.1 - L.1) / chordLength L R * (arcRadius (chordLength L R) σ - σ)
    have h3 : 0 ≤ (R.1 - L.1) / chordLength L R * (arcRadius (chordLength L R) σ - σ) :=
      mul_nonneg (div_nonneg (by linarith) hD.le) (by linarith)
    have h4 : 0 ≤ L.2 := by
      rw [h.crestY, g.topY]; have := g.extH3; have := g.hgt; linarith
    have h5 : 0 ≤ R.2 := by
      rw [h.faceY]
      have h6 : (R.1 - s.topX) * s.gradient ≤ s.height := by
        have e1 : s.gradient * s.length = s.height := by rw [g.grad]; have := g.lenPos; field_simp
        have e2 : R.1 - s.topX ≤ s.length := by have := h.foot; have := g.botX; linarith
        have e3 : 0 ≤ s.gradient := by rw [g.grad]; have := g.hgt; have := g.lenPos; positivity
        nlinarith
      rw [g.topY]; have := g.extH3; have := g.hgt; linarith
    linarith
  obtain ⟨F, a, b, c⟩ := bishop_of_cut rc hs hh hw hm strong
    (cx := p.cx) (cy := p.cy) (r := p.radius)
    ⟨by change 0 ≤ (arcPlane L R σ).cx; linarith, hcy,
      by change 0 ≤ arcRadius (chordLength L R) σ; linarith⟩ he
    ⟨hcx, fun x hx hx' => h.under g h0 hx hx'⟩
  exact ⟨F, a, fosOf_some.mpr b, c⟩

/-- The results when every plane gets a factor of safety. -/
theorem tidySearch_all {s : Slope ℝ} {ps : List (Plane ℝ)} (h : ∀ p ∈ ps, ∃ F, fosOf s p = some F) :
    (tidySearch none (ps.map (withFos s))).Perm (ps.map (withFos s)) := by
  rw [tidySearch_eq]
  have e1 : (ps.map (withFos s)).filter (fun p => p.fosVal.isSome) = ps.map (withFos s) := by
    rw [List.filter_eq_self]
    intro q hq
    obtain ⟨p, hp, rfl⟩ := List.mem_map.mp hq
    obtain ⟨F, hF⟩ := h p hp
    rw [fosVal_withFos, hF]
    rfl
  have e2 : ∀ l : List (Plane ℝ), l.filter (keeps none) = l := by
    intro l
    rw [List.filter_eq_self]
    intro _ _; rfl
  rw [e1, e2]
  exact sortByKey_perm _ _

/-- What an analysis of such planes gives. -/
theorem analyse_all {s : Slope ℝ} {ps : List (Plane ℝ)} (ha : Analysed s ps)
    (h : ∀ p ∈ ps, ∃ F, fosOf s p = some F) (m : Option ℝ) :
    (s.analyseSlope m).2 = .ok () ∧
    (s.analyseSlope none).1.search.Perm (ps.map (withFos s)) ∧
    ∀ M ≠ 0, (s.analyseSlope (some M)).1.search =
      (s.analyseSlope none).1.search.filter fun p => decide (fosKey p ≤ M) := by
  have hno : ∀ p ∈ ps, ∀ e, ¬ FosRaises s p e := by
    intro p hp e he
    obtain ⟨F, hF⟩ := h p hp
    unfold FosRaises at he
    rw [fosOf_some.mp hF] at he
    cases he
  rw [analyseSlope_of ha hno, analyseSlope_of ha hno]
  refine ⟨rfl, tidySearch_all h, ?_⟩
  intro M hM
  rw [analyseSlope_of ha hno]
  change tidySearch (some M) _ = (tidySearch none _).filter _
  rw [tidySearch_eq, tidySearch_eq, List.filter_filter]
  congr 1
  funext p
  unfold keeps
  simp [hM]

/-- C81: with an entry point on the crest and an exit point on the face of a sound slope, the drop
between them at least as great as their distance across, all of the `n` circles get a positive factor
of safety and are reported. -/
theorem C81_steep_pair (s : Slope ℝ) (rc : Reachable s) (hs : SoundFriction s)
    (hh : s.waterRL = none ∨ HeavierThanWater s) (hw : ∀ z, s.waterRL = some z → z ≤ s.topY)
    (hm : s.materials ≠ []) (strong : HasStrength s) {x x' : ℝ} (h0 : 0 ≤ x) (h1 : x ≤ s.topX)
    (h2 : s.topX < x') (h3 : x' ≤ s.botX) (h4 : 0.03 < x' - x)
    (steep : x' - x ≤ groundY s x - groundY s x') {n : ℕ} (hn : 1 ≤ n) :
    let t := (s.removeIndividualPlanes.1.addSingleEntryExitPlane x x' n).1.analyseSlope none
    t.2 = .ok () ∧ t.1.search.length = n ∧
    ∀ p ∈ t.1.search, p.lc = (x, groundY s x) ∧ p.rc = (x', groundY s x') ∧
      ∃ F, 0 < F ∧ p.fos = some (some F) ∧ BishopValue s p.cx p.cy p.radius x x' F := by
  intro t
  have g := rc.wf.geo
  have cf : CrestFace s (x, groundY s x) (x', groundY s x') := .of g h0 h1 h2 h3
  set u : Slope ℝ := { s with search := [], individual := arcPlanes (x, groundY s x) (x', groundY s x') n }
    with hu
  have hsame : SameSetup s u := by constructor <;> rfl
  have hadd : (s.removeIndividualPlanes.1.addSingleEntryExitPlane x x' n).1 = u := by
    have cf' : CrestFace s.removeIndividualPlanes.1 (x, groundY s x) (x', groundY s x') := by
      obtain ⟨a, b, c, d, e, f⟩ := cf
      exact ⟨a, b, c, d, e, f⟩
    have g' : Geo s.removeIndividualPlanes.1 := by
      obtain ⟨a1, a2, a3, a4, a5, a6, a7, a8, a9, b1, b2, b3⟩ := g
      exact ⟨a1, a2, a3, a4, a5, a6, a7, a8, a9, b1, b2, b3⟩
    have := cf'.add g' h4 n
    simp only at this
    rw [this]
    rfl
  have hfos : ∀ p ∈ arcPlanes (x, groundY s x) (x', groundY s x') n, ∃ F, 0 < F ∧ fosOf u p = some F ∧
      BishopValue s p.cx p.cy p.radius x x' F := by
    intro p hp
    obtain ⟨σ, s0, s1, _, rfl⟩ := mem_arcPlanes cf.lt hp
    obtain ⟨F, f1, f2, f3⟩ := cf.fos rc hs hh hw hm strong h4 steep s0 s1
    exact ⟨F, f1, by rw [fosOf_some, hsame.bishop]; exact fosOf_some.mp f2, f3⟩
  have hne : u.individual ≠ [] := by
    intro h
    have := congrArg List.length h
    simp [hu, arcPlanes] at this
    omega
  obtain ⟨b1, b2, _⟩ := analyse_all (s := u) (.inl ⟨hne, rfl⟩)
    (fun p hp => (hfos p hp).imp fun F h => h.2.1) none
  change (Slope.analyseSlope _ none).2 = _ ∧ (Slope.analyseSlope _ none).1.search.length = n ∧
    ∀ p ∈ (Slope.analyseSlope _ none).1.search, _
  rw [hadd]
  refine ⟨b1, ?_, ?_⟩
  · rw [b2.length_eq]
    simp [hu, arcPlanes]
  · intro p hp
    obtain ⟨q, hq, rfl⟩ := List.mem_map.mp (b2.mem_iff.mp hp)
    obtain ⟨F, f1, f2, f3⟩ := hfos q hq
    obtain ⟨σ, _, _, _, rfl⟩ := mem_arcPlanes cf.lt hq
    exact ⟨rfl, rfl, F, f1, by simp [withFos, f2], f3⟩

/-- A case of C81: on the example slope in clay, from the crest's edge to the toe. -/
example : (exSoil.removeIndividualPlanes.1.addSingleEntryExitPlane 6 9 (7 : ℕ)).1.individual.length = 7 ∧
    ((exSoil.removeIndividualPlanes.1.addSingleEntryExitPlane 6 9 (7 : ℕ)).1.analyseSlope none
      ).1.search.length = 7 := by
  have h1 : exSoil.topX = 6 := by simp
  have h2 : exSoil.botX = 9 := by simp
  have h3 : exSoil.topY = 9 := by simp
  have h4 : exSoil.gradient = 1 := by simp
  have hA : groundY exSoil 6 = 9 := by rw [groundY_crest exSoil_reachable.wf.geo (by rw [h1]), h3]
  have h5 : exSoil.botY = 6 := by simp
  have hB : groundY exSoil 9 = 6 := by
    rw [groundY_face exSoil_reachable.wf.geo (by rw [h1]; norm_num) (by rw [h2]), h5, h2]; norm_num
  have hlen := C81_steep_pair exSoil exSoil_reachable ?_ (.inl rfl) (by intro z hz; cases hz) (by simp)
    (.inl ?_) (x := 6) (x' := 9) (by norm_num) (by rw [h1]) (by rw [h1]; norm_num) (by rw [h2])
    (by norm_num) (by rw [hA, hB]) (n := 7) (by norm_num)
  · refine ⟨?_, hlen.2.1⟩
    obtain ⟨_, _, ps, e, hl, _⟩ := C80_crest_to_face exSoil.removeIndividualPlanes.1
      (exSoil_reachable.call (.removeIndividualPlanes _)) (x := 6) (x' := 9)
      (by norm_num) (by change (6 : ℝ) ≤ exSoil.topX; rw [h1])
      (by change exSoil.topX < (9 : ℝ); rw [h1]; norm_num) (by change (9 : ℝ) ≤ exSoil.botX; rw [h2])
      (by norm_num) 7
    rw [e, List.length_append, hl]
    rfl
  · intro l hl
    obtain rfl : l = _ := List.mem_singleton.mp hl
    change (0 : ℝ) ≤ 90
    norm_num
  · intro l hl
    obtain rfl : l = _ := List.mem_singleton.mp hl
    change (0 : ℝ) < 5
    norm_num

/-- The circles of a search whose pairs all go from the crest to the face. -/
theorem search_arcs {s : Slope ℝ} (rc : Reachable s) {entries : List (ℝ × ℝ)}
    (e : s.entryPoints = .ok entries) (hin : ∀ l ∈ entries, 0 ≤ l.1 ∧ l.1 ≤ s.topX)
    (hlim : s.lim4 ≤ s.botX) (far : ∀ q ∈ farPairs s entries, 0.03 < q.2.1 - q.1.1) :
    (∀ q ∈ farPairs s entries, CrestFace s q.1 q.2) ∧
    s.entryExitPlanes = .ok ((farPairs s entries).flatMap fun q =>
      arcPlanes q.1 q.2 (circlesFor s.iterations.toNat)) := by
  have w := rc.wf
  have hexit : ∀ l ∈ entries, ∀ p ∈ s.exitPoints, l.1 ≠ p.1 ∧ p.2.isSome := by
    intro l hl p hp
    obtain ⟨h1, h2, y, h3, _⟩ := exitPoints_mem w hp
    have := (hin l hl).2
    have := w.l3
    exact ⟨by intro h; linarith, by rw [h3]; rfl⟩
  have hp : s.entryExitPlanes = .ok ((farPairs s entries).flatMap (pairPlanes s)) := by
    unfold Slope.entryExitPlanes
    rw [e]
    exact planesAll_list w.geo entries hexit
  have hcf : ∀ q ∈ farPairs s entries, CrestFace s q.1 q.2 := by
    intro q hq
    unfold farPairs at hq
    obtain ⟨l, hl, hq⟩ := List.mem_flatMap.mp (List.mem_filter.mp hq).1
    obtain ⟨p, hp, hq⟩ := List.mem_filterMap.mp hq
    obtain ⟨h1, h2, y, h3, h4⟩ := exitPoints_mem w hp
    rw [h3] at hq
    cases hq
    have hl3 := w.l3
    have hfa : s.topX < p.1 := by linarith
    have cf := CrestFace.of w.geo (hin l hl).1 (hin l hl).2 hfa (h2.trans hlim)
    refine ⟨(hin l hl).1, (hin l hl).2, entryPoints_level e l hl, hfa, h2.trans hlim, ?_⟩
    obtain ⟨_, h5⟩ := (hexit l hl p hp)
    have h6 := cf.exitY w.geo
    rw [h4] at h6
    have h7 := cf.faceY
    simp only at h7 h6
    rw [← h7]
    exact Option.some.inj h6
  refine ⟨hcf, ?_⟩
  rw [hp]
  congr 1
  apply List.flatMap_congr
  intro q hq
  unfold pairPlanes
  rw [(hcf q hq).planes w.geo (far q hq)]
  rfl

/-- C81, the automatic search: with limits that keep the exit points on the face, and every pair of
points 3 cm apart and steep, the analysis ends normally and all circles of all pairs get a positive
factor of safety. -/
theorem C81_steep_search (s : Slope ℝ) (rc : Reachable s) (hs : SoundFriction s)
    (hh : s.waterRL = none ∨ HeavierThanWater s) (hw : ∀ z, s.waterRL = some z → z ≤ s.topY)
    (hm : s.materials ≠ []) (strong : HasStrength s) (hi : s.individual = [])
    {entries : List (ℝ × ℝ)} (e : s.entryPoints = .ok entries)
    (hin : ∀ l ∈ entries, 0 ≤ l.1 ∧ l.1 ≤ s.topX) (hlim : s.lim4 ≤ s.botX)
    (steep : ∀ q ∈ farPairs s entries, 0.03 < q.2.1 - q.1.1 ∧ q.2.1 - q.1.1 ≤ q.1.2 - q.2.2) :
    let t := s.analyseSlope none
    t.2 = .ok () ∧ t.1.search.length = (farPairs s entries).length * circlesFor s.iterations.toNat ∧
    ∀ p ∈ t.1.search, ∃ q ∈ farPairs s entries, p.lc = q.1 ∧ p.rc = q.2 ∧
      ∃ F, 0 < F ∧ p.fos = some (some F) ∧ BishopValue s p.cx p.cy p.radius q.1.1 q.2.1 F := by
  intro t
  obtain ⟨hcf, hp⟩ := search_arcs rc e hin hlim fun q hq => (steep q hq).1
  have hfos : ∀ q ∈ farPairs s entries, ∀ p ∈ arcPlanes q.1 q.2 (circlesFor s.iterations.toNat), p.lc = q.1 ∧ p.rc = q.2 ∧
      ∃ F, 0 < F ∧ fosOf s p = some F ∧ BishopValue s p.cx p.cy p.radius q.1.1 q.2.1 F := by
    intro q hq p hp
    obtain ⟨σ, s0, s1, _, rfl⟩ := mem_arcPlanes (hcf q hq).lt hp
    exact ⟨rfl, rfl, (hcf q hq).fos rc hs hh hw hm strong (steep q hq).1 (steep q hq).2 s0 s1⟩
  obtain ⟨b1, b2, _⟩ := analyse_all (s := s) (.inr ⟨hi, hp⟩) (by
    intro p hp
    obtain ⟨q, hq, hp⟩ := List.mem_flatMap.mp hp
    obtain ⟨_, _, F, _, h, _⟩ := hfos q hq p hp
    exact ⟨F, h⟩) none
  refine ⟨b1, ?_, ?_⟩
  · rw [b2.length_eq, List.length_map, List.length_flatMap]
    rw [List.map_congr_left (g := fun _ => circlesFor s.iterations.toNat) (by
      intro q hq
      simp [arcPlanes])]
    simp
  · intro p hp
    obtain ⟨p, hp', rfl⟩ := List.mem_map.mp (b2.mem_iff.mp hp)
    obtain ⟨q, hq, hp'⟩ := List.mem_flatMap.mp hp'
    obtain ⟨h1, h2, F, f1, f2, f3⟩ := hfos q hq p hp'
    exact ⟨q, hq, h1, h2, F, f1, by simp [withFos, f2], f3⟩

end PySlope
