import Verif.Lemmas.Size
import Verif.Lemmas.Heap
import Verif.Spec.ExampleCircle

/-! # Property C91: the size of the model does not change the factors of safety -/

namespace PySlope

theorem Holds.start {s : Slope ℝ} {cx cy r : ℝ} (h : Holds s cx cy r) : 0 ≤ cx ∧ 0 ≤ cy ∧ 0 ≤ r :=
  ⟨by have := h.rad; have := h.left; linarith, h.up, h.rad⟩

namespace Displaced
variable {dx dy : ℝ} {s t : Slope ℝ}

theorem bishopEnds (h : Displaced dx dy s t) (gs : Geo s) (gt : Geo t) {cx cy r : ℝ} (hs : Holds s cx cy r)
    (ht : Holds t (cx + dx) (cy + dy) r) :
    (s.bishopEnds cx cy r none none = .error .retNone ∧
      t.bishopEnds (cx + dx) (cy + dy) r none none = .error .retNone) ∨
    ∃ l rt, s.bishopEnds cx cy r none none = .ok (l, rt) ∧
      t.bishopEnds (cx + dx) (cy + dy) r none none = .ok (carry dx dy l, carry dx dy rt) := by
  obtain ⟨is, e1, e2⟩ := h.ends gs gt hs ht
  have es := h.setSize_shift e1 gs
  unfold Slope.bishopEnds
  rw [e1, e2]
  simp only
  rcases two_first gs e1 with h2 | ⟨a, b, rest, rfl, h2, _⟩
  · left
    rw [es, if_pos h2, if_pos h2]
    exact ⟨rfl, rfl⟩
  · right
    rw [es, if_neg h2, if_neg h2]
    exact ⟨a, b, rfl, rfl⟩

/-- The slices of the two models, from the ends of the circle. -/
theorem slices_eq (h : Displaced dx dy s t) (rs : Reachable s) (rt : Reachable t) {cx cy r : ℝ}
    {l q : ℝ × ℝ} (e1 : s.bishopEnds cx cy r none none = .ok (l, q))
    (e2 : t.bishopEnds (cx + dx) (cy + dy) r none none = .ok (carry dx dy l, carry dx dy q)) :
    PySlope.sliceOf t (cx + dx) (cy + dy) r (carry dx dy l).1 (carry dx dy q).1 =
      PySlope.sliceOf s cx cy r l.1 q.1 := by
  have hsl : 10 ≤ s.slices := rs.wf.sl.1
  obtain ⟨_, c1, _, c2, _⟩ := bishopEnds_first rs.wf.geo e1
  obtain ⟨_, c3, _⟩ := bishopEnds_first rt.wf.geo e2
  funext i
  exact h.sliceOf (by omega) (c1.nonneg rs.wf.geo) (c3.nonneg rt.wf.geo) (by linarith) i

theorem symm (h : Displaced dx dy s t) (rs : Reachable s) (rt : Reachable t) {cx cy r : ℝ} {l q : ℝ × ℝ}
    (hs : Holds s cx cy r) (ht : Holds t (cx + dx) (cy + dy) r)
    (ws : ∀ z, s.waterRL = some z → z ≤ s.topY) (wt : ∀ z, t.waterRL = some z → z ≤ t.topY)
    (e1 : s.bishopEnds cx cy r none none = .ok (l, q))
    (e2 : t.bishopEnds (cx + dx) (cy + dy) r none none = .ok (carry dx dy l, carry dx dy q)) (F : ℝ) :
    t.ordinary (cx + dx) (cy + dy) r (some (carry dx dy l)) (some (carry dx dy q)) = .ok F ↔
      s.ordinary cx cy r (some l) (some q) = .ok F := by
  obtain ⟨s1, s2, _⟩ := hs.start
  obtain ⟨t1, t2, _⟩ := ht.start
  have w1 : ∃ w, s.waterX = .ok w := waterX_ok rs.wf.geo ws
  have w2 : ∃ w, t.waterX = .ok w := waterX_ok rt.wf.geo wt
  rw [C55_ordinary_formula t rt, C55_ordinary_formula s rs, h.slices_eq rs rt e1 e2, h.slices]
  have e : ∀ i : ℕ, (carry dx dy l).1 + ((i : ℝ) + 1 / 2) * (((carry dx dy q).1 - (carry dx dy l).1) / s.slices)
      - (cx + dx) = l.1 + ((i : ℝ) + 1 / 2) * ((q.1 - l.1) / s.slices) - cx := by
    intro i
    simp only [carry, add_sub_add_right_eq_sub]
    ring
  have e' : (carry dx dy q).1 - (carry dx dy l).1 = q.1 - l.1 := by
    simp only [carry, add_sub_add_right_eq_sub]
  simp only [e]
  simp only [e']
  have hb : s.materials ≠ [] ↔ t.materials ≠ [] := not_congr h.bare
  rw [hb]
  simp only [s1, s2, t1, t2, w1, w2, true_and]

theorem ordinary (h : Displaced dx dy s t) (rs : Reachable s) (rt : Reachable t) {cx cy r : ℝ} {l q : ℝ × ℝ}
    (hs : Holds s cx cy r) (ht : Holds t (cx + dx) (cy + dy) r)
    (ws : ∀ z, s.waterRL = some z → z ≤ s.topY) (wt : ∀ z, t.waterRL = some z → z ≤ t.topY)
    (e1 : s.bishopEnds cx cy r none none = .ok (l, q))
    (e2 : t.bishopEnds (cx + dx) (cy + dy) r none none = .ok (carry dx dy l, carry dx dy q)) :
    t.ordinary (cx + dx) (cy + dy) r (some (carry dx dy l)) (some (carry dx dy q)) =
      s.ordinary cx cy r (some l) (some q) := by
  have key := h.symm rs rt hs ht ws wt e1 e2
  cases h1 : s.ordinary cx cy r (some l) (some q) with
  | ok F => exact (key F).mpr h1
  | error x =>
    cases x with
    | raise e => exact (ordinary_raise rs ws hs.start e1 h1).elim
    | retNone =>
      cases h2 : t.ordinary (cx + dx) (cy + dy) r (some (carry dx dy l)) (some (carry dx dy q)) with
      | ok F => rw [(key F).mp h2] at h1; cases h1
      | error y =>
        cases y with
        | raise e => exact (ordinary_raise rt wt ht.start e2 h2).elim
        | retNone => rfl

theorem bishop (h : Displaced dx dy s t) (rs : Reachable s) (rt : Reachable t) {cx cy r : ℝ}
    (hs : Holds s cx cy r) (ht : Holds t (cx + dx) (cy + dy) r)
    (ws : ∀ z, s.waterRL = some z → z ≤ s.topY) (wt : ∀ z, t.waterRL = some z → z ≤ t.topY) :
    t.bishop (cx + dx) (cy + dy) r none none = s.bishop cx cy r none none := by
  have hsl : 10 ≤ s.slices := rs.wf.sl.1
  rcases h.bishopEnds rs.wf.geo rt.wf.geo hs ht with ⟨e1, e2⟩ | ⟨l, q, e1, e2⟩
  · unfold Slope.bishop
    rw [e1, e2]
    rfl
  · have ho := h.ordinary rs rt hs ht ws wt e1 e2
    cases h1 : s.ordinary cx cy r (some l) (some q) with
    | error x =>
      rw [h1] at ho
      unfold Slope.bishop
      rw [e1, e2]
      simp only [bind, Except.bind]
      rw [h1, ho]
    | ok F =>
      rw [h1] at ho
      obtain ⟨_, _, _, _, _, _, w1, hw1, f1, _⟩ := ordinary_spec rs h1
      obtain ⟨_, _, _, _, _, _, w2, hw2, f2, _⟩ := ordinary_spec rt ho
      rw [bishop_eq (by rw [h.slices]; omega) e2 ho hw2, bishop_eq (by omega) e1 h1 hw1, f1, f2,
        h.slices_eq rs rt e1 e2, h.slices, h.tolerance, h.maxIterations]
      unfold Slope.width
      rw [h.slices]
      simp only [carry, add_sub_add_right_eq_sub]

end Displaced

/-- C91, circle by circle: the same design in two models of different size, and a circle that both
models hold, given by its centre `(cx, cy)` from the crest of the slope. `add_single_circular_plane`
then adds the same plane to both or to none, and Bishop's method has the same outcome in both. -/
theorem C91_model_size (s t : Slope ℝ) (rs : Reachable s) (rt : Reachable t) (h : SameDesign s t)
    (ps : InPlace s) (pt : InPlace t) (cx cy r : ℝ) (hs : Holds s (s.topX + cx) (s.topY + cy) r)
    (ht : Holds t (t.topX + cx) (t.topY + cy) r) :
    t.bishop (t.topX + cx) (t.topY + cy) r none none = s.bishop (s.topX + cx) (s.topY + cy) r none none ∧
    ∃ new : List (Plane ℝ),
      (s.addSingleCircularPlane (s.topX + cx) (s.topY + cy) r).1.individual = s.individual ++ new ∧
      (t.addSingleCircularPlane (t.topX + cx) (t.topY + cy) r).1.individual =
        t.individual ++ new.map (Plane.moved (t.topX - s.topX) (t.topY - s.topY)) := by
  have hm := h.moved rs rt ps pt
  have ex : t.topX + cx = s.topX + cx + (t.topX - s.topX) := by ring
  have ey : t.topY + cy = s.topY + cy + (t.topY - s.topY) := by ring
  rw [ex, ey] at ht ⊢
  refine ⟨hm.bishop rs rt hs ht (fun z hz => (ps.water z hz).1) (fun z hz => (pt.water z hz).1), ?_⟩
  obtain ⟨is, e1, e2⟩ := hm.ends rs.wf.geo rt.wf.geo hs ht
  have es := hm.setSize_shift e1 rs.wf.geo
  unfold Slope.addSingleCircularPlane
  rw [e1, e2]
  simp only
  rcases two_first rs.wf.geo e1 with h2 | ⟨a, b, rest, rfl, h2, _⟩
  · rw [es, if_pos h2, if_pos h2]
    exact ⟨[], by simp⟩
  · rw [es, if_neg h2, if_neg h2]
    exact ⟨[_], rfl, rfl⟩

theorem tidySearch_moved (m : Option ℝ) (dx dy : ℝ) (ps : List (Plane ℝ)) :
    tidySearch m (ps.map (Plane.moved dx dy)) = (tidySearch m ps).map (Plane.moved dx dy) := by
  rw [tidySearch_eq, tidySearch_eq, List.filter_map, ← sortByKey_map, List.filter_map]
  rfl

/-- C91, a whole analysis: if the circles added one by one to the two models are the same but for the
place of the crest, and both models hold them all, then `analyse_slope` has the same outcome for both,
the same list of results but for the place of the crest, and the same minimum. -/
theorem C91_analysis (s t : Slope ℝ) (rs : Reachable s) (rt : Reachable t) (h : SameDesign s t)
    (ps : InPlace s) (pt : InPlace t) (hne : s.individual ≠ [])
    (hi : t.individual = s.individual.map (Plane.moved (t.topX - s.topX) (t.topY - s.topY)))
    (hs : ∀ p ∈ s.individual, Holds s p.cx p.cy p.radius)
    (ht : ∀ p ∈ t.individual, Holds t p.cx p.cy p.radius) (m : Option ℝ) :
    (t.analyseSlope m).2 = (s.analyseSlope m).2 ∧
    ((s.analyseSlope m).2 = .ok () →
      (t.analyseSlope m).1.search =
        (s.analyseSlope m).1.search.map (Plane.moved (t.topX - s.topX) (t.topY - s.topY)) ∧
      (t.analyseSlope m).1.getMinFos = (s.analyseSlope m).1.getMinFos) := by
  have hm := h.moved rs rt ps pt
  generalize t.topX - s.topX = dx at *
  generalize t.topY - s.topY = dy at *
  have hb : ∀ p ∈ s.individual, t.bishop (p.cx + dx) (p.cy + dy) p.radius none none =
      s.bishop p.cx p.cy p.radius none none := fun p hp =>
    hm.bishop rs rt (hs p hp) (ht (p.moved dx dy) (hi ▸ List.mem_map_of_mem hp))
      (fun z hz => (ps.water z hz).1) (fun z hz => (pt.water z hz).1)
  have hw : ∀ p ∈ s.individual, withFos t (p.moved dx dy) = (withFos s p).moved dx dy := by
    intro p hp
    have : fosOf t (p.moved dx dy) = fosOf s p := by
      unfold fosOf
      simp only [Plane.moved, hb p hp]
    unfold withFos
    rw [this]
    rfl
  have ai : ∀ qs, Analysed s qs → qs = s.individual := by
    rintro qs (⟨_, e⟩ | ⟨e, _⟩)
    · exact e
    · exact absurd e hne
  have hne' : t.individual ≠ [] := by rw [hi]; simpa using hne
  have at' : Analysed t t.individual := .inl ⟨hne', rfl⟩
  rcases analyseSlope_cases s m with ⟨qs, h1, h2, h3⟩ | ⟨e, h1, _⟩ | ⟨pre, p, post, e, _, h1, h2, _, _, h3⟩
  · obtain rfl := ai qs h1
    have h4 := analyseSlope_of at' (fun q hq e he => by
      rw [hi] at hq
      obtain ⟨p, hp, rfl⟩ := List.mem_map.mp hq
      refine h2 p hp e ?_
      unfold FosRaises at he ⊢
      rw [← hb p hp]
      exact he) m
    rw [h3, h4]
    refine ⟨rfl, fun _ => ?_⟩
    have hsr : (t.analysedTo m t.individual).search =
        ((s.analysedTo m s.individual).search).map (Plane.moved dx dy) := by
      unfold Slope.analysedTo
      simp only
      rw [← tidySearch_moved, hi, List.map_map, List.map_map]
      congr 1
      exact List.map_congr_left fun p hp => hw p hp
    refine ⟨hsr, ?_⟩
    unfold Slope.getMinFos
    simp only
    rw [hsr]
    cases (s.analysedTo m s.individual).search <;> rfl
  · exact absurd h1 hne
  · have hp : p ∈ s.individual := by rw [← ai _ h1]; simp
    have he := bishop_raise rs (fun z hz => (ps.water z hz).1) (hs p hp).start h2
    rw [h3]
    rcases analyseSlope_cases t m with ⟨qs, k1, k2, k3⟩ | ⟨e, k1, _⟩ | ⟨pre', p', post', e', _, k1, k2, _, _, k3⟩
    · have hq : p.moved dx dy ∈ qs := by
        rw [k1.unique at', hi]
        exact List.mem_map_of_mem hp
      refine absurd ?_ (k2 _ hq e)
      unfold FosRaises at h2 ⊢
      rw [← hb p hp] at h2
      exact h2
    · exact absurd k1 hne'
    · have hp' : p' ∈ t.individual := by rw [← k1.unique at']; simp
      have he' := bishop_raise rt (fun z hz => (pt.water z hz).1) (ht p' hp').start k2
      rw [k3, he, he']
      refine ⟨rfl, fun h => ?_⟩
      cases h

/-! ## The same slope in a model of 30 by 20 metres -/

/-- `s = Slope(height=3, length=3); s.update_boundary_options(30, 20)`. -/
noncomputable def exBig : Slope ℝ :=
  ({ exSlope with minExtL := 30, minExtH := 20 } : Slope ℝ).withGeo 3 3

theorem exBig_reachable : Reachable exBig := by
  have := Reachable.call exSlope_reachable (.updateBoundaryOptions exSlope (.num 30) (.num 20))
  rwa [updateBoundaryOptions_LH exSlope_reachable.wf.geo 30 20 (by norm_num) (by norm_num)] at this

theorem exBig_extL : exBig.extL = 30 := by
  change max (max (5 * (3 : ℝ)) 30) (4 * 3) = 30
  norm_num

theorem exBig_extH : exBig.extH = 20 := by
  change max (max (3 * (3 : ℝ)) 20) (5 * 3 / 2) = 20
  norm_num

/-- … with the material of `exSoil`. -/
noncomputable def exBigSoil : Slope ℝ := { exBig with materials := [mkLayer exBig.extH 0 (exMat 2)] }

theorem exBigSoil_reachable : Reachable exBigSoil := by
  have := Reachable.call exBig_reachable (.setMaterials exBig [some (exMat 2)] (by
    intro m hm; simp at hm; subst hm; exact exMat_constructed _))
  rw [setMaterials_one exBig_reachable.wf.geo rfl] at this
  have hd : exBig.deepen (exMat 2).depth = exBig := by
    unfold Slope.deepen
    rw [if_neg]
    rw [exBig_extH]
    simp [exMat]; norm_num
  rw [hd] at this
  exact this

theorem exBigSoil_topX : exBigSoil.topX = 27 / 2 := by
  rw [exBigSoil_reachable.wf.geo.topX]
  change (exBig.extL - 3) / 2 = _
  rw [exBig_extL]; norm_num

theorem exBigSoil_topY : exBigSoil.topY = 20 := by
  rw [exBigSoil_reachable.wf.geo.topY]; exact exBig_extH

theorem exSame : SameDesign exSoil exBigSoil := by
  constructor <;> rfl

theorem exSoil_inPlace : InPlace exSoil where
  levels := by
    intro l hl
    simp only [exSoil_materials, List.mem_singleton] at hl
    subst hl
    simp [mkLayer]
  lls := by simp
  water := by intro z hz; cases hz

theorem exBigSoil_inPlace : InPlace exBigSoil where
  levels := by
    intro l hl
    simp only [exBigSoil, List.mem_singleton] at hl
    subst hl
    rw [exBigSoil_topY]
    change exBig.extH - _ = _
    rw [exBig_extH]; rfl
  lls := by intro p hp; cases hp
  water := by intro z hz; cases hz

theorem exSoil_holds : Holds exSoil (exSoil.topX + 3) (exSoil.topY + 8 / 3) (17 / 3) := by
  constructor <;> norm_num

theorem exBigSoil_holds : Holds exBigSoil (exBigSoil.topX + 3) (exBigSoil.topY + 8 / 3) (17 / 3) := by
  have e : exBigSoil.extL = 30 := exBig_extL
  constructor <;> norm_num [exBigSoil_topX, exBigSoil_topY, e]

/-- The circle of `exReady` in the big model. -/
noncomputable def exBigReady : Slope ℝ :=
  (exBigSoil.addSingleCircularPlane (exBigSoil.topX + 3) (exBigSoil.topY + 8 / 3) (17 / 3)).1

theorem exBigReady_individual : exBigReady.individual = [exPlane.moved (15 / 2) 11] := by
  obtain ⟨_, new, h1, h2⟩ := C91_model_size exSoil exBigSoil exSoil_reachable exBigSoil_reachable exSame
    exSoil_inPlace exBigSoil_inPlace 3 (8 / 3) (17 / 3) exSoil_holds exBigSoil_holds
  have e1 : exSoil.topX + 3 = 9 := by simp; norm_num
  have e2 : exSoil.topY + 8 / 3 = 35 / 3 := by simp; norm_num
  rw [e1, e2, exReady_eq] at h1
  have h3 : new = [exPlane] := by
    have : exSoil.individual = [] := rfl
    rw [this, List.nil_append] at h1
    exact h1.symm
  rw [h3, exBigSoil_topX, exBigSoil_topY, exSoil_topX, exSoil_topY] at h2
  unfold exBigReady
  rw [exBigSoil_topX, exBigSoil_topY, h2]
  have : exBigSoil.individual = [] := rfl
  rw [this]
  norm_num

theorem addSingle_rest (s : Slope ℝ) (cx cy r : ℝ) : (s.addSingleCircularPlane cx cy r).1 =
    { s with individual := (s.addSingleCircularPlane cx cy r).1.individual,
             search := (s.addSingleCircularPlane cx cy r).1.search } := by
  unfold Slope.addSingleCircularPlane
  split
  · rfl
  · split
    · rfl
    · split <;> rfl

/-- Non-vacuity of both theorems: the slope with crest (6, 9) in a model of 15 by 9 metres and with
crest (13.5, 20) in one of 30 by 20 metres; the minimum is the one of `exReady` in both. -/
example : (exBigReady.analyseSlope none).1.getMinFos = .ok (some exFos) := by
  have rb : Reachable exBigReady := Reachable.call exBigSoil_reachable (.addSingleCircularPlane _ _ _ _)
  have hr : exBigReady = { exBigSoil with individual := exBigReady.individual, search := exBigReady.search } :=
    addSingle_rest _ _ _ _
  have hx : exBigReady.topX = 27 / 2 := by rw [hr]; exact exBigSoil_topX
  have hy : exBigReady.topY = 20 := by rw [hr]; exact exBigSoil_topY
  have hx' : exReady.topX = 6 := exSoil_topX
  have hy' : exReady.topY = 9 := exSoil_topY
  have same : SameDesign exReady exBigReady := by
    rw [hr]
    constructor <;> rfl
  have pb : InPlace exBigReady := by
    rw [hr]
    exact ⟨exBigSoil_inPlace.levels, exBigSoil_inPlace.lls, exBigSoil_inPlace.water⟩
  obtain ⟨h1, h2⟩ := C91_analysis exReady exBigReady exReady_reachable rb same
    ⟨exSoil_inPlace.levels, exSoil_inPlace.lls, exSoil_inPlace.water⟩ pb (by simp [exReady])
    (by
      rw [exBigReady_individual, hx, hy, hx', hy']
      simp only [exReady, List.map_cons, List.map_nil]
      norm_num)
    (by
      intro p hp
      simp only [exReady, List.mem_singleton] at hp
      subst hp
      constructor <;> norm_num [exPlane]
      exact (by norm_num : (44 : ℝ) / 3 ≤ 15).trans_eq exSoil_extL.symm)
    (by
      intro p hp
      rw [exBigReady_individual, List.mem_singleton] at hp
      subst hp
      have e : exBigReady.extL = 30 := by rw [hr]; exact exBig_extL
      constructor <;> norm_num [exPlane, Plane.moved, e])
    none
  have h3 : (exReady.analyseSlope none).2 = .ok () := by
    rw [exAnalyse]
  rw [(h2 h3).2, exMinFos]

end PySlope
