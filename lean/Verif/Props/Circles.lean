import Verif.Spec.Circles
import Verif.Props.Results
import Verif.Props.Total

/-! # Property C99: more circles never raise the least factor, and their order does not matter -/

namespace PySlope

/-- A plane without its factor of safety. -/
def Plane.bare (p : Plane ℝ) : Plane ℝ := { p with fos := none }

theorem withFos_bare (s : Slope ℝ) (p : Plane ℝ) : withFos s p.bare = withFos s p := rfl

theorem bare_withFos (s : Slope ℝ) (p : Plane ℝ) : (withFos s p).bare = p.bare := rfl

theorem SameSetup.trans' {a b c : Slope ℝ} (h : SameSetup a b) (h' : SameSetup b c) : SameSetup a c := by
  obtain ⟨a1, a2, a3, a4, a5, a6, a7, a8, a9, a10, a11, a12, a13, a14, a15, a16, a17, a18, a19, a20, a21⟩ := h
  obtain ⟨b1, b2, b3, b4, b5, b6, b7, b8, b9, b10, b11, b12, b13, b14, b15, b16, b17, b18, b19, b20, b21⟩ := h'
  constructor <;> simp only [*]

/-- Adding a circle appends at most one plane, which depends only on the slope and the circle. -/
theorem addSingleCircularPlane_spec (s : Slope ℝ) (cx cy r : ℝ) :
    SameSetup s (s.addSingleCircularPlane cx cy r).1 ∧
    ∃ new : List (Plane ℝ), (s.addSingleCircularPlane cx cy r).1.individual = s.individual ++ new ∧
      ∀ t, SameSetup s t → (t.addSingleCircularPlane cx cy r).1.individual = t.individual ++ new := by
  have key : ∀ t, SameSetup s t →
      (t.addSingleCircularPlane cx cy r).1.individual = t.individual ++
        match s.circleExternalIntersection cx cy r with
        | .error _ => []
        | .ok iList => if setSize iList < 2 then [] else match iList with
          | lc :: rc :: _ => [{ lc := lc, rc := rc, cx := cx, cy := cy, radius := r, fos := none }]
          | _ => [] := by
    intro t h
    unfold Slope.addSingleCircularPlane
    rw [h.circleExternalIntersection]
    cases s.circleExternalIntersection cx cy r with
    | error e => simp
    | ok il =>
      simp only
      split
      · simp
      · match il with
        | [] => simp
        | [_] => simp
        | _ :: _ :: _ => simp [Slope.resetResults]
  refine ⟨?_, _, key s (.refl s), key⟩
  unfold Slope.addSingleCircularPlane
  split
  · exact .refl s
  · split
    · exact .refl s
    · split
      · constructor <;> rfl
      · exact .refl s

theorem addSingleEntryExitPlane_spec (s : Slope ℝ) (lx rx : ℝ) (n : Int) :
    SameSetup s (s.addSingleEntryExitPlane lx rx n).1 ∧
    ∃ new : List (Plane ℝ), (s.addSingleEntryExitPlane lx rx n).1.individual = s.individual ++ new := by
  unfold Slope.addSingleEntryExitPlane
  split
  · split
    · exact ⟨.refl s, [], by simp⟩
    · exact ⟨by constructor <;> rfl, _, rfl⟩
  · exact ⟨.refl s, [], by simp⟩

theorem analyseSlope_bare (s : Slope ℝ) (m : Option ℝ) :
    SameSetup s (s.analyseSlope m).1 ∧ (s.analyseSlope m).1.individual.map Plane.bare = s.individual.map Plane.bare := by
  have hb : ∀ ps : List (Plane ℝ), (ps.map (withFos s)).map Plane.bare = ps.map Plane.bare := by
    intro ps
    rw [List.map_map]
    rfl
  rcases analyseSlope_cases s m with ⟨ps, h1, h2, e⟩ | ⟨_, _, _, e⟩ | ⟨pre, p, post, _, ind, h1, _, _, hi, e⟩
  · rw [e]
    exact ⟨.analysedTo s m ps, hb _⟩
  · rw [e]
    exact ⟨.refl s, rfl⟩
  · rw [e]
    refine ⟨.res s _ _, ?_⟩
    rcases h1 with ⟨h, h'⟩ | ⟨h, _⟩
    · change ind.map _ = _
      rw [hi, if_neg h, ← h', List.map_append, hb, List.map_append]
    · change ind.map _ = _
      rw [hi, if_pos h, h]

/-- What adding circles leaves: the same slope and the old planes, then new ones. -/
theorem Adds.spec {s t : Slope ℝ} (h : Adds s t) :
    SameSetup s t ∧ ∃ new, t.individual.map Plane.bare = s.individual.map Plane.bare ++ new := by
  induction h with
  | none => exact ⟨.refl s, [], by simp⟩
  | circle _ cx cy r ih =>
    obtain ⟨a, n, e⟩ := ih
    obtain ⟨b, n', e', _⟩ := addSingleCircularPlane_spec _ cx cy r
    exact ⟨a.trans' b, _, by rw [e', List.map_append, e, List.append_assoc]⟩
  | pair _ lx rx k ih =>
    obtain ⟨a, n, e⟩ := ih
    obtain ⟨b, n', e'⟩ := addSingleEntryExitPlane_spec _ lx rx k
    exact ⟨a.trans' b, _, by rw [e', List.map_append, e, List.append_assoc]⟩
  | analyse _ m ih =>
    obtain ⟨a, n, e⟩ := ih
    obtain ⟨b, e'⟩ := analyseSlope_bare _ m
    exact ⟨a.trans' b, n, by rw [e', e]⟩

/-- The results of an analysis of individual planes, in no order. -/
noncomputable def wantedOf (s : Slope ℝ) (m : Option ℝ) (ps : List (Plane ℝ)) : List (Plane ℝ) :=
  (ps.filter (Wanted s m)).map (withFos s)

theorem wantedOf_bare (s : Slope ℝ) (m : Option ℝ) (ps : List (Plane ℝ)) :
    wantedOf s m (ps.map Plane.bare) = wantedOf s m ps := by
  unfold wantedOf
  rw [List.filter_map, List.map_map]
  rfl

theorem wantedOf_same {s t : Slope ℝ} (h : SameSetup s t) (m : Option ℝ) (ps : List (Plane ℝ)) :
    wantedOf t m ps = wantedOf s m ps := by
  have e : Wanted t m = Wanted s m := by
    funext p
    unfold Wanted
    rw [h.bishop]
  unfold wantedOf
  rw [e, h.withFos]

theorem analyse_zero (s : Slope ℝ) : s.analyseSlope (some 0) = s.analyseSlope none := C24_max_fos_zero.1 s

/-- `max_fos = 0` is no limit. -/
noncomputable def limit (m : Option ℝ) : Option ℝ := if m = some 0 then none else m

theorem limit_ne (m : Option ℝ) : limit m ≠ some 0 := by
  unfold limit
  split
  · simp
  · assumption

theorem analyse_limit (s : Slope ℝ) (m : Option ℝ) : s.analyseSlope (limit m) = s.analyseSlope m := by
  unfold limit
  split
  · rename_i h
    rw [h, analyse_zero]
  · rfl

/-- Results of an analysis of circles added one by one, and whether it ends. -/
theorem results_of {s : Slope ℝ} (hi : s.individual ≠ []) (m : Option ℝ) :
    ((s.analyseSlope m).2 = .ok () ↔ ∀ p ∈ s.individual.map Plane.bare, ∀ e, ¬ FosRaises s p e) ∧
    ((s.analyseSlope m).2 = .ok () →
      (s.analyseSlope m).1.search.Perm (wantedOf s (limit m) (s.individual.map Plane.bare))) := by
  have hA : ∀ {ps}, Analysed s ps → ps = s.individual := by
    intro ps h
    rcases h with ⟨_, h⟩ | ⟨h, _⟩
    · exact h
    · exact absurd h hi
  have hb : (∀ p ∈ s.individual.map Plane.bare, ∀ e, ¬ FosRaises s p e) ↔
      ∀ p ∈ s.individual, ∀ e, ¬ FosRaises s p e := by
    rw [List.forall_mem_map]
    rfl
  constructor
  · rw [hb]
    constructor
    · intro h
      obtain ⟨ps, h1, h2, _⟩ := analyseSlope_ok (s := s) (m := m) (t := (s.analyseSlope m).1) (by rw [← h])
      rw [← hA h1]
      exact h2
    · intro h
      rw [analyseSlope_of (.inl ⟨hi, rfl⟩) h]
  · intro h
    obtain ⟨ps, h1, h2, _⟩ := C24_results_partial (s := s) (t := (s.analyseSlope m).1) (limit_ne m)
      (by rw [analyse_limit, ← h])
    rw [wantedOf_bare]
    rw [hA h1] at h2
    exact h2

/-- The least factor of safety among results. -/
theorem min_of {s : Slope ℝ} {m : Option ℝ} (h : (s.analyseSlope m).2 = .ok ()) (F : ℝ) :
    (s.analyseSlope m).1.getMinFos = .ok (some F) ↔
      (∃ p ∈ (s.analyseSlope m).1.search, p.fos = some (some F)) ∧
      ∀ p ∈ (s.analyseSlope m).1.search, ∀ x, p.fos = some (some x) → F ≤ x := by
  obtain ⟨ps, _, _, hs, _⟩ := C24_results_partial (s := s) (t := (s.analyseSlope m).1) (limit_ne m)
    (by rw [analyse_limit, ← h])
  unfold Slope.getMinFos
  cases e : (s.analyseSlope m).1.search with
  | nil => simp
  | cons p rest =>
    rw [e] at hs
    have hp := List.pairwise_cons.mp hs
    constructor
    · intro h
      have hf : p.fos = some (some F) := by
        cases hpf : p.fos with
        | none => simp [hpf] at h
        | some v => simp [hpf] at h; rw [h]
      refine ⟨⟨p, by simp, hf⟩, ?_⟩
      intro q hq x hx
      rcases List.mem_cons.mp hq with rfl | hq
      · rw [hf] at hx; cases hx; exact le_rfl
      · obtain ⟨a, b, ha, hb, hab⟩ := hp.1 q hq
        rw [hf] at ha; cases ha
        rw [hx] at hb; cases hb
        exact hab
    · rintro ⟨⟨q, hq, hF⟩, hmin⟩
      rcases List.mem_cons.mp hq with rfl | hq
      · simp [hF]
      · obtain ⟨a, b, ha, hb, hab⟩ := hp.1 q hq
        rw [hF] at hb; cases hb
        have := hmin p (by simp) a ha
        have : a = F := le_antisymm hab this
        simp [ha, this]

/-- C99: adding circles to a slope that has some, with any analyses in between. An analysis that raised still
raises. If it does not raise, everything reported before is reported again, each circle as often as before and with
the same factor of safety, and the least factor of safety is not greater than before. -/
theorem C99_more_circles (s t : Slope ℝ) (h : Adds s t) (hi : s.individual ≠ []) (m : Option ℝ) :
    ((t.analyseSlope m).2 = .ok () → (s.analyseSlope m).2 = .ok ()) ∧
    ((t.analyseSlope m).2 = .ok () →
      ((s.analyseSlope m).1.search).Subperm (t.analyseSlope m).1.search ∧
      ∀ F, (s.analyseSlope m).1.getMinFos = .ok (some F) →
        ∃ F', (t.analyseSlope m).1.getMinFos = .ok (some F') ∧ F' ≤ F) := by
  obtain ⟨hs, new, e⟩ := h.spec
  have hi' : t.individual ≠ [] := by
    intro h0
    rw [h0] at e
    have := congrArg List.length e
    simp only [List.map_nil, List.length_nil, List.length_append, List.length_map] at this
    exact hi (List.length_eq_zero_iff.mp (by omega))
  obtain ⟨a1, a2⟩ := results_of hi m
  obtain ⟨b1, b2⟩ := results_of hi' m
  have hok : (t.analyseSlope m).2 = .ok () → (s.analyseSlope m).2 = .ok () := by
    rw [a1, b1, e]
    intro h p hp x
    have := h p (List.mem_append_left _ hp) x
    rwa [hs.raises] at this
  refine ⟨hok, fun ht => ?_⟩
  have hsub : ((s.analyseSlope m).1.search).Subperm (t.analyseSlope m).1.search := by
    refine (a2 (hok ht)).subperm.trans (List.Subperm.trans ?_ (b2 ht).symm.subperm)
    rw [e, wantedOf_same hs]
    unfold wantedOf
    rw [List.filter_append, List.map_append]
    exact (List.sublist_append_left _ _).subperm
  refine ⟨hsub, fun F hF => ?_⟩
  obtain ⟨⟨p, hp, hpF⟩, _⟩ := (min_of (hok ht) F).mp hF
  have hp' := hsub.subset hp
  cases hr : (t.analyseSlope m).1.search with
  | nil => rw [hr] at hp'; cases hp'
  | cons q rest =>
    obtain ⟨ps, _, hperm, _, _, hmin⟩ := C24_results_partial (s := t) (t := (t.analyseSlope m).1) (limit_ne m)
      (by rw [analyse_limit, ← ht])
    obtain ⟨_, _, x, _, hx, _⟩ := hmin (by rw [hr]; simp)
    exact ⟨x, hx, ((min_of ht x).mp hx).2 p hp' F hpF⟩

theorem addCircles_spec (s : Slope ℝ) (cs : List (ℝ × ℝ × ℝ)) :
    SameSetup s (s.addCircles cs) ∧ Adds s (s.addCircles cs) ∧
    ∀ f : ℝ × ℝ × ℝ → List (Plane ℝ),
      (∀ c t, SameSetup s t → (t.addSingleCircularPlane c.1 c.2.1 c.2.2).1.individual = t.individual ++ f c) →
      (s.addCircles cs).individual = s.individual ++ cs.flatMap f := by
  have key : ∀ t, Adds s t → Adds s (t.addCircles cs) ∧
    ∀ f : ℝ × ℝ × ℝ → List (Plane ℝ),
      (∀ c t, SameSetup s t → (t.addSingleCircularPlane c.1 c.2.1 c.2.2).1.individual = t.individual ++ f c) →
      (t.addCircles cs).individual = t.individual ++ cs.flatMap f := by
    induction cs with
    | nil => intro t ht; exact ⟨ht, fun f _ => by simp [Slope.addCircles]⟩
    | cons c cs ih =>
      intro t ht
      obtain ⟨a, b⟩ := ih _ (ht.circle c.1 c.2.1 c.2.2)
      refine ⟨a, fun f hf => ?_⟩
      unfold Slope.addCircles
      rw [b f hf, hf c t ht.spec.1, List.flatMap_cons, List.append_assoc]
  obtain ⟨a, b⟩ := key s .none
  exact ⟨a.spec.1, a, b⟩

/-- C99: the order in which circles are added does not matter. The analysis ends for one order when it does for
the other, and then the same circles are reported with the same factors of safety, each as often, and the least
factor of safety is the same. -/
theorem C99_order (s : Slope ℝ) (cs cs' : List (ℝ × ℝ × ℝ)) (h : cs.Perm cs') (m : Option ℝ)
    (hi : (s.addCircles cs).individual ≠ []) :
    (((s.addCircles cs).analyseSlope m).2 = .ok () ↔ ((s.addCircles cs').analyseSlope m).2 = .ok ()) ∧
    (((s.addCircles cs).analyseSlope m).2 = .ok () →
      ((s.addCircles cs).analyseSlope m).1.search.Perm ((s.addCircles cs').analyseSlope m).1.search ∧
      ((s.addCircles cs).analyseSlope m).1.getMinFos = ((s.addCircles cs').analyseSlope m).1.getMinFos) := by
  obtain ⟨a1, _, a3⟩ := addCircles_spec s cs
  obtain ⟨b1, _, b3⟩ := addCircles_spec s cs'
  choose f hf using fun c : ℝ × ℝ × ℝ => (addSingleCircularPlane_spec s c.1 c.2.1 c.2.2).2
  have ea := a3 f (fun c => (hf c).2)
  have eb := b3 f (fun c => (hf c).2)
  have hp : (s.addCircles cs).individual.Perm (s.addCircles cs').individual := by
    rw [ea, eb]
    exact List.Perm.append_left _ (h.flatMap_right f)
  have hi' : (s.addCircles cs').individual ≠ [] := fun h0 => hi (by rw [h0] at hp; exact hp.eq_nil)
  obtain ⟨c1, c2⟩ := results_of hi m
  obtain ⟨d1, d2⟩ := results_of hi' m
  have hok : ((s.addCircles cs).analyseSlope m).2 = .ok () ↔ ((s.addCircles cs').analyseSlope m).2 = .ok () := by
    rw [c1, d1]
    simp only [a1.raises, b1.raises]
    exact forall_congr' fun p => by rw [(hp.map Plane.bare).mem_iff]
  refine ⟨hok, fun ho => ?_⟩
  have hs : ((s.addCircles cs).analyseSlope m).1.search.Perm ((s.addCircles cs').analyseSlope m).1.search := by
    refine (c2 ho).trans (List.Perm.trans ?_ (d2 (hok.mp ho)).symm)
    rw [wantedOf_same a1, wantedOf_same b1]
    exact ((hp.map _).filter _).map _
  refine ⟨hs, ?_⟩
  have hm : ∀ F, ((s.addCircles cs).analyseSlope m).1.getMinFos = .ok (some F) ↔
      ((s.addCircles cs').analyseSlope m).1.getMinFos = .ok (some F) := by
    intro F
    rw [min_of ho, min_of (hok.mp ho)]
    simp only [hs.mem_iff]
  obtain ⟨_, _, _, _, n1, n2⟩ := C24_results_partial (s := s.addCircles cs)
    (t := ((s.addCircles cs).analyseSlope m).1) (limit_ne m) (by rw [analyse_limit, ← ho])
  obtain ⟨_, _, _, _, k1, _⟩ := C24_results_partial (s := s.addCircles cs')
    (t := ((s.addCircles cs').analyseSlope m).1) (limit_ne m) (by rw [analyse_limit, ← hok.mp ho])
  by_cases h0 : ((s.addCircles cs).analyseSlope m).1.search = []
  · have h0' : ((s.addCircles cs').analyseSlope m).1.search = [] := by
      rw [h0] at hs; exact hs.nil_eq.symm
    rw [(n1 h0).1, (k1 h0').1]
  · obtain ⟨_, _, x, _, hx, _⟩ := n2 h0
    rw [hx, (hm x).mp hx]

/-- The circle round (9, 9) through the crest (6, 9) and the toe (9, 6). -/
theorem exSecond (u : Slope ℝ) (h : SameSetup exSoil u) : (u.addSingleCircularPlane 9 9 3).1.individual =
    u.individual ++ [{ lc := (6, 9), rc := (9, 6), cx := 9, cy := 9, radius := 3, fos := none }] := by
  have hcr : ∀ p, Crossing exSoil 9 9 3 p ↔ p = (6, 9) ∨ p = (9, 6) := by
    rintro ⟨x, y⟩
    simp only [Prod.mk.injEq]
    unfold Crossing OnCircle OnLine
    simp only [exSoil_topX, exSoil_topY, exSoil_botX, exSoil_botY, exSoil_extL]
    constructor
    · rintro ⟨h, ⟨rfl, h1, h2, h3⟩ | ⟨rfl, h1, h2, h3⟩ | ⟨h1, h2, h3⟩⟩
      · left
        have : (x - 6) * (x - 12) = 0 := by linarith
        rcases mul_eq_zero.mp this with h | h
        · exact ⟨by linarith, rfl⟩
        · exfalso; linarith
      · right
        have : (x - 9) * (x - 9) = 0 := by linarith
        rcases mul_eq_zero.mp this with h | h <;> exact ⟨by linarith, rfl⟩
      · have hy : y = 15 - x := by linarith
        subst hy
        have : (x - 6) * (x - 9) = 0 := by linarith
        rcases mul_eq_zero.mp this with h | h
        · exact .inl ⟨by linarith, by linarith⟩
        · exact .inr ⟨by linarith, by linarith⟩
    · rintro (⟨rfl, rfl⟩ | ⟨rfl, rfl⟩)
      · norm_num
      · norm_num
  have e := intersections_two exSoil_reachable.wf.geo hcr (by norm_num)
  unfold Slope.addSingleCircularPlane
  rw [h.circleExternalIntersection, e]
  simp only
  rw [setSize_nodup (by simp)]
  rfl

/-- A case of C99: the slope of the examples with one circle gets a second one, after an analysis of the first.
The analyses end, and the first has a least factor. -/
example : ∃ t, Adds exReady t ∧ exReady.individual ≠ [] ∧ t.individual.length = 2 ∧
    (t.analyseSlope none).2 = .ok () ∧ (exReady.analyseSlope none).1.getMinFos = .ok (some exFos) := by
  have ha := analyseSlope_bare exReady none
  have hl := exSecond (exReady.analyseSlope none).1 (exReady_same.trans' ha.1)
  have hr : Reachable ((exReady.analyseSlope none).1.addSingleCircularPlane 9 9 3).1 :=
    (exReady_reachable.call (.analyseSlope exReady none)).call (.addSingleCircularPlane _ 9 9 3)
  have hi : (exReady.analyseSlope none).1.individual = [withFos exReady exPlane] := by rw [exAnalyse]; rfl
  have hS := (addSingleCircularPlane_spec (exReady.analyseSlope none).1 9 9 3).1
  refine ⟨_, (Adds.none.analyse none).circle 9 9 3, by simp [exReady], by rw [hl, hi]; rfl, ?_, exMinFos⟩
  refine (C70_analysis_ends _ hr none ?_ ?_ ?_).2 ?_
  · rw [hl, hi]
    intro p hp
    simp only [List.cons_append, List.nil_append, List.mem_cons, List.not_mem_nil, or_false] at hp
    rcases hp with rfl | rfl
    · change 0 ≤ exPlane.cx ∧ 0 ≤ exPlane.cy ∧ 0 ≤ exPlane.radius
      norm_num [exPlane]
    · norm_num
  · intro z hz
    rw [hS.waterRL, ha.1.waterRL] at hz
    cases hz
  · intro h0
    rw [hl, hi] at h0
    cases h0
  · intro l h
    rw [hS.materials, ha.1.materials] at h
    obtain rfl : l = _ := List.mem_singleton.mp h
    change (0 : ℝ) = 0 ∧ (0 : ℝ) < 5
    norm_num

/-- A case of C99 for the order: the two circles in either order. -/
example : [((9 : ℝ), (9 : ℝ), (3 : ℝ)), (9, 35 / 3, 17 / 3)].Perm [(9, 35 / 3, 17 / 3), (9, 9, 3)] ∧
    (exSoil.addCircles [(9, 9, 3), (9, 35 / 3, 17 / 3)]).individual ≠ [] := by
  refine ⟨List.Perm.swap _ _ _, ?_⟩
  obtain ⟨_, new, e⟩ := (addCircles_spec (exSoil.addSingleCircularPlane 9 9 3).1 [(9, 35 / 3, 17 / 3)]).2.1.spec
  intro h0
  change ((exSoil.addSingleCircularPlane 9 9 3).1.addCircles [(9, 35 / 3, 17 / 3)]).individual = [] at h0
  rw [h0, exSecond exSoil (.refl _)] at e
  simp at e

end PySlope
