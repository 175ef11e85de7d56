import Verif.Props.Assessed

/-! # C73, C75: the circles of the automatic search -/

namespace PySlope

/-- Specification: the pairs of an entry point and an exit point which are farther apart than the
minimum failure distance, in the order of the search. -/
noncomputable def farPairs (s : Slope ℝ) (entries : List (ℝ × ℝ)) : List ((ℝ × ℝ) × (ℝ × ℝ)) :=
  (entries.flatMap fun l => s.exitPoints.filterMap fun r => r.2.map fun y => (l, (r.1, y))).filter
    fun q => decide (s.minFailureDist < √((q.1.1 - q.2.1) ^ 2 + (q.1.2 - q.2.2) ^ 2))

/-- The planes generated for a pair. -/
noncomputable def pairPlanes (s : Slope ℝ) (q : (ℝ × ℝ) × (ℝ × ℝ)) : List (Plane ℝ) :=
  (s.generatePlanes q.1 q.2 (circlesFor s.iterations.toNat : Int)).toOption.getD []

theorem distPoints_real (p q : ℝ × ℝ) : distPoints p q = √((p.1 - q.1) ^ 2 + (p.2 - q.2) ^ 2) := by
  unfold distPoints
  simp only [sq_real, pyAbs_real, sq_abs]
  rfl

theorem pairPlanes_ok {s : Slope ℝ} (g : Geo s) {q : (ℝ × ℝ) × (ℝ × ℝ)} (h : q.1.1 ≠ q.2.1) :
    s.generatePlanes q.1 q.2 (circlesFor s.iterations.toNat : Int) = .ok (pairPlanes s q) := by
  obtain ⟨ps, e, _⟩ := generatePlanes_spec g h (circlesFor s.iterations.toNat : Int)
  unfold pairPlanes
  rw [e]; rfl

theorem planesFrom_list {s : Slope ℝ} (g : Geo s) (l : ℝ × ℝ) (rights : List (ℝ × Option ℝ))
    (hr : ∀ p ∈ rights, l.1 ≠ p.1 ∧ p.2.isSome) :
    s.planesFrom l (circlesFor s.iterations.toNat) rights =
      .ok (((rights.filterMap fun r => r.2.map fun y => (l, (r.1, y))).filter
        fun q => decide (s.minFailureDist < √((q.1.1 - q.2.1) ^ 2 + (q.1.2 - q.2.2) ^ 2))).flatMap
          (pairPlanes s)) := by
  induction rights with
  | nil => rfl
  | cons q rest ih =>
    obtain ⟨x, oy⟩ := q
    obtain ⟨hx, hy⟩ := hr (x, oy) (by simp)
    cases oy with
    | none => cases hy
    | some y =>
      unfold Slope.planesFrom
      rw [ih (fun p hp => hr p (List.mem_cons_of_mem _ hp)), distPoints_real]
      by_cases hd : s.minFailureDist < √((l.1 - x) ^ 2 + (l.2 - y) ^ 2)
      · rw [if_pos hd, show s.generatePlanes l (x, y) ((circlesFor s.iterations.toNat : ℕ) : Int) =
          .ok (pairPlanes s (l, (x, y))) from pairPlanes_ok g (q := (l, (x, y))) hx]
        simp [bind, Except.bind, pure, Except.pure, hd]
      · rw [if_neg hd]
        simp [bind, Except.bind, pure, Except.pure, hd]

theorem planesAll_list {s : Slope ℝ} (g : Geo s) (lefts : List (ℝ × ℝ))
    (h : ∀ l ∈ lefts, ∀ p ∈ s.exitPoints, l.1 ≠ p.1 ∧ p.2.isSome) :
    s.planesAll (circlesFor s.iterations.toNat) s.exitPoints lefts =
      .ok ((farPairs s lefts).flatMap (pairPlanes s)) := by
  induction lefts with
  | nil => rfl
  | cons l rest ih =>
    unfold Slope.planesAll
    rw [planesFrom_list g l _ (h l (by simp)), ih (fun l hl => h l (List.mem_cons_of_mem _ hl))]
    simp only [bind, Except.bind, pure, Except.pure, farPairs, List.flatMap_cons, List.filter_append,
      List.flatMap_append]

theorem addPairs {s : Slope ℝ} (g : Geo s) (pairs : List ((ℝ × ℝ) × (ℝ × ℝ)))
    (h : ∀ q ∈ pairs, s.getExternalY q.1.1 = some q.1.2 ∧ s.getExternalY q.2.1 = some q.2.2 ∧
      q.1.1 ≠ q.2.1) (x y : List (Plane ℝ)) :
    ∃ x', runAll (pairs.map fun q => .addSingleEntryExitPlane q.1.1 q.2.1 (circlesFor s.iterations.toNat))
      { s with search := x, individual := y } =
      { s with search := x', individual := y ++ pairs.flatMap (pairPlanes s) } := by
  induction pairs generalizing x y with
  | nil => exact ⟨x, by simp [runAll]⟩
  | cons q rest ih =>
    obtain ⟨h1, h2, h3⟩ := h q (by simp)
    have hS := SameSetup.res s x y
    have e : (Op.run { s with search := x, individual := y }
        (.addSingleEntryExitPlane q.1.1 q.2.1 (circlesFor s.iterations.toNat))).1 =
        { s with search := [], individual := y ++ pairPlanes s q } := by
      change (Slope.addSingleEntryExitPlane _ _ _ _).1 = _
      unfold Slope.addSingleEntryExitPlane
      rw [hS.getExternalY, h1, h2]
      simp only
      rw [hS.generatePlanes, show s.generatePlanes (q.1.1, q.1.2) (q.2.1, q.2.2) _ = _ from
        pairPlanes_ok g h3]
      rfl
    obtain ⟨x', e'⟩ := ih (fun q hq => h q (List.mem_cons_of_mem _ hq)) [] (y ++ pairPlanes s q)
    refine ⟨x', ?_⟩
    simp only [List.map_cons, runAll]
    rw [e, e', List.flatMap_cons, List.append_assoc]

theorem entryPoints_level {s : Slope ℝ} {entries : List (ℝ × ℝ)} (e : s.entryPoints = .ok entries) :
    ∀ l ∈ entries, l.2 = s.topY := by
  rw [entryPoints_eq] at e
  simp only at e
  split at e
  · cases e
  · cases e
    intro l hl
    simp only [List.mem_append, List.mem_map] at hl
    rcases hl with (⟨_, _, rfl⟩ | ⟨_, _, rfl⟩) | ⟨_, _, rfl⟩ <;> rfl

/-- C75: on a slope without individual planes, an automatic search with entry points in the model
gives what one gets by adding, with `add_single_entry_exit_plane`, the circles of every pair of an
entry point and an exit point farther apart than the minimum failure distance, and analysing those:
the same results in the same order, or the same exception. -/
theorem C75_search_is_all_pairs (s : Slope ℝ) (r : Reachable s) (hi : s.individual = [])
    {entries : List (ℝ × ℝ)} (e : s.entryPoints = .ok entries)
    (hin : ∀ l ∈ entries, 0 ≤ l.1 ∧ l.1 ≤ s.topX) (m : Option ℝ) :
    let u := runAll ((farPairs s entries).map fun q =>
      .addSingleEntryExitPlane q.1.1 q.2.1 (circlesFor s.iterations.toNat)) s
    (u.analyseSlope m).2 = (s.analyseSlope m).2 ∧
    (u.analyseSlope m).1.search = (s.analyseSlope m).1.search ∧
    (∃ ps, u.individual = ps ∧ s.entryExitPlanes = .ok ps) := by
  intro u
  have w := r.wf
  have hexit : ∀ l ∈ entries, ∀ p ∈ s.exitPoints, l.1 ≠ p.1 ∧ p.2.isSome := by
    intro l hl p hp
    obtain ⟨h1, h2, y, h3, _⟩ := exitPoints_mem w hp
    have := (hin l hl).2
    have := w.l3
    exact ⟨by intro h; linarith, by rw [h3]; rfl⟩
  have hp : s.entryExitPlanes = .ok ((farPairs s entries).flatMap (pairPlanes s)) := by
    unfold Slope.entryExitPlanes
    rw [e]
    exact planesAll_list w.geo entries hexit
  obtain ⟨x', hu⟩ := addPairs w.geo (farPairs s entries) (by
    intro q hq
    unfold farPairs at hq
    obtain ⟨l, hl, hq⟩ := List.mem_flatMap.mp (List.mem_filter.mp hq).1
    obtain ⟨p, hp, hq⟩ := List.mem_filterMap.mp hq
    obtain ⟨h1, h2, y, h3, h4⟩ := exitPoints_mem w hp
    rw [h3] at hq
    cases hq
    refine ⟨?_, h4, (hexit l hl p hp).1⟩
    have hlen := w.geo.botX
    unfold Slope.getExternalY
    simp only [lit_zero]
    rw [if_neg, if_pos (hin l hl).2, entryPoints_level e l hl]
    have := (hin l hl).1
    have := (hin l hl).2
    have := w.l3; have := w.l34; have := w.l4
    push Not
    exact ⟨by linarith, by linarith⟩) s.search s.individual
  have hu : u = { s with search := x', individual := (farPairs s entries).flatMap (pairPlanes s) } := by
    change runAll _ s = _
    rw [hi, List.nil_append] at hu
    rw [← hu]
    congr 1
    rw [← hi]
  have hS : SameSetup s u := by rw [hu]; exact SameSetup.res s _ _
  have hui : u.individual = (farPairs s entries).flatMap (pairPlanes s) := by rw [hu]
  refine ⟨?_, ?_, _, hui, hp⟩
  all_goals
    unfold Slope.analyseSlope
    rw [hi, hp, hui]
    cases hl : (farPairs s entries).flatMap (pairPlanes s) with
    | nil => simp only [hS.entryExitPlanes, hp, hl, Slope.fillFos]
    | cons a b =>
      simp only [hS.fillFos]
      cases (s.fillFos (a :: b)).2 <;> rfl

/-- A case of C75: the example, which has entry and exit points. -/
example : exSoil.individual = [] ∧ ∃ entries, exSoil.entryPoints = .ok entries ∧ entries ≠ [] ∧
    exSoil.exitPoints ≠ [] ∧ ∀ l ∈ entries, 0 ≤ l.1 ∧ l.1 ≤ exSoil.topX := by
  have hn : numPointsTop 1000 = 14 := by
    change Nat.sqrt (1000 / max 5 (1000 / 800)) = 14
    exact (Nat.eq_sqrt.mpr ⟨by decide, by decide⟩).symm
  have r := exSoil_reachable
  have hen : ∃ entries, exSoil.entryPoints = .ok entries ∧ entries ≠ [] := by
    rw [entryPoints_eq]
    change ∃ entries, (if ((numPointsTop 1000 : Int) - 0 - 0 = 1) then _ else _) = _ ∧ _
    rw [hn, if_neg (by decide)]
    refine ⟨_, rfl, ?_⟩
    simp
    change ¬ numPointsTop 1000 = 0
    rw [hn]; decide
  obtain ⟨entries, hen, hne⟩ := hen
  obtain ⟨even, h1, h2, h3⟩ := (C30_points_partial exSoil r).1 _ hen
  simp only [exSoil_udls, exSoil_lls, List.map_nil, List.append_nil] at h1
  subst h1
  refine ⟨rfl, _, hen, hne, ?_, fun l hl => ⟨r.wf.l1.trans (h2 l hl).1, (h2 l hl).2.1.trans r.wf.l2⟩⟩
  obtain ⟨y, hy⟩ := (C30_points_partial exSoil r).2.2
  exact List.ne_nil_of_mem hy

/-! ## C73 -/

/-- C73, for the entry and exit points: the results of an automatic search are exactly the circles
which `add_single_entry_exit_plane` makes for a pair of an entry point and an exit point farther apart
than the minimum failure distance, those that have a factor of safety not above the limit, with that
factor of safety. Missing: the same for the end points reported with the circle, which may be closer
(`C73_reported_closer`). -/
theorem C73_far_pairs_partial (s : Slope ℝ) (r : Reachable s) (hi : s.individual = [])
    {entries : List (ℝ × ℝ)} (e : s.entryPoints = .ok entries) (hin : ∀ l ∈ entries, l.1 ≤ s.topX)
    {m : Option ℝ} {t : Slope ℝ} (h : s.analyseSlope m = (t, .ok ())) (p : Plane ℝ) :
    p ∈ t.search ↔ ∃ q ∈ farPairs s entries, ∃ ps p0 F,
      s.generatePlanes q.1 q.2 (circlesFor s.iterations.toNat) = .ok ps ∧ p0 ∈ ps ∧
      fosOf s p0 = some F ∧ (∀ M, m = some M → M = 0 ∨ F ≤ M) ∧ p = { p0 with fos := some (some F) } := by
  have w := r.wf
  have hexit : ∀ l ∈ entries, ∀ p ∈ s.exitPoints, l.1 ≠ p.1 ∧ p.2.isSome := by
    intro l hl p hp
    obtain ⟨h1, h2, y, h3, _⟩ := exitPoints_mem w hp
    have := hin l hl
    have := w.l3
    exact ⟨by intro h; linarith, by rw [h3]; rfl⟩
  have hp : s.entryExitPlanes = .ok ((farPairs s entries).flatMap (pairPlanes s)) := by
    unfold Slope.entryExitPlanes
    rw [e]
    exact planesAll_list w.geo entries hexit
  have hne : ∀ q ∈ farPairs s entries, q.1.1 ≠ q.2.1 := by
    intro q hq
    unfold farPairs at hq
    obtain ⟨l, hl, hq⟩ := List.mem_flatMap.mp (List.mem_filter.mp hq).1
    obtain ⟨p, hp, hq⟩ := List.mem_filterMap.mp hq
    obtain ⟨_, _, y, h3, _⟩ := exitPoints_mem w hp
    rw [h3] at hq
    cases hq
    exact (hexit l hl p hp).1
  obtain ⟨ps, h1, h2, rfl⟩ := analyseSlope_ok h
  have hps : ps = (farPairs s entries).flatMap (pairPlanes s) := by
    rcases h1 with ⟨h1, _⟩ | ⟨_, h1⟩
    · exact absurd hi h1
    · rw [hp] at h1; cases h1; rfl
  subst hps
  change p ∈ tidySearch m _ ↔ _
  rw [tidySearch_eq, List.mem_filter, (sortByKey_perm _ _).mem_iff, List.mem_filter, List.mem_map]
  have keep : ∀ (p0 : Plane ℝ) F, fosOf s p0 = some F →
      (keeps m (withFos s p0) = true ↔ ∀ M, m = some M → M = 0 ∨ F ≤ M) := by
    intro p0 F hF
    have : fosKey (withFos s p0) = F := by unfold fosKey; rw [fosVal_withFos, hF]; rfl
    cases m with
    | none => simp [keeps]
    | some M =>
      unfold keeps
      simp only [this, Option.some.injEq, forall_eq']
      by_cases hM : M = 0 <;> simp [hM]
  constructor
  · rintro ⟨⟨⟨p0, hp0, rfl⟩, h3⟩, h4⟩
    obtain ⟨q, hq, hq0⟩ := List.mem_flatMap.mp hp0
    rw [fosVal_withFos] at h3
    obtain ⟨F, hF⟩ := Option.isSome_iff_exists.mp h3
    refine ⟨q, hq, _, p0, F, pairPlanes_ok w.geo (hne q hq), hq0, hF, (keep p0 F hF).mp h4, ?_⟩
    unfold withFos; rw [hF]
  · rintro ⟨q, hq, ps, p0, F, h3, h4, hF, h5, rfl⟩
    rw [pairPlanes_ok w.geo (hne q hq)] at h3
    cases h3
    have hw : withFos s p0 = { p0 with fos := some (some F) } := by unfold withFos; rw [hF]
    rw [← hw]
    refine ⟨⟨⟨p0, List.mem_flatMap.mpr ⟨q, hq, h4⟩, rfl⟩, ?_⟩, (keep p0 F hF).mpr h5⟩
    rw [fosVal_withFos, hF]; rfl

end PySlope
