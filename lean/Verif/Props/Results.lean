import Verif.Spec.ExampleCircle

/-! # Properties C23 to C27: the results of an analysis -/

namespace PySlope

variable {K : Type} [PyNum K]

/-! ## C23 -/

/-- C23: after any history of calls in which no analysis raised (other calls may have raised), the
results are empty, or they are exactly those that analysing the object as it now is would give. -/
theorem C23_no_stale_results {h a l : PyVal ℝ} {s0 : Slope ℝ} (e : Slope.new h a l = .ok s0)
    (os : List (Op ℝ)) (hv : ∀ o ∈ os, o.Valid) (hq : Quiet os s0) :
    (runAll os s0).search = [] ∨
      ∃ m, ((runAll os s0).analyseSlope m).2 = .ok () ∧
        ((runAll os s0).analyseSlope m).1.search = (runAll os s0).search := by
  refine Fresh.runAll (.init e) (.nil ?_) hv hq
  rw [new_eq] at e
  cases hb : (boundaryInputs h a l : Except PyErr (ℝ × ℝ)) with
  | error x => rw [hb] at e; cases e
  | ok hl => rw [hb] at e; cases e; rfl

/-- The first of the sorted results does not depend on `max_fos`. -/
theorem tidySearch_head {m : Option ℝ} {ps rest : List (Plane ℝ)} {p : Plane ℝ}
    (h : tidySearch m ps = p :: rest) : ∃ rest', tidySearch none ps = p :: rest' := by
  rw [tidySearch_eq] at h ⊢
  set l := sortByKey fosKey (ps.filter (fun p => p.fosVal.isSome)) with hl
  have hs : l.Pairwise (fun a b => fosKey a ≤ fosKey b) := sortByKey_sorted _ _
  have e : l.filter (keeps none) = l := by
    rw [List.filter_eq_self]; intro a _; rfl
  rw [e]
  cases hc : l with
  | nil => rw [hc] at h; simp at h
  | cons q l' =>
    refine ⟨l', ?_⟩
    have hk : keeps m q = true := by
      have hp : p ∈ l.filter (keeps m) := by rw [h]; simp
      obtain ⟨hp1, hp2⟩ := List.mem_filter.mp hp
      have hqp : fosKey q ≤ fosKey p := by
        rw [hc] at hp1 hs
        rcases List.mem_cons.mp hp1 with rfl | hp1
        · exact le_refl _
        · exact (List.pairwise_cons.mp hs).1 p hp1
      unfold keeps at hp2 ⊢
      split
      · rfl
      · rename_i x
        simp only at hp2
        split
        · rfl
        · rename_i hx
          rw [if_neg hx, decide_eq_true_eq] at hp2
          rw [decide_eq_true_eq]; exact hqp.trans hp2
    rw [hc, List.filter_cons_of_pos hk] at h
    rw [(List.cons.inj h).1]

/-- C23, seen through the getters: whatever `get_min_FOS`, `get_min_FOS_circle` and
`get_min_FOS_end_points` return is what they return after analysing the object as it now is. -/
theorem C23_getters {h a l : PyVal ℝ} {s0 : Slope ℝ} (e : Slope.new h a l = .ok s0)
    (os : List (Op ℝ)) (hv : ∀ o ∈ os, o.Valid) (hq : Quiet os s0) :
    let s := runAll os s0
    (∀ v, s.getMinFos = .ok v → (s.analyseSlope none).1.getMinFos = .ok v) ∧
    (∀ v, s.getMinFosCircle = .ok v → (s.analyseSlope none).1.getMinFosCircle = .ok v) ∧
    (∀ v, s.getMinFosEndPoints = .ok v → (s.analyseSlope none).1.getMinFosEndPoints = .ok v) := by
  intro s
  have key : ∀ p rest, s.search = p :: rest →
      ∃ rest', (s.analyseSlope none).1.search = p :: rest' := by
    intro p rest hp
    rcases C23_no_stale_results e os hv hq with h1 | ⟨m, h1, h2⟩
    · rw [h1] at hp; cases hp
    · have h3 : s.analyseSlope m = ((s.analyseSlope m).1, .ok ()) := by rw [← h1]
      obtain ⟨ps, h4, h5, h6⟩ := analyseSlope_ok h3
      rw [analyseSlope_of h4 h5]
      apply tidySearch_head (m := m) (rest := rest)
      rw [← hp]
      change _ = (runAll os s0).search
      rw [← h2, h6]; rfl
  refine ⟨?_, ?_, ?_⟩
  · intro v
    unfold Slope.getMinFos
    cases hs : s.search with
    | nil => intro h; cases h
    | cons p rest =>
      obtain ⟨rest', e'⟩ := key p rest hs
      rw [e']; exact id
  · intro v
    unfold Slope.getMinFosCircle
    cases hs : s.search with
    | nil => intro h; cases h
    | cons p rest =>
      obtain ⟨rest', e'⟩ := key p rest hs
      rw [e']; exact id
  · intro v
    unfold Slope.getMinFosEndPoints
    cases hs : s.search with
    | nil => intro h; cases h
    | cons p rest =>
      obtain ⟨rest', e'⟩ := key p rest hs
      rw [e']; exact id

/-- The history of the example: a material, a circle, an analysis. -/
noncomputable def exHistory : List (Op ℝ) :=
  [.setMaterials [some (exMat 2)], .addSingleCircularPlane 9 (35 / 3) (17 / 3), .analyseSlope none]

theorem exHistory_valid : ∀ o ∈ exHistory, o.Valid := by
  intro o ho
  simp only [exHistory, List.mem_cons, List.not_mem_nil, or_false] at ho
  rcases ho with rfl | rfl | rfl
  · intro m hm; simp at hm; subst hm; exact exMat_constructed _
  · trivial
  · trivial

theorem exHistory_run : runAll exHistory exSlope = (exReady.analyseSlope none).1 := by
  simp only [exHistory, runAll, Op.run, exSoil_eq, exReady_eq]

/-- A history meeting C23 that has results to be fresh. -/
example : Quiet exHistory exSlope ∧ (runAll exHistory exSlope).search ≠ [] ∧
    (runAll exHistory exSlope).getMinFos = .ok (some exFos) := by
  refine ⟨?_, ?_, ?_⟩
  · refine ⟨fun h => h.elim, fun h => h.elim, fun _ => ?_, trivial⟩
    simp only [Op.run, exSoil_eq, exReady_eq, exAnalyse]
  · rw [exHistory_run, exAnalyse_search]; simp
  · rw [exHistory_run, exMinFos]

/-! ## C24 -/

/-- Specification: a candidate belongs to the results when it has a factor of safety, at most
`max_fos` if that is given. -/
noncomputable def Wanted (s : Slope ℝ) (maxFos : Option ℝ) (p : Plane ℝ) : Bool :=
  match s.bishop p.cx p.cy p.radius none none, maxFos with
  | .ok _, none => true
  | .ok x, some m => decide (x ≤ m)
  | .error _, _ => false

/-- Candidates of an analysis, and what a successful one leaves, for `max_fos` absent or not 0.
(`Analysed s ps`: the candidates are the individual planes if any, else those of the search;
`withFos s p` is `p` with its factor of safety.) With `max_fos = 0` the filter is not applied, see
`C24_max_fos_zero`. -/
theorem C24_results_partial {s t : Slope ℝ} {m : Option ℝ} (hm : m ≠ some 0)
    (e : s.analyseSlope m = (t, .ok ())) :
    ∃ ps, Analysed s ps ∧
      -- exactly the wanted candidates, each as often as it was tried
      t.search.Perm ((ps.filter (Wanted s m)).map (withFos s)) ∧
      -- in increasing order
      t.search.Pairwise (fun p q => ∃ x y, p.fos = some (some x) ∧ q.fos = some (some y) ∧ x ≤ y) ∧
      -- the getters give the least of them
      (t.search = [] → t.getMinFos = .error .indexError ∧ t.getMinFosCircle = .error .indexError ∧
        t.getMinFosEndPoints = .error .indexError) ∧
      (t.search ≠ [] → ∃ p ∈ ps, ∃ x, s.bishop p.cx p.cy p.radius none none = .ok x ∧
        t.getMinFos = .ok (some x) ∧ t.getMinFosCircle = .ok (p.cx, p.cy, p.radius) ∧
        t.getMinFosEndPoints = .ok (p.lc, p.rc) ∧
        ∀ q ∈ ps, ∀ y, s.bishop q.cx q.cy q.radius none none = .ok y → x ≤ y) := by
  obtain ⟨ps, h1, h2, rfl⟩ := analyseSlope_ok e
  refine ⟨ps, h1, ?_⟩
  have hsearch : (s.analysedTo m ps).search = tidySearch m (ps.map (withFos s)) := rfl
  have hw : ∀ p, Wanted s m p = ((withFos s p).fosVal.isSome && keeps m (withFos s p)) := by
    intro p
    unfold Wanted keeps
    rw [fosVal_withFos]
    have hk : fosKey (withFos s p) = (fosOf s p).getD 0 := rfl
    rw [hk]
    unfold fosOf
    cases s.bishop p.cx p.cy p.radius none none with
    | error x => simp
    | ok x =>
      cases m with
      | none => simp
      | some b =>
        have : b ≠ 0 := by intro h; apply hm; rw [h]
        simp [this]
  have hperm : (tidySearch m (ps.map (withFos s))).Perm ((ps.filter (Wanted s m)).map (withFos s)) := by
    rw [tidySearch_eq]
    refine ((sortByKey_perm _ _).filter _).trans ?_
    rw [List.filter_filter, List.filter_map]
    apply List.Perm.of_eq
    congr 1
    apply List.filter_congr
    intro p _
    rw [hw]
    simp only [Function.comp]
    rw [Bool.and_comm]
  have hsome : ∀ p ∈ tidySearch m (ps.map (withFos s)), ∃ q ∈ ps, ∃ x,
      s.bishop q.cx q.cy q.radius none none = .ok x ∧ p = { q with fos := some (some x) } := by
    intro p hp
    obtain ⟨q, hq, rfl⟩ := List.mem_map.mp (hperm.mem_iff.mp hp)
    obtain ⟨hq1, hq2⟩ := List.mem_filter.mp hq
    refine ⟨q, hq1, ?_⟩
    unfold Wanted at hq2
    cases hb : s.bishop q.cx q.cy q.radius none none with
    | error x => rw [hb] at hq2; cases hq2
    | ok x => exact ⟨x, rfl, by unfold withFos; rw [fosOf_some.mpr hb]⟩
  have hsorted : (tidySearch m (ps.map (withFos s))).Pairwise
      (fun p q => ∃ x y, p.fos = some (some x) ∧ q.fos = some (some y) ∧ x ≤ y) := by
    have : (tidySearch m (ps.map (withFos s))).Pairwise (fun p q => fosKey p ≤ fosKey q) := by
      rw [tidySearch_eq]
      exact (sortByKey_sorted fosKey _).sublist List.filter_sublist
    rw [List.pairwise_iff_forall_sublist] at this ⊢
    intro a b hab
    obtain ⟨p, _, x, _, rfl⟩ := hsome a (hab.subset (by simp))
    obtain ⟨q, _, y, _, rfl⟩ := hsome b (hab.subset (by simp))
    exact ⟨x, y, rfl, rfl, this hab⟩
  rw [hsearch]
  refine ⟨hperm, hsorted, ?_, ?_⟩
  · intro h
    unfold Slope.getMinFos Slope.getMinFosCircle Slope.getMinFosEndPoints
    rw [hsearch, h]
    exact ⟨rfl, rfl, rfl⟩
  · intro h
    cases hc : tidySearch m (ps.map (withFos s)) with
    | nil => exact absurd hc h
    | cons p rest =>
      obtain ⟨q, hq, x, hx, rfl⟩ := hsome p (by rw [hc]; simp)
      refine ⟨q, hq, x, hx, ?_, ?_, ?_, ?_⟩
      · unfold Slope.getMinFos; rw [hsearch, hc]
      · unfold Slope.getMinFosCircle; rw [hsearch, hc]
      · unfold Slope.getMinFosEndPoints; rw [hsearch, hc]
      · intro q' hq' y hy
        obtain ⟨rest', hr⟩ := tidySearch_head hc
        have hs := sortByKey_sorted fosKey ((ps.map (withFos s)).filter (fun p => p.fosVal.isSome))
        rw [tidySearch_eq, List.filter_eq_self.mpr (by intro a _; rfl)] at hr
        have hmem : withFos s q' ∈
            sortByKey fosKey ((ps.map (withFos s)).filter (fun p => p.fosVal.isSome)) := by
          rw [(sortByKey_perm _ _).mem_iff, List.mem_filter]
          refine ⟨List.mem_map_of_mem hq', ?_⟩
          rw [fosVal_withFos, fosOf_some.mpr hy]; rfl
        rw [hr] at hmem hs
        have hk : fosKey (withFos s q') = y := by
          unfold fosKey; rw [fosVal_withFos, fosOf_some.mpr hy]; rfl
        have hx' : fosKey { q with fos := some (some x) } = x := rfl
        rcases List.mem_cons.mp hmem with h' | h'
        · rw [h', hx'] at hk; exact hk.le
        · have := (List.pairwise_cons.mp hs).1 _ h'
          rw [hk, hx'] at this; exact this

/-- A case meeting C24: the analysis ends with a result. -/
example : exReady.analyseSlope none = ((exReady.analyseSlope none).1, .ok ()) ∧
    (exReady.analyseSlope none).1.search ≠ [] := by
  refine ⟨by rw [exAnalyse], ?_⟩
  rw [exAnalyse_search]; simp

/-- C24 fails for `max_fos = 0`: the limit is ignored, and a reachable object keeps a plane whose
factor of safety is above it. -/
theorem C24_max_fos_zero :
    (∀ s : Slope ℝ, s.analyseSlope (some 0) = s.analyseSlope none) ∧
    ∃ s : Slope ℝ, Reachable s ∧ (s.analyseSlope (some 0)).2 = .ok () ∧
      ∃ p ∈ (s.analyseSlope (some 0)).1.search, ∃ x, p.fos = some (some x) ∧ 0 < x := by
  have h0 : ∀ ps : List (Plane ℝ), tidySearch (some 0) ps = tidySearch none ps := by
    intro ps
    rw [tidySearch_eq, tidySearch_eq]
    congr 1
    funext p
    simp [keeps]
  have h1 : ∀ s : Slope ℝ, s.analyseSlope (some 0) = s.analyseSlope none := by
    intro s
    unfold Slope.analyseSlope
    simp only [h0]
  refine ⟨h1, exReady, exReady_reachable, ?_, ?_⟩
  · rw [h1, exAnalyse]
  · rw [h1, exAnalyse_search]
    refine ⟨_, List.mem_singleton_self _, exFos, ?_, exFos_pos⟩
    simp only [withFos, exPlane_fos]

/-! ## C25 -/

theorem fillFos_idem (s : Slope K) (ps : List (Plane K)) :
    s.fillFos (s.fillFos ps).1 = s.fillFos ps := by
  induction ps with
  | nil => rfl
  | cons p ps ih =>
    rw [Slope.fillFos]
    cases hb : toFos (s.bishop p.cx p.cy p.radius none none) with
    | error e => simp only; rw [Slope.fillFos, hb]
    | ok v => simp only; rw [Slope.fillFos]; simp only [hb]; rw [ih]

theorem fillFos_ne {s : Slope K} {ps : List (Plane K)} (h : ps ≠ []) : (s.fillFos ps).1 ≠ [] := by
  cases ps with
  | nil => exact absurd rfl h
  | cons p ps =>
    rw [Slope.fillFos]
    cases toFos (s.bishop p.cx p.cy p.radius none none) with
    | error e => simp
    | ok v => simp

/-- C25: an analysis, whether it ended or raised and whatever `max_fos` it was given, has no
effect on a later one: results, exception and object are the same as without it. In particular a
second identical analysis changes nothing. -/
theorem C25_analysing_twice (s : Slope K) (m m' : Option K) :
    (s.analyseSlope m).1.analyseSlope m' = s.analyseSlope m' := by
  cases hi : s.individual with
  | nil =>
    have key : ∀ (t : Slope K) m', t.individual = [] → t.analyseSlope m' =
        (match t.entryExitPlanes with
         | .error e => (t, .error e)
         | .ok qs =>
           match (t.fillFos qs).2 with
           | some e => ({ t with search := (t.fillFos qs).1 }, .error e)
           | none => ({ t with search := tidySearch m' (t.fillFos qs).1 }, .ok ())) := by
      intro t m' ht
      unfold Slope.analyseSlope
      split
      · rename_i h; rw [ht] at h; cases h
      · cases t.entryExitPlanes <;> rfl
    cases he : s.entryExitPlanes with
    | error e =>
      have : (s.analyseSlope m).1 = s := by rw [key s m hi, he]
      rw [this]
    | ok qs =>
      have h1 : ∃ x, (s.analyseSlope m).1 = { s with search := x } := by
        rw [key s m hi, he]
        simp only
        cases (s.fillFos qs).2 <;> exact ⟨_, rfl⟩
      obtain ⟨x, h1⟩ := h1
      have hS : SameSetup s { s with search := x } := by constructor <;> rfl
      rw [h1, key s m' hi, key _ m' (by exact hi), hS.entryExitPlanes, he]
      simp only [hS.fillFos]
  | cons a as =>
    have h1 : ∃ x, (s.analyseSlope m).1 =
        { s with search := x, individual := (s.fillFos s.individual).1 } := by
      unfold Slope.analyseSlope
      simp only [hi]
      cases (s.fillFos (a :: as)).2 <;> exact ⟨_, rfl⟩
    obtain ⟨x, h1⟩ := h1
    rw [h1]
    have hS := SameSetup.res s x (s.fillFos s.individual).1
    have hne : s.individual ≠ [] := by rw [hi]; simp
    have key : ∀ t : Slope K, t.individual ≠ [] → t.analyseSlope m' =
        (match (t.fillFos t.individual).2 with
         | some e => ({ t with search := (t.fillFos t.individual).1,
                               individual := (t.fillFos t.individual).1 }, .error e)
         | none => ({ t with search := tidySearch m' (t.fillFos t.individual).1,
                             individual := (t.fillFos t.individual).1 }, .ok ())) := by
      intro t ht
      unfold Slope.analyseSlope
      cases hti : t.individual with
      | nil => exact absurd hti ht
      | cons b bs => rfl
    rw [key _ (by exact fillFos_ne hne), key s hne]
    simp only [hS.fillFos, fillFos_idem]

/-- C25: an analysis does not touch the configuration: apart from the results only the recorded
factors of safety of the individual planes can change. -/
theorem C25_configuration_untouched (s : Slope K) (m : Option K) :
    ∃ search individual,
      (s.analyseSlope m).1 = { s with search := search, individual := individual } ∧
      individual.map (fun p => { p with fos := none }) =
        s.individual.map (fun p => { p with fos := none }) := by
  rcases analyseSlope_cases s m with ⟨ps, _, _, e⟩ | ⟨x, _, _, e⟩ | ⟨pre, p, post, x, ind, h1, _, _, h4, e⟩
  · rw [e]
    refine ⟨_, _, rfl, ?_⟩
    simp [Function.comp_def, withFos]
  · rw [e]; exact ⟨s.search, s.individual, rfl, rfl⟩
  · rw [e]
    refine ⟨_, _, rfl, ?_⟩
    rw [h4]
    split
    · rename_i h; rw [h]
    · rename_i h
      rcases h1 with ⟨_, h1⟩ | ⟨h1, _⟩
      · rw [← h1]; simp [Function.comp_def, withFos]
      · exact absurd h1 h

/-- A case where C25 is about a result. -/
example : ((exReady.analyseSlope none).1.analyseSlope none).1.getMinFos = .ok (some exFos) := by
  rw [C25_analysing_twice, exMinFos]

/-! ## C26 -/

/-- C26, first half: with individual planes, results are circles of individual planes only, and
the search options have no influence. -/
theorem C26_individual_only {s : Slope K} (h : s.individual ≠ []) (m : Option K) :
    (∀ p ∈ (s.analyseSlope m).1.search, ∃ q ∈ s.individual,
      p.lc = q.lc ∧ p.rc = q.rc ∧ p.cx = q.cx ∧ p.cy = q.cy ∧ p.radius = q.radius) ∧
    ∀ l1 l2 l3 l4 it d,
      (({ s with lim1 := l1, lim2 := l2, lim3 := l3, lim4 := l4, iterations := it,
                 minFailureDist := d } : Slope K).analyseSlope m).2 = (s.analyseSlope m).2 ∧
      (({ s with lim1 := l1, lim2 := l2, lim3 := l3, lim4 := l4, iterations := it,
                 minFailureDist := d } : Slope K).analyseSlope m).1.search =
        (s.analyseSlope m).1.search := by
  constructor
  · intro p hp
    rcases analyseSlope_cases s m with ⟨ps, h1, h2, e⟩ | ⟨x, h1, _, e⟩ | ⟨pre, q, post, x, ind, h1, _, _, h4, e⟩
    · rw [e] at hp
      have hps : ps = s.individual := by
        rcases h1 with ⟨_, h1⟩ | ⟨h1, _⟩
        · exact h1
        · exact absurd h1 h
      subst hps
      change p ∈ tidySearch m _ at hp
      have hp := (mem_tidySearch hp).1
      obtain ⟨q, hq, rfl⟩ := List.mem_map.mp hp
      exact ⟨q, hq, rfl, rfl, rfl, rfl, rfl⟩
    · exact absurd h1 h
    · rw [e] at hp
      have hps : pre ++ q :: post = s.individual := by
        rcases h1 with ⟨_, h1⟩ | ⟨h1, _⟩
        · exact h1
        · exact absurd h1 h
      change p ∈ pre.map (withFos s) ++ q :: post at hp
      rw [← hps]
      rcases List.mem_append.mp hp with hp | hp
      · obtain ⟨q', hq', rfl⟩ := List.mem_map.mp hp
        exact ⟨q', List.mem_append_left _ hq', rfl, rfl, rfl, rfl, rfl⟩
      · exact ⟨p, List.mem_append_right _ hp, rfl, rfl, rfl, rfl, rfl⟩
  · intro l1 l2 l3 l4 it d
    obtain ⟨s', hs'⟩ : ∃ s' : Slope K, s' = { s with lim1 := l1, lim2 := l2, lim3 := l3, lim4 := l4, iterations := it, minFailureDist := d } := ⟨_, rfl⟩
    rw [← hs']
    have hb : ∀ x y z a b, s'.bishop x y z a b = s.bishop x y z a b := by
      intros; rw [hs']; rfl
    have hf : ∀ ps, s'.fillFos ps = s.fillFos ps := by
      intro ps
      induction ps with
      | nil => rfl
      | cons p ps ih => rw [Slope.fillFos, Slope.fillFos, ih, hb]
    have hi' : s'.individual = s.individual := by rw [hs']
    cases hi : s.individual with
    | nil => exact absurd hi h
    | cons a as =>
      unfold Slope.analyseSlope
      simp only [hi', hi, hf]
      cases (s.fillFos (a :: as)).2 <;> exact ⟨rfl, rfl⟩

/-- C26, second half: without individual planes, results are planes of the search, and the
individual planes stay empty. -/
theorem C26_search_otherwise {s t : Slope K} (h : s.individual = []) {m : Option K}
    (e : s.analyseSlope m = (t, .ok ())) :
    t.individual = [] ∧ ∃ ps, s.entryExitPlanes = .ok ps ∧ ∀ p ∈ t.search, ∃ q ∈ ps,
      p.lc = q.lc ∧ p.rc = q.rc ∧ p.cx = q.cx ∧ p.cy = q.cy ∧ p.radius = q.radius := by
  obtain ⟨ps, h1, h2, rfl⟩ := analyseSlope_ok e
  refine ⟨by change s.individual.map _ = []; rw [h]; rfl, ps, ?_, ?_⟩
  · rcases h1 with ⟨h1, _⟩ | ⟨_, h1⟩
    · exact absurd h h1
    · exact h1
  · intro p hp
    change p ∈ tidySearch m _ at hp
    have hp := (mem_tidySearch hp).1
    obtain ⟨q, hq, rfl⟩ := List.mem_map.mp hp
    exact ⟨q, hq, rfl, rfl, rfl, rfl, rfl⟩

/-- A case with individual planes. -/
example : exReady.individual ≠ [] ∧ (exReady.analyseSlope none).1.search ≠ [] := by
  refine ⟨by simp [exReady], ?_⟩
  rw [exAnalyse_search]; simp

/-! ## C27 -/

/-- `exReady` after `add_single_circular_plane(9, 35/3, -17/3)`. -/
noncomputable def exBad : Slope ℝ :=
  { exReady with individual := [exPlane, { exPlane with radius := -(17 / 3) }] }

theorem exBad_eq : exReady.addSingleCircularPlane 9 (35 / 3) (-(17 / 3)) = (exBad, .ok ()) := by
  have h : exReady.circleExternalIntersection 9 (35 / 3) (-(17 / 3)) = .ok [(4, 9), (9, 6)] := by
    apply intersections_two exReady_reachable.wf.geo
    · intro p
      rw [← exCrossing]
      have : ∀ cx cy r : ℝ, Crossing exReady cx cy (-r) p ↔ Crossing exSoil cx cy r p := by
        intro cx cy r
        unfold Crossing OnCircle
        rw [neg_sq]
        rfl
      exact this _ _ _
    · norm_num
  unfold Slope.addSingleCircularPlane
  rw [h]
  simp only
  rw [setSize_nodup (by simp)]
  rfl

theorem exBad_reachable : Reachable exBad := by
  have := Reachable.call exReady_reachable (.addSingleCircularPlane exReady 9 (35 / 3) (-(17 / 3)))
  rwa [exBad_eq] at this

theorem exBad_analyse (m : Option ℝ) : exBad.analyseSlope m =
    ({ exBad with search := [withFos exReady exPlane, { exPlane with radius := -(17 / 3) }],
                  individual := [withFos exReady exPlane, { exPlane with radius := -(17 / 3) }] },
      .error .valueError) := by
  have hS : SameSetup exReady exBad := by constructor <;> rfl
  have h1 : exBad.bishop exPlane.cx exPlane.cy exPlane.radius none none = .ok exFos := by
    rw [hS.bishop]; exact fosOf_some.mp exPlane_fos
  have hi : exBad.circleExternalIntersection 9 (35 / 3) (-(17 / 3)) = .ok [(4, 9), (9, 6)] := by
    have := exBad_eq
    apply intersections_two exBad_reachable.wf.geo
    · intro p
      rw [← exCrossing]
      have : ∀ cx cy r : ℝ, Crossing exBad cx cy (-r) p ↔ Crossing exSoil cx cy r p := by
        intro cx cy r
        unfold Crossing OnCircle
        rw [neg_sq]
        rfl
      exact this _ _ _
    · norm_num
  have h2 : exBad.bishop 9 (35 / 3) (-(17 / 3)) none none = .error (.raise .valueError) := by
    unfold Slope.bishop Slope.bishopEnds
    rw [hi]
    simp only
    rw [setSize_nodup (by simp)]
    have : exBad.ordinary 9 (35 / 3) (-(17 / 3)) (some (4, 9)) (some (9, 6)) =
        .error (.raise .valueError) := by
      unfold Slope.ordinary
      rw [if_pos]
      · rfl
      · right; right; change (-(17 / 3) : ℝ) < _; rw [lit_zero]; norm_num
    simp only [bind, Except.bind]
    rw [if_neg (by simp)]
    simp only
    rw [this]
  have hf : exBad.fillFos exBad.individual =
      ([withFos exReady exPlane, { exPlane with radius := -(17 / 3) }], some .valueError) := by
    change exBad.fillFos [exPlane, { exPlane with radius := -(17 / 3) }] = _
    rw [Slope.fillFos, Slope.fillFos]
    have h2' : exBad.bishop exPlane.cx exPlane.cy (-(17 / 3)) none none =
      .error (.raise .valueError) := h2
    simp only [h1, h2', toFos]
    unfold withFos
    rw [exPlane_fos]
  unfold Slope.analyseSlope
  have he : exBad.individual = [exPlane, { exPlane with radius := -(17 / 3) }] := rfl
  rw [he] at hf ⊢
  simp only [hf]

/-- C27 fails: a reachable object whose analysis raises and which then reports a factor of
safety. -/
theorem C27_failed_analysis_leaves_results :
    ∃ (s : Slope ℝ) (e : PyErr) (x : ℝ), Reachable s ∧ s.search = [] ∧
      (s.analyseSlope none).2 = .error e ∧
      (s.analyseSlope none).1.getMinFos = .ok (some x) := by
  refine ⟨exBad, .valueError, exFos, exBad_reachable, rfl, by rw [exBad_analyse], ?_⟩
  rw [exBad_analyse]
  unfold Slope.getMinFos
  simp only [withFos, exPlane_fos]

/-- C27, what holds: if the analysis raises, either the search planes could not be generated and
the object is as before, or the planes were taken in order up to the first one that raised: those
before it hold the factor of safety of the present configuration, it and those after it are as
they were, individual planes, if there are any, are left like the results, and nothing else of the
object has changed. Missing: the results left in place are
readable. -/
theorem C27_failed_analysis_partial {s t : Slope K} {m : Option K} {e : PyErr}
    (h : s.analyseSlope m = (t, .error e)) :
    (s.individual = [] ∧ s.entryExitPlanes = .error e ∧ t = s) ∨
    ∃ pre p post, Analysed s (pre ++ p :: post) ∧
      s.bishop p.cx p.cy p.radius none none = .error (.raise e) ∧
      (∀ q ∈ pre, ∀ e', s.bishop q.cx q.cy q.radius none none ≠ .error (.raise e')) ∧
      t.search = pre.map (withFos s) ++ p :: post ∧
      (s.individual = [] → t.individual = []) ∧ (s.individual ≠ [] → t.individual = t.search) ∧
      t = { s with search := t.search, individual := t.individual } := by
  rcases analyseSlope_cases s m with ⟨ps, _, _, h3⟩ | ⟨x, h1, h2, h3⟩ | ⟨pre, p, post, x, ind, h1, h2, h2', h4, h3⟩
  · rw [h3] at h; cases h
  · rw [h3] at h; cases h; exact .inl ⟨h1, h2, rfl⟩
  · rw [h3] at h; cases h
    exact .inr ⟨pre, p, post, h1, h2, h2', rfl, fun h => by rw [h4, if_pos h],
      fun h => by rw [h4, if_neg h], rfl⟩

/-- A failing analysis, for the hypothesis of `C27_failed_analysis_partial`. -/
example : ∃ t, exBad.analyseSlope none = (t, .error .valueError) := ⟨_, exBad_analyse none⟩

end PySlope
