import Verif.Spec.Undo
import Verif.Props.Alike
import Verif.Props.Circles

/-! # C121: taking something away again leaves things as they were -/

namespace PySlope

/-- The same frame, soil and loads make for the same behaviour. -/
theorem actsAs_of {s t : Slope ℝ} (rs : Reachable s) (rt : Reachable t) (f : SameFrame s t)
    (hm : t.materials = s.materials) (hu : t.udls = s.udls) (hl : t.lls = s.lls) : ActsAs s t := by
  have ha : Alike s t := { f with
    soil := fun y => by unfold soilAt; rw [hm]
    load := fun a b => by unfold loadOn; rw [hu, hl] }
  obtain ⟨h1, h2, h3⟩ := C83_alike s t rs rt ha
  exact ⟨by rw [f.topX, f.topY], by rw [f.botX, f.botY], fun cx cy r => h1 cx cy r none none,
    fun cx cy r => h2 cx cy r none none, fun m => (h3 m (.inr ⟨by rw [hu], by rw [hl]⟩)).1,
    fun m => (h3 m (.inr ⟨by rw [hu], by rw [hl]⟩)).2⟩

/-! ## Removing -/

theorem removeFirst_sub {α : Type} (eq : α → Bool) (l : List α) : (removeFirst eq l).Sublist l := by
  induction l with
  | nil => exact .slnil
  | cons a l ih =>
    unfold removeFirst
    split
    · exact List.sublist_cons_self a l
    · exact ih.cons_cons a

theorem removeLoop_sub {α : Type} (test : α → Bool) (eq : α → α → Bool) (n i : Nat) (l : List α) :
    (removeLoop test eq n i l).Sublist l := by
  induction n generalizing i l with
  | zero => exact List.Sublist.refl l
  | succ n ih =>
    unfold removeLoop
    split
    · exact List.Sublist.refl l
    · split
      · exact (ih _ _).trans (removeFirst_sub _ _)
      · exact ih _ _

theorem removeFirst_countP {α : Type} (eq p : α → Bool) (h : ∀ a, eq a = true → p a = true) (l : List α)
    (hl : ∃ a ∈ l, eq a = true) : (removeFirst eq l).countP p + 1 = l.countP p := by
  induction l with
  | nil => obtain ⟨a, ha, _⟩ := hl; cases ha
  | cons a l ih =>
    unfold removeFirst
    split
    · rename_i ha; rw [List.countP_cons_of_pos (h a ha)]
    · rename_i ha
      obtain ⟨b, hb, hb'⟩ := hl
      rcases List.mem_cons.mp hb with rfl | hb
      · exact absurd hb' ha
      · have := ih ⟨b, hb, hb'⟩
        rw [List.countP_cons, List.countP_cons]
        omega

/-- A pass of the loop from a place before the first match takes at least one match away. -/
theorem removeLoop_countP {α : Type} (test : α → Bool) (eq : α → α → Bool) (refl : ∀ a, eq a a = true)
    (h : ∀ a b, test a = true → eq a b = true → test b = true) (n i : Nat) (l : List α)
    (hn : l.length ≤ i + n) (hi : ∀ j, j < i → ∀ a, l[j]? = some a → test a = false) :
    (removeLoop test eq n i l).countP test ≤ l.countP test - 1 := by
  have none_left : (∀ a ∈ l, test a = false) → l.countP test = 0 := fun h =>
    List.countP_eq_zero.mpr (fun a ha => by rw [h a ha]; simp)
  induction n generalizing i with
  | zero =>
    unfold removeLoop
    rw [none_left]
    intro a ha
    obtain ⟨j, hj⟩ := List.mem_iff_getElem?.mp ha
    refine hi j ?_ a hj
    have := (List.getElem?_eq_some_iff.mp hj).1
    omega
  | succ n ih =>
    unfold removeLoop
    split
    · rename_i hc
      rw [none_left]
      intro a ha
      obtain ⟨j, hj⟩ := List.mem_iff_getElem?.mp ha
      refine hi j ?_ a hj
      have h1 := (List.getElem?_eq_some_iff.mp hj).1
      have h2 := List.getElem?_eq_none_iff.mp hc
      omega
    · rename_i c hc
      split
      · rename_i ht
        have e := removeFirst_countP (eq c) test (fun a ha => h c a ht ha) l
          ⟨c, List.mem_of_getElem? hc, refl c⟩
        have := (removeLoop_sub test eq n (i + 1) (removeFirst (eq c) l)).countP_le (p := test)
        omega
      · rename_i ht
        refine ih (i + 1) (by omega) ?_
        intro j hj a ha
        rcases Nat.lt_succ_iff_lt_or_eq.mp hj with hj | rfl
        · exact hi j hj a ha
        · rw [hc] at ha
          cases ha
          simpa using ht

/-- Removing as many as there are of each kind leaves what is of no such kind. -/
theorem foldl_remove_all {α β : Type} (test : β → α → Bool) (eq : α → α → Bool)
    (refl : ∀ a, eq a a = true) (h : ∀ u a b, test u a = true → eq a b = true → test u b = true)
    (kind : β → β → Bool)
    (hk : ∀ u v, kind u v = true → test u = test v) (vs us : List β) (l : List α)
    (hc : ∀ v ∈ vs, l.countP (test v) ≤ us.countP (fun u => kind u v)) :
    ∀ v ∈ vs, ∀ a ∈ us.foldl (fun l u => removeLoop (test u) eq l.length 0 l) l, test v a = false := by
  induction us generalizing l with
  | nil =>
    intro v hv a ha
    have := List.countP_eq_zero.mp (Nat.le_zero.mp (by simpa using hc v hv)) a ha
    simpa using this
  | cons u us ih =>
    rw [List.foldl_cons]
    refine ih _ (fun v hv => ?_)
    have h1 := hc v hv
    rw [List.countP_cons] at h1
    by_cases e : kind u v = true
    · have := removeLoop_countP (test u) eq refl (h u) l.length 0 l (by omega) (by omega)
      rw [← hk u v e]
      rw [← hk u v e] at h1
      rw [if_pos e] at h1
      omega
    · rw [if_neg e] at h1
      exact ((removeLoop_sub (test u) eq l.length 0 l).countP_le).trans h1

/-! ## Loads -/

theorem UdlNear.minLength {s : Slope ℝ} {u : Udl ℝ} (h : UdlNear s u) : u.minLength ≤ s.minExtL := by
  unfold Udl.minLength
  rcases hl : u.length with _ | l
  · exact h.2 (.inl hl)
  · by_cases h0 : l = 0
    · simpa [h0] using h.2 (.inr (h0 ▸ hl))
    · simpa [h0] using h.1 l hl h0

theorem addUdl_near {s : Slope ℝ} (us : List (Udl ℝ)) (h : ∀ u ∈ us, UdlNear s u) :
    Slope.forEach Slope.addUdl (us.map some) s =
      ({ s with udls := s.udls ++ (us.filter fun u => decide (0 < u.magnitude)).map (placeUdl s.topX) }, .ok ()) := by
  induction us generalizing s with
  | nil => simp [Slope.forEach]
  | cons u us ih =>
    rw [List.map_cons, Slope.forEach]
    by_cases hm : 0 < u.magnitude
    · have e : s.addUdl (some u) = ({ s with udls := s.udls ++ [placeUdl s.topX u] }, .ok ()) := by
        unfold Slope.addUdl
        simp only [lit_zero]
        rw [if_pos hm, if_neg (not_lt.mpr (h u (by simp)).minLength)]
      rw [e]
      simp only [Out.andThen]
      refine (ih (s := { s with udls := s.udls ++ [placeUdl s.topX u] })
        (fun v hv => h v (List.mem_cons_of_mem _ hv))).trans ?_
      rw [List.filter_cons_of_pos (by simpa using hm)]
      simp
    · have e : s.addUdl (some u) = (s, .ok ()) := by
        unfold Slope.addUdl
        simp only [lit_zero]
        rw [if_neg hm]
      rw [e]
      simp only [Out.andThen]
      rw [ih (fun v hv => h v (List.mem_cons_of_mem _ hv)), List.filter_cons_of_neg (by simpa using hm)]

theorem addLl_near {s : Slope ℝ} (us : List (LineLoad ℝ)) (h : ∀ u ∈ us, LlNear s u) :
    Slope.forEach Slope.addLl (us.map some) s =
      ({ s with lls := s.lls ++ (us.filter fun u => decide (0 < u.magnitude)).map (placeLl s.topX) }, .ok ()) := by
  induction us generalizing s with
  | nil => simp [Slope.forEach]
  | cons u us ih =>
    rw [List.map_cons, Slope.forEach]
    by_cases hm : 0 < u.magnitude
    · have e : s.addLl (some u) = ({ s with lls := s.lls ++ [placeLl s.topX u] }, .ok ()) := by
        unfold Slope.addLl
        simp only [lit_zero]
        rw [if_pos hm, if_neg (not_lt.mpr (h u (by simp)))]
      rw [e]
      simp only [Out.andThen]
      refine (ih (s := { s with lls := s.lls ++ [placeLl s.topX u] })
        (fun v hv => h v (List.mem_cons_of_mem _ hv))).trans ?_
      rw [List.filter_cons_of_pos (by simpa using hm)]
      simp
    · have e : s.addLl (some u) = (s, .ok ()) := by
        unfold Slope.addLl
        simp only [lit_zero]
        rw [if_neg hm]
      rw [e]
      simp only [Out.andThen]
      rw [ih (fun v hv => h v (List.mem_cons_of_mem _ hv)), List.filter_cons_of_neg (by simpa using hm)]

theorem SameUdl.kind {u v : Udl ℝ} (h : SameUdl u v) (a : Udl ℝ) : a.matches u = a.matches v := by
  rw [Bool.eq_iff_iff, udl_matches, udl_matches]
  obtain ⟨h1, h2, h3⟩ := h
  unfold SameUdl
  rw [h1, h2, h3]

theorem SameLl.kind {u v : LineLoad ℝ} (h : SameLl u v) (a : LineLoad ℝ) : a.matches u = a.matches v := by
  rw [Bool.eq_iff_iff, ll_matches, ll_matches]
  obtain ⟨h1, h2⟩ := h
  unfold SameLl
  rw [h1, h2]

theorem udls_back (x : ℝ) (b : List (PUdl ℝ)) (us : List (Udl ℝ)) (hb : ∀ p ∈ b, ∀ u ∈ us, ¬ SameUdl p.load u) :
    us.foldl (fun l u => removeLoop (fun (c : PUdl ℝ) => c.load.matches u) (fun a b => a.load.eq b.load)
      l.length 0 l) (b ++ (us.filter fun u => decide (0 < u.magnitude)).map (placeUdl x)) = b := by
  classical
  set F := us.foldl (fun l u => removeLoop (fun (c : PUdl ℝ) => c.load.matches u) (fun a b => a.load.eq b.load)
      l.length 0 l) (b ++ (us.filter fun u => decide (0 < u.magnitude)).map (placeUdl x)) with hF
  have gone : ∀ v ∈ us, ∀ a ∈ F, a.load.matches v = false :=
    foldl_remove_all (fun u (c : PUdl ℝ) => c.load.matches u) (fun a b => a.load.eq b.load) udl_eq_refl
      (fun u a b => udl_eq_matches (u := u) a b) (fun u v => u.matches v)
      (fun u v h => funext fun c => ((udl_matches u v).mp h).kind c.load) us us _ (fun v hv => by
        rw [List.countP_append, List.countP_eq_zero.mpr (fun p hp => by
          rw [udl_matches]; exact hb p hp v hv), Nat.zero_add, List.countP_map]
        exact (List.filter_sublist).countP_le)
  have kept : F.filter (fun p => decide (∀ u ∈ us, ¬ SameUdl p.load u)) = b := by
    have e : F.filter (fun p => decide (∀ u ∈ us, ¬ SameUdl p.load u)) =
        (b ++ (us.filter fun u => decide (0 < u.magnitude)).map (placeUdl x)).filter
          (fun p => decide (∀ u ∈ us, ¬ SameUdl p.load u)) := by
      refine foldl_remove_filter _ _ _ (fun l u hu => ?_) _
      refine filter_of_filter ?_ (removeLoop_filter _ _ (udl_eq_matches (u := u)) _ _ _)
      intro p hp
      have := of_decide_eq_true hp u hu
      rw [← udl_matches] at this
      simpa using this
    rw [e, List.filter_append, List.filter_eq_self.mpr (fun p hp => by simpa using hb p hp),
      List.filter_eq_nil_iff.mpr, List.append_nil]
    intro p hp
    obtain ⟨u, hu, rfl⟩ := List.mem_map.mp hp
    simp only [decide_eq_true_eq, not_forall, not_not]
    exact ⟨u, (List.mem_filter.mp hu).1, rfl, rfl, rfl⟩
  rw [← kept, List.filter_eq_self.mpr]
  intro p hp
  simp only [decide_eq_true_eq]
  intro u hu h
  have := gone u hu p hp
  rw [(udl_matches _ _).mpr h] at this
  cases this

theorem lls_back (x : ℝ) (b : List (PLl ℝ)) (us : List (LineLoad ℝ)) (hb : ∀ p ∈ b, ∀ u ∈ us, ¬ SameLl p.load u) :
    us.foldl (fun l u => removeLoop (fun (c : PLl ℝ) => c.load.matches u) (fun a b => a.load.eq b.load)
      l.length 0 l) (b ++ (us.filter fun u => decide (0 < u.magnitude)).map (placeLl x)) = b := by
  classical
  set F := us.foldl (fun l u => removeLoop (fun (c : PLl ℝ) => c.load.matches u) (fun a b => a.load.eq b.load)
      l.length 0 l) (b ++ (us.filter fun u => decide (0 < u.magnitude)).map (placeLl x)) with hF
  have gone : ∀ v ∈ us, ∀ a ∈ F, a.load.matches v = false :=
    foldl_remove_all (fun u (c : PLl ℝ) => c.load.matches u) (fun a b => a.load.eq b.load) ll_eq_refl
      (fun u a b => ll_eq_matches (u := u) a b) (fun u v => u.matches v)
      (fun u v h => funext fun c => ((ll_matches u v).mp h).kind c.load) us us _ (fun v hv => by
        rw [List.countP_append, List.countP_eq_zero.mpr (fun p hp => by
          rw [ll_matches]; exact hb p hp v hv), Nat.zero_add, List.countP_map]
        exact (List.filter_sublist).countP_le)
  have kept : F.filter (fun p => decide (∀ u ∈ us, ¬ SameLl p.load u)) = b := by
    have e : F.filter (fun p => decide (∀ u ∈ us, ¬ SameLl p.load u)) =
        (b ++ (us.filter fun u => decide (0 < u.magnitude)).map (placeLl x)).filter
          (fun p => decide (∀ u ∈ us, ¬ SameLl p.load u)) := by
      refine foldl_remove_filter _ _ _ (fun l u hu => ?_) _
      refine filter_of_filter ?_ (removeLoop_filter _ _ (ll_eq_matches (u := u)) _ _ _)
      intro p hp
      have := of_decide_eq_true hp u hu
      rw [← ll_matches] at this
      simpa using this
    rw [e, List.filter_append, List.filter_eq_self.mpr (fun p hp => by simpa using hb p hp),
      List.filter_eq_nil_iff.mpr, List.append_nil]
    intro p hp
    obtain ⟨u, hu, rfl⟩ := List.mem_map.mp hp
    simp only [decide_eq_true_eq, not_forall, not_not]
    exact ⟨u, (List.mem_filter.mp hu).1, rfl, rfl⟩
  rw [← kept, List.filter_eq_self.mpr]
  intro p hp
  simp only [decide_eq_true_eq]
  intro u hu h
  have := gone u hu p hp
  rw [(ll_matches _ _).mpr h] at this
  cases this

/-- C121 (partial): putting distributed loads on and taking the same loads off again, in any number and
with repetitions, leaves a slope that behaves as before, with the loads it had. Neither call raises.
Missing: loads so far from the crest that the model grows (`C121_far_load`), and loads the slope already
has, which `remove_udls` takes away too. -/
theorem C121_udls_partial (s : Slope ℝ) (r : Reachable s) (us : List (Udl ℝ))
    (hc : ∀ u ∈ us, Udl.Constructed u) (hf : ∀ u ∈ us, UdlNear s u)
    (hn : ∀ p ∈ s.udls, ∀ u ∈ us, ¬ SameUdl p.load u) :
    let a := s.setUdls (us.map some)
    let t := a.1.removeUdls us false
    a.2 = .ok () ∧ t.2 = .ok () ∧ t.1.udls = s.udls ∧ ActsAs s t.1 := by
  intro a t
  have w := r.wf
  obtain ⟨mx, ha⟩ : ∃ mx, a = ({ s with udls := s.udls ++
      (us.filter fun u => decide (0 < u.magnitude)).map (placeUdl s.topX), udlMax := mx, search := [] }, .ok ()) := by
    have e := addUdl_near us hf
    have hp : (s.udls ++ (us.filter fun u => decide (0 < u.magnitude)).map (placeUdl s.topX)).map
        (fun p => placeUdl s.topX p.load) =
        s.udls ++ (us.filter fun u => decide (0 < u.magnitude)).map (placeUdl s.topX) := by
      rw [List.map_append, List.map_map]
      congr 1
      exact (List.map_congr_left fun p hp => (w.udl p hp).symm).trans (List.map_id _)
    refine ⟨maxMagnitude (s.udls ++ (us.filter fun u => decide (0 < u.magnitude)).map (placeUdl s.topX))
      s.udlMax, ?_⟩
    unfold a Slope.setUdls
    rw [e]
    simp only [Out.andThen, Slope.updateUdlCoordinates, Slope.resetResults]
    rw [hp]
  have hu : t.1.udls = s.udls := by
    have : t = a.1.removeUdls us false := rfl
    rw [this, removeUdls_udls, ha]
    exact udls_back s.topX s.udls us hn
  have ra : Reachable a.1 := r.call (.setUdls s (us.map some) (by
    intro u hu
    obtain ⟨v, hv, e⟩ := List.mem_map.mp hu
    cases e
    exact hc _ hv))
  have rt : Reachable t.1 := ra.call (.removeUdls a.1 us false)
  have ht : ∃ m2, t.1 = { s with udls := t.1.udls, udlMax := m2, search := [] } := by
    unfold t Slope.removeUdls
    rw [ha]
    simp only [Slope.resetResults, Bool.false_eq_true, if_false]
    split <;> exact ⟨_, rfl⟩
  obtain ⟨m2, ht⟩ := ht
  refine ⟨by rw [ha], rfl, hu, ?_⟩
  refine actsAs_of r rt ?_ (by rw [ht]) hu (by rw [ht])
  rw [ht]
  constructor <;> rfl

/-- C121 (partial) for line loads. -/
theorem C121_lls_partial (s : Slope ℝ) (r : Reachable s) (us : List (LineLoad ℝ))
    (hc : ∀ u ∈ us, LineLoad.Constructed u) (hf : ∀ u ∈ us, LlNear s u)
    (hn : ∀ p ∈ s.lls, ∀ u ∈ us, ¬ SameLl p.load u) :
    let a := s.setLls (us.map some)
    let t := a.1.removeLls us false
    a.2 = .ok () ∧ t.2 = .ok () ∧ t.1.lls = s.lls ∧ ActsAs s t.1 := by
  intro a t
  have w := r.wf
  have ha : a = ({ s with lls := s.lls ++
      (us.filter fun u => decide (0 < u.magnitude)).map (placeLl s.topX), search := [] }, .ok ()) := by
    have e := addLl_near us hf
    have hp : (s.lls ++ (us.filter fun u => decide (0 < u.magnitude)).map (placeLl s.topX)).map
        (fun p => placeLl s.topX p.load) =
        s.lls ++ (us.filter fun u => decide (0 < u.magnitude)).map (placeLl s.topX) := by
      rw [List.map_append, List.map_map]
      congr 1
      exact (List.map_congr_left fun p hp => (w.ll p hp).symm).trans (List.map_id _)
    unfold a Slope.setLls
    rw [e]
    simp only [Out.andThen, Slope.updateLlCoordinates, Slope.resetResults]
    rw [hp]
  have hu : t.1.lls = s.lls := by
    unfold t Slope.removeLls
    rw [ha]
    exact lls_back s.topX s.lls us hn
  have ra : Reachable a.1 := r.call (.setLls s (us.map some) (by
    intro u hu
    obtain ⟨v, hv, e⟩ := List.mem_map.mp hu
    cases e
    exact hc _ hv))
  have rt : Reachable t.1 := ra.call (.removeLls a.1 us false)
  have ht : t.1 = { s with lls := t.1.lls, search := [] } := by
    unfold t Slope.removeLls
    rw [ha]
    rfl
  refine ⟨by rw [ha], rfl, hu, ?_⟩
  refine actsAs_of r rt ?_ (by rw [ht]) (by rw [ht]) hu
  rw [ht]
  constructor <;> rfl

/-! ## Water, limits, circles -/

/-- C121 for water: on a slope without water, `set_water_table` at any depth, accepted or not, and then
`remove_water_table` leave a slope that behaves as before. -/
theorem C121_water (s : Slope ℝ) (r : Reachable s) (hw : s.waterRL = none) (d : PyVal ℝ) :
    let t := (s.setWaterTable d).1.removeWaterTable
    t.2 = .ok () ∧ ActsAs s t.1 := by
  intro t
  refine ⟨rfl, ?_⟩
  have ht : t.1 = { s with waterRL := none, waterDepth := none, search := [] } := by
    unfold t Slope.setWaterTable Slope.removeWaterTable Slope.resetResults
    split
    · rfl
    · split <;> rfl
  refine actsAs_of r ((r.call (.setWaterTable s d)).call (.removeWaterTable _)) ?_ (by rw [ht]) (by rw [ht]) (by rw [ht])
  rw [ht]
  constructor <;> first | rfl | exact hw.symm

/-- C121 for the limits of the search: on a slope whose search is not limited, `set_analysis_limits` with
any arguments, accepted or not, and then `remove_analysis_limits` leave a slope that behaves as before.
`remove_analysis_limits` does not raise. -/
theorem C121_limits (s : Slope ℝ) (r : Reachable s) (hl : Unlimited s) (a b c d : PyVal ℝ) :
    let t := (s.setAnalysisLimits a b c d).1.removeAnalysisLimits
    t.2 = .ok () ∧ ActsAs s t.1 := by
  intro t
  have g := r.wf.geo
  have h0 : 0 < s.topX := by have := g.len; have := g.extL5; rw [g.topX]; norm_num at *; linarith
  have h1 : s.topX < s.extL := by have := g.len; have := g.extL5; rw [g.topX]; norm_num at *; linarith
  obtain ⟨l1, l2, l3, l4⟩ := hl
  have ht : t = ({ s with search := [] }, .ok ()) := by
    unfold t
    rcases WFS.setAnalysisLimits_rest s a b c d with ⟨_, _, _, _, e⟩ | ⟨_, e⟩
    all_goals
      rw [e, removeAnalysisLimits_eq _ (by exact h0) (by exact h1)]
      simp only [← l1, ← l3, ← l4]
      simp only [l2, l3]
  refine ⟨by rw [ht], ?_⟩
  refine actsAs_of r ((r.call (.setAnalysisLimits s a b c d)).call (.removeAnalysisLimits _)) ?_
    (by rw [ht]) (by rw [ht]) (by rw [ht])
  rw [ht]
  constructor <;> rfl

/-- C121 for circles: on a slope without circles of its own, `add_single_circular_plane` or
`add_single_entry_exit_plane` with any arguments, whether it adds circles or raises, and then
`remove_individual_planes` leave a slope that behaves as before. -/
theorem C121_planes (s : Slope ℝ) (r : Reachable s) (hi : s.individual = []) :
    (∀ cx cy rad, let t := (s.addSingleCircularPlane cx cy rad).1.removeIndividualPlanes
      t.2 = .ok () ∧ ActsAs s t.1) ∧
    (∀ lx rx n, let t := (s.addSingleEntryExitPlane lx rx n).1.removeIndividualPlanes
      t.2 = .ok () ∧ ActsAs s t.1) := by
  constructor
  · intro cx cy rad t
    refine ⟨rfl, ?_⟩
    have ht : t.1 = { s with individual := [], search := [] } := by
      unfold t Slope.addSingleCircularPlane Slope.removeIndividualPlanes Slope.resetResults
      split
      · rfl
      · split
        · rfl
        · split <;> rfl
    refine actsAs_of r ((r.call (.addSingleCircularPlane s cx cy rad)).call (.removeIndividualPlanes _)) ?_
      (by rw [ht]) (by rw [ht]) (by rw [ht])
    rw [ht]
    constructor <;> first | rfl | exact hi.symm
  · intro lx rx n t
    refine ⟨rfl, ?_⟩
    have ht : t.1 = { s with individual := [], search := [] } := by
      unfold t Slope.addSingleEntryExitPlane Slope.removeIndividualPlanes Slope.resetResults
      split
      · split <;> rfl
      · rfl
    refine actsAs_of r ((r.call (.addSingleEntryExitPlane s lx rx n)).call (.removeIndividualPlanes _)) ?_
      (by rw [ht]) (by rw [ht]) (by rw [ht])
    rw [ht]
    constructor <;> first | rfl | exact hi.symm

end PySlope
