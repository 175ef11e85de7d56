import Verif.Lemmas.Together
import Verif.Lemmas.ScaleCalls
import Verif.Props.Total

/-! # C128: loads together, one at a time, in any order -/

namespace PySlope

/-- C128, distributed loads: loads given in one call are as if given in two calls, one after the other. -/
theorem C128_udls_split (s : Slope ℝ) (r : Reachable s) (us vs : List (UdlArg ℝ))
    (hu : ∀ x, some x ∈ us → Udl.Constructed x) (hv : ∀ x, some x ∈ vs → Udl.Constructed x) :
    s.setUdls (us ++ vs) = (s.setUdls us).1.setUdls vs ∧ (s.setUdls us).2 = .ok () := by
  have r1 : Reachable (s.setUdls us).1 := r.call (.setUdls s _ hu)
  have e1 := setUdls_with r.wfs us fun x hx => (hu x hx).facts.2.2
  have e2 := setUdls_with r1.wfs vs fun x hx => (hv x hx).facts.2.2
  have e3 := setUdls_with r.wfs (us ++ vs) fun x hx => by
    rcases List.mem_append.mp hx with h | h
    · exact (hu x h).facts.2.2
    · exact (hv x h).facts.2.2
  refine ⟨?_, by rw [e1]⟩
  rw [e3, e2, takenUdls_append, ← withUdls_append, e1]
  exact Prod.ext (settle_withUdls _ _).symm rfl

/-- C128, line loads: loads given in one call are as if given in two calls, one after the other. -/
theorem C128_lls_split (s : Slope ℝ) (r : Reachable s) (us vs : List (Option (LineLoad ℝ)))
    (hu : ∀ x, some x ∈ us → LineLoad.Constructed x) :
    s.setLls (us ++ vs) = (s.setLls us).1.setLls vs ∧ (s.setLls us).2 = .ok () := by
  have r1 : Reachable (s.setLls us).1 := r.call (.setLls s _ hu)
  have e1 := setLls_with r.wfs us
  have e2 := setLls_with r1.wfs vs
  have e3 := setLls_with r.wfs (us ++ vs)
  refine ⟨?_, by rw [e1]⟩
  rw [e3, e2, takenLls_append, ← withLls_append, e1]
  exact Prod.ext (settle_withLls _ _).symm rfl

/-- C128: distributed loads given in one call are as if each had its own call. -/
theorem C128_udls_one_by_one (s : Slope ℝ) (r : Reachable s) (us : List (UdlArg ℝ)) (h0 : us ≠ [])
    (hu : ∀ x, some x ∈ us → Udl.Constructed x) :
    (s.setUdls us).1 = us.foldl (fun s u => (s.setUdls [u]).1) s := by
  induction us generalizing s with
  | nil => exact absurd rfl h0
  | cons u us ih =>
    have hu1 : ∀ x, some x ∈ [u] → Udl.Constructed x := fun x hx =>
      hu x (by rw [List.mem_singleton] at hx; rw [hx]; exact List.mem_cons_self)
    have hu2 : ∀ x, some x ∈ us → Udl.Constructed x := fun x hx => hu x (List.mem_cons_of_mem _ hx)
    by_cases h : us = []
    · subst h; rfl
    · rw [List.foldl_cons, ← ih _ (r.call (.setUdls s _ hu1)) h hu2,
        ← (C128_udls_split s r [u] us hu1 hu2).1]
      rfl

/-- C128: line loads given in one call are as if each had its own call. -/
theorem C128_lls_one_by_one (s : Slope ℝ) (r : Reachable s) (us : List (Option (LineLoad ℝ))) (h0 : us ≠ [])
    (hu : ∀ x, some x ∈ us → LineLoad.Constructed x) :
    (s.setLls us).1 = us.foldl (fun s u => (s.setLls [u]).1) s := by
  induction us generalizing s with
  | nil => exact absurd rfl h0
  | cons u us ih =>
    have hu1 : ∀ x, some x ∈ [u] → LineLoad.Constructed x := fun x hx =>
      hu x (by rw [List.mem_singleton] at hx; rw [hx]; exact List.mem_cons_self)
    have hu2 : ∀ x, some x ∈ us → LineLoad.Constructed x := fun x hx => hu x (List.mem_cons_of_mem _ hx)
    by_cases h : us = []
    · subst h; rfl
    · rw [List.foldl_cons, ← ih _ (r.call (.setLls s _ hu1)) h hu2,
        ← (C128_lls_split s r [u] us hu1).1]
      rfl

/-! ## The order -/

theorem foldl_max_spec (l : List (PUdl ℝ)) (a : ℝ) :
    (∀ x ∈ a :: l.map (fun p => p.load.magnitude), x ≤ l.foldl (fun m v => pyMax m v.load.magnitude) a) ∧
      l.foldl (fun m v => pyMax m v.load.magnitude) a ∈ a :: l.map (fun p => p.load.magnitude) := by
  induction l generalizing a with
  | nil => simp
  | cons p l ih =>
    obtain ⟨h1, h2⟩ := ih (pyMax a p.load.magnitude)
    rw [List.foldl_cons]
    generalize l.foldl (fun m v => pyMax m v.load.magnitude) (pyMax a p.load.magnitude) = R at *
    simp only [pyMax_real, List.mem_cons, List.map_cons, forall_eq_or_imp] at h1 h2 ⊢
    refine ⟨⟨(le_max_left _ _).trans h1.1, (le_max_right _ _).trans h1.1, h1.2⟩, ?_⟩
    rcases h2 with h2 | h2
    · rcases max_choice a p.load.magnitude with h | h <;> rw [h] at h2
      · exact .inl h2
      · exact .inr (.inl h2)
    · exact .inr (.inr h2)

theorem maxMagnitude_perm {a b : List (PUdl ℝ)} (h : a.Perm b) (o : UdlMax ℝ) :
    maxMagnitude a o = maxMagnitude b o := by
  cases a with
  | nil => rw [h.nil_eq]
  | cons u a =>
    cases b with
    | nil => exact absurd h.symm.nil_eq (by simp)
    | cons v b =>
      have hm := h.map (fun p : PUdl ℝ => p.load.magnitude)
      obtain ⟨a1, a2⟩ := foldl_max_spec a u.load.magnitude
      obtain ⟨b1, b2⟩ := foldl_max_spec b v.load.magnitude
      exact congrArg UdlMax.num (le_antisymm (b1 _ (hm.mem_iff.mp a2)) (a1 _ (hm.mem_iff.mpr b2)))

theorem roomUdls_perm {P Q : List (Udl ℝ)} (h : P.Perm Q) (m : ℝ) : roomUdls P m = roomUdls Q m :=
  h.foldl_eq' (fun _ _ _ _ z => by rw [max_right_comm]) m

theorem roomLls_perm {P Q : List (LineLoad ℝ)} (h : P.Perm Q) (m : ℝ) : roomLls P m = roomLls Q m :=
  h.foldl_eq' (fun _ _ _ _ z => by rw [max_right_comm]) m

theorem withUdls_perm (s : Slope ℝ) {P Q : List (Udl ℝ)} (h : P.Perm Q) :
    s.withUdls Q = { s.withUdls P with udls := (s.withUdls Q).udls } ∧
      (s.withUdls Q).udls.Perm (s.withUdls P).udls := by
  unfold Slope.withUdls
  rw [roomUdls_perm h]
  have hp := ((h.map (placeUdl s.topX)).append_left s.udls).symm
  split
  · exact ⟨rfl, hp.map _⟩
  · exact ⟨rfl, hp⟩

theorem withLls_perm (s : Slope ℝ) {P Q : List (LineLoad ℝ)} (h : P.Perm Q) :
    s.withLls Q = { s.withLls P with lls := (s.withLls Q).lls } ∧
      (s.withLls Q).lls.Perm (s.withLls P).lls := by
  unfold Slope.withLls
  rw [roomLls_perm h]
  have hp := ((h.map (placeLl s.topX)).append_left s.lls).symm
  split
  · exact ⟨rfl, hp.map _⟩
  · exact ⟨rfl, hp⟩

/-- C128: distributed loads given in another order leave the same slope but for the order they are listed
in, whatever their number and whichever of them are ignored. -/
theorem C128_udls_order (s : Slope ℝ) (r : Reachable s) (us vs : List (UdlArg ℝ)) (h : us.Perm vs)
    (hu : ∀ x, some x ∈ us → Udl.Constructed x) :
    (s.setUdls vs).1 = { (s.setUdls us).1 with udls := (s.setUdls vs).1.udls } ∧
      (s.setUdls vs).1.udls.Perm (s.setUdls us).1.udls := by
  rw [setUdls_with r.wfs us fun x hx => (hu x hx).facts.2.2,
    setUdls_with r.wfs vs fun x hx => (hu x (h.mem_iff.mpr hx)).facts.2.2]
  have ht : (takenUdls us).Perm (takenUdls vs) := (h.filterMap id).filter _
  obtain ⟨h1, h2⟩ := withUdls_perm s ht
  have hx : (s.withUdls (takenUdls vs)).topX = (s.withUdls (takenUdls us)).topX := by rw [h1]
  have ho : (s.withUdls (takenUdls vs)).udlMax = (s.withUdls (takenUdls us)).udlMax := by rw [h1]
  have h3 : ((s.withUdls (takenUdls vs)).settleUdls).udls.Perm ((s.withUdls (takenUdls us)).settleUdls).udls := by
    unfold Slope.settleUdls
    rw [hx]
    exact h2.map _
  have h4 : ((s.withUdls (takenUdls vs)).settleUdls).udlMax = ((s.withUdls (takenUdls us)).settleUdls).udlMax := by
    have := maxMagnitude_perm h3 (s.withUdls (takenUdls us)).udlMax
    unfold Slope.settleUdls at this ⊢
    simp only at this ⊢
    rw [ho]
    exact this
  refine ⟨?_, h3⟩
  generalize s.withUdls (takenUdls vs) = b at *
  generalize s.withUdls (takenUdls us) = a at *
  have : b.settleUdls = { b with udls := b.settleUdls.udls, udlMax := b.settleUdls.udlMax, search := [] } := rfl
  rw [h4] at this
  refine this.trans ?_
  dsimp only
  generalize b.settleUdls.udls = U
  rw [h1]
  rfl

/-- C128: line loads given in another order leave the same slope but for the order they are listed in. -/
theorem C128_lls_order (s : Slope ℝ) (r : Reachable s) (us vs : List (Option (LineLoad ℝ))) (h : us.Perm vs) :
    (s.setLls vs).1 = { (s.setLls us).1 with lls := (s.setLls vs).1.lls } ∧
      (s.setLls vs).1.lls.Perm (s.setLls us).1.lls := by
  rw [setLls_with r.wfs us, setLls_with r.wfs vs]
  have ht : (takenLls us).Perm (takenLls vs) := (h.filterMap id).filter _
  obtain ⟨h1, h2⟩ := withLls_perm s ht
  have hx : (s.withLls (takenLls vs)).topX = (s.withLls (takenLls us)).topX := by rw [h1]
  have h3 : ((s.withLls (takenLls vs)).settleLls).lls.Perm ((s.withLls (takenLls us)).settleLls).lls := by
    unfold Slope.settleLls
    rw [hx]
    exact h2.map _
  refine ⟨?_, h3⟩
  generalize s.withLls (takenLls vs) = b at *
  generalize s.withLls (takenLls us) = a at *
  have : b.settleLls = { b with lls := b.settleLls.lls, search := [] } := rfl
  refine this.trans ?_
  dsimp only
  generalize b.settleLls.lls = U
  rw [h1]
  rfl

/-! ## What an analysis makes of it -/

/-- Both fail, or both give the same list but for its order. -/
def Shuffled (a b : Except PyErr (List (Plane ℝ))) : Prop :=
  (∃ x y, a = .ok x ∧ b = .ok y ∧ x.Perm y) ∨ ∃ e e', a = .error e ∧ b = .error e'

theorem planesAll_perm (s : Slope ℝ) (num : ℕ) (rs : List (ℝ × Option ℝ)) {a b : List (ℝ × ℝ)} (h : a.Perm b) :
    Shuffled (s.planesAll num rs a) (s.planesAll num rs b) := by
  induction h with
  | nil => exact .inl ⟨_, _, rfl, rfl, List.Perm.refl _⟩
  | cons l _ ih =>
    unfold Slope.planesAll
    cases s.planesFrom l num rs with
    | error e => exact .inr ⟨e, e, rfl, rfl⟩
    | ok q =>
      rcases ih with ⟨x, y, hx, hy, hp⟩ | ⟨e, e', hx, hy⟩
      · rw [hx, hy]
        exact .inl ⟨_, _, rfl, rfl, hp.append_left q⟩
      · rw [hx, hy]
        exact .inr ⟨_, _, rfl, rfl⟩
  | swap l l' rest =>
    simp only [Slope.planesAll]
    cases s.planesFrom l num rs with
    | error e =>
      cases s.planesFrom l' num rs with
      | error e' => exact .inr ⟨_, _, rfl, rfl⟩
      | ok q' => exact .inr ⟨_, _, rfl, rfl⟩
    | ok q =>
      cases s.planesFrom l' num rs with
      | error e' => exact .inr ⟨_, _, rfl, rfl⟩
      | ok q' =>
        cases s.planesAll num rs rest with
        | error e => exact .inr ⟨_, _, rfl, rfl⟩
        | ok w =>
          refine .inl ⟨_, _, rfl, rfl, ?_⟩
          rw [← List.append_assoc, ← List.append_assoc]
          exact List.perm_append_comm.append_right w
  | trans _ _ h1 h2 =>
    rcases h1 with ⟨x, y, hx, hy, hp⟩ | ⟨e, e', hx, hy⟩
    · rcases h2 with ⟨x', y', hx', hy', hp'⟩ | ⟨e, e', hx', hy'⟩
      · rw [hy] at hx'
        cases hx'
        exact .inl ⟨_, _, hx, hy', hp.trans hp'⟩
      · rw [hy] at hx'; cases hx'
    · rcases h2 with ⟨x', y', hx', hy', hp'⟩ | ⟨e1, e2, hx', hy'⟩
      · rw [hy] at hx'; cases hx'
      · exact .inr ⟨_, _, hx, hy'⟩

theorem entryExitPlanes_perm {s t : Slope ℝ} (h : SameFrame s t) (hu : (t.udls.map PUdl.left).Perm (s.udls.map PUdl.left))
    (hl : (t.lls.map PLl.coord).Perm (s.lls.map PLl.coord)) :
    Shuffled t.entryExitPlanes s.entryExitPlanes := by
  have e1 : t.udls.length = s.udls.length := by simpa using hu.length_eq
  have e2 : t.lls.length = s.lls.length := by simpa using hl.length_eq
  have e3 : (t.udls.map (fun u => (u.left - 0.001, s.topY))).Perm (s.udls.map (fun u => (u.left - 0.001, s.topY))) := by
    have := hu.map (fun x : ℝ => (x - 0.001, s.topY))
    simpa [Function.comp_def] using this
  have e4 : (t.lls.map (fun u => (u.coord - 0.001, s.topY))).Perm (s.lls.map (fun u => (u.coord - 0.001, s.topY))) := by
    have := hl.map (fun x : ℝ => (x - 0.001, s.topY))
    simpa [Function.comp_def] using this
  unfold Slope.entryExitPlanes Slope.entryPoints
  rw [h.iterations, h.lim1, h.lim2, h.topY, e1, e2,
    show t.exitPoints = s.exitPoints by
      unfold Slope.exitPoints Slope.rightCoords
      rw [h.iterations, h.lim3, h.lim4, h.getExternalY]]
  dsimp only
  generalize leftCoords _ s.lim1 s.lim2 s.topY = L
  cases L with
  | error e => exact .inr ⟨_, _, rfl, rfl⟩
  | ok ev =>
    change Shuffled (t.planesAll _ _ (ev ++ _ ++ _)) (s.planesAll _ _ (ev ++ _ ++ _))
    rw [h.planesAll]
    exact planesAll_perm s _ _ ((e4.append_left ev).append e3)

theorem fillFos_perm (s : Slope ℝ) {a b : List (Plane ℝ)} (h : a.Perm b) :
    ((s.fillFos a).2 = none ↔ (s.fillFos b).2 = none) ∧
      ((s.fillFos b).2 = none → (s.fillFos a).1.Perm (s.fillFos b).1) := by
  rcases fillFos_cases s a with ⟨ea, na⟩ | ⟨pre, p, post, e, rfl, fa, _, ea⟩ <;>
    rcases fillFos_cases s b with ⟨eb, nb⟩ | ⟨pre', p', post', e', rfl, fb, _, eb⟩
  · rw [ea, eb]
    exact ⟨Iff.rfl, fun _ => h.map _⟩
  · exact absurd fb (na p' (h.mem_iff.mpr (by simp)) e')
  · exact absurd fa (nb p (h.mem_iff.mp (by simp)) e)
  · rw [ea, eb]
    exact ⟨by simp, by simp⟩

theorem tidySearch_perm (m : Option ℝ) {a b : List (Plane ℝ)} (h : a.Perm b) :
    (tidySearch m a).Perm (tidySearch m b) ∧
      (tidySearch m a).map Plane.fos = (tidySearch m b).map Plane.fos := by
  have hs : ∀ c : List (Plane ℝ), (tidySearch m c).map Plane.fos =
      ((tidySearch m c).map fosKey).map fun v => some (some v) := by
    intro c
    rw [List.map_map]
    apply List.map_congr_left
    intro p hp
    obtain ⟨v, hv⟩ := Option.isSome_iff_exists.mp (mem_tidySearch hp).2
    have : p.fos = some (some v) := Option.join_eq_some_iff.mp hv
    simp [fosKey, Plane.fosVal, this]
  have hk : ∀ c : List (Plane ℝ), ((tidySearch m c).map fosKey).Pairwise (· ≤ ·) := by
    intro c
    rw [tidySearch_eq, List.pairwise_map]
    exact (sortByKey_sorted _ _).filter _
  have hp : (tidySearch m a).Perm (tidySearch m b) := by
    rw [tidySearch_eq, tidySearch_eq]
    exact ((sortByKey_perm _ _).trans ((h.filter _).trans (sortByKey_perm _ _).symm)).filter _
  refine ⟨hp, ?_⟩
  rw [hs, hs]
  congr 1
  exact (hp.map fosKey).eq_of_pairwise (fun x y _ _ h1 h2 => le_antisymm h1 h2) (hk a) (hk b)

/-- Two slopes that differ in the order of their loads only. -/
theorem analyse_shuffled {s t : Slope ℝ} (rs : Reachable s) (rt : Reachable t) (h : Alike s t)
    (hu : (t.udls.map PUdl.left).Perm (s.udls.map PUdl.left))
    (hl : (t.lls.map PLl.coord).Perm (s.lls.map PLl.coord)) (m : Option ℝ) :
    ((t.analyseSlope m).2 = .ok () ↔ (s.analyseSlope m).2 = .ok ()) ∧
      ((s.analyseSlope m).2 = .ok () →
        (t.analyseSlope m).1.search.Perm (s.analyseSlope m).1.search ∧
        (t.analyseSlope m).1.search.map Plane.fos = (s.analyseSlope m).1.search.map Plane.fos) := by
  have hb : ∀ cx cy r, t.bishop cx cy r none none = s.bishop cx cy r none none :=
    fun cx cy r => h.bishop rs rt cx cy r none none
  by_cases hi : s.individual = []
  · have hf := times_fillFos hb
    unfold Slope.analyseSlope
    rw [h.individual, hi]
    simp only [hf]
    rcases entryExitPlanes_perm h.toSameFrame hu hl with ⟨x, y, hx, hy, hp⟩ | ⟨e, e', hx, hy⟩
    · rw [hx, hy]
      obtain ⟨f1, f2⟩ := fillFos_perm s hp
      rcases ex : s.fillFos x with ⟨px, ox⟩
      rcases ey : s.fillFos y with ⟨py, oy⟩
      rw [ex, ey] at f1 f2
      cases oy with
      | none =>
        have : ox = none := f1.mpr rfl
        subst this
        simp only [ex, ey]
        exact ⟨by simp, fun _ => tidySearch_perm m (f2 rfl)⟩
      | some e =>
        cases ox with
        | none => exact absurd (f1.mp rfl) (by simp)
        | some e' =>
          simp only [ex, ey]
          exact ⟨by simp, by simp⟩
    · rw [hx, hy]
      exact ⟨by simp, by simp⟩
  · obtain ⟨h1, h2⟩ := analyse_alike (s := s) (t := t) (fun h => absurd h hi) h.individual hb m
    rw [h1]
    refine ⟨Iff.rfl, fun ho => ?_⟩
    rw [h2 ho]
    exact ⟨List.Perm.refl _, rfl⟩

theorem getMinFos_fos {s t : Slope ℝ} (h : t.search.map Plane.fos = s.search.map Plane.fos) :
    t.getMinFos = s.getMinFos := by
  unfold Slope.getMinFos
  rcases ht : t.search with _ | ⟨p, ps⟩
  · rw [ht] at h
    rw [List.map_eq_nil_iff.mp h.symm]
  · rcases hs : s.search with _ | ⟨q, qs⟩
    · rw [ht, hs] at h
      simp at h
    · rw [ht, hs] at h
      simp only [List.map_cons, List.cons.injEq] at h
      simp only [h.1]

/-- C128: distributed loads given in another order act the same: every circle has the same factor of safety
by either method; an analysis succeeds for both or for neither; and it finds the same circles with the same
list of factors of safety, hence the same least one. -/
theorem C128_udls_any_order (s : Slope ℝ) (r : Reachable s) (us vs : List (UdlArg ℝ)) (h : us.Perm vs)
    (hu : ∀ x, some x ∈ us → Udl.Constructed x) :
    let one := (s.setUdls us).1
    let two := (s.setUdls vs).1
    (∀ cx cy rad a b, two.ordinary cx cy rad a b = one.ordinary cx cy rad a b) ∧
    (∀ cx cy rad a b, two.bishop cx cy rad a b = one.bishop cx cy rad a b) ∧
    ∀ m : Option ℝ, ((two.analyseSlope m).2 = .ok () ↔ (one.analyseSlope m).2 = .ok ()) ∧
      ((one.analyseSlope m).2 = .ok () →
        (two.analyseSlope m).1.search.Perm (one.analyseSlope m).1.search ∧
        (two.analyseSlope m).1.search.map Plane.fos = (one.analyseSlope m).1.search.map Plane.fos ∧
        (two.analyseSlope m).1.getMinFos = (one.analyseSlope m).1.getMinFos) := by
  intro one two
  obtain ⟨h1, h2⟩ := C128_udls_order s r us vs h hu
  have r1 : Reachable one := r.call (.setUdls s _ hu)
  have r2 : Reachable two := r.call (.setUdls s _ fun x hx => hu x (h.mem_iff.mpr hx))
  change two = { one with udls := two.udls } at h1
  change two.udls.Perm one.udls at h2
  have al : Alike one two := by
    refine ⟨by rw [h1]; constructor <;> rfl, fun y => by unfold soilAt; rw [h1], fun a b => ?_⟩
    unfold loadOn
    rw [(h2.map fun u => common a b u.left u.right * u.load.magnitude).sum_eq,
      show two.lls = one.lls by rw [h1]]
  have hl : two.lls = one.lls := by rw [h1]
  refine ⟨fun cx cy rad a b => al.ordinary r1 r2 cx cy rad a b, fun cx cy rad a b => al.bishop r1 r2 cx cy rad a b,
    fun m => ?_⟩
  obtain ⟨k1, k2⟩ := analyse_shuffled r1 r2 al (h2.map _) (by rw [hl]) m
  exact ⟨k1, fun ho => ⟨(k2 ho).1, (k2 ho).2, getMinFos_fos (k2 ho).2⟩⟩

/-- C128: the same for line loads. -/
theorem C128_lls_any_order (s : Slope ℝ) (r : Reachable s) (us vs : List (Option (LineLoad ℝ))) (h : us.Perm vs)
    (hu : ∀ x, some x ∈ us → LineLoad.Constructed x) :
    let one := (s.setLls us).1
    let two := (s.setLls vs).1
    (∀ cx cy rad a b, two.ordinary cx cy rad a b = one.ordinary cx cy rad a b) ∧
    (∀ cx cy rad a b, two.bishop cx cy rad a b = one.bishop cx cy rad a b) ∧
    ∀ m : Option ℝ, ((two.analyseSlope m).2 = .ok () ↔ (one.analyseSlope m).2 = .ok ()) ∧
      ((one.analyseSlope m).2 = .ok () →
        (two.analyseSlope m).1.search.Perm (one.analyseSlope m).1.search ∧
        (two.analyseSlope m).1.search.map Plane.fos = (one.analyseSlope m).1.search.map Plane.fos ∧
        (two.analyseSlope m).1.getMinFos = (one.analyseSlope m).1.getMinFos) := by
  intro one two
  obtain ⟨h1, h2⟩ := C128_lls_order s r us vs h
  have r1 : Reachable one := r.call (.setLls s _ hu)
  have r2 : Reachable two := r.call (.setLls s _ fun x hx => hu x (h.mem_iff.mpr hx))
  change two = { one with lls := two.lls } at h1
  change two.lls.Perm one.lls at h2
  have al : Alike one two := by
    refine ⟨by rw [h1]; constructor <;> rfl, fun y => by unfold soilAt; rw [h1], fun a b => ?_⟩
    unfold loadOn
    rw [(h2.map fun l => if a ≤ l.coord ∧ l.coord < b then l.load.magnitude else 0).sum_eq,
      show two.udls = one.udls by rw [h1]]
  have hl : two.udls = one.udls := by rw [h1]
  refine ⟨fun cx cy rad a b => al.ordinary r1 r2 cx cy rad a b, fun cx cy rad a b => al.bishop r1 r2 cx cy rad a b,
    fun m => ?_⟩
  obtain ⟨k1, k2⟩ := analyse_shuffled r1 r2 al (by rw [hl]) (h2.map _) m
  exact ⟨k1, fun ho => ⟨(k2 ho).1, (k2 ho).2, getMinFos_fos (k2 ho).2⟩⟩

/-- Three arguments, one of them no load, and the same three backwards: the slopes list the loads in a
different order, the second load lengthens the model, and the search of either slope comes to an end. -/
example : ∃ us : List (UdlArg ℝ), us.length = 3 ∧ us.Perm us.reverse ∧ (∀ x, some x ∈ us → Udl.Constructed x) ∧
    (exSoil.setUdls us).1.udls.length = 2 ∧ exSoil.extL < 20 ∧ 20 ≤ (exSoil.setUdls us).1.minExtL ∧
    (exSoil.setUdls us.reverse).1 ≠ (exSoil.setUdls us).1 ∧
    (exSoil.setUdls us).1.individual = [] ∧ ((exSoil.setUdls us).1.analyseSlope none).2 = .ok () := by
  have hc : ∀ x, some x ∈ [some (exLoad 20 1 2), none, some (exLoad 5 2 6)] → Udl.Constructed x := by
    intro x hx
    simp only [List.mem_cons, List.not_mem_nil, or_false, Option.some.injEq, reduceCtorEq, false_or] at hx
    rcases hx with rfl | rfl
    · exact exLoad_constructed (by norm_num) (by norm_num) (by norm_num)
    · exact exLoad_constructed (by norm_num) (by norm_num) (by norm_num)
  have r := exSoil_reachable.call (.setUdls exSoil _ hc)
  obtain ⟨A, ea, wa, ua, la, ma, _⟩ := setUdls_spec exSoil_reachable.wfs _ fun x hx => (hc x hx).facts.2.2
  obtain ⟨B, eb, wb, ub, _⟩ := setUdls_spec exSoil_reachable.wfs
    [some (exLoad 5 2 6), none, some (exLoad 20 1 2)] fun x hx => (hc x (by
      simp only [List.mem_cons, List.not_mem_nil, or_false, reduceCtorEq, false_or] at hx ⊢
      exact hx.symm)).facts.2.2
  have e := setUdls_with exSoil_reachable.wfs _ fun x hx => (hc x hx).facts.2.2
  have hmat : A.materials = exSoil.materials ∧ A.iterations = exSoil.iterations ∧ A.individual = [] ∧
      A.waterRL = none ∧ A.lls = [] := by
    rw [ea] at e
    have e : A = _ := congrArg Prod.fst e
    rw [e]
    unfold Slope.settleUdls Slope.withUdls
    split <;> exact ⟨rfl, rfl, rfl, rfl, rfl⟩
  obtain ⟨hm, hit, hi, hw, hl⟩ := hmat
  have m1 : 0 < (exLoad 20 1 2).magnitude := by norm_num [exLoad]
  have m2 : 0 < (exLoad 5 2 6).magnitude := by norm_num [exLoad]
  have hua : A.udls.map PUdl.load = [exLoad 20 1 2, exLoad 5 2 6] := by
    rw [ua, show exSoil.udls = [] from rfl]
    simp only [List.filterMap_cons, List.filterMap_nil, id, List.filter_cons, List.filter_nil, m1, m2, decide_true,
      if_true, List.map_nil, List.nil_append]
  have hub : B.udls.map PUdl.load = [exLoad 5 2 6, exLoad 20 1 2] := by
    rw [ub, show exSoil.udls = [] from rfl]
    simp only [List.filterMap_cons, List.filterMap_nil, id, List.filter_cons, List.filter_nil, m1, m2, decide_true,
      if_true, List.map_nil, List.nil_append]
  have hlen : A.udls.length = 2 := by simpa using congrArg List.length hua
  rw [ea] at r
  refine ⟨_, rfl, (List.reverse_perm _).symm, hc, by rw [ea]; exact hlen, ?_, ?_, ?_, by rw [ea]; exact hi, ?_⟩
  · simp; norm_num
  · rw [ea]
    have := ma (exLoad 5 2 6) (by simp) (by norm_num [exLoad])
    rw [minLength_some (l := 6) rfl (by norm_num)] at this
    norm_num [exLoad] at this
    exact this
  · intro h
    simp only [List.reverse_cons, List.reverse_nil, List.nil_append, List.cons_append] at h
    rw [ea, eb] at h
    have h : B = A := h
    rw [h, hua] at hub
    norm_num [exLoad] at hub
  · rw [ea]
    refine (C70_analysis_ends A r none (by rw [hi]; intro p hp; cases hp) (by rw [hw]; intro z hz; cases hz)
      (fun _ => ⟨?_, by rw [hl]; simp, ?_⟩)).2 ?_
    · intro u hu
      have hx : 0 ≤ A.topX := wa.1.geo.topX_pos.le
      have hld : u.load ∈ [exLoad 20 1 2, exLoad 5 2 6] := hua ▸ List.mem_map_of_mem hu
      rw [wa.1.udl u hu]
      simp only [List.mem_cons, List.not_mem_nil, or_false] at hld
      rcases hld with h | h <;> rw [h]
      · rw [placeUdl_left (l := 2) rfl (by norm_num)]
        exact max_le hx (by norm_num [exLoad]; linarith)
      · rw [placeUdl_left (l := 6) rfl (by norm_num)]
        exact max_le hx (by norm_num [exLoad]; linarith)
    · have : topPointsFor A.iterations.toNat = 14 := by
        rw [hit]
        unfold topPointsFor
        exact (Nat.eq_sqrt.mpr ⟨by decide, by decide⟩).symm
      rw [this, hlen, hl]
      simp
    · rw [hm]
      intro l hl
      obtain rfl : l = _ := List.mem_singleton.mp hl
      exact ⟨rfl, by simp [exMat, mkLayer]⟩

end PySlope
