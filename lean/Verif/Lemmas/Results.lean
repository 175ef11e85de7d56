import Verif.Lemmas.Analysis
import Verif.Props.Loads
import Verif.Lemmas.StableCalls

/-! # The fate of an analysis -/

namespace PySlope

variable {K : Type} [PyNum K]

/-- State after an analysis that ended. -/
noncomputable def Slope.analysedTo (s : Slope K) (m : Option K) (ps : List (Plane K)) : Slope K :=
  { s with search := tidySearch m (ps.map (withFos s)), individual := s.individual.map (withFos s) }

/-- The three fates of `analyse_slope`. -/
theorem analyseSlope_cases (s : Slope K) (m : Option K) :
    (∃ ps, Analysed s ps ∧ (∀ p ∈ ps, ∀ e, ¬ FosRaises s p e) ∧
      s.analyseSlope m = (s.analysedTo m ps, .ok ())) ∨
    (∃ e, s.individual = [] ∧ s.entryExitPlanes = .error e ∧ s.analyseSlope m = (s, .error e)) ∨
    (∃ pre p post e ind, Analysed s (pre ++ p :: post) ∧ FosRaises s p e ∧
      (∀ q ∈ pre, ∀ e, ¬ FosRaises s q e) ∧
      (ind = if s.individual = [] then [] else pre.map (withFos s) ++ p :: post) ∧
      s.analyseSlope m =
        ({ s with search := pre.map (withFos s) ++ p :: post, individual := ind }, .error e)) := by
  unfold Slope.analyseSlope
  cases hi : s.individual with
  | nil =>
    simp only
    cases he : s.entryExitPlanes with
    | error e => right; left; exact ⟨e, trivial, rfl, rfl⟩
    | ok ps =>
      simp only
      rcases fillFos_cases s ps with ⟨h1, h2⟩ | ⟨pre, p, post, e, rfl, h2, h3, h4⟩
      · left
        refine ⟨ps, .inr ⟨hi, he⟩, h2, ?_⟩
        rw [h1]
        unfold Slope.analysedTo
        rw [hi]
        simp only [List.map_nil]
      · right; right
        refine ⟨pre, p, post, e, [], .inr ⟨hi, he⟩, h2, h3, by simp, ?_⟩
        rw [h4]
  | cons a as =>
    simp only
    have hne : s.individual ≠ [] := by rw [hi]; simp
    rcases fillFos_cases s (a :: as) with ⟨h1, h2⟩ | ⟨pre, p, post, e, h0, h2, h3, h4⟩
    · left
      refine ⟨a :: as, .inl ⟨hne, hi.symm⟩, h2, ?_⟩
      rw [h1]
      unfold Slope.analysedTo
      rw [hi]
    · right; right
      refine ⟨pre, p, post, e, pre.map (withFos s) ++ p :: post, .inl ⟨hne, by rw [hi, h0]⟩, h2, h3,
        by simp, ?_⟩
      rw [h4]

theorem analyseSlope_ok {s t : Slope K} {m : Option K} (h : s.analyseSlope m = (t, .ok ())) :
    ∃ ps, Analysed s ps ∧ (∀ p ∈ ps, ∀ e, ¬ FosRaises s p e) ∧ t = s.analysedTo m ps := by
  rcases analyseSlope_cases s m with ⟨ps, h1, h2, h3⟩ | ⟨e, _, _, h3⟩ | ⟨_, _, _, e, _, _, _, _, _, h3⟩
  · rw [h3] at h; cases h; exact ⟨ps, h1, h2, rfl⟩
  · rw [h3] at h; cases h
  · rw [h3] at h; cases h

theorem Analysed.unique {s : Slope K} {ps qs : List (Plane K)} (h : Analysed s ps)
    (h' : Analysed s qs) : ps = qs := by
  rcases h with ⟨a, b⟩ | ⟨a, b⟩ <;> rcases h' with ⟨c, d⟩ | ⟨c, d⟩
  · rw [b, d]
  · exact absurd c a
  · exact absurd a c
  · rw [b] at d; cases d; rfl

theorem analyseSlope_of {s : Slope K} {ps} (h1 : Analysed s ps)
    (h2 : ∀ p ∈ ps, ∀ e, ¬ FosRaises s p e) (m : Option K) :
    s.analyseSlope m = (s.analysedTo m ps, .ok ()) := by
  rcases analyseSlope_cases s m with ⟨qs, h1', h2', h3⟩ | ⟨e, a, b, h3⟩ | ⟨pre, p, post, e, _, h1', h2', _, _, h3⟩
  · rw [h3, h1.unique h1']
  · rcases h1 with ⟨c, d⟩ | ⟨c, d⟩
    · exact absurd a c
    · rw [b] at d; cases d
  · rw [h1.unique h1'] at h2
    exact absurd h2' (h2 p (by simp) e)

theorem SameSetup.refl (s : Slope K) : SameSetup s s := by constructor <;> rfl

theorem SameSetup.res (s : Slope K) (a b) : SameSetup s { s with search := a, individual := b } := by
  constructor <;> rfl

theorem SameSetup.analysedTo (s : Slope K) (m ps) : SameSetup s (s.analysedTo m ps) :=
  SameSetup.res s _ _

theorem SameSetup.raises {s t : Slope K} (h : SameSetup s t) (p e) :
    FosRaises t p e ↔ FosRaises s p e := by
  unfold FosRaises; rw [h.bishop]

theorem SameSetup.analysed {s t : Slope K} (h : SameSetup s t) (hi : t.individual = s.individual) (ps) :
    Analysed t ps ↔ Analysed s ps := by
  unfold Analysed; rw [hi, h.entryExitPlanes]

/-- A second analysis changes nothing. -/
theorem analyseSlope_again {s t : Slope K} {m : Option K} (h : s.analyseSlope m = (t, .ok ())) :
    t.analyseSlope m = (t, .ok ()) := by
  obtain ⟨ps, h1, h2, rfl⟩ := analyseSlope_ok h
  have hS := SameSetup.analysedTo s m ps
  have hr : ∀ p e, FosRaises s (withFos s p) e ↔ FosRaises s p e := fun p e => Iff.rfl
  rcases h1 with ⟨a, rfl⟩ | ⟨a, b⟩
  · have h1' : Analysed (s.analysedTo m s.individual) (s.individual.map (withFos s)) := by
      left
      refine ⟨?_, rfl⟩
      change s.individual.map (withFos s) ≠ []
      simpa using a
    rw [analyseSlope_of h1' (by
      intro p hp e
      obtain ⟨q, hq, rfl⟩ := List.mem_map.mp hp
      rw [hS.raises, hr]
      exact h2 q hq e)]
    unfold Slope.analysedTo
    have hw := hS.withFos
    unfold Slope.analysedTo at hw
    rw [hw]
    simp only [List.map_map, Function.comp_def, withFos_withFos]
  · have h1' : Analysed (s.analysedTo m ps) ps := by
      right
      refine ⟨by change s.individual.map (withFos s) = []; rw [a]; rfl, ?_⟩
      rw [hS.entryExitPlanes, b]
    rw [analyseSlope_of h1' (by
      intro p hp e
      rw [hS.raises]
      exact h2 p hp e)]
    unfold Slope.analysedTo
    have hw := hS.withFos
    unfold Slope.analysedTo at hw
    rw [hw]
    simp only [List.map_map, Function.comp_def, withFos_withFos]

/-- The results are those of the present configuration. -/
def Fresh (s : Slope K) : Prop :=
  s.search = [] ∨
    ∃ m, (s.analyseSlope m).2 = .ok () ∧ (s.analyseSlope m).1.search = s.search

theorem Fresh.nil {s : Slope K} (h : s.search = []) : Fresh s := .inl h

theorem Fresh.analyse {s t : Slope K} {m : Option K} (h : s.analyseSlope m = (t, .ok ())) :
    Fresh t := by
  right
  refine ⟨m, ?_, ?_⟩ <;> rw [analyseSlope_again h]

/-- Attributes no analysis reads do not matter. -/
theorem Fresh.same {s t : Slope K} (h : Fresh s) (hS : SameSetup s t)
    (hi : t.individual = s.individual) (hs : t.search = s.search) : Fresh t := by
  rcases h with h | ⟨m, h1, h2⟩
  · left; rw [hs, h]
  · right
    refine ⟨m, ?_⟩
    have e : s.analyseSlope m = ((s.analyseSlope m).1, .ok ()) := by rw [← h1]
    obtain ⟨ps, a, b, c⟩ := analyseSlope_ok e
    have e' := analyseSlope_of ((hS.analysed hi ps).mpr a) (by
      intro p hp x
      rw [hS.raises]; exact b p hp x) m
    rw [e']
    refine ⟨rfl, ?_⟩
    rw [hs, ← h2, c]
    change tidySearch m (ps.map (withFos t)) = tidySearch m (ps.map (withFos s))
    rw [hS.withFos]

theorem Fresh.dyn {s : Slope K} (h : Fresh s) (d) : Fresh { s with dynResults := d } :=
  h.same (by constructor <;> rfl) rfl rfl

theorem Fresh.setExternalBoundary {s : Slope ℝ} (h : Fresh s) (a b c) :
    Fresh (s.setExternalBoundary a b c).1 := by
  unfold Slope.setExternalBoundary
  split
  · exact h
  · rename_i H L e
    obtain ⟨h1, h2⟩ := boundaryInputs_ok e
    have : (0 : ℝ) < L := by norm_num at h2 ⊢; linarith
    rw [applyBoundary_eq _ _ _ this]
    exact .nil rfl

theorem Fresh.updateBoundaryOptions {s : Slope ℝ} (h : Fresh s) (g : Geo s) (a b) :
    Fresh (s.updateBoundaryOptions a b).1 := by
  obtain ⟨mL, mH, _, e | ⟨x, e⟩⟩ := updateBoundaryOptions_form g a b
  · rw [e]; exact .nil rfl
  · rw [e]; exact h.same (by constructor <;> rfl) rfl rfl

theorem Fresh.setMaterials {s : Slope ℝ} (h : Fresh s) (g : Geo s) (ms) :
    Fresh (s.setMaterials ms).1 := by
  unfold Slope.setMaterials
  split
  · exact h
  · simp only
    split
    · exact h
    · refine andThen_inv (I := Fresh) _ _ ?_ (fun t _ ht => ?_)
      · split
        · exact h.updateBoundaryOptions g _ _
        · exact h
      · split
        · exact ht
        · exact .nil rfl

theorem Fresh.tryOffset {s t : Slope K} {o f : K} (h : s.tryOffset o = (t, .ok f)) : Fresh t := by
  unfold Slope.tryOffset at h
  obtain ⟨a, _, _, h⟩ := andThen_ok h
  obtain ⟨b, _, h1, h⟩ := andThen_ok h
  split at h
  · cases h
  · cases h
  · cases h
    exact (Fresh.analyse h1).dyn _

theorem Fresh.dynLoop {s t : Slope K} (c : K) (d : Bool) (n : Nat) (l r p : K) (hs : Fresh s)
    (h : s.dynLoop c d n l r p = (t, .ok ())) : Fresh t := by
  induction n generalizing s l r p with
  | zero => cases h; exact hs
  | succ n ih =>
    unfold Slope.dynLoop at h
    simp only at h
    split at h
    · cases h
    · obtain ⟨a, f, h1, h⟩ := andThen_ok h
      split at h
      · cases h; exact Fresh.tryOffset h1
      · split at h
        · exact ih _ _ _ (Fresh.tryOffset h1) h
        · exact ih _ _ _ (Fresh.tryOffset h1) h

theorem Fresh.analyseDynamic {s t : Slope K} {c : K} {d : Bool} {r}
    (h : s.analyseDynamic c d = (t, .ok r)) : Fresh t := by
  unfold Slope.analyseDynamic at h
  simp only at h
  split at h
  · cases h
  · obtain ⟨a, f, h1, h⟩ := andThen_ok h
    split at h
    · cases h; exact Fresh.tryOffset h1
    · obtain ⟨a, f, h1, h⟩ := andThen_ok h
      split at h
      · cases h; exact Fresh.tryOffset h1
      · obtain ⟨a', f, h2, h⟩ := andThen_ok h
        cases h
        exact (Fresh.dynLoop _ _ _ _ _ _ (Fresh.tryOffset h1) h2).dyn _

/-- Every call keeps the results fresh unless it is an analysis that raised. -/
theorem Fresh.op {s : Slope ℝ} (r : Reachable s) (h : Fresh s) {o : Op ℝ} (hv : o.Valid)
    (hq : o.IsAnalysis → (o.run s).2 = .ok ()) : Fresh (o.run s).1 := by
  have w := r.wfs
  cases o with
  | setExternalBoundary a b c => exact h.setExternalBoundary a b c
  | setWaterTable d =>
    change Fresh (s.setWaterTable d).1
    unfold Slope.setWaterTable
    split
    · exact .nil rfl
    · split
      · exact h
      · exact .nil rfl
  | removeWaterTable => exact .nil rfl
  | setUdls us =>
    obtain ⟨t, e, _, _, _, _, _, hs⟩ := setUdls_spec w us (fun v hm => (hv v hm).facts.2.2)
    change Fresh (s.setUdls us).1
    rw [e]; exact .nil hs
  | removeUdls us all => exact .nil rfl
  | setLls ls =>
    obtain ⟨t, e, _, _, _, _, hs⟩ := setLls_spec w ls
    change Fresh (s.setLls ls).1
    rw [e]; exact .nil hs
  | removeLls ls all => exact .nil rfl
  | setMaterials ms => exact h.setMaterials w.1.geo ms
  | removeMaterial m d all => exact .nil rfl
  | updateWaterAnalysisOptions auto x =>
    change Fresh (s.updateWaterAnalysisOptions auto x).1
    unfold Slope.updateWaterAnalysisOptions
    split
    · exact .nil rfl
    · split
      · exact h
      · exact .nil rfl
  | updateAnalysisOptions n i f t m =>
    obtain ⟨_, _, _, _, _, _, _, e⟩ := updateAnalysisOptions_rest s n i f t m
    change Fresh (s.updateAnalysisOptions n i f t m).1
    rw [e]; exact .nil rfl
  | updateBoundaryOptions l x => exact h.updateBoundaryOptions w.1.geo l x
  | removeAnalysisLimits =>
    change Fresh s.removeAnalysisLimits.1
    rw [removeAnalysisLimits_eq]
    · exact .nil rfl
    · have := w.1.l1; have := w.1.l12; have := w.1.l2; linarith
    · have := w.1.l3; have := w.1.l34; have := w.1.l4; linarith
  | setAnalysisLimits a b c d =>
    change Fresh (s.setAnalysisLimits a b c d).1
    rcases WFS.setAnalysisLimits_rest s a b c d with ⟨l1, l2, l3, l4, e⟩ | ⟨x, e⟩
    · rw [e]; exact .nil rfl
    · rw [e]; exact h
  | addSingleEntryExitPlane l rr n =>
    change Fresh (s.addSingleEntryExitPlane l rr n).1
    unfold Slope.addSingleEntryExitPlane
    split
    · split
      · exact h
      · exact .nil rfl
    · exact h
  | addSingleCircularPlane x y rr =>
    change Fresh (s.addSingleCircularPlane x y rr).1
    unfold Slope.addSingleCircularPlane
    split
    · exact h
    · split
      · exact h
      · split
        · exact .nil rfl
        · exact h
  | removeIndividualPlanes => exact .nil rfl
  | analyseSlope m =>
    have e := hq trivial
    change (s.analyseSlope m).2 = .ok () at e
    exact Fresh.analyse (m := m) (s := s) (by
      change s.analyseSlope m = ((s.analyseSlope m).1, _); rw [← e])
  | analyseDynamic c d =>
    have e := hq trivial
    change ((s.analyseDynamic c d).2.map fun _ => ()) = .ok () at e
    change Fresh (s.analyseDynamic c d).1
    cases hr : (s.analyseDynamic c d).2 with
    | error x => rw [hr] at e; cases e
    | ok r => exact Fresh.analyseDynamic (r := r) (s := s) (c := c) (d := d) (by rw [← hr])

theorem Fresh.runAll {s : Slope ℝ} (r : Reachable s) (h : Fresh s) {os : List (Op ℝ)}
    (hv : ∀ o ∈ os, o.Valid) (hq : Quiet os s) : Fresh (runAll os s) := by
  induction os generalizing s with
  | nil => exact h
  | cons o os ih =>
    exact ih (r.call (Op.call (hv o (by simp)))) (h.op r (hv o (by simp)) hq.1)
      (fun o ho => hv o (List.mem_cons_of_mem _ ho)) hq.2

/-! ## Sorting and filtering -/

theorem mem_tidySearch {m : Option K} {ps : List (Plane K)} {p : Plane K} (h : p ∈ tidySearch m ps) :
    p ∈ ps ∧ p.fosVal.isSome = true := by
  have h' : p ∈ pySort fosLt (ps.filter (fun p => p.fosVal.isSome)) := by
    unfold tidySearch at h
    simp only at h
    split at h
    · exact h
    · split at h
      · exact h
      · exact (List.mem_filter.mp h).1
  unfold pySort at h'
  exact List.mem_filter.mp (List.mem_mergeSort.mp h')

theorem fosVal_withFos (s : Slope K) (p : Plane K) : (withFos s p).fosVal = fosOf s p := rfl

/-- The key used for sorting. -/
noncomputable def fosKey (p : Plane ℝ) : ℝ := p.fosVal.getD 0

theorem mergeSort_congr {α : Type} {r s : α → α → Bool} {l : List α}
    (h : ∀ a ∈ l, ∀ b ∈ l, r a b = s a b) : l.mergeSort r = l.mergeSort s := by
  have := List.map_mergeSort (f := id) (r := r) (s := s) (l := l) h
  simpa using this

/-- Sorting the planes that have a factor of safety is sorting by a number. -/
theorem pySort_fosLt (ps : List (Plane ℝ)) :
    pySort fosLt (ps.filter (fun p => p.fosVal.isSome)) =
      sortByKey fosKey (ps.filter (fun p => p.fosVal.isSome)) := by
  unfold pySort sortByKey pySort
  apply mergeSort_congr
  intro a ha b hb
  have ha := (List.mem_filter.mp ha).2
  have hb := (List.mem_filter.mp hb).2
  obtain ⟨x, hx⟩ := Option.isSome_iff_exists.mp ha
  obtain ⟨y, hy⟩ := Option.isSome_iff_exists.mp hb
  simp [fosLt, fosKey, hx, hy]

/-- The test of `max_fos`. -/
noncomputable def keeps (m : Option ℝ) (p : Plane ℝ) : Bool :=
  match m with
  | none => true
  | some x => if x = 0 then true else decide (fosKey p ≤ x)

theorem tidySearch_eq (m : Option ℝ) (ps : List (Plane ℝ)) :
    tidySearch m ps =
      (sortByKey fosKey (ps.filter (fun p => p.fosVal.isSome))).filter (keeps m) := by
  unfold tidySearch
  simp only [pySort_fosLt]
  cases m with
  | none => unfold keeps; simp
  | some x =>
    simp only [pyEq_real, lit_zero, decide_eq_true_eq]
    by_cases hx : x = 0
    · rw [if_pos hx]; unfold keeps; simp [hx]
    · rw [if_neg hx]
      apply List.filter_congr
      intro p hp
      have hp := (List.mem_filter.mp ((sortByKey_perm _ _).mem_iff.mp hp)).2
      obtain ⟨y, hy⟩ := Option.isSome_iff_exists.mp hp
      simp [keeps, hx, fosKey, hy]

end PySlope
