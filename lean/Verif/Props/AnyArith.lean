import Verif.Spec.AnyArith
import Verif.Props.Ieee
import Verif.Props.Dynamic
import Verif.Props.Results
import Verif.Lemmas.PlaneHistory

/-! # Property C87: bookkeeping does not depend on the arithmetic -/

namespace PySlope
open Lit

variable {K : Type} [PyNum K]

/-! ## No stale results -/

theorem andThen_search {o : Out K Unit} {t : Slope K} {f : Slope K → Unit → Out K Unit}
    (hf : ∀ s, (f s ()).1.search = []) (h : o.andThen f = (t, .ok ())) : t.search = [] := by
  obtain ⟨s, a, _, e⟩ := andThen_ok h
  have := hf s
  rw [e] at this
  exact this

theorem setExternalBoundary_fresh {s t : Slope K} {a b c : PyVal K}
    (h : s.setExternalBoundary a b c = (t, .ok ())) : t.search = [] := by
  unfold Slope.setExternalBoundary at h
  split at h
  · cases h
  · unfold Slope.applyBoundary at h
    exact andThen_search (fun _ => rfl) h

theorem updateBoundaryOptions_fresh {s t : Slope K} {a b : PyVal K}
    (h : s.updateBoundaryOptions a b = (t, .ok ())) : t.search = [] := by
  unfold Slope.updateBoundaryOptions at h
  obtain ⟨_, _, _, h⟩ := andThen_ok h
  obtain ⟨_, _, _, h⟩ := andThen_ok h
  exact andThen_search (fun _ => rfl) h

theorem setMaterials_fresh {s t : Slope K} {ms : List (Option (Material K))}
    (h : s.setMaterials ms = (t, .ok ())) : t.search = [] := by
  unfold Slope.setMaterials at h
  split at h
  · cases h
  · simp only at h
    split at h
    · cases h
    · obtain ⟨_, _, _, h⟩ := andThen_ok h
      split at h
      · cases h
      · cases h; rfl

/-- Every call that returns leaves the results fresh. -/
theorem op_fresh {s t : Slope K} (h : Fresh s) {o : Op K} (e : o.run s = (t, .ok ())) : Fresh t := by
  cases o with
  | setExternalBoundary a b c => exact .nil (setExternalBoundary_fresh e)
  | setWaterTable d =>
    change s.setWaterTable d = _ at e
    unfold Slope.setWaterTable at e
    split at e
    · cases e; exact .nil rfl
    · split at e
      · cases e
      · cases e; exact .nil rfl
  | removeWaterTable => cases e; exact .nil rfl
  | setUdls us =>
    change s.setUdls us = _ at e
    unfold Slope.setUdls at e
    exact .nil (andThen_search (fun _ => rfl) e)
  | removeUdls us all => cases e; exact .nil rfl
  | setLls ls =>
    change s.setLls ls = _ at e
    unfold Slope.setLls at e
    exact .nil (andThen_search (fun _ => rfl) e)
  | removeLls ls all => cases e; exact .nil rfl
  | setMaterials ms => exact .nil (setMaterials_fresh e)
  | removeMaterial m d all => cases e; exact .nil rfl
  | updateWaterAnalysisOptions auto x =>
    change s.updateWaterAnalysisOptions auto x = _ at e
    unfold Slope.updateWaterAnalysisOptions at e
    split at e
    · cases e; exact .nil rfl
    · split at e
      · cases e
      · cases e; exact .nil rfl
  | updateAnalysisOptions n i f t m => cases e; exact .nil rfl
  | updateBoundaryOptions l x => exact .nil (updateBoundaryOptions_fresh e)
  | removeAnalysisLimits =>
    change s.removeAnalysisLimits = _ at e
    unfold Slope.removeAnalysisLimits at e
    exact .nil (andThen_search (fun _ => rfl) e)
  | setAnalysisLimits a b c d =>
    change s.setAnalysisLimits a b c d = _ at e
    unfold Slope.setAnalysisLimits at e
    simp only at e
    split at e
    · cases e; exact .nil rfl
    · cases e
  | addSingleEntryExitPlane l r n =>
    change s.addSingleEntryExitPlane l r n = _ at e
    unfold Slope.addSingleEntryExitPlane at e
    split at e
    · split at e
      · cases e
      · cases e; exact .nil rfl
    · cases e
  | addSingleCircularPlane x y r =>
    change s.addSingleCircularPlane x y r = _ at e
    unfold Slope.addSingleCircularPlane at e
    split at e
    · cases e
    · split at e
      · cases e; exact h
      · split at e
        · cases e; exact .nil rfl
        · cases e
  | removeIndividualPlanes => cases e; exact .nil rfl
  | analyseSlope m => exact Fresh.analyse (m := m) (s := s) e
  | analyseDynamic c d =>
    change ((s.analyseDynamic c d).1, (s.analyseDynamic c d).2.map fun _ => ()) = _ at e
    cases hr : (s.analyseDynamic c d).2 with
    | error x => rw [hr] at e; cases e
    | ok r =>
      have := (Prod.mk.inj e).1
      exact Fresh.analyseDynamic (r := r) (s := s) (c := c) (d := d) (by rw [← hr, ← this])

theorem new_ok {h a l : PyVal K} {s : Slope K} (e : Slope.new h a l = .ok s) :
    Slope.init h a l = (s, .ok ()) := by
  unfold Slope.new at e
  split at e
  · rename_i s' h'
    cases e
    exact h'
  · cases e

theorem new_search {h a l : PyVal K} {s : Slope K} (e : Slope.new h a l = .ok s) : s.search = [] := by
  have e := new_ok e
  unfold Slope.init at e
  obtain ⟨_, _, _, e⟩ := andThen_ok e
  obtain ⟨_, _, _, e⟩ := andThen_ok e
  obtain ⟨_, _, _, e⟩ := andThen_ok e
  obtain ⟨_, _, _, e⟩ := andThen_ok e
  exact andThen_search (fun _ => rfl) e

/-- C87, no stale results: whatever the arithmetic, after any history of calls that returned the
results are empty, or they are exactly those that analysing the object as it now is would give. -/
theorem C87_no_stale_results {h a l : PyVal K} {s0 : Slope K} (e : Slope.new h a l = .ok s0)
    (os : List (Op K)) (hq : AllReturn os s0) :
    (runAll os s0).search = [] ∨
      ∃ m, ((runAll os s0).analyseSlope m).2 = .ok () ∧
        ((runAll os s0).analyseSlope m).1.search = (runAll os s0).search := by
  have key : ∀ (os : List (Op K)) (s : Slope K), Fresh s → AllReturn os s → Fresh (runAll os s) := by
    intro os
    induction os with
    | nil => intro s h _; exact h
    | cons o os ih =>
      intro s h hq
      exact ih _ (op_fresh h (o := o) (by rw [← hq.1])) hq.2
  exact key os s0 (.nil (new_search e)) hq

/-- A case on the reals: a history of calls that all return and that ends with results. -/
example : Slope.new (K := ℝ) (.num 3) (.num 30) (.num 3) = .ok exSlope ∧ AllReturn exHistory exSlope ∧
    (runAll exHistory exSlope).search ≠ [] := by
  refine ⟨exSlope_new, ⟨?_, ?_, ?_, trivial⟩, ?_⟩
  · simp only [exHistory, Op.run, exSoil_eq, exReady_eq, exAnalyse]
  · simp only [exHistory, Op.run, exSoil_eq, exReady_eq, exAnalyse]
  · simp only [exHistory, Op.run, exSoil_eq, exReady_eq, exAnalyse]
  · rw [exHistory_run, exAnalyse_search]; simp

/-! ## Options in range -/


/-- An analysis touches only the results. -/
theorem analyseSlope_keeps (s : Slope K) (m : Option K) :
    ∃ a b, (s.analyseSlope m).1 = { s with search := a, individual := b } := by
  unfold Slope.analyseSlope
  split
  · simp only
    split <;> exact ⟨_, _, rfl⟩
  · split
    · exact ⟨_, _, rfl⟩
    · simp only
      split <;> exact ⟨_, _, rfl⟩

/-- `set_external_boundary` keeps what does not depend on the geometry, the loads and the limits. -/
theorem setExternalBoundary_keeps {I : Slope K → Prop}
    (hI : ∀ s eb h l g tx ty bx bY el eh us ls a b c d, I s → I { s with
      extBoundary := eb, height := h, length := l, gradient := g, topX := tx, topY := ty, botX := bx, botY := bY,
      extL := el, extH := eh, udls := us, lls := ls, lim1 := a, lim2 := b, lim3 := c, lim4 := d, search := [] })
    {s : Slope K} (h : I s) (a b c : PyVal K)
    (hI' : ∀ s eb h l g tx ty bx bY el eh us ls, I s → I { s with
      extBoundary := eb, height := h, length := l, gradient := g, topX := tx, topY := ty, botX := bx, botY := bY,
      extL := el, extH := eh, udls := us, lls := ls }) :
    I (s.setExternalBoundary a b c).1 := by
  unfold Slope.setExternalBoundary
  split
  · exact h
  · rename_i H L _
    unfold Slope.applyBoundary Slope.removeAnalysisLimits
    simp only
    generalize hg : Slope.updateLlCoordinates (K := K) _ = s'
    rcases WFS.setAnalysisLimits_rest s' (.num 0) (.num s'.extL) (.num s'.topX) (.num s'.topX) with
      ⟨l1, l2, l3, l4, e⟩ | ⟨x, e⟩
    · rw [e, ← hg]
      exact hI s _ _ _ _ _ _ _ _ _ _ _ _ _ _ _ _ h
    · rw [e, ← hg]
      exact hI' s _ _ _ _ _ _ _ _ _ _ _ _ h

/-- The range of the options survives every other assignment. -/
theorem steady_options : SteadyAll (OptionsInRange (K := K)) where
  minH _ _ h := h
  minL _ _ h := h
  setExternalBoundary h a b c := setExternalBoundary_keeps (fun _ _ _ _ _ _ _ _ _ _ _ _ _ _ _ _ _ h => h) h a b c
    (fun _ _ _ _ _ _ _ _ _ _ _ _ _ h => h)
  udls _ _ _ h := h
  lls _ _ h := h
  dyn _ _ h := h
  forget _ h := h
  analyse s m h := by
    obtain ⟨a, b, e⟩ := analyseSlope_keeps s m
    rw [e]
    exact h
  water _ _ _ h := h
  waterH _ _ h := h
  mats _ _ h := h
  lims _ _ _ _ _ h := h
  opts s n i f t m hn hi h := by
    refine ⟨?_, ?_⟩
    · rcases hn with hn | hn
      · change 10 ≤ n ∧ n ≤ 500
        rw [hn]; exact h.1
      · exact hn
    · rcases hi with hi | hi
      · change 500 ≤ i ∧ i ≤ 100000
        rw [hi]; exact h.2
      · exact hi

theorem optionsInRange_call {s t : Slope K} (ih : OptionsInRange s) (c : Call s t) : OptionsInRange t := by
  rcases steady_options.call ih c with h | ⟨l, r, n, rfl⟩ | ⟨x, y, r, rfl⟩ | rfl
  · exact h
  · unfold Slope.addSingleEntryExitPlane
    split
    · split <;> exact ih
    · exact ih
  · unfold Slope.addSingleCircularPlane
    split
    · exact ih
    · split
      · exact ih
      · split <;> exact ih
  · exact ih

/-- C87, options: whatever the arithmetic, in every reachable state the number of slices is in
[10, 500] and the number of iterations in [500, 100000]. -/
theorem C87_options_in_range (s : Slope K) (r : Reachable s) : OptionsInRange s := by
  induction r with
  | init c =>
    have e := new_ok c
    unfold Slope.init at e
    obtain ⟨s1, _, _, e⟩ := andThen_ok e
    obtain ⟨s2, _, _, e⟩ := andThen_ok e
    obtain ⟨s3, _, e3, e⟩ := andThen_ok e
    obtain ⟨s4, _, e4, e⟩ := andThen_ok e
    have h3 : OptionsInRange s3 := by
      cases e3
      constructor <;> constructor <;> simp [Slope.resetResults]
    have h4 := optionsInRange_call h3 (Call.updateWaterAnalysisOptions s3 true (.num 1))
    rw [e4] at h4
    have h5 := optionsInRange_call h4 (Call.removeAnalysisLimits s4)
    rw [e] at h5
    exact h5
  | call r c ih =>
    exact optionsInRange_call ih c

/-- A case on machine numbers: `Slope(1, 30, 2.73)`. -/
example (A : Machine) :
    ∃ s : Slope (F64 A), Slope.new (.num (F64.mk 1)) (.num (F64.mk 30)) (.num (F64.mk 2.73)) = .ok s ∧
      Reachable s ∧ OptionsInRange s := by
  obtain ⟨s, h, _⟩ := C52_violated A
  exact ⟨s, h, .init h, C87_options_in_range s (.init h)⟩

/-! ## A dynamic analysis is bounded -/

theorem dictSet_length (d : List (K × K)) (k v : K) : (dictSet d k v).length ≤ d.length + 1 := by
  induction d with
  | nil => simp [dictSet]
  | cons a d ih =>
    unfold dictSet
    split
    · simp
    · simp only [List.length_cons]; omega

/-- Setting loads and analysing leave the record of a dynamic analysis as it is. -/
theorem steady_record (d : List (K × K)) : SteadyLoads (fun s : Slope K => s.dynResults = d) where
  minH _ _ h := h
  minL _ _ h := h
  setExternalBoundary h a b c := setExternalBoundary_keeps (I := fun s : Slope K => s.dynResults = d)
    (fun _ _ _ _ _ _ _ _ _ _ _ _ _ _ _ _ _ h => h) h a b c (fun _ _ _ _ _ _ _ _ _ _ _ _ _ h => h)
  udls _ _ _ h := h
  lls _ _ h := h
  forget _ h := h


theorem tryOffset_record (s : Slope K) (o : K) :
    (s.tryOffset o).1.dynResults.length ≤ s.dynResults.length + 1 ∧
    ∀ e, (s.tryOffset o).2 = .error e → (s.tryOffset o).1.dynResults.length = s.dynResults.length := by
  have h1 := (steady_record s.dynResults).setDynamicOffset (s := s) rfl o
  unfold Slope.tryOffset
  generalize ht : s.setDynamicOffset o = t at h1
  obtain ⟨t, x⟩ := t
  cases x with
  | error e => exact ⟨(congrArg List.length h1).le.trans (Nat.le_succ _), fun _ _ => congrArg List.length h1⟩
  | ok _ =>
    simp only [Out.andThen]
    obtain ⟨a, b, e⟩ := analyseSlope_keeps t none
    generalize hu : t.analyseSlope none = u at e
    obtain ⟨u, y⟩ := u
    have h2 : u.dynResults = s.dynResults := by rw [show u = _ from e]; exact h1
    cases y with
    | error e => exact ⟨(congrArg List.length h2).le.trans (Nat.le_succ _), fun _ _ => congrArg List.length h2⟩
    | ok _ =>
      simp only
      split
      · exact ⟨(congrArg List.length h2).le.trans (Nat.le_succ _), fun _ _ => congrArg List.length h2⟩
      · exact ⟨(congrArg List.length h2).le.trans (Nat.le_succ _), fun _ _ => congrArg List.length h2⟩
      · refine ⟨?_, fun e he => by cases he⟩
        rw [← h2]
        exact dictSet_length _ _ _

theorem dynLoop_record (c : K) (d : Bool) (n : Nat) (l r p : K) (s : Slope K) :
    (s.dynLoop c d n l r p).1.dynResults.length ≤ s.dynResults.length + n := by
  induction n generalizing s l r p with
  | zero => exact le_rfl
  | succ n ih =>
    unfold Slope.dynLoop
    simp only
    split
    · exact Nat.le_add_right _ _
    · rename_i mid _
      have h := (tryOffset_record s mid).1
      generalize s.tryOffset mid = t at h
      obtain ⟨t, x⟩ := t
      cases x with
      | error e => exact h.trans (by simp)
      | ok f =>
        simp only [Out.andThen]
        simp only at h
        split
        · simp only; omega
        · split
          · exact (ih _ _ _ _).trans (by omega)
          · exact (ih _ _ _ _).trans (by omega)

/-- C87, dynamic analyses: whatever the arithmetic, `analyse_dynamic` records at most 12 offsets. -/
theorem C87_dynamic_bounded (s : Slope K) (c : K) (d : Bool) :
    (s.analyseDynamic c d).1.dynResults.length ≤ 12 := by
  unfold Slope.analyseDynamic
  simp only
  split
  · simp
  · rename_i left _
    have h := (tryOffset_record ({ s with dynResults := [] } : Slope K) 0).1
    generalize Slope.tryOffset (K := K) _ 0 = t at h
    obtain ⟨t, x⟩ := t
    simp only [List.length_nil] at h
    cases x with
    | error e => exact h.trans (by omega)
    | ok f =>
      simp only [Out.andThen]
      split
      · exact h.trans (by omega)
      · have h2 := (tryOffset_record t (left - 0.01)).1
        generalize Slope.tryOffset (K := K) t _ = u at h2
        obtain ⟨u, y⟩ := u
        simp only at h2
        cases y with
        | error e => exact h2.trans (by omega)
        | ok g =>
          simp only
          split
          · exact h2.trans (by omega)
          · have h3 := dynLoop_record c d 10 (left - 0.01) 0 0 u
            generalize Slope.dynLoop (K := K) _ _ _ _ _ _ u = v at h3
            obtain ⟨v, z⟩ := v
            simp only at h3
            cases z with
            | error e => exact h3.trans (by omega)
            | ok _ =>
              simp only [Slope.sortDynResults]
              rw [(sortByKey_perm _ _).length_eq]
              omega

/-- A case on the reals: an analysis that goes through its loop. -/
example : ∃ t, (exDyn 5 4 0).analyseDynamic (cFos 5 4 2.99) false = (t, .ok none) ∧ t.dynResults.length ≤ 12 := by
  obtain ⟨t, ht⟩ := exDyn_looped
  refine ⟨t, ht, ?_⟩
  have := C87_dynamic_bounded (exDyn 5 4 0) (cFos 5 4 2.99) false
  rw [ht] at this
  exact this

end PySlope
