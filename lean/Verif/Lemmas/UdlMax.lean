import Verif.Props.Loads

/-! # The maximum kept with the uniform loads -/

namespace PySlope

/-- The magnitudes of the uniform loads. -/
def Slope.mags (s : Slope ℝ) : List ℝ := s.udls.map fun p => p.load.magnitude

/-- If the maximum is a number and there are loads, it is the greatest of their magnitudes. -/
def MaxOk (s : Slope ℝ) : Prop :=
  ∀ m, s.udlMax = .num m → s.mags ≠ [] → m ∈ s.mags ∧ ∀ x ∈ s.mags, x ≤ m

namespace MaxOk
variable {s t : Slope ℝ}

theorem congr (h : MaxOk s) (h1 : t.mags = s.mags) (h2 : t.udlMax = s.udlMax) : MaxOk t := by
  intro m e hne
  rw [h1] at hne ⊢
  exact h m (h2 ▸ e) hne

theorem geo (h : MaxOk s) (a b : ℝ) : MaxOk (s.withGeo a b) :=
  h.congr (by simp [Slope.mags, Slope.withGeo, Function.comp_def, placeUdl]) rfl

theorem setExternalBoundary (h : MaxOk s) (a b c : PyVal ℝ) : MaxOk (s.setExternalBoundary a b c).1 := by
  unfold Slope.setExternalBoundary
  split
  · exact h
  · rename_i H L e
    obtain ⟨h1, h2⟩ := boundaryInputs_ok e
    have : (0 : ℝ) < L := by norm_num at h2 ⊢; linarith
    rw [applyBoundary_eq _ _ _ this]
    exact h.geo _ _

theorem updateBoundaryOptions (w : MaxOk s) (l h : PyVal ℝ) : MaxOk (s.updateBoundaryOptions l h).1 := by
  unfold Slope.updateBoundaryOptions
  refine andThen_inv (I := MaxOk) _ _ ?_ (fun s _ w => andThen_inv (I := MaxOk) _ _ ?_ (fun s _ w =>
    andThen_inv (I := MaxOk) _ _ ?_ (fun _ _ w => w.congr rfl rfl)))
  · split
    · split
      · exact w
      · exact w.congr rfl rfl
    · exact w
  · split
    · split
      · exact w
      · exact w.congr rfl rfl
    · exact w
  · split
    · exact w.setExternalBoundary _ _ _
    · exact w

theorem addLl (w : MaxOk s) (u : Option (LineLoad ℝ)) : MaxOk (s.addLl u).1 := by
  rcases u with _ | u
  · exact w
  · unfold Slope.addLl
    simp only
    split
    · have w' : MaxOk ({ s with lls := s.lls ++ [placeLl s.topX u] } : Slope ℝ) := w.congr rfl rfl
      split
      · exact w'.updateBoundaryOptions _ _
      · exact w'
    · exact w

theorem setLls (w : MaxOk s) (us : List (Option (LineLoad ℝ))) : MaxOk (s.setLls us).1 :=
  andThen_inv (I := MaxOk) _ _ (forEach_inv (I := MaxOk) _ (fun _ a h => h.addLl a) us s w) (fun _ _ w =>
    w.congr rfl rfl)

theorem removeLls (w : MaxOk s) (us : List (LineLoad ℝ)) (all : Bool) : MaxOk (s.removeLls us all).1 := by
  unfold Slope.removeLls
  cases all
  · simp only [Bool.false_eq_true, if_false]
    exact w.congr rfl rfl
  · simp only [if_true]
    exact w.congr rfl rfl

theorem foldl_greatest (l : List (PUdl ℝ)) (a : ℝ) :
    (l.foldl (fun m v => pyMax m v.load.magnitude) a ∈ a :: l.map fun p => p.load.magnitude) ∧
      ∀ x ∈ a :: l.map (fun p => p.load.magnitude), x ≤ l.foldl (fun m v => pyMax m v.load.magnitude) a := by
  induction l generalizing a with
  | nil => simp
  | cons b l ih =>
    obtain ⟨h1, h2⟩ := ih (pyMax a b.load.magnitude)
    rw [List.foldl_cons]
    constructor
    · rcases List.mem_cons.mp h1 with h | h
      · rw [h, pyMax_real]
        rcases max_choice a b.load.magnitude with e | e <;> rw [e] <;> simp
      · simp only [List.map_cons, List.mem_cons]
        exact .inr (.inr h)
    · intro x hx
      have h3 := h2 (pyMax a b.load.magnitude) (by simp)
      rw [pyMax_real] at h3 h2
      simp only [List.map_cons, List.mem_cons] at hx
      rcases hx with rfl | rfl | hx
      · rw [pyMax_real]; exact (le_max_left _ _).trans h3
      · rw [pyMax_real]; exact (le_max_right _ _).trans h3
      · rw [pyMax_real]; exact h2 x (by simp only [List.mem_cons]; exact .inr hx)

theorem of_max {o : UdlMax ℝ} (h : s.udlMax = maxMagnitude s.udls o) : MaxOk s := by
  intro m e hne
  rw [h] at e
  unfold Slope.mags at hne ⊢
  cases hu : s.udls with
  | nil => rw [hu] at hne; exact absurd rfl hne
  | cons u rest =>
    rw [hu] at e
    cases e
    exact foldl_greatest rest u.load.magnitude

theorem setUdls (w : WFS s) (us : List (UdlArg ℝ))
    (hu : ∀ v, some v ∈ us → ∀ l, v.length = some l → 0 < l) : MaxOk (s.setUdls us).1 := by
  obtain ⟨t, e, _, _, _, _, ⟨o, ho⟩, _⟩ := setUdls_spec w us hu
  rw [e]
  exact of_max ho

theorem removeUdls (us : List (Udl ℝ)) (all : Bool) (h : MaxOk s) : MaxOk (s.removeUdls us all).1 := by
  unfold Slope.removeUdls
  cases all
  · simp only [Bool.false_eq_true, if_false]
    split
    · rename_i e
      intro m _ hne
      exact absurd (by
        unfold Slope.mags Slope.resetResults
        simp only [List.map_eq_nil_iff]
        exact e) hne
    · intro m e
      cases e
  · intro m _ hne
    exact absurd rfl hne

theorem analyseSlope (w : MaxOk s) (m) : MaxOk (s.analyseSlope m).1 := by
  unfold Slope.analyseSlope
  split
  · simp only
    split <;> exact w.congr rfl rfl
  · split
    · exact w
    · simp only
      split <;> exact w.congr rfl rfl

/-- With `WFS`. -/
def Both (s : Slope ℝ) : Prop := WFS s ∧ MaxOk s

theorem setDynamicOffset (h : Both s) (o : ℝ) : Both (s.setDynamicOffset o).1 := by
  refine ⟨h.1.setDynamicOffset o, ?_⟩
  unfold Slope.setDynamicOffset
  refine (andThen_inv (I := Both) _ _ ⟨h.1.removeUdls _ _, h.2.removeUdls _ _⟩ (fun _ _ w =>
    andThen_inv (I := Both) _ _ ⟨w.1.removeLls _ _, w.2.removeLls _ _⟩ (fun _ _ w =>
    andThen_inv (I := Both) _ _ (forEach_inv_mem (I := Both) _ _ (fun t p hp ht => ?_) _ w)
      (fun _ _ w => forEach_inv (I := Both) _ (fun _ _ h => ⟨h.1.setLls _, h.2.setLls _⟩) _ _ w)))).2
  have hl : ∀ v, some v ∈ [some (if p.load.dynamic then { p.load with offset := o } else p.load)] →
      ∀ l, v.length = some l → 0 < l := by
    intro v hv l hl
    simp only [List.mem_singleton, Option.some.injEq] at hv
    refine (h.1.2.udl p.load (List.mem_map_of_mem hp)).2 l ?_
    rw [hv] at hl
    split at hl <;> exact hl
  exact ⟨ht.1.setUdls _ hl, setUdls ht.1 _ hl⟩

theorem tryOffset (h : Both s) (o : ℝ) : Both (s.tryOffset o).1 := by
  unfold Slope.tryOffset
  refine andThen_inv (I := Both) _ _ (setDynamicOffset h o) (fun _ _ w =>
    andThen_inv (I := Both) _ _ ⟨w.1.analyseSlope _, w.2.analyseSlope _⟩ (fun t _ w => ?_))
  split
  · exact w
  · exact w
  · exact ⟨w.1.dyn _, w.2.congr rfl rfl⟩

theorem dynLoop (h : Both s) (c : ℝ) (d : Bool) (n : Nat) (l r p : ℝ) : Both (s.dynLoop c d n l r p).1 := by
  induction n generalizing s l r p with
  | zero => exact h
  | succ n ih =>
    unfold Slope.dynLoop
    simp only
    split
    · exact h
    · refine andThen_inv (I := Both) _ _ (tryOffset h _) (fun t f wt => ?_)
      split
      · exact wt
      · split
        · exact ih wt _ _ _
        · exact ih wt _ _ _

theorem analyseDynamic (h : Both s) (c : ℝ) (d : Bool) : Both (s.analyseDynamic c d).1 := by
  have w0 : Both ({ s with dynResults := [] } : Slope ℝ) := ⟨h.1.dyn [], h.2.congr rfl rfl⟩
  unfold Slope.analyseDynamic
  simp only
  split
  · exact w0
  · refine andThen_inv (I := Both) _ _ (tryOffset w0 _) (fun t f wt => ?_)
    split
    · exact wt
    · refine andThen_inv (I := Both) _ _ (tryOffset wt _) (fun t f wt => ?_)
      split
      · exact wt
      · exact andThen_inv (I := Both) _ _ (dynLoop wt _ _ _ _ _ _) (fun t _ wt =>
          ⟨wt.1.dyn _, wt.2.congr rfl rfl⟩)

theorem setAnalysisLimits (h : MaxOk s) (a b c d) : MaxOk (s.setAnalysisLimits a b c d).1 := by
  rcases WFS.setAnalysisLimits_rest s a b c d with ⟨_, _, _, _, e⟩ | ⟨_, e⟩
  · rw [e]; exact h.congr rfl rfl
  · rw [e]; exact h

theorem setMaterials (h : MaxOk s) (ms : List (Option (Material ℝ))) : MaxOk (s.setMaterials ms).1 := by
  unfold Slope.setMaterials
  split
  · exact h
  · simp only
    split
    · exact h
    · refine andThen_inv (I := MaxOk) _ _ ?_ (fun t _ ht => ?_)
      · split
        · exact h.updateBoundaryOptions _ _
        · exact h
      · split
        · exact ht
        · exact ht.congr rfl rfl

theorem call (w : WFS s) (h : MaxOk s) (c : Call s t) : MaxOk t := by
  cases c with
  | setExternalBoundary a b c => exact h.setExternalBoundary _ _ _
  | setWaterTable d =>
    unfold Slope.setWaterTable Slope.resetResults
    split
    · exact h.congr rfl rfl
    · split
      · exact h
      · exact h.congr rfl rfl
  | removeWaterTable => exact h.congr rfl rfl
  | setUdls us hu => exact setUdls w us (fun v hv => (hu v hv).facts.2.2)
  | removeUdls us all => exact h.removeUdls us all
  | setLls us _ => exact h.setLls us
  | removeLls us all => exact h.removeLls us all
  | setMaterials ms hm => exact h.setMaterials ms
  | removeMaterial m d all =>
    unfold Slope.removeMaterial Slope.resetResults
    exact h.congr rfl rfl
  | updateWaterAnalysisOptions a b =>
    unfold Slope.updateWaterAnalysisOptions Slope.resetResults
    split
    · exact h.congr rfl rfl
    · split
      · exact h
      · exact h.congr rfl rfl
  | updateAnalysisOptions a b c d e =>
    unfold Slope.updateAnalysisOptions Slope.resetResults
    rcases a with _ | n <;> rcases b with _ | m <;> rcases c with _ | _ <;>
      rcases d with _ | _ <;> rcases e with _ | _ <;> simp only <;> (repeat' split) <;>
      exact h.congr rfl rfl
  | updateBoundaryOptions a b => exact h.updateBoundaryOptions _ _
  | removeAnalysisLimits =>
    exact andThen_inv (I := MaxOk) _ _ (h.setAnalysisLimits _ _ _ _) (fun _ _ h => h.congr rfl rfl)
  | setAnalysisLimits a b c d => exact h.setAnalysisLimits a b c d
  | addSingleEntryExitPlane l r n =>
    unfold Slope.addSingleEntryExitPlane
    split
    · split
      · exact h
      · exact h.congr rfl rfl
    · exact h
  | addSingleCircularPlane x y r =>
    unfold Slope.addSingleCircularPlane
    split
    · exact h
    · split
      · exact h
      · split
        · exact h.congr rfl rfl
        · exact h
  | removeIndividualPlanes => exact h.congr rfl rfl
  | analyseSlope m => exact h.analyseSlope m
  | analyseDynamic c d => exact (analyseDynamic ⟨w, h⟩ c d).2

end MaxOk

theorem Reachable.maxOk {s : Slope ℝ} (r : Reachable s) : MaxOk s := by
  induction r with
  | init e =>
    rw [new_eq] at e
    split at e
    · cases e
    · cases e
      intro m hm
      cases hm
  | call r c ih => exact ih.call r.wfs c

/-- C17 (partial): after any history, when there are loads and the recorded maximum is a number, it is
the greatest magnitude, also after calls that raised. Missing: it need not be a number
(`C17_max_not_a_number`). -/
theorem C17_max_is_greatest_partial (s : Slope ℝ) (r : Reachable s) (hne : s.udls ≠ []) (m : ℝ)
    (e : s.udlMax = .num m) :
    (∃ p ∈ s.udls, p.load.magnitude = m) ∧ ∀ p ∈ s.udls, p.load.magnitude ≤ m := by
  obtain ⟨h1, h2⟩ := r.maxOk m e (by simpa [Slope.mags] using hne)
  exact ⟨List.mem_map.mp h1, fun p hp => h2 _ (List.mem_map_of_mem hp)⟩

/-- Such a state: a load on the example slope. -/
example : ∃ (s : Slope ℝ) (m : ℝ), Reachable s ∧ s.udls ≠ [] ∧ s.udlMax = .num m := by
  obtain ⟨r, e⟩ := exSlope_setUdls [exUdl 1] (by
    intro u hu; simp at hu; subst hu; exact ⟨exUdl_constructed _, by simp [exUdl]⟩)
  have hne : (exSlope.setUdls ([exUdl 1].map some)).1.udls ≠ [] := by
    intro h; rw [h] at e; cases e
  obtain ⟨x, hx, _⟩ := C17_max_after_set_partial exSlope exSlope_reachable ([exUdl 1].map some) (by
    intro u hu; simp at hu; subst hu; exact exUdl_constructed _) hne
  exact ⟨_, x, r, hne, hx⟩

end PySlope
