import Verif.Lemmas.Stable

/-! # A second invariant: what the objects held by a slope are like -/

namespace PySlope

/-- What the loads, the materials and the minimum length are like. -/
structure Sane (s : Slope ℝ) : Prop where
  udl : ∀ u ∈ s.udls.map PUdl.load, 0 < u.magnitude ∧ ∀ l, u.length = some l → 0 < l
  ll : ∀ u ∈ s.lls.map PLl.load, 0 < u.magnitude
  mat : ∀ m ∈ s.materials.map Layer.mat, Material.Constructed m
  minL : 0 < s.minExtL
  box : s.minExtL ≤ s.extL

theorem Udl.Constructed.facts {u : Udl ℝ} (h : Udl.Constructed u) :
    0 ≤ u.magnitude ∧ 0 ≤ u.offset ∧ ∀ l, u.length = some l → 0 < l := by
  obtain ⟨ic, m, o, l, c, d, e⟩ := h
  rcases m with x | x | _ | _ <;> rcases o with y | y | _ | _ <;>
    simp only [Udl.new, assertNumber, bind, Except.bind, pure, Except.pure, reduceCtorEq] at e
  by_cases ht : l.truthy
  · rcases l with z | z | _ | t <;>
      simp only [ht, if_true, reduceCtorEq, Except.ok.injEq] at e
    subst e
    simp [PyVal.truthy] at ht
    simp [PyVal.get!, ht]
  · rw [if_neg ht] at e
    simp only [Except.ok.injEq] at e
    subst e
    simp [PyVal.get!]

theorem LineLoad.Constructed.facts {u : LineLoad ℝ} (h : LineLoad.Constructed u) :
    0 ≤ u.magnitude ∧ 0 ≤ u.offset := by
  obtain ⟨ic, m, o, c, d, e⟩ := h
  rcases m with x | x | _ | _ <;> rcases o with y | y | _ | _ <;>
    simp only [LineLoad.new, assertNumber, bind, Except.bind, pure, Except.pure, reduceCtorEq,
      Except.ok.injEq] at e <;>
    subst e <;> simp [PyVal.get!]

namespace Sane
variable {s t : Slope ℝ}

theorem congr (h : Sane s) (hu : (t.udls.map PUdl.load).Sublist (s.udls.map PUdl.load))
    (hl : (t.lls.map PLl.load).Sublist (s.lls.map PLl.load))
    (hm : (t.materials.map Layer.mat).Sublist (s.materials.map Layer.mat))
    (h1 : t.minExtL = s.minExtL) (h2 : t.extL = s.extL) : Sane t :=
  ⟨fun u hh => h.udl u (hu.subset hh), fun u hh => h.ll u (hl.subset hh),
    fun u hh => h.mat u (hm.subset hh), h1 ▸ h.minL, by rw [h1, h2]; exact h.box⟩

theorem same (h : Sane s) (hu : t.udls = s.udls) (hl : t.lls = s.lls)
    (hm : t.materials = s.materials) (h1 : t.minExtL = s.minExtL) (h2 : t.extL = s.extL) :
    Sane t :=
  h.congr (by rw [hu]) (by rw [hl]) (by rw [hm]) h1 h2

theorem withGeo (h : Sane s) {t : Slope ℝ} (hu : t.udls = s.udls) (hl : t.lls = s.lls)
    (hm : t.materials = s.materials) (h1 : 0 < t.minExtL) (a b : ℝ) : Sane (t.withGeo a b) := by
  refine ⟨?_, ?_, ?_, h1, (le_max_right _ _).trans (le_max_left _ _)⟩
  · have : (t.withGeo a b).udls.map PUdl.load = s.udls.map PUdl.load := by
      simp [Slope.withGeo, hu, Function.comp_def, placeUdl]
    rw [this]; exact h.udl
  · have : (t.withGeo a b).lls.map PLl.load = s.lls.map PLl.load := by
      simp [Slope.withGeo, hl, Function.comp_def, placeLl]
    rw [this]; exact h.ll
  · change ∀ m ∈ t.materials.map Layer.mat, _
    rw [hm]; exact h.mat

theorem reset (h : Sane s) : Sane s.resetResults := h.same rfl rfl rfl rfl rfl

theorem setExternalBoundary (h : Sane s) (a b c : PyVal ℝ) :
    Sane (s.setExternalBoundary a b c).1 := by
  unfold Slope.setExternalBoundary
  split
  · exact h
  · rename_i H L e
    obtain ⟨h1, h2⟩ := boundaryInputs_ok e
    have : (0 : ℝ) < L := by norm_num at h2 ⊢; linarith
    rw [applyBoundary_eq _ _ _ this]
    exact h.withGeo rfl rfl rfl h.minL _ _

theorem updateBoundaryOptions (h : Sane s) (g : Geo s) (a b : PyVal ℝ) :
    Sane (s.updateBoundaryOptions a b).1 := by
  obtain ⟨mL, mH, h0, e | ⟨x, e⟩⟩ := updateBoundaryOptions_form g a b
  · rw [e]
    refine h.withGeo ?_ ?_ ?_ ?_ _ _
    · rfl
    · rfl
    · rfl
    · rcases h0 with rfl | h0
      · exact h.minL
      · exact h0
  · rw [e]; exact h.same rfl rfl rfl rfl rfl

/-- The invariant used in loops. -/
def _root_.PySlope.WFS (s : Slope ℝ) : Prop := WF s ∧ Sane s

/-- Adding a load: closed form. -/
theorem _root_.PySlope.addUdl_eq (h : Sane s) (g : Geo s) (u : Udl ℝ) (hm : 0 < u.magnitude) :
    s.addUdl (some u) =
      (if s.minExtL < u.minLength then
        ({ s with udls := s.udls ++ [placeUdl s.topX u], minExtL := u.minLength } :
          Slope ℝ).withGeo s.height s.length
      else { s with udls := s.udls ++ [placeUdl s.topX u] }, .ok ()) := by
  unfold Slope.addUdl
  simp only [lit_zero]
  rw [if_pos hm]
  split
  · rename_i hh
    have g' : Geo { s with udls := s.udls ++ [placeUdl s.topX u] } := by
      obtain ⟨a1, a2, a3, a4, a5, a6, a7, a8, a9, a10, a11, a12⟩ := g
      exact ⟨a1, a2, a3, a4, a5, a6, a7, a8, a9, a10, a11, a12⟩
    rw [updateBoundaryOptions_L g' _ (h.minL.trans hh)]
  · rfl

theorem _root_.PySlope.addLl_eq (h : Sane s) (g : Geo s) (u : LineLoad ℝ) (hm : 0 < u.magnitude) :
    s.addLl (some u) =
      (if s.minExtL < u.offset * 3 then
        ({ s with lls := s.lls ++ [placeLl s.topX u], minExtL := u.offset * 3 } :
          Slope ℝ).withGeo s.height s.length
      else { s with lls := s.lls ++ [placeLl s.topX u] }, .ok ()) := by
  unfold Slope.addLl
  simp only [lit_zero]
  rw [if_pos hm]
  by_cases hh : s.minExtL < u.offset * 3
  · have g' : Geo { s with lls := s.lls ++ [placeLl s.topX u] } := by
      obtain ⟨a1, a2, a3, a4, a5, a6, a7, a8, a9, a10, a11, a12⟩ := g
      exact ⟨a1, a2, a3, a4, a5, a6, a7, a8, a9, a10, a11, a12⟩
    have := updateBoundaryOptions_L g' _ (h.minL.trans hh)
    rw [if_pos hh, if_pos (show s.minExtL < u.offset * (@OfNat.ofNat ℝ 3 (Lit.natLit 3)) from hh)]
    exact this
  · rw [if_neg hh, if_neg (show ¬ s.minExtL < u.offset * (@OfNat.ofNat ℝ 3 (Lit.natLit 3)) from hh)]

theorem addUdl (h : Sane s) (g : Geo s) (u : UdlArg ℝ)
    (hu : ∀ v, u = some v → ∀ l, v.length = some l → 0 < l) : Sane (s.addUdl u).1 := by
  rcases u with _ | u
  · exact h
  · by_cases hm : 0 < u.magnitude
    · rw [addUdl_eq h g u hm]
      have hs : Sane { s with udls := s.udls ++ [placeUdl s.topX u] } := by
        refine ⟨?_, h.ll, h.mat, h.minL, h.box⟩
        intro v hv
        simp only [List.map_append, List.mem_append, List.map_cons, List.map_nil,
          List.mem_singleton] at hv
        rcases hv with hv | rfl
        · exact h.udl v hv
        · exact ⟨hm, hu _ rfl⟩
      dsimp only
      split
      · rename_i hh
        refine hs.withGeo ?_ ?_ ?_ ?_ _ _
        · rfl
        · rfl
        · rfl
        · exact h.minL.trans hh
      · exact hs
    · unfold Slope.addUdl
      simp only [lit_zero]
      rw [if_neg hm]; exact h

theorem addLl (h : Sane s) (g : Geo s) (u : Option (LineLoad ℝ)) : Sane (s.addLl u).1 := by
  rcases u with _ | u
  · exact h
  · by_cases hm : 0 < u.magnitude
    · rw [addLl_eq h g u hm]
      have hs : Sane { s with lls := s.lls ++ [placeLl s.topX u] } := by
        refine ⟨h.udl, ?_, h.mat, h.minL, h.box⟩
        intro v hv
        simp only [List.map_append, List.mem_append, List.map_cons, List.map_nil,
          List.mem_singleton] at hv
        rcases hv with hv | rfl
        · exact h.ll v hv
        · exact hm
      dsimp only
      split
      · rename_i hh
        refine hs.withGeo ?_ ?_ ?_ ?_ _ _
        · rfl
        · rfl
        · rfl
        · exact h.minL.trans hh
      · exact hs
    · unfold Slope.addLl
      simp only [lit_zero]
      rw [if_neg hm]; exact h

end Sane

/-- A loop whose body keeps an invariant on the elements of the list. -/
theorem forEach_inv_mem {α : Type} {I : Slope ℝ → Prop} (f : Slope ℝ → α → Out ℝ Unit) (l : List α)
    (hf : ∀ s a, a ∈ l → I s → I (f s a).1) (s : Slope ℝ) (h : I s) :
    I (Slope.forEach f l s).1 := by
  induction l generalizing s with
  | nil => exact h
  | cons a l ih =>
    exact andThen_inv _ _ (hf s a (by simp) h)
      (fun s _ hs => ih (fun s a ha => hf s a (List.mem_cons_of_mem _ ha)) s hs)

namespace WFS
variable {s : Slope ℝ}

theorem reset (h : WFS s) : WFS s.resetResults := ⟨h.1.reset, h.2.reset⟩

theorem setUdls (h : WFS s) (us : List (UdlArg ℝ))
    (hu : ∀ v, some v ∈ us → ∀ l, v.length = some l → 0 < l) : WFS (s.setUdls us).1 := by
  refine ⟨h.1.setUdls us, ?_⟩
  have : WFS (Slope.forEach Slope.addUdl us s).1 :=
    forEach_inv_mem _ us (fun s a ha h => ⟨h.1.addUdl a, h.2.addUdl h.1.geo a
      (fun v e => hu v (e ▸ ha))⟩) s h
  unfold Slope.setUdls
  have key := andThen_inv (I := Sane) (Slope.forEach Slope.addUdl us s)
    (fun s _ =>
      let s := s.updateUdlCoordinates
      let s : Slope ℝ := { s with udlMax := maxMagnitude s.udls s.udlMax }
      (s.resetResults, .ok ()))
    this.2 (fun s _ w => by
      refine w.congr ?_ (List.Sublist.refl _) (List.Sublist.refl _) rfl rfl
      simp [Slope.updateUdlCoordinates, Slope.resetResults, Function.comp_def, placeUdl])
  exact key

theorem setLls (h : WFS s) (us : List (Option (LineLoad ℝ))) : WFS (s.setLls us).1 := by
  refine ⟨h.1.setLls us, ?_⟩
  have : WFS (Slope.forEach Slope.addLl us s).1 :=
    forEach_inv_mem _ us (fun s a ha h => ⟨h.1.addLl a, h.2.addLl h.1.geo a⟩) s h
  unfold Slope.setLls
  exact andThen_inv (I := Sane) _ _ this.2 (fun s _ w => by
      refine w.congr (List.Sublist.refl _) ?_ (List.Sublist.refl _) rfl rfl
      simp [Slope.updateLlCoordinates, Slope.resetResults, Function.comp_def, placeLl])

theorem removeUdls_sub (s : Slope ℝ) (us : List (Udl ℝ)) (all : Bool) :
    (s.removeUdls us all).1.udls.Sublist s.udls := by
  have hs := foldl_remove_sublist (fun (l : List (PUdl ℝ)) (u : Udl ℝ) =>
    removeLoop (fun (c : PUdl ℝ) => c.load.matches u) (fun a b => a.load.eq b.load) l.length 0 l)
    (fun l b => removeLoop_sublist _ _ _ _ _) us s.udls
  unfold Slope.removeUdls
  cases all
  · simp only [Bool.false_eq_true, if_false]
    split
    · exact hs
    · exact hs
  · simp [Slope.resetResults]

theorem removeLls_sub (s : Slope ℝ) (us : List (LineLoad ℝ)) (all : Bool) :
    (s.removeLls us all).1.lls.Sublist s.lls := by
  have hs := foldl_remove_sublist (fun (l : List (PLl ℝ)) (u : LineLoad ℝ) =>
    removeLoop (fun (c : PLl ℝ) => c.load.matches u) (fun a b => a.load.eq b.load) l.length 0 l)
    (fun l b => removeLoop_sublist _ _ _ _ _) us s.lls
  unfold Slope.removeLls
  cases all
  · simp only [Bool.false_eq_true, if_false]
    exact hs
  · simp [Slope.resetResults]

/-- `remove_udls` touches nothing but the loads, the maximum and the results. -/
theorem removeUdls_rest (s : Slope ℝ) (us : List (Udl ℝ)) (all : Bool) :
    ∃ l m, s.removeUdls us all = ({ s with udls := l, udlMax := m, search := [] }, .ok ()) := by
  unfold Slope.removeUdls Slope.resetResults
  cases all
  · simp only [Bool.false_eq_true, if_false]
    split
    · exact ⟨_, s.udlMax, rfl⟩
    · exact ⟨_, _, rfl⟩
  · exact ⟨[], .num _, rfl⟩

theorem removeLls_rest (s : Slope ℝ) (us : List (LineLoad ℝ)) (all : Bool) :
    ∃ l, s.removeLls us all = ({ s with lls := l, search := [] }, .ok ()) := by
  unfold Slope.removeLls Slope.resetResults
  cases all
  · exact ⟨_, rfl⟩
  · exact ⟨[], rfl⟩

theorem removeUdls (h : WFS s) (us : List (Udl ℝ)) (all : Bool) : WFS (s.removeUdls us all).1 := by
  refine ⟨h.1.removeUdls us all, ?_⟩
  have hs := removeUdls_sub s us all
  obtain ⟨l, m, e⟩ := removeUdls_rest s us all
  rw [e] at hs ⊢
  exact h.2.congr (hs.map _) (List.Sublist.refl _) (List.Sublist.refl _) rfl rfl

theorem removeLls (h : WFS s) (us : List (LineLoad ℝ)) (all : Bool) :
    WFS (s.removeLls us all).1 := by
  refine ⟨h.1.removeLls us all, ?_⟩
  have hs := removeLls_sub s us all
  obtain ⟨l, e⟩ := removeLls_rest s us all
  rw [e] at hs ⊢
  exact h.2.congr (List.Sublist.refl _) (hs.map _) (List.Sublist.refl _) rfl rfl

theorem setMaterials (h : WFS s) (ms : List (Option (Material ℝ)))
    (hm : ∀ m, some m ∈ ms → Material.Constructed m) : WFS (s.setMaterials ms).1 := by
  refine ⟨h.1.setMaterials ms, ?_⟩
  have w := h.1
  have hs := h.2
  unfold Slope.setMaterials
  split
  · exact hs
  · simp only
    split
    · exact hs
    · rename_i d _
      have hmem : ∀ m ∈ (sortByKey Material.depth (ms.filterMap id ++ s.materials.map Layer.mat)),
          Material.Constructed m := by
        intro m hmm
        rw [(sortByKey_perm _ _).mem_iff, List.mem_append] at hmm
        rcases hmm with hmm | hmm
        · simp only [List.mem_filterMap, id] at hmm
          obtain ⟨a, ha, rfl⟩ := hmm
          exact hm m ha
        · exact hs.mat m hmm
      refine andThen_inv (I := Sane) _ _ ?_ (fun t _ ht => ?_)
      · split
        · exact hs.updateBoundaryOptions w.geo _ _
        · exact hs
      · split
        · exact ht
        · refine ⟨ht.udl, ht.ll, ?_, ht.minL, ht.box⟩
          change ∀ m ∈ (mkLayers _ _ _).map Layer.mat, _
          rw [mkLayers_mats]; exact hmem

theorem removeMaterial (h : WFS s) (m d all) : WFS (s.removeMaterial m d all).1 := by
  refine ⟨h.1.removeMaterial m d all, ?_⟩
  unfold Slope.removeMaterial Slope.resetResults
  refine h.2.congr (List.Sublist.refl _) (List.Sublist.refl _) ?_ rfl rfl
  refine List.Sublist.map _ ?_
  cases all
  · simp only [Bool.false_eq_true, if_false]
    split
    · exact List.Sublist.refl _
    · split
      · exact List.Sublist.refl _
      · split
        · exact List.Sublist.refl _
        · exact removeFirst_sublist _ _
  · simp

theorem setAnalysisLimits_rest {K : Type} [PyNum K] (s : Slope K) (a b c d : PyVal K) :
    (∃ l1 l2 l3 l4, s.setAnalysisLimits a b c d =
      ({ s with lim1 := l1, lim2 := l2, lim3 := l3, lim4 := l4, search := [] }, .ok ())) ∨
    ∃ e, s.setAnalysisLimits a b c d = (s, .error e) := by
  unfold Slope.setAnalysisLimits
  simp only
  split
  · rename_i s' e
    left
    simp only [bind, Except.bind] at e
    repeat' split at e
    all_goals first | (cases e; done) | skip
    all_goals (simp only [pure, Except.pure, throw, throwThe, MonadExceptOf.throw] at e)
    all_goals first
      | (cases e; exact ⟨_, _, _, _, rfl⟩)
      | skip
  · exact .inr ⟨_, rfl⟩

theorem setAnalysisLimits (h : WFS s) (a b c d) : WFS (s.setAnalysisLimits a b c d).1 := by
  refine ⟨h.1.setAnalysisLimits a b c d, ?_⟩
  rcases setAnalysisLimits_rest s a b c d with ⟨_, _, _, _, e⟩ | ⟨_, e⟩
  · rw [e]; exact h.2.same rfl rfl rfl rfl rfl
  · rw [e]; exact h.2

theorem removeAnalysisLimits (h : WFS s) : WFS s.removeAnalysisLimits.1 :=
  andThen_inv _ _ (h.setAnalysisLimits _ _ _ _) (fun _ _ h => h.reset)

theorem updateAnalysis (h : WFS s) (a b c d e) : WFS (s.updateAnalysisOptions a b c d e).1 := by
  refine ⟨h.1.updateAnalysis a b c d e, ?_⟩
  have hs := h.2
  unfold Slope.updateAnalysisOptions Slope.resetResults
  rcases a with _ | n <;> rcases b with _ | m <;> rcases c with _ | _ <;>
    rcases d with _ | _ <;> rcases e with _ | _ <;> simp only <;> (repeat' split) <;>
    exact hs.same rfl rfl rfl rfl rfl

theorem updateWater (h : WFS s) (a b) : WFS (s.updateWaterAnalysisOptions a b).1 := by
  refine ⟨h.1.updateWater a b, ?_⟩
  have hs := h.2
  unfold Slope.updateWaterAnalysisOptions Slope.resetResults
  split
  · exact hs.same rfl rfl rfl rfl rfl
  · split
    · exact hs
    · exact hs.same rfl rfl rfl rfl rfl

theorem water (h : WFS s) (d) : WFS (s.setWaterTable d).1 := by
  refine ⟨h.1.water d, ?_⟩
  have hs := h.2
  unfold Slope.setWaterTable Slope.resetResults
  split
  · exact hs.same rfl rfl rfl rfl rfl
  · split
    · exact hs
    · exact hs.same rfl rfl rfl rfl rfl

theorem res (h : WFS s) (a b) : WFS { s with search := a, individual := b } :=
  ⟨h.1.congr (by simp [SameCore]), h.2.same rfl rfl rfl rfl rfl⟩

theorem dyn (h : WFS s) (a) : WFS { s with dynResults := a } :=
  ⟨h.1.congr (by simp [SameCore]), h.2.same rfl rfl rfl rfl rfl⟩

theorem analyseSlope (h : WFS s) (m) : WFS (s.analyseSlope m).1 := by
  unfold Slope.analyseSlope
  split
  · simp only
    split <;> exact h.res _ _
  · split
    · exact h
    · simp only
      split <;> exact h.res _ s.individual

theorem setDynamicOffset (h : WFS s) (o : ℝ) : WFS (s.setDynamicOffset o).1 := by
  unfold Slope.setDynamicOffset
  refine andThen_inv (I := WFS) _ _ (h.removeUdls _ _) (fun _ _ w =>
    andThen_inv (I := WFS) _ _ (w.removeLls _ _) (fun _ _ w =>
    andThen_inv (I := WFS) _ _ (forEach_inv_mem (I := WFS) _ _ (fun t p hp ht => ?_) _ w)
      (fun _ _ w => forEach_inv (I := WFS) _ (fun _ _ h => h.setLls _) _ _ w)))
  refine ht.setUdls _ ?_
  intro v hv l hl
  simp only [List.mem_singleton, Option.some.injEq] at hv
  refine (h.2.udl p.load (List.mem_map_of_mem hp)).2 l ?_
  rw [hv] at hl
  split at hl <;> exact hl

theorem tryOffset (h : WFS s) (o : ℝ) : WFS (s.tryOffset o).1 := by
  unfold Slope.tryOffset
  refine andThen_inv (I := WFS) _ _ (h.setDynamicOffset o) (fun _ _ w =>
    andThen_inv (I := WFS) _ _ (w.analyseSlope _) (fun t _ w => ?_))
  split
  · exact w
  · exact w
  · exact w.dyn _

theorem dynLoop (h : WFS s) (c : ℝ) (d : Bool) (n : Nat) (l r p : ℝ) :
    WFS (s.dynLoop c d n l r p).1 := by
  induction n generalizing s l r p with
  | zero => exact h
  | succ n ih =>
    unfold Slope.dynLoop
    simp only
    split
    · exact h
    · refine andThen_inv (I := WFS) _ _ (h.tryOffset _) (fun t f wt => ?_)
      split
      · exact wt
      · split
        · exact ih wt _ _ _
        · exact ih wt _ _ _

theorem analyseDynamic (h : WFS s) (c : ℝ) (d : Bool) : WFS (s.analyseDynamic c d).1 := by
  have w0 := h.dyn []
  unfold Slope.analyseDynamic
  simp only
  split
  · exact w0
  · refine andThen_inv (I := WFS) _ _ (w0.tryOffset _) (fun t f wt => ?_)
    split
    · exact wt
    · refine andThen_inv (I := WFS) _ _ (wt.tryOffset _) (fun t f wt => ?_)
      split
      · exact wt
      · exact andThen_inv (I := WFS) _ _ (wt.dynLoop _ _ _ _ _ _) (fun t _ wt => wt.dyn _)

theorem call {t : Slope ℝ} (h : WFS s) (c : Call s t) : WFS t := by
  cases c with
  | setExternalBoundary a b c =>
    exact ⟨h.1.setExternalBoundary _ _ _, h.2.setExternalBoundary _ _ _⟩
  | setWaterTable d => exact h.water d
  | removeWaterTable =>
    exact ⟨(h.1.congr (by simp [SameCore])).reset, h.2.same rfl rfl rfl rfl rfl⟩
  | setUdls us hu => exact h.setUdls us (fun v hv => (hu v hv).facts.2.2)
  | removeUdls us all => exact h.removeUdls us all
  | setLls us _ => exact h.setLls us
  | removeLls us all => exact h.removeLls us all
  | setMaterials ms hm => exact h.setMaterials ms hm
  | removeMaterial m d all => exact h.removeMaterial m d all
  | updateWaterAnalysisOptions a b => exact h.updateWater a b
  | updateAnalysisOptions a b c d e => exact h.updateAnalysis a b c d e
  | updateBoundaryOptions a b =>
    exact ⟨h.1.updateBoundaryOptions _ _, h.2.updateBoundaryOptions h.1.geo _ _⟩
  | removeAnalysisLimits => exact h.removeAnalysisLimits
  | setAnalysisLimits a b c d => exact h.setAnalysisLimits a b c d
  | addSingleEntryExitPlane l r n =>
    unfold Slope.addSingleEntryExitPlane
    split
    · split
      · exact h
      · exact h.res _ _
    · exact h
  | addSingleCircularPlane x y r =>
    unfold Slope.addSingleCircularPlane
    split
    · exact h
    · split
      · exact h
      · split
        · exact h.res _ _
        · exact h
  | removeIndividualPlanes => exact h.res _ _
  | analyseSlope m => exact h.analyseSlope m
  | analyseDynamic c d => exact h.analyseDynamic c d

end WFS

theorem Reachable.wfs {s : Slope ℝ} (r : Reachable s) : WFS s := by
  induction r with
  | init e =>
    refine ⟨WF.of_new e, ?_⟩
    rw [new_eq] at e
    split at e
    · cases e
    · rename_i H L hb
      cases e
      refine ⟨by simp [freshSlope, Slope.withGeo, Slope.blank],
        by simp [freshSlope, Slope.withGeo, Slope.blank],
        by simp [freshSlope, Slope.withGeo, Slope.blank], ?_, ?_⟩
      · change (0 : ℝ) < 10; norm_num
      · change (10 : ℝ) ≤ max (max (5 * L) 10) (4 * H)
        exact (le_max_right _ _).trans (le_max_left _ _)
  | call _ c ih => exact ih.call c

theorem Reachable.sane {s : Slope ℝ} (r : Reachable s) : Sane s := r.wfs.2

end PySlope
