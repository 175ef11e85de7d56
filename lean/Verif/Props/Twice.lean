import Verif.Spec.Twice
import Verif.Props.Order
import Verif.Lemmas.ScaleCalls

/-! # C127: a setting made twice -/

namespace PySlope

theorem limitsGo_ok {mk : ℝ → ℝ → ℝ → ℝ → Slope ℝ} {X : ℝ} {A B : Except PyErr ℝ} {C : Except PyErr (PyVal ℝ)}
    {D : PyVal ℝ → Except PyErr (PyVal ℝ)} {E : PyVal ℝ → Except PyErr ℝ} {s : Slope ℝ}
    (h : limitsGo mk X A B C D E = .ok s) : ∃ x y u v z, A = .ok x ∧ B = .ok y ∧ C = .ok u ∧ D u = .ok v ∧ E v = .ok z ∧
      ¬ (min y X ≤ max x 0 ∨ z ≤ max u.get! X) ∧ s = mk (max x 0) (min y X) (max u.get! X) z := by
  unfold limitsGo at h
  rcases A with _ | x
  · cases h
  rcases B with _ | y
  · cases h
  rcases C with _ | u
  · cases h
  simp only [bind, Except.bind] at h
  cases hD : D u with
  | error e => rw [hD] at h; cases h
  | ok v =>
    rw [hD] at h
    simp only at h
    cases hE : E v with
    | error e => rw [hE] at h; cases h
    | ok z =>
      rw [hE] at h
      simp only at h
      by_cases k : pyMin y X ≤ pyMax x (@OfNat.ofNat ℝ 0 (Lit.natLit 0)) ∨ z ≤ pyMax u.get! X
      · simp only [if_pos k] at h
        cases h
      · simp only [if_neg k] at h
        cases h
        simp only [pyMin_real, pyMax_real, lit_zero] at k ⊢
        exact ⟨x, y, u, v, z, rfl, rfl, rfl, hD, hE, k, rfl⟩

theorem limitsGo_of {mk : ℝ → ℝ → ℝ → ℝ → Slope ℝ} {X : ℝ} {A B : Except PyErr ℝ} {C : Except PyErr (PyVal ℝ)}
    {D : PyVal ℝ → Except PyErr (PyVal ℝ)} {E : PyVal ℝ → Except PyErr ℝ} {x y z : ℝ} {u v : PyVal ℝ}
    (hA : A = .ok x) (hB : B = .ok y) (hC : C = .ok u) (hD : D u = .ok v) (hE : E v = .ok z)
    (k : ¬ (min y X ≤ max x 0 ∨ z ≤ max u.get! X)) :
    limitsGo mk X A B C D E = .ok (mk (max x 0) (min y X) (max u.get! X) z) := by
  subst hA hB hC
  unfold limitsGo
  simp only [bind, Except.bind]
  rw [hD]
  simp only
  rw [hE]
  simp only [pyMin_real, pyMax_real, lit_zero]
  rw [if_neg k]
  rfl

theorem limitsFor_twice {mk mk' : ℝ → ℝ → ℝ → ℝ → Slope ℝ} {l1 l2 l3 l4 X L : ℝ} {a b c d : PyVal ℝ} {s : Slope ℝ}
    (hX : 0 ≤ X) (h : limitsFor mk l1 l2 l3 l4 X L a b c d = .ok s) :
    ∃ m1 m2 m3 m4, s = mk m1 m2 m3 m4 ∧
      limitsFor mk' m1 m2 m3 m4 X L a b c d = .ok (mk' m1 m2 m3 m4) := by
  obtain ⟨x, y, u, v, z, hA, hB, hC, hD, hE, k, rfl⟩ := limitsGo_ok h
  refine ⟨_, _, _, _, rfl, ?_⟩
  have hA' : ∃ x', (match a with
      | .none => pure (max x 0)
      | v => do assertPositiveNumber (@OfNat.ofNat ℝ 0 (Lit.natLit 0)) v; pure v.get! : Except PyErr ℝ) = .ok x' ∧
      max x' 0 = max x 0 := by
    cases a with
    | none => exact ⟨_, rfl, by simp⟩
    | _ => exact ⟨x, hA, rfl⟩
  have hB' : ∃ y', (match c with
      | .none => pure (min y X)
      | v => do assertStrictlyPositiveNumber (@OfNat.ofNat ℝ 0 (Lit.natLit 0)) v; pure v.get! : Except PyErr ℝ) = .ok y' ∧
      min y' X = min y X := by
    cases c with
    | none => exact ⟨_, rfl, by simp⟩
    | _ => exact ⟨y, hB, rfl⟩
  have hC' : ∃ u', (match d with
      | .none => pure (PyVal.num (max u.get! X))
      | v => do assertStrictlyPositiveNumber (@OfNat.ofNat ℝ 0 (Lit.natLit 0)) b; pure v : Except PyErr (PyVal ℝ)) = .ok u' ∧
      max u'.get! X = max u.get! X ∧ (u' = u ∨ u' = .num (max u.get! X)) := by
    cases d with
    | none => exact ⟨_, rfl, by simp [PyVal.get!], .inr rfl⟩
    | _ => exact ⟨u, hC, rfl, .inl rfl⟩
  obtain ⟨x', hA', ex⟩ := hA'
  obtain ⟨y', hB', ey⟩ := hB'
  obtain ⟨u', hC', eu, hu⟩ := hC'
  have hDE : ∃ v', (match b with
      | .none => pure (PyVal.num z)
      | v => do assertStrictlyPositiveNumber (@OfNat.ofNat ℝ 0 (Lit.natLit 0)) u'; pure v : Except PyErr (PyVal ℝ)) = .ok v' ∧
      (match v' with
      | .num x | .numSub x => pure (pyMin x L)
      | _ => throw .typeError : Except PyErr ℝ) = .ok z := by
    have strict : ∀ w : PyVal ℝ, (do assertStrictlyPositiveNumber (@OfNat.ofNat ℝ 0 (Lit.natLit 0)) u; pure w :
        Except PyErr (PyVal ℝ)) = .ok v →
        (do assertStrictlyPositiveNumber (@OfNat.ofNat ℝ 0 (Lit.natLit 0)) u'; pure w : Except PyErr (PyVal ℝ)) = .ok v := by
      intro w hw
      rcases hu with rfl | rfl
      · exact hw
      · have h0 : (0 : ℝ) ≤ max u.get! X := hX.trans (le_max_right _ _)
        rw [assertStrict_num h0]
        cases hs : assertStrictlyPositiveNumber (@OfNat.ofNat ℝ 0 (Lit.natLit 0)) u with
        | error e => rw [hs] at hw; cases hw
        | ok q => rw [hs] at hw; exact hw
    cases b with
    | none =>
      cases hD
      have hz : z = min l4 L := by
        have := Except.ok.inj hE
        rw [← this, pyMin_real]
      refine ⟨_, rfl, ?_⟩
      simp only [pyMin_real, hz]
      change Except.ok _ = _
      simp
    | _ => exact ⟨v, strict _ hD, by cases v <;> exact hE⟩
  obtain ⟨v', hD', hE'⟩ := hDE
  have : limitsFor mk' (max x 0) (min y X) (max u.get! X) z X L a b c d =
      .ok (mk' (max x' 0) (min y' X) (max u'.get! X) z) := by
    unfold limitsFor
    exact limitsGo_of (x := x') (y := y') (u := u') (v := v') (by cases a <;> exact hA') (by cases c <;> exact hB')
      (by cases d <;> exact hC') (by cases b <;> exact hD') (by cases v' <;> exact hE') (by rwa [ex, ey, eu])
  rw [ex, ey, eu] at this
  exact this

theorem setAnalysisLimits_twice {s : Slope ℝ} (h0 : 0 ≤ s.topX) (a b c d : PyVal ℝ) :
    (s.setAnalysisLimits a b c d).1.setAnalysisLimits a b c d = s.setAnalysisLimits a b c d := by
  rw [setAnalysisLimits_go s]
  split
  · rename_i s' e
    obtain ⟨m1, m2, m3, m4, rfl, k⟩ := limitsFor_twice (mk' := fun l1 l2 l3 l4 =>
      { s with lim1 := l1, lim2 := l2, lim3 := l3, lim4 := l4, search := [] }) h0 e
    rw [setAnalysisLimits_go]
    have : limitsFor (fun l1 l2 l3 l4 => { s with lim1 := l1, lim2 := l2, lim3 := l3, lim4 := l4, search := [] })
        m1 m2 m3 m4 s.topX s.extL a b c d = _ := k
    simp only [Slope.resetResults]
    rw [this]
  · rename_i e k
    simp only
    rw [setAnalysisLimits_go, k]

theorem withGeo_twice (s : Slope ℝ) (h l : ℝ) : (s.withGeo h l).withGeo h l = s.withGeo h l := by
  simp [Slope.withGeo, totH, totL, Function.comp_def, placeUdl, placeLl]

theorem setExternalBoundary_twice (s : Slope ℝ) (a b c : PyVal ℝ) :
    (s.setExternalBoundary a b c).1.setExternalBoundary a b c = s.setExternalBoundary a b c := by
  have e : ∀ t : Slope ℝ, t.setExternalBoundary a b c = match boundaryInputs a b c with
      | .error e => (t, .error e)
      | .ok (h, l) => t.applyBoundary h l := by
    intro t
    unfold Slope.setExternalBoundary
    split <;> rename_i k <;> rw [k]
  cases k : boundaryInputs a b c with
  | error x => rw [e s, k, e, k]
  | ok p =>
    obtain ⟨H, L⟩ := p
    have h2 := (boundaryInputs_ok k).2
    have : (0 : ℝ) < L := by norm_num at h2 ⊢; linarith
    rw [e s, k]
    simp only
    rw [applyBoundary_eq _ _ _ this]
    simp only
    rw [e, k]
    simp only
    rw [applyBoundary_eq _ _ _ this, withGeo_twice]

theorem setWaterTable_twice (s : Slope ℝ) (v : PyVal ℝ) :
    (s.setWaterTable v).1.setWaterTable v = s.setWaterTable v := by
  cases v with
  | none => rfl
  | _ =>
    unfold Slope.setWaterTable
    simp only
    split <;> rfl

theorem updateWaterAnalysisOptions_twice (s : Slope ℝ) (auto : Bool) (v : PyVal ℝ) :
    (s.updateWaterAnalysisOptions auto v).1.updateWaterAnalysisOptions auto v =
      s.updateWaterAnalysisOptions auto v := by
  cases auto
  · unfold Slope.updateWaterAnalysisOptions
    simp only [Bool.false_eq_true, if_false]
    split <;> rfl
  · rfl

theorem updateAnalysisOptions_twice (s : Slope ℝ) (n i : Option Int) (f t : Option ℝ) (m : Option Int) :
    (s.updateAnalysisOptions n i f t m).1.updateAnalysisOptions n i f t m = s.updateAnalysisOptions n i f t m := by
  unfold Slope.updateAnalysisOptions Slope.resetResults
  cases n <;> cases i <;> cases f <;> cases t <;> cases m <;> simp only <;> (repeat' split) <;> simp_all

theorem find_removeFirst {α : Type} (l : List α) (q : α → Bool) (e : α → α → Bool) (he : ∀ a, e a a = true)
    (hu : l.Pairwise fun a b => ¬ (q a = true ∧ q b = true)) (heq : ∀ a b, q a = true → e a b = true → q b = true)
    {m : α} (hm : l.find? q = some m) : (removeFirst (e m) l).find? q = none := by
  induction l with
  | nil => cases hm
  | cons a l ih =>
    obtain ⟨h1, h2⟩ := List.pairwise_cons.mp hu
    by_cases ha : q a = true
    · rw [List.find?_cons_of_pos ha] at hm
      cases hm
      simp only [removeFirst, he, if_true]
      rw [List.find?_eq_none]
      exact fun b hb hq => h1 b hb ⟨ha, hq⟩
    · rw [List.find?_cons_of_neg ha] at hm
      have hq := List.find?_some hm
      have : ¬ e m a = true := fun k => ha (heq m a hq k)
      simp only [removeFirst, this]
      rw [if_neg (by simp), List.find?_cons_of_neg ha]
      exact ih h2 hm

theorem removeMaterial_twice {s : Slope ℝ} (w : WF s) (m : Option (Material ℝ)) (d : Option ℝ) (all : Bool) :
    (s.removeMaterial m d all).1.removeMaterial m d all = s.removeMaterial m d all := by
  have key : ∀ d : Option ℝ, (s.removeMaterial none d all).1.removeMaterial none d all = s.removeMaterial none d all := by
    intro d
    unfold Slope.removeMaterial Slope.resetResults
    simp only
    cases all
    · simp only [Bool.false_eq_true, if_false]
      cases d with
      | none => rfl
      | some d =>
        simp only
        by_cases h0 : pyEq d (@OfNat.ofNat ℝ 0 (Lit.natLit 0)) = true
        · simp only [h0, if_true]
        · simp only [h0, Bool.false_eq_true, if_false]
          cases hf : s.materials.find? (fun l => pyEq l.mat.depth d) with
          | none => simp only [hf]
          | some c =>
            simp only
            have := find_removeFirst s.materials (fun l => pyEq l.mat.depth d) Layer.eq ?_ ?_ ?_ hf
            · simp only [this]
            · intro a
              simp [Layer.eq, pyEq]
            · refine w.mats.imp fun {a b} h k => ?_
              simp [pyEq] at k
              linarith [k.1.1, k.1.2, k.2.1, k.2.2]
            · intro a b ha hb
              simp [Layer.eq, pyEq] at ha hb ⊢
              constructor <;> linarith [hb.1.1.2.1, hb.1.1.2.2, ha.1, ha.2]
    · rfl
  cases m with
  | none => exact key d
  | some m => exact key (some m.depth)

theorem updateBoundaryOptions_cases {s : Slope ℝ} (g : Geo s) (l h : PyVal ℝ) :
    s.updateBoundaryOptions l h =
      match (if h.truthy then assertStrictlyPositiveNumber (@OfNat.ofNat ℝ 0 (Lit.natLit 0)) h else .ok ()) with
      | .error e => (s, .error e)
      | .ok _ =>
        match (if l.truthy then assertStrictlyPositiveNumber (@OfNat.ofNat ℝ 0 (Lit.natLit 0)) l else .ok ()) with
        | .error e => ({ s with minExtH := if h.truthy then h.get! else s.minExtH }, .error e)
        | .ok _ => (({ s with minExtL := if l.truthy then l.get! else s.minExtL,
                              minExtH := if h.truthy then h.get! else s.minExtH } : Slope ℝ).withGeo s.height s.length,
                    .ok ()) := by
  obtain ⟨b, hb⟩ := Option.isSome_iff_exists.mp g.bnd
  unfold Slope.updateBoundaryOptions
  by_cases h1 : h.truthy
  · simp only [h1, if_true]
    cases h2 : assertStrictlyPositiveNumber (@OfNat.ofNat ℝ 0 (Lit.natLit 0)) h with
    | error e => rfl
    | ok u =>
      simp only [Out.andThen]
      by_cases h3 : l.truthy
      · simp only [h3, if_true]
        cases h4 : assertStrictlyPositiveNumber (@OfNat.ofNat ℝ 0 (Lit.natLit 0)) l with
        | error e => rfl
        | ok u =>
          simp only [hb, setExternalBoundary_same g]
          rfl
      · simp only [h3, Bool.false_eq_true, if_false]
        simp only [hb, setExternalBoundary_same g]
        rfl
  · simp only [h1, Bool.false_eq_true, if_false]
    simp only [Out.andThen]
    by_cases h3 : l.truthy
    · simp only [h3, if_true]
      cases h4 : assertStrictlyPositiveNumber (@OfNat.ofNat ℝ 0 (Lit.natLit 0)) l with
      | error e => rfl
      | ok u =>
        simp only [hb, setExternalBoundary_same g]
        rfl
    · simp only [h3, Bool.false_eq_true, if_false]
      simp only [hb, setExternalBoundary_same g]
      rfl

theorem updateBoundaryOptions_twice {s : Slope ℝ} (g : Geo s) (l h : PyVal ℝ) :
    (s.updateBoundaryOptions l h).1.updateBoundaryOptions l h = s.updateBoundaryOptions l h := by
  have g' := (updateBoundaryOptions_same g l h).1
  rw [updateBoundaryOptions_cases g'  l h]
  rw [updateBoundaryOptions_cases g l h]
  cases k1 : (if h.truthy then assertStrictlyPositiveNumber (@OfNat.ofNat ℝ 0 (Lit.natLit 0)) h else .ok ()) with
  | error e => rfl
  | ok u =>
    simp only
    cases k2 : (if l.truthy then assertStrictlyPositiveNumber (@OfNat.ofNat ℝ 0 (Lit.natLit 0)) l else .ok ()) with
    | error e => by_cases h1 : h.truthy <;> simp [h1]
    | ok u =>
      by_cases h1 : h.truthy <;> by_cases h2 : l.truthy <;>
        simp [h1, h2, Slope.withGeo, totH, totL, Function.comp_def, placeUdl, placeLl]

/-- C127 (partial): a setting made a second time changes nothing and has the same answer. Missing: taking away
some of the loads (`C127_remove_again`). -/
theorem C127_twice_partial (s : Slope ℝ) (r : Reachable s) (o : Op ℝ) (ho : o.Setting) (hl : ¬ o.TakesSomeLoads) :
    o.run (o.run s).1 = o.run s := by
  have w := r.wf
  cases o with
  | setExternalBoundary a b c => exact setExternalBoundary_twice s a b c
  | setWaterTable v => exact setWaterTable_twice s v
  | removeWaterTable => rfl
  | removeMaterial m d all => exact removeMaterial_twice w m d all
  | updateWaterAnalysisOptions auto v => exact updateWaterAnalysisOptions_twice s auto v
  | updateAnalysisOptions n i f t m => exact updateAnalysisOptions_twice s n i f t m
  | updateBoundaryOptions l h => exact updateBoundaryOptions_twice w.geo l h
  | removeAnalysisLimits =>
    have h1 : 0 < s.topX := by have := w.l1; have := w.l12; have := w.l2; linarith
    have h2 : s.topX < s.extL := by have := w.l3; have := w.l34; have := w.l4; linarith
    change s.removeAnalysisLimits.1.removeAnalysisLimits = s.removeAnalysisLimits
    rw [removeAnalysisLimits_eq s h1 h2]
    exact removeAnalysisLimits_eq _ h1 h2
  | setAnalysisLimits a b c d =>
    exact setAnalysisLimits_twice (by have := w.l1; have := w.l12; have := w.l2; linarith) a b c d
  | removeIndividualPlanes => rfl
  | analyseSlope m => exact C25_analysing_twice s m m
  | removeUdls us all =>
    obtain rfl : all = true := by simpa [Op.TakesSomeLoads] using hl
    rfl
  | removeLls us all =>
    obtain rfl : all = true := by simpa [Op.TakesSomeLoads] using hl
    rfl
  | _ => exact ho.elim

/-- C127 is violated: taking away a load that is there twice takes one away, and the second time the other. -/
theorem C127_remove_again :
    ∃ (s : Slope ℝ) (u : Udl ℝ), Reachable s ∧ Udl.Constructed u ∧ ((Op.removeUdls [u] false).run s).2 = .ok () ∧
      ((Op.removeUdls [u] false).run s).1.udls.map PUdl.load = [u] ∧
      ((Op.removeUdls [u] false).run ((Op.removeUdls [u] false).run s).1).1.udls = [] := by
  obtain ⟨s, u, r, hc, -, h⟩ := C16_neighbours_stay
  refine ⟨s, u, r, hc, rfl, h, ?_⟩
  have k := (C16_remove_matches_partial (s.removeUdls [u] false).1).2.1 u
  change ((s.removeUdls [u] false).1.removeUdls [u] false).1.udls = []
  generalize (s.removeUdls [u] false).1 = t at *
  rcases hl : t.udls with _ | ⟨a, _ | ⟨b, l⟩⟩ <;> rw [hl] at h k <;> simp at h
  rw [k (by simp)]
  simp [SameUdl, h]

/-- A case: the limits of the search, set to other values than they have. -/
example : (Op.setAnalysisLimits (.num 1) (.num 14) .none .none).run
      ((Op.setAnalysisLimits (.num 1) (.num 14) .none .none).run exSlope).1 =
    (Op.setAnalysisLimits (.num 1) (.num 14) .none .none).run exSlope :=
  C127_twice_partial exSlope exSlope_reachable _ trivial id

/-- … and a boundary refused. -/
example : (Op.updateBoundaryOptions (.num (-1)) (.num 20)).run
      ((Op.updateBoundaryOptions (.num (-1)) (.num 20)).run exSlope).1 =
    (Op.updateBoundaryOptions (.num (-1)) (.num 20)).run exSlope :=
  C127_twice_partial exSlope exSlope_reachable _ trivial id

end PySlope
