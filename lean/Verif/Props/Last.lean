import Verif.Spec.Last
import Verif.Props.Twice

/-! # C129: the last setting counts -/

namespace PySlope

theorem withGeo_last (s : Slope ℝ) (h l h' l' : ℝ) : (s.withGeo h' l').withGeo h l = s.withGeo h l := by
  simp [Slope.withGeo, totH, totL, Function.comp_def, placeUdl, placeLl]

theorem setExternalBoundary_last {s : Slope ℝ} {a b c : PyVal ℝ} (a' b' c' : PyVal ℝ)
    (ok : (s.setExternalBoundary a b c).2 = .ok ()) :
    (s.setExternalBoundary a' b' c').1.setExternalBoundary a b c = s.setExternalBoundary a b c := by
  have e : ∀ (t : Slope ℝ) a b c, t.setExternalBoundary a b c = match boundaryInputs a b c with
      | .error e => (t, .error e)
      | .ok (h, l) => t.applyBoundary h l := by
    intro t a b c
    unfold Slope.setExternalBoundary
    split <;> rename_i k <;> rw [k]
  cases k : boundaryInputs a b c with
  | error x => rw [e, k] at ok; cases ok
  | ok p =>
    obtain ⟨H, L⟩ := p
    have h2 := (boundaryInputs_ok k).2
    have hL : (0 : ℝ) < L := by norm_num at h2 ⊢; linarith
    cases k' : boundaryInputs a' b' c' with
    | error x => rw [e s a' b' c', k']
    | ok p' =>
      obtain ⟨H', L'⟩ := p'
      have h2' := (boundaryInputs_ok k').2
      have hL' : (0 : ℝ) < L' := by norm_num at h2' ⊢; linarith
      rw [e s a' b' c', k']
      simp only
      rw [applyBoundary_eq _ _ _ hL', e, k, e, k]
      simp only
      rw [applyBoundary_eq _ _ _ hL, applyBoundary_eq _ _ _ hL, withGeo_last]

theorem setWaterTable_last {s : Slope ℝ} {v : PyVal ℝ} (v' : PyVal ℝ) (ok : (s.setWaterTable v).2 = .ok ()) :
    (s.setWaterTable v').1.setWaterTable v = s.setWaterTable v := by
  have key : ∀ t : Slope ℝ, t = { s with waterRL := t.waterRL, waterDepth := t.waterDepth, search := t.search } →
      t.setWaterTable v = s.setWaterTable v := by
    intro t ht
    generalize t.waterRL = x at ht
    generalize t.waterDepth = y at ht
    generalize t.search = z at ht
    subst ht
    cases v with
    | none => rfl
    | _ =>
      unfold Slope.setWaterTable at ok ⊢
      simp only at ok ⊢
      generalize assertPositiveNumber (@OfNat.ofNat ℝ 0 (Lit.natLit 0)) _ = q at ok ⊢
      cases q with
      | error e => cases ok
      | ok u => rfl
  apply key
  cases v' with
  | none => rfl
  | _ =>
    unfold Slope.setWaterTable
    simp only
    split <;> rfl

theorem updateWaterAnalysisOptions_last {s : Slope ℝ} {auto : Bool} {v : PyVal ℝ} (auto' : Bool) (v' : PyVal ℝ)
    (ok : (s.updateWaterAnalysisOptions auto v).2 = .ok ()) :
    (s.updateWaterAnalysisOptions auto' v').1.updateWaterAnalysisOptions auto v =
      s.updateWaterAnalysisOptions auto v := by
  have key : ∀ t : Slope ℝ, t = { s with waterH := t.waterH, search := t.search } →
      t.updateWaterAnalysisOptions auto v = s.updateWaterAnalysisOptions auto v := by
    intro t ht
    generalize t.waterH = x at ht
    generalize t.search = z at ht
    subst ht
    cases auto
    · unfold Slope.updateWaterAnalysisOptions at ok ⊢
      simp only [Bool.false_eq_true, if_false] at ok ⊢
      generalize assertNumber v = q at ok ⊢
      cases q with
      | error e => cases ok
      | ok u => rfl
    · rfl
  apply key
  cases auto'
  · unfold Slope.updateWaterAnalysisOptions
    simp only [Bool.false_eq_true, if_false]
    split <;> rfl
  · rfl

/-- An option kept when it is not given or given as 0. -/
def optInt (F : Int → Int) (d : Int) : Option Int → Int
  | some n => if n = 0 then d else F n
  | none => d

theorem optInt_last {a b : Option Int} (h : GivenInt b → GivenInt a) (d : Int) (F : Int → Int) :
    optInt F (optInt F d b) a = optInt F d a := by
  by_cases hb : GivenInt b
  · obtain ⟨k, rfl, hk⟩ := h hb
    simp [optInt, hk]
  · have : optInt F d b = d := by
      rcases b with _ | k
      · rfl
      · by_cases hk : k = 0
        · simp [optInt, hk]
        · exact absurd ⟨k, rfl, hk⟩ hb
    rw [this]

theorem getD_last {α : Type} {a b : Option α} (h : b ≠ none → a ≠ none) (d : α) :
    a.getD (b.getD d) = a.getD d := by
  cases a with
  | none =>
    cases b with
    | none => rfl
    | some x => exact absurd rfl (h (by simp))
  | some x => rfl

/-- The five steps of `update_analysis_options`. -/
theorem updateAnalysisOptions_eq (s : Slope ℝ) (n i : Option Int) (f t : Option ℝ) (m : Option Int) :
    s.updateAnalysisOptions n i f t m = ({ s with
      slices := optInt (fun n => max (min 500 n) 10) s.slices n
      iterations := optInt (fun n => max (min n 100000) 500) s.iterations i
      minFailureDist := (f.map fun d => pyMin d (s.extL * 0.9)).getD s.minFailureDist
      tolerance := t.getD s.tolerance
      maxIterations := m.getD s.maxIterations
      search := [] }, .ok ()) := by
  unfold Slope.updateAnalysisOptions Slope.resetResults
  cases n <;> cases i <;> cases f <;> cases t <;> cases m <;> simp only [optInt] <;> (repeat' split) <;> rfl

theorem updateAnalysisOptions_last (s : Slope ℝ) {n i : Option Int} {f t : Option ℝ} {m : Option Int}
    {n' i' : Option Int} {f' t' : Option ℝ} {m' : Option Int} (h1 : GivenInt n' → GivenInt n)
    (h2 : GivenInt i' → GivenInt i) (h3 : f' ≠ none → f ≠ none) (h4 : t' ≠ none → t ≠ none) (h5 : m' ≠ none → m ≠ none) :
    (s.updateAnalysisOptions n' i' f' t' m').1.updateAnalysisOptions n i f t m = s.updateAnalysisOptions n i f t m := by
  rw [updateAnalysisOptions_eq s n' i', updateAnalysisOptions_eq, updateAnalysisOptions_eq s n i]
  simp only [optInt_last h1, optInt_last h2, getD_last h4, getD_last h5]
  rw [getD_last (by simpa using h3)]

theorem updateBoundaryOptions_last {s : Slope ℝ} (g : Geo s) {l h l' h' : PyVal ℝ}
    (h1 : l'.truthy = true → l.truthy = true) (h2 : h'.truthy = true → h.truthy = true)
    (ok : (s.updateBoundaryOptions l h).2 = .ok ()) :
    (s.updateBoundaryOptions l' h').1.updateBoundaryOptions l h = s.updateBoundaryOptions l h := by
  have g' := (updateBoundaryOptions_same g l' h').1
  rw [updateBoundaryOptions_cases g] at ok
  rw [updateBoundaryOptions_cases g', updateBoundaryOptions_cases g l h, updateBoundaryOptions_cases g l' h']
  generalize (if h.truthy then assertStrictlyPositiveNumber (@OfNat.ofNat ℝ 0 (Lit.natLit 0)) h else .ok ()) = q1 at ok ⊢
  generalize (if l.truthy then assertStrictlyPositiveNumber (@OfNat.ofNat ℝ 0 (Lit.natLit 0)) l else .ok ()) = q2 at ok ⊢
  cases q1 with
  | error e => cases ok
  | ok u =>
    cases q2 with
    | error e => cases ok
    | ok u =>
      simp only
      generalize (if h'.truthy then assertStrictlyPositiveNumber (@OfNat.ofNat ℝ 0 (Lit.natLit 0)) h' else .ok ()) = p1
      generalize (if l'.truthy then assertStrictlyPositiveNumber (@OfNat.ofNat ℝ 0 (Lit.natLit 0)) l' else .ok ()) = p2
      cases p1 with
      | error e => rfl
      | ok u =>
        cases p2 with
        | error e =>
          cases q : h'.truthy
          · simp
          · simp [h2 q]
        | ok u =>
          cases q : h'.truthy <;> cases q' : l'.truthy
          · simp [Slope.withGeo, totH, totL, Function.comp_def, placeUdl, placeLl]
          · simp [h1 q', Slope.withGeo, totH, totL, Function.comp_def, placeUdl, placeLl]
          · simp [h2 q, Slope.withGeo, totH, totL, Function.comp_def, placeUdl, placeLl]
          · simp [h1 q', h2 q, Slope.withGeo, totH, totL, Function.comp_def, placeUdl, placeLl]

theorem limitsFor_congr {mk : ℝ → ℝ → ℝ → ℝ → Slope ℝ} {l1 l2 l3 l4 m1 m2 m3 m4 X L : ℝ} {a b c d : PyVal ℝ}
    (h1 : a = .none → m1 = l1) (h2 : c = .none → m2 = l2) (h3 : d = .none → m3 = l3) (h4 : b = .none → m4 = l4) :
    limitsFor mk m1 m2 m3 m4 X L a b c d = limitsFor mk l1 l2 l3 l4 X L a b c d := by
  unfold limitsFor
  congr 1
  · cases a with
    | none => rw [h1 rfl]
    | _ => rfl
  · cases c with
    | none => rw [h2 rfl]
    | _ => rfl
  · cases d with
    | none => rw [h3 rfl]
    | _ => rfl
  · funext w
    cases b with
    | none => rw [h4 rfl]
    | _ => rfl

/-- What `set_analysis_limits` leaves: the limits that are not given stay. -/
theorem setAnalysisLimits_keeps {s : Slope ℝ} (w : WF s) (a b c d : PyVal ℝ) :
    ∃ m1 m2 m3 m4 r, (s.setAnalysisLimits a b c d).1 =
        { s with lim1 := m1, lim2 := m2, lim3 := m3, lim4 := m4, search := r } ∧
      (a = .none → m1 = s.lim1) ∧ (c = .none → m2 = s.lim2) ∧ (d = .none → m3 = s.lim3) ∧ (b = .none → m4 = s.lim4) := by
  rw [setAnalysisLimits_go s]
  split
  · rename_i s' e
    obtain ⟨x, y, u, v, z, hA, hB, hC, hD, hE, k, rfl⟩ := limitsGo_ok e
    refine ⟨_, _, _, _, [], rfl, ?_, ?_, ?_, ?_⟩
    · rintro rfl
      cases hA
      exact max_eq_left w.l1
    · rintro rfl
      cases hB
      exact min_eq_left w.l2
    · rintro rfl
      cases hC
      exact max_eq_left w.l3
    · rintro rfl
      cases hD
      have := Except.ok.inj hE
      rw [← this, pyMin_real]
      exact min_eq_left w.l4
  · exact ⟨_, _, _, _, s.search, rfl, fun _ => rfl, fun _ => rfl, fun _ => rfl, fun _ => rfl⟩

theorem setAnalysisLimits_moved {s : Slope ℝ} {a b c d : PyVal ℝ} {m1 m2 m3 m4 : ℝ} (r : List (Plane ℝ))
    (h1 : a = .none → m1 = s.lim1) (h2 : c = .none → m2 = s.lim2) (h3 : d = .none → m3 = s.lim3)
    (h4 : b = .none → m4 = s.lim4) (ok : (s.setAnalysisLimits a b c d).2 = .ok ()) :
    ({ s with lim1 := m1, lim2 := m2, lim3 := m3, lim4 := m4, search := r } : Slope ℝ).setAnalysisLimits a b c d =
      s.setAnalysisLimits a b c d := by
  rw [setAnalysisLimits_go s] at ok ⊢
  rw [setAnalysisLimits_go]
  simp only
  rw [limitsFor_congr h1 h2 h3 h4]
  have e : limitsFor (fun l1 l2 l3 l4 => ({ s with lim1 := l1, lim2 := l2, lim3 := l3, lim4 := l4, search := r } : Slope ℝ))
      s.lim1 s.lim2 s.lim3 s.lim4 s.topX s.extL a b c d =
      (limitsFor (fun l1 l2 l3 l4 => ({ s with lim1 := l1, lim2 := l2, lim3 := l3, lim4 := l4 } : Slope ℝ))
      s.lim1 s.lim2 s.lim3 s.lim4 s.topX s.extL a b c d).map fun s => { s with search := r } := by
    unfold limitsFor
    exact limitsGo_map (K := ℝ) (fun t => { t with search := r })
      (fun l1 l2 l3 l4 => { s with lim1 := l1, lim2 := l2, lim3 := l3, lim4 := l4 }) _ _ _ _ _ _
  rw [e]
  cases q : limitsFor (fun l1 l2 l3 l4 => ({ s with lim1 := l1, lim2 := l2, lim3 := l3, lim4 := l4 } : Slope ℝ))
      s.lim1 s.lim2 s.lim3 s.lim4 s.topX s.extL a b c d with
  | error x => rw [q] at ok; cases ok
  | ok t => rfl

/-- C129: a setting that succeeds leaves everything as if a setting of the same things had not been made just before
it, whether that one succeeded or not. -/
theorem C129_last_counts (s : Slope ℝ) (r : Reachable s) (a b : Op ℝ) (h : b.Replaces a) (ok : (b.run s).2 = .ok ()) :
    b.run (a.run s).1 = b.run s := by
  have w := r.wf
  have hX : 0 < s.topX := by have := w.l1; have := w.l12; have := w.l2; linarith
  have hL : s.topX < s.extL := by have := w.l3; have := w.l34; have := w.l4; linarith
  cases b <;> cases a <;> try exact h.elim
  · exact setExternalBoundary_last _ _ _ ok
  · exact setWaterTable_last _ ok
  · exact setWaterTable_last .none ok
  · rename_i v
    change (s.setWaterTable v).1.setWaterTable .none = s.setWaterTable .none
    exact setWaterTable_last _ rfl
  · rfl
  · exact updateWaterAnalysisOptions_last _ _ ok
  · exact updateAnalysisOptions_last s h.1 h.2.1 h.2.2.1 h.2.2.2.1 h.2.2.2.2
  · exact updateBoundaryOptions_last w.geo h.1 h.2 ok
  · change s.removeAnalysisLimits.1.removeAnalysisLimits = s.removeAnalysisLimits
    rw [removeAnalysisLimits_eq s hX hL]
    exact removeAnalysisLimits_eq _ hX hL
  · rename_i a b c d
    change (s.setAnalysisLimits a b c d).1.removeAnalysisLimits = s.removeAnalysisLimits
    obtain ⟨m1, m2, m3, m4, q, e, -⟩ := setAnalysisLimits_keeps w a b c d
    rw [e, removeAnalysisLimits_eq s hX hL]
    exact removeAnalysisLimits_eq _ hX hL
  · rename_i a b c d
    change s.removeAnalysisLimits.1.setAnalysisLimits a b c d = s.setAnalysisLimits a b c d
    rw [removeAnalysisLimits_eq s hX hL]
    exact setAnalysisLimits_moved [] (fun k => absurd k h.1) (fun k => absurd k h.2.2.1) (fun k => absurd k h.2.2.2)
      (fun k => absurd k h.2.1) ok
  · rename_i a b c d a' b' c' d'
    change (s.setAnalysisLimits a' b' c' d').1.setAnalysisLimits a b c d = s.setAnalysisLimits a b c d
    obtain ⟨m1, m2, m3, m4, q, e, k1, k2, k3, k4⟩ := setAnalysisLimits_keeps w a' b' c' d'
    rw [e]
    have key : ∀ {x y : PyVal ℝ}, (y ≠ .none → x ≠ .none) → x = .none → y = .none :=
      fun hh hx => by_contra fun hy => hh hy hx
    exact setAnalysisLimits_moved q (fun k => k1 (key h.1 k)) (fun k => k2 (key h.2.2.1 k))
      (fun k => k3 (key h.2.2.2 k)) (fun k => k4 (key h.2.1 k)) ok

theorem exLimits {x y : ℝ} (hx : 0 ≤ x) (hx' : x < 6) (hy : 6 < y) :
    (exSlope.setAnalysisLimits (.num x) (.num y) .none .none).2 = .ok () ∧
      (exSlope.setAnalysisLimits (.num x) (.num y) .none .none).1.lim1 = x := by
  have e1 : exSlope.lim2 = 6 := by rw [← exSlope_topX]; rfl
  have e2 : exSlope.lim3 = 6 := by rw [← exSlope_topX]; rfl
  have a1 : assertPositiveNumber (@OfNat.ofNat ℝ 0 (Lit.natLit 0)) (.num x) = .ok () := by
    simp [assertPositiveNumber, PyCmp.ltb, not_lt.mpr hx, bind, Except.bind, pure, Except.pure]
  have k : ¬ (min exSlope.lim2 exSlope.topX ≤ max x 0 ∨
      min y exSlope.extL ≤ max (PyVal.num exSlope.lim3).get! exSlope.topX) := by
    simp only [PyVal.get!, e1, e2, exSlope_topX, exSlope_extL, min_self, max_self, max_eq_left hx, not_or, not_le,
      lt_min_iff]
    exact ⟨hx', hy, by norm_num⟩
  have : limitsFor (fun l1 l2 l3 l4 => ({ exSlope with lim1 := l1, lim2 := l2, lim3 := l3, lim4 := l4 } : Slope ℝ))
      exSlope.lim1 exSlope.lim2 exSlope.lim3 exSlope.lim4 exSlope.topX exSlope.extL (.num x) (.num y) .none .none = _ :=
    limitsGo_of (x := x) (y := exSlope.lim2) (u := .num exSlope.lim3) (v := .num y) (z := min y exSlope.extL)
      (by simp only [a1]; rfl) rfl rfl
      (by simp only [assertStrict_num (show (0 : ℝ) ≤ exSlope.lim3 by rw [e2]; norm_num)]; rfl)
      (by simp only [pyMin_real]; rfl) k
  rw [setAnalysisLimits_go, this]
  exact ⟨rfl, max_eq_left hx⟩

/-- A case: limits, and then other limits. -/
example : (Op.setAnalysisLimits (.num 1) (.num 14) .none .none).run
      ((Op.setAnalysisLimits (.num 2) (.num 13) .none .none).run exSlope).1 =
    (Op.setAnalysisLimits (.num 1) (.num 14) .none .none).run exSlope ∧
    ((Op.setAnalysisLimits (.num 2) (.num 13) .none .none).run exSlope).1.lim1 = 2 ∧
    ((Op.setAnalysisLimits (.num 1) (.num 14) .none .none).run exSlope).1.lim1 = 1 :=
  ⟨C129_last_counts exSlope exSlope_reachable _ _ ⟨by simp, by simp, by simp, by simp⟩
      (exLimits (by norm_num) (by norm_num) (by norm_num)).1,
    (exLimits (by norm_num) (by norm_num) (by norm_num)).2, (exLimits (by norm_num) (by norm_num) (by norm_num)).2⟩

/-- … and a boundary replaced by another. -/
example : (Op.setExternalBoundary (.num 3) (.num 30) (.num 3)).run
      ((Op.setExternalBoundary (.num 5) (.num 30) (.num 8)).run exSlope).1 =
    (Op.setExternalBoundary (.num 3) (.num 30) (.num 3)).run exSlope ∧
    ((Op.setExternalBoundary (.num 5) (.num 30) (.num 8)).run exSlope).1.height = 5 := by
  have e : ∀ h l : ℝ, 0 ≤ h → 0 ≤ l → (Op.setExternalBoundary (.num h) (.num 30) (.num l)).run exSlope =
      (exSlope.withGeo h (max l 0.001), .ok ()) := fun h l h0 l0 =>
    setExternalBoundary_len _ _ _ h0 ⟨by norm_num, by norm_num⟩ l0
  refine ⟨C129_last_counts exSlope exSlope_reachable _ _ trivial ?_, ?_⟩
  · rw [e 3 3 (by norm_num) (by norm_num)]
  · rw [e 5 8 (by norm_num) (by norm_num)]
    rfl

end PySlope
