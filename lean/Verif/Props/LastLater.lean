import Verif.Spec.NoTrace
import Verif.Props.Last
import Verif.Lemmas.Together
import Verif.Props.Circles
import Verif.Props.AnyArith

/-! # C130: an earlier setting leaves no trace, whatever was called in between -/

namespace PySlope

/-- What only an analysis reads: the water and the analysis options; and the results. -/
structure Unread where
  rl : Option ℝ
  depth : Option ℝ
  factor : ℝ
  slices : Int
  iterations : Int
  dist : ℝ
  tolerance : ℝ
  turns : Int
  search : List (Plane ℝ)
  planes : List (Plane ℝ)

def Slope.unread (s : Slope ℝ) : Unread :=
  ⟨s.waterRL, s.waterDepth, s.waterH, s.slices, s.iterations, s.minFailureDist, s.tolerance, s.maxIterations, s.search,
    s.individual⟩

def Slope.put (s : Slope ℝ) (u : Unread) : Slope ℝ :=
  { s with waterRL := u.rl, waterDepth := u.depth, waterH := u.factor, slices := u.slices, iterations := u.iterations,
           minFailureDist := u.dist, tolerance := u.tolerance, maxIterations := u.turns, search := u.search,
           individual := u.planes }

/-- What agrees before agrees after; of the planes given one by one, what `f` tells of each. -/
structure StillAgree (f : Plane ℝ → Plane ℝ) (u v u' v' : Unread) : Prop where
  table : u.rl = v.rl ∧ u.depth = v.depth → u'.rl = v'.rl ∧ u'.depth = v'.depth
  factor : u.factor = v.factor → u'.factor = v'.factor
  slices : u.slices = v.slices → u'.slices = v'.slices
  iterations : u.iterations = v.iterations → u'.iterations = v'.iterations
  dist : u.dist = v.dist → u'.dist = v'.dist
  tolerance : u.tolerance = v.tolerance → u'.tolerance = v'.tolerance
  turns : u.turns = v.turns → u'.turns = v'.turns
  planes : u.planes.map f = v.planes.map f → u'.planes.map f = v'.planes.map f

theorem put_planeLoop (s : Slope ℝ) (u : Unread) (b e C : ℝ) (n k : ℕ) (l r : ℝ × ℝ) :
    (s.put u).planeLoop b e C n k l r = s.planeLoop b e C n k l r := by
  induction k generalizing l r with
  | zero => rfl
  | succ k ih =>
    unfold Slope.planeLoop
    simp only [ih]
    rfl

theorem put_generatePlanes (s : Slope ℝ) (u : Unread) (l r : ℝ × ℝ) (n : Int) :
    (s.put u).generatePlanes l r n = s.generatePlanes l r n := by
  unfold Slope.generatePlanes
  simp only [put_planeLoop]

theorem put_updateBoundaryOptions (f : Plane ℝ → Plane ℝ) {s : Slope ℝ} (g : Geo s) (u : Unread) (l h : PyVal ℝ) :
    ∃ u', (s.put u).updateBoundaryOptions l h =
        ((s.updateBoundaryOptions l h).1.put u', (s.updateBoundaryOptions l h).2) ∧
      StillAgree f u s.unread u' (s.updateBoundaryOptions l h).1.unread := by
  have g' : Geo (s.put u) := by
    obtain ⟨a1, a2, a3, a4, a5, a6, a7, a8, a9, a10, a11, a12⟩ := g
    exact ⟨a1, a2, a3, a4, a5, a6, a7, a8, a9, a10, a11, a12⟩
  rw [updateBoundaryOptions_cases g', updateBoundaryOptions_cases g]
  generalize (if h.truthy then assertStrictlyPositiveNumber (@OfNat.ofNat ℝ 0 (Lit.natLit 0)) h else .ok ()) = q1
  generalize (if l.truthy then assertStrictlyPositiveNumber (@OfNat.ofNat ℝ 0 (Lit.natLit 0)) l else .ok ()) = q2
  cases q1 with
  | error e => exact ⟨u, rfl, id, id, id, id, id, id, id, id⟩
  | ok _ =>
    cases q2 with
    | error e => exact ⟨u, rfl, id, id, id, id, id, id, id, id⟩
    | ok _ => exact ⟨{ u with search := [] }, rfl, id, id, id, id, id, id, id, id⟩

theorem put_withUdls (f : Plane ℝ → Plane ℝ) (s : Slope ℝ) (u : Unread) (P : List (Udl ℝ)) :
    ∃ u', ((s.put u).withUdls P).settleUdls = ((s.withUdls P).settleUdls).put u' ∧
      StillAgree f u s.unread u' ((s.withUdls P).settleUdls).unread := by
  unfold Slope.withUdls
  rw [show (s.put u).minExtL = s.minExtL from rfl]
  split
  · exact ⟨{ u with search := [] }, rfl, id, id, id, id, id, id, id, id⟩
  · exact ⟨{ u with search := [] }, rfl, id, id, id, id, id, id, id, id⟩

theorem put_withLls (f : Plane ℝ → Plane ℝ) (s : Slope ℝ) (u : Unread) (P : List (LineLoad ℝ)) :
    ∃ u', ((s.put u).withLls P).settleLls = ((s.withLls P).settleLls).put u' ∧
      StillAgree f u s.unread u' ((s.withLls P).settleLls).unread := by
  unfold Slope.withLls
  rw [show (s.put u).minExtL = s.minExtL from rfl]
  split
  · exact ⟨{ u with search := [] }, rfl, id, id, id, id, id, id, id, id⟩
  · exact ⟨{ u with search := [] }, rfl, id, id, id, id, id, id, id, id⟩

theorem put_setMaterials (f : Plane ℝ → Plane ℝ) {s : Slope ℝ} (g : Geo s) (u : Unread) (ms : List (Option (Material ℝ))) :
    ∃ u', (s.put u).setMaterials ms = ((s.setMaterials ms).1.put u', (s.setMaterials ms).2) ∧
      StillAgree f u s.unread u' (s.setMaterials ms).1.unread := by
  unfold Slope.setMaterials
  rw [show (s.put u).materials = s.materials from rfl, show (s.put u).extH = s.extH from rfl]
  simp only
  split
  · exact ⟨u, rfl, id, id, id, id, id, id, id, id⟩
  · split
    · exact ⟨u, rfl, id, id, id, id, id, id, id, id⟩
    · rename_i d _
      by_cases hd : s.extH < d
      · simp only [hd, if_true]
        obtain ⟨u', e, k⟩ := put_updateBoundaryOptions f g u .none (.num d)
        rw [e]
        generalize s.updateBoundaryOptions .none (.num d) = q at k ⊢
        rcases q with ⟨t, _ | _⟩
        · exact ⟨u', rfl, k⟩
        · simp only [Out.andThen]
          split
          · exact ⟨u', rfl, k⟩
          · obtain ⟨k1, k2, k3, k4, k5, k6, k7, k8⟩ := k
            exact ⟨{ u' with search := [] }, rfl, k1, k2, k3, k4, k5, k6, k7, k8⟩
      · simp only [hd, if_false, Out.andThen]
        split
        · exact ⟨u, rfl, id, id, id, id, id, id, id, id⟩
        · exact ⟨{ u with search := [] }, rfl, id, id, id, id, id, id, id, id⟩

/-- No call but an analysis reads what is put. -/
theorem put_run (f : Plane ℝ → Plane ℝ) {s : Slope ℝ} (r : Reachable s) (u : Unread) (ru : Reachable (s.put u)) (o : Op ℝ) (hv : o.Valid)
    (ho : ∀ m, o ≠ .analyseSlope m) (hd : ∀ c d, o ≠ .analyseDynamic c d) :
    ∃ u', o.run (s.put u) = ((o.run s).1.put u', (o.run s).2) ∧ StillAgree f u s.unread u' (o.run s).1.unread := by
  have w := r.wf
  have w' := ru.wf
  have hX : 0 < s.topX := by have := w.l1; have := w.l12; have := w.l2; linarith
  have hL : s.topX < s.extL := by have := w.l3; have := w.l34; have := w.l4; linarith
  cases o with
  | analyseSlope m => exact absurd rfl (ho m)
  | analyseDynamic c d => exact absurd rfl (hd c d)
  | setExternalBoundary a b c =>
    change ∃ u', (s.put u).setExternalBoundary a b c = ((s.setExternalBoundary a b c).1.put u',
      (s.setExternalBoundary a b c).2) ∧ StillAgree f u s.unread u' (s.setExternalBoundary a b c).1.unread
    unfold Slope.setExternalBoundary
    split
    · exact ⟨u, rfl, id, id, id, id, id, id, id, id⟩
    · rename_i H L e
      have h2 := (boundaryInputs_ok e).2
      have : (0 : ℝ) < L := by norm_num at h2 ⊢; linarith
      rw [applyBoundary_eq _ _ _ this, applyBoundary_eq _ _ _ this]
      exact ⟨{ u with search := [] }, rfl, id, id, id, id, id, id, id, id⟩
  | setWaterTable v =>
    change ∃ u', (s.put u).setWaterTable v = ((s.setWaterTable v).1.put u',
      (s.setWaterTable v).2) ∧ StillAgree f u s.unread u' (s.setWaterTable v).1.unread
    cases v with
    | none => exact ⟨{ u with rl := none, depth := none, search := [] }, rfl, fun _ => ⟨rfl, rfl⟩, id, id, id, id, id, id, id⟩
    | _ =>
      unfold Slope.setWaterTable
      simp only
      split
      · exact ⟨u, rfl, id, id, id, id, id, id, id, id⟩
      · exact ⟨{ u with rl := _, depth := _, search := [] }, rfl, fun _ => ⟨rfl, rfl⟩, id, id, id, id, id, id, id⟩
  | removeWaterTable =>
    exact ⟨{ u with rl := none, depth := none, search := [] }, rfl, fun _ => ⟨rfl, rfl⟩, id, id, id, id, id, id, id⟩
  | setUdls us =>
    change ∃ u', (s.put u).setUdls us = ((s.setUdls us).1.put u', (s.setUdls us).2) ∧
      StillAgree f u s.unread u' (s.setUdls us).1.unread
    rw [setUdls_with r.wfs us fun x hx => (hv x hx).facts.2.2, setUdls_with ru.wfs us fun x hx => (hv x hx).facts.2.2]
    obtain ⟨u', e, k⟩ := put_withUdls f s u (takenUdls us)
    exact ⟨u', by rw [e], k⟩
  | removeUdls us all =>
    refine ⟨{ u with search := [] }, ?_⟩
    change (s.put u).removeUdls us all = ((s.removeUdls us all).1.put _, (s.removeUdls us all).2) ∧
      StillAgree f u s.unread _ (s.removeUdls us all).1.unread
    unfold Slope.removeUdls
    rw [show (s.put u).udls = s.udls from rfl]
    simp only
    cases all
    · simp only [Bool.false_eq_true, if_false]
      split <;> exact ⟨rfl, id, id, id, id, id, id, id, id⟩
    · exact ⟨rfl, id, id, id, id, id, id, id, id⟩
  | setLls us =>
    change ∃ u', (s.put u).setLls us = ((s.setLls us).1.put u', (s.setLls us).2) ∧
      StillAgree f u s.unread u' (s.setLls us).1.unread
    rw [setLls_with r.wfs us, setLls_with ru.wfs us]
    obtain ⟨u', e, k⟩ := put_withLls f s u (takenLls us)
    exact ⟨u', by rw [e], k⟩
  | removeLls us all =>
    refine ⟨{ u with search := [] }, ?_⟩
    cases all <;> exact ⟨rfl, id, id, id, id, id, id, id, id⟩
  | setMaterials ms => exact put_setMaterials f w.geo u ms
  | removeMaterial m d all => exact ⟨{ u with search := [] }, rfl, id, id, id, id, id, id, id, id⟩
  | updateWaterAnalysisOptions auto v =>
    change ∃ u', (s.put u).updateWaterAnalysisOptions auto v = ((s.updateWaterAnalysisOptions auto v).1.put u',
      (s.updateWaterAnalysisOptions auto v).2) ∧ StillAgree f u s.unread u' (s.updateWaterAnalysisOptions auto v).1.unread
    cases auto
    · unfold Slope.updateWaterAnalysisOptions
      simp only [Bool.false_eq_true, if_false]
      split
      · exact ⟨u, rfl, id, id, id, id, id, id, id, id⟩
      · exact ⟨{ u with factor := _, search := [] }, rfl, id, fun _ => rfl, id, id, id, id, id, id⟩
    · exact ⟨{ u with factor := _, search := [] }, rfl, id, fun _ => rfl, id, id, id, id, id, id⟩
  | updateAnalysisOptions n i g t m =>
    change ∃ u', (s.put u).updateAnalysisOptions n i g t m = ((s.updateAnalysisOptions n i g t m).1.put u',
      (s.updateAnalysisOptions n i g t m).2) ∧ StillAgree f u s.unread u' (s.updateAnalysisOptions n i g t m).1.unread
    rw [updateAnalysisOptions_eq, updateAnalysisOptions_eq]
    refine ⟨⟨u.rl, u.depth, u.factor, optInt (fun n => max (min 500 n) 10) u.slices n,
      optInt (fun n => max (min n 100000) 500) u.iterations i,
      (g.map fun d => pyMin d (s.extL * 0.9)).getD u.dist, t.getD u.tolerance, m.getD u.turns, [], u.planes⟩, rfl,
      id, id, fun h => ?_, fun h => ?_, fun h => ?_, fun h => ?_, fun h => ?_, id⟩
    · exact congrArg (fun x => optInt (fun n => max (min 500 n) 10) x n) h
    · exact congrArg (fun x => optInt (fun n => max (min n 100000) 500) x i) h
    · exact congrArg (fun x => (g.map fun d => pyMin d (s.extL * 0.9)).getD x) h
    · exact congrArg (fun x => t.getD x) h
    · exact congrArg (fun x => m.getD x) h
  | updateBoundaryOptions l h => exact put_updateBoundaryOptions f w.geo u l h
  | removeAnalysisLimits =>
    change ∃ u', (s.put u).removeAnalysisLimits = (s.removeAnalysisLimits.1.put u',
      s.removeAnalysisLimits.2) ∧ StillAgree f u s.unread u' s.removeAnalysisLimits.1.unread
    rw [removeAnalysisLimits_eq s hX hL, removeAnalysisLimits_eq (s.put u) hX hL]
    exact ⟨{ u with search := [] }, rfl, id, id, id, id, id, id, id, id⟩
  | setAnalysisLimits a b c d =>
    change ∃ u', (s.put u).setAnalysisLimits a b c d = ((s.setAnalysisLimits a b c d).1.put u',
      (s.setAnalysisLimits a b c d).2) ∧ StillAgree f u s.unread u' (s.setAnalysisLimits a b c d).1.unread
    rw [setAnalysisLimits_go s, setAnalysisLimits_go (s.put u)]
    have e : limitsFor (fun l1 l2 l3 l4 => ({ s.put u with lim1 := l1, lim2 := l2, lim3 := l3, lim4 := l4 } : Slope ℝ))
        (s.put u).lim1 (s.put u).lim2 (s.put u).lim3 (s.put u).lim4 (s.put u).topX (s.put u).extL a b c d =
        (limitsFor (fun l1 l2 l3 l4 => ({ s with lim1 := l1, lim2 := l2, lim3 := l3, lim4 := l4 } : Slope ℝ))
        s.lim1 s.lim2 s.lim3 s.lim4 s.topX s.extL a b c d).map fun t => t.put u := by
      unfold limitsFor
      exact limitsGo_map (K := ℝ) (fun t => t.put u)
        (fun l1 l2 l3 l4 => { s with lim1 := l1, lim2 := l2, lim3 := l3, lim4 := l4 }) _ _ _ _ _ _
    rw [e]
    cases q : limitsFor (fun l1 l2 l3 l4 => ({ s with lim1 := l1, lim2 := l2, lim3 := l3, lim4 := l4 } : Slope ℝ))
        s.lim1 s.lim2 s.lim3 s.lim4 s.topX s.extL a b c d with
    | error x => exact ⟨u, rfl, id, id, id, id, id, id, id, id⟩
    | ok t =>
      obtain ⟨_, _, _, _, _, _, _, _, _, _, _, rfl⟩ := limitsGo_ok q
      exact ⟨{ u with search := [] }, rfl, id, id, id, id, id, id, id, id⟩
  | addSingleEntryExitPlane l q n =>
    change ∃ u', (s.put u).addSingleEntryExitPlane l q n = ((s.addSingleEntryExitPlane l q n).1.put u',
      (s.addSingleEntryExitPlane l q n).2) ∧ StillAgree f u s.unread u' (s.addSingleEntryExitPlane l q n).1.unread
    unfold Slope.addSingleEntryExitPlane
    rw [show (s.put u).getExternalY l = s.getExternalY l from rfl, show (s.put u).getExternalY q = s.getExternalY q from rfl]
    simp only [put_generatePlanes]
    split
    · split
      · exact ⟨u, rfl, id, id, id, id, id, id, id, id⟩
      · exact ⟨{ u with search := [], planes := u.planes ++ _ }, rfl, id, id, id, id, id, id, id, fun h => by
          simp only [List.map_append, h]
          rw [← List.map_append]
          rfl⟩
    · exact ⟨u, rfl, id, id, id, id, id, id, id, id⟩
  | addSingleCircularPlane x y q =>
    change ∃ u', (s.put u).addSingleCircularPlane x y q = ((s.addSingleCircularPlane x y q).1.put u',
      (s.addSingleCircularPlane x y q).2) ∧ StillAgree f u s.unread u' (s.addSingleCircularPlane x y q).1.unread
    unfold Slope.addSingleCircularPlane
    rw [show (s.put u).circleExternalIntersection x y q = s.circleExternalIntersection x y q from rfl]
    split
    · exact ⟨u, rfl, id, id, id, id, id, id, id, id⟩
    · split
      · exact ⟨u, rfl, id, id, id, id, id, id, id, id⟩
      · split
        · exact ⟨{ u with search := [], planes := u.planes ++ _ }, rfl, id, id, id, id, id, id, id, fun h => by
          simp only [List.map_append, h]
          rw [← List.map_append]
          rfl⟩
        · exact ⟨u, rfl, id, id, id, id, id, id, id, id⟩
  | removeIndividualPlanes =>
    exact ⟨{ u with search := [], planes := [] }, rfl, id, id, id, id, id, id, id, fun _ => rfl⟩

theorem StillAgree.trans {f : Plane ℝ → Plane ℝ} {u v u' v' u'' v'' : Unread} (a : StillAgree f u v u' v') (b : StillAgree f u' v' u'' v'') :
    StillAgree f u v u'' v'' :=
  ⟨b.table ∘ a.table, b.factor ∘ a.factor, b.slices ∘ a.slices, b.iterations ∘ a.iterations, b.dist ∘ a.dist,
    b.tolerance ∘ a.tolerance, b.turns ∘ a.turns, b.planes ∘ a.planes⟩

/-- An analysis: the planes keep their shapes. -/
theorem put_analyse (s : Slope ℝ) (u : Unread) (m : Option ℝ) :
    ∃ u', ((s.put u).analyseSlope m).1 = (s.analyseSlope m).1.put u' ∧
      StillAgree Plane.bare u s.unread u' (s.analyseSlope m).1.unread := by
  have h1 := (analyseSlope_bare (s.put u) m).2
  have h2 := (analyseSlope_bare s m).2
  obtain ⟨a, b, e⟩ := analyseSlope_keeps (s.put u) m
  obtain ⟨a', b', e'⟩ := analyseSlope_keeps s m
  rw [e] at h1 ⊢
  rw [e'] at h2 ⊢
  exact ⟨{ u with search := a, planes := b }, rfl, id, id, id, id, id, id, id, fun h => h1.trans (h.trans h2.symm)⟩

theorem put_runAll (f : Plane ℝ → Plane ℝ) {s : Slope ℝ} (r : Reachable s) (u : Unread) (ru : Reachable (s.put u))
    (os : List (Op ℝ)) (hv : ∀ o ∈ os, o.Valid) (hd : ∀ o ∈ os, ∀ c d, o ≠ .analyseDynamic c d)
    (ho : (∀ o ∈ os, ¬ o.IsAnalysis) ∨ f = Plane.bare) :
    (∃ u', runAll os (s.put u) = (runAll os s).put u' ∧ StillAgree f u s.unread u' (runAll os s).unread) ∧
      ((∀ o ∈ os, ¬ o.IsAnalysis) → outcomes os (s.put u) = outcomes os s) := by
  induction os generalizing s u with
  | nil => exact ⟨⟨u, rfl, id, id, id, id, id, id, id, id⟩, fun _ => rfl⟩
  | cons o os ih =>
    have v := hv o (by simp)
    have step : ∃ u', (o.run (s.put u)).1 = (o.run s).1.put u' ∧ StillAgree f u s.unread u' (o.run s).1.unread ∧
        (¬ o.IsAnalysis → (o.run (s.put u)).2 = (o.run s).2) := by
      by_cases n : o.IsAnalysis
      · cases o <;> try exact n.elim
        · rename_i m
          obtain rfl : f = Plane.bare := ho.resolve_left fun h => h (.analyseSlope m) (by simp) trivial
          obtain ⟨u', e, k⟩ := put_analyse s u m
          exact ⟨u', e, k, fun h => absurd trivial h⟩
        · rename_i c d
          exact absurd rfl (hd (.analyseDynamic c d) (by simp) c d)
      · obtain ⟨u', e, k⟩ := put_run f r u ru o v (fun m h => n (by rw [h]; trivial))
          (fun c d h => n (by rw [h]; trivial))
        exact ⟨u', by rw [e], k, fun _ => by rw [e]⟩
    obtain ⟨u', e, k, c⟩ := step
    have r1 : Reachable (o.run s).1 := r.call (Op.call v)
    have r2 : Reachable ((o.run s).1.put u') := by
      have := ru.call (Op.call v)
      rwa [e] at this
    obtain ⟨⟨u'', e', k'⟩, q⟩ := ih r1 u' r2 (fun o h => hv o (List.mem_cons_of_mem _ h))
      (fun o h => hd o (List.mem_cons_of_mem _ h)) (ho.imp_left fun h o h' => h o (List.mem_cons_of_mem _ h'))
    refine ⟨⟨u'', ?_, k.trans k'⟩, fun hn => ?_⟩
    · change runAll os (o.run (s.put u)).1 = _
      rw [e]
      exact e'
    · change (o.run (s.put u)).2 :: outcomes os (o.run (s.put u)).1 = (o.run s).2 :: outcomes os (o.run s).1
      rw [e, c (hn o (by simp)), q fun o h => hn o (List.mem_cons_of_mem _ h)]

/-- Other planes given one by one. -/
def Slope.withPlanes (s : Slope ℝ) (l : List (Plane ℝ)) : Slope ℝ := { s with individual := l }

/-- What a setting for the analysis leaves. -/
theorem run_put (s : Slope ℝ) (a : Op ℝ) (h : a.ForAnalysis) : (a.run s).1 = s.put (a.run s).1.unread := by
  cases a <;> try exact h.elim
  · rename_i v
    change (s.setWaterTable v).1 = s.put (s.setWaterTable v).1.unread
    cases v with
    | none => rfl
    | _ =>
      unfold Slope.setWaterTable
      simp only
      split <;> rfl
  · rfl
  · rename_i auto v
    change (s.updateWaterAnalysisOptions auto v).1 = s.put (s.updateWaterAnalysisOptions auto v).1.unread
    cases auto
    · unfold Slope.updateWaterAnalysisOptions
      simp only [Bool.false_eq_true, if_false]
      split <;> rfl
    · rfl
  · rename_i n i f t m
    change (s.updateAnalysisOptions n i f t m).1 = s.put (s.updateAnalysisOptions n i f t m).1.unread
    rw [updateAnalysisOptions_eq]
    rfl

theorem setWaterTable_put {s : Slope ℝ} {u : Unread} {v : PyVal ℝ} (ok : (s.setWaterTable v).2 = .ok ())
    (h1 : u.factor = s.unread.factor) (h2 : u.slices = s.unread.slices) (h3 : u.iterations = s.unread.iterations)
    (h4 : u.dist = s.unread.dist) (h5 : u.tolerance = s.unread.tolerance) (h6 : u.turns = s.unread.turns) :
    (s.put u).setWaterTable v = ((s.setWaterTable v).1.withPlanes u.planes, (s.setWaterTable v).2) := by
  obtain ⟨x, y, z, n, i, f, t, m, r, l⟩ := u
  subst h1 h2 h3 h4 h5 h6
  cases v with
  | none => rfl
  | _ =>
    unfold Slope.setWaterTable at ok ⊢
    simp only at ok ⊢
    generalize assertPositiveNumber (@OfNat.ofNat ℝ 0 (Lit.natLit 0)) _ = q at ok ⊢
    cases q with
    | error e => cases ok
    | ok u => rfl

theorem updateWaterAnalysisOptions_put {s : Slope ℝ} {u : Unread} {auto : Bool} {v : PyVal ℝ}
    (ok : (s.updateWaterAnalysisOptions auto v).2 = .ok ())
    (h0 : u.rl = s.unread.rl) (h1 : u.depth = s.unread.depth) (h2 : u.slices = s.unread.slices)
    (h3 : u.iterations = s.unread.iterations) (h4 : u.dist = s.unread.dist) (h5 : u.tolerance = s.unread.tolerance)
    (h6 : u.turns = s.unread.turns) :
    (s.put u).updateWaterAnalysisOptions auto v =
      ((s.updateWaterAnalysisOptions auto v).1.withPlanes u.planes, (s.updateWaterAnalysisOptions auto v).2) := by
  obtain ⟨x, y, z, n, i, f, t, m, r, l⟩ := u
  subst h0 h1 h2 h3 h4 h5 h6
  cases auto
  · unfold Slope.updateWaterAnalysisOptions at ok ⊢
    simp only [Bool.false_eq_true, if_false] at ok ⊢
    generalize assertNumber v = q at ok ⊢
    cases q with
    | error e => cases ok
    | ok u => rfl
  · rfl

theorem optInt_put {a : Option Int} {d e : Int} (F : Int → Int) (h : ¬ GivenInt a → d = e) :
    optInt F d a = optInt F e a := by
  by_cases ha : GivenInt a
  · obtain ⟨k, rfl, hk⟩ := ha
    simp [optInt, hk]
  · rw [h ha]

theorem getD_put {α : Type} {a : Option α} {d e : α} (h : a = none → d = e) : a.getD d = a.getD e := by
  cases a with
  | none => exact h rfl
  | some x => rfl

theorem updateAnalysisOptions_put {s : Slope ℝ} {u : Unread} {n i : Option Int} {f t : Option ℝ} {m : Option Int}
    (h0 : u.rl = s.unread.rl) (h1 : u.depth = s.unread.depth) (h2 : u.factor = s.unread.factor)
    (h3 : ¬ GivenInt n → u.slices = s.unread.slices) (h4 : ¬ GivenInt i → u.iterations = s.unread.iterations)
    (h5 : f = none → u.dist = s.unread.dist) (h6 : t = none → u.tolerance = s.unread.tolerance)
    (h7 : m = none → u.turns = s.unread.turns) :
    (s.put u).updateAnalysisOptions n i f t m =
      ((s.updateAnalysisOptions n i f t m).1.withPlanes u.planes, (s.updateAnalysisOptions n i f t m).2) := by
  obtain ⟨x, y, z, n', i', f', t', m', r, l⟩ := u
  subst h0 h1 h2
  rw [updateAnalysisOptions_eq, updateAnalysisOptions_eq]
  simp only [Slope.put, Slope.unread, Slope.withPlanes] at *
  rw [optInt_put _ h3, optInt_put _ h4, getD_put h6, getD_put h7,
    getD_put (a := f.map fun d => pyMin d (s.extL * 0.9)) (d := f') (fun k => h5 (by simpa using k))]

/-- What a call for the analysis does not set stays. -/
theorem optInt_not {a : Option Int} (h : ¬ GivenInt a) (F : Int → Int) (d : Int) : optInt F d a = d := by
  rcases a with _ | k
  · rfl
  · by_cases hk : k = 0
    · simp [optInt, hk]
    · exact absurd ⟨k, rfl, hk⟩ h

theorem run_individual (s : Slope ℝ) (a : Op ℝ) (ha : a.ForAnalysis) : (a.run s).1.individual = s.individual := by
  cases a <;> try exact ha.elim
  · rename_i v
    change (s.setWaterTable v).1.individual = _
    cases v with
    | none => rfl
    | _ =>
      unfold Slope.setWaterTable
      simp only
      split <;> rfl
  · rfl
  · rename_i auto v
    change (s.updateWaterAnalysisOptions auto v).1.individual = _
    cases auto
    · unfold Slope.updateWaterAnalysisOptions
      simp only [Bool.false_eq_true, if_false]
      split <;> rfl
    · rfl
  · rename_i n i g t m
    change (s.updateAnalysisOptions n i g t m).1.individual = _
    rw [updateAnalysisOptions_eq]

theorem run_planes_eq (s : Slope ℝ) (a : Op ℝ) (ha : a.ForAnalysis) :
    (a.run s).1.withPlanes s.individual = (a.run s).1 := by
  rw [← run_individual s a ha]
  rfl

theorem Op.Replaces.forAnalysis {a b : Op ℝ} (h : b.Replaces a) (ha : a.ForAnalysis) : b.ForAnalysis := by
  cases a <;> cases b <;> first | exact ha.elim | exact h.elim | trivial

/-- An analysis that comes to an end forgets the old factors of safety of the planes. -/
theorem analyse_bare_eq {s : Slope ℝ} {l : List (Plane ℝ)} (h : l.map Plane.bare = s.individual.map Plane.bare)
    {m : Option ℝ} (ho : (s.analyseSlope m).2 = .ok ()) : (s.withPlanes l).analyseSlope m = s.analyseSlope m := by
  have hS : SameSetup s (s.withPlanes l) := by constructor <;> rfl
  have hw : ∀ x y : List (Plane ℝ), x.map Plane.bare = y.map Plane.bare → x.map (withFos s) = y.map (withFos s) := by
    intro x y hxy
    have : ∀ z : List (Plane ℝ), z.map (withFos s) = (z.map Plane.bare).map (withFos s) := by
      intro z
      rw [List.map_map]
      rfl
    rw [this x, this y, hxy]
  obtain ⟨ps, h1, h2, e⟩ := analyseSlope_ok (s := s) (t := (s.analyseSlope m).1) (m := m) (Prod.ext rfl ho)
  have e' : s.analyseSlope m = (s.analysedTo m ps, .ok ()) := Prod.ext e ho
  rw [e']
  rcases h1 with ⟨hi, rfl⟩ | ⟨hi, he⟩
  · have hl : l ≠ [] := by
      rintro rfl
      exact hi (by simpa using h.symm)
    have hr : ∀ p ∈ l, ∀ e, ¬ FosRaises (s.withPlanes l) p e := by
      intro p hp x hx
      have : p.bare ∈ s.individual.map Plane.bare := h ▸ List.mem_map_of_mem hp
      obtain ⟨q, hq, hqp⟩ := List.mem_map.mp this
      rw [hS.raises] at hx
      have hx' : FosRaises s p.bare x := hx
      rw [← hqp] at hx'
      exact h2 q hq x hx'
    rw [analyseSlope_of (.inl ⟨hl, rfl⟩) hr]
    unfold Slope.analysedTo
    rw [hS.withFos]
    simp only [Slope.withPlanes]
    rw [hw _ _ h]
  · have hl : l = [] := by simpa [hi] using h
    subst hl
    have : s.withPlanes [] = s := by
      rw [← hi]
      rfl
    rw [this, e']

/-- Both forms of C130: what `f` tells of the planes given one by one is the same. -/
theorem no_trace (f : Plane ℝ → Plane ℝ) {s : Slope ℝ} (r : Reachable s) {a b : Op ℝ} (h : b.Replaces a)
    (ha : a.ForAnalysis) {os : List (Op ℝ)} (hv : ∀ o ∈ os, o.Valid) (hd : ∀ o ∈ os, ∀ c d, o ≠ .analyseDynamic c d)
    (ho : (∀ o ∈ os, ¬ o.IsAnalysis) ∨ f = Plane.bare) (ok : (b.run (runAll os s)).2 = .ok ()) :
    (∃ l, b.run (runAll os (a.run s).1) = ((b.run (runAll os s)).1.withPlanes l, .ok ()) ∧
      l.map f = (runAll os s).individual.map f) ∧
    ((∀ o ∈ os, ¬ o.IsAnalysis) → outcomes os (a.run s).1 = outcomes os s) := by
  have va : a.Valid := by cases a <;> first | exact ha.elim | trivial
  have ra : Reachable (a.run s).1 := r.call (Op.call va)
  have e := run_put s a ha
  rw [e] at ra
  obtain ⟨⟨u, eu, k⟩, q⟩ := put_runAll f r _ ra os hv hd ho
  rw [← e] at eu q
  refine ⟨⟨u.planes, ?_, ?_⟩, q⟩
  swap
  · refine k.planes ?_
    exact congrArg _ (run_individual s a ha)
  rw [eu, ← ok]
  have table : ∀ v : PyVal ℝ, ∃ x y z, (s.setWaterTable v).1 =
      { s with waterRL := x, waterDepth := y, search := z } := by
    intro v
    cases v with
    | none => exact ⟨_, _, _, rfl⟩
    | _ =>
      unfold Slope.setWaterTable
      simp only
      split <;> exact ⟨_, _, _, rfl⟩
  have fac : ∀ auto (v : PyVal ℝ), ∃ x z, (s.updateWaterAnalysisOptions auto v).1 =
      { s with waterH := x, search := z } := by
    intro auto v
    cases auto
    · unfold Slope.updateWaterAnalysisOptions
      simp only [Bool.false_eq_true, if_false]
      split <;> exact ⟨_, _, rfl⟩
    · exact ⟨_, _, rfl⟩
  have wt : ∀ v v' : PyVal ℝ, ((runAll os s).setWaterTable v).2 = .ok () →
      StillAgree f (s.setWaterTable v').1.unread s.unread u (runAll os s).unread →
      ((runAll os s).put u).setWaterTable v =
        (((runAll os s).setWaterTable v).1.withPlanes u.planes, ((runAll os s).setWaterTable v).2) := by
    intro v v' ok k
    obtain ⟨x, y, z, e⟩ := table v'
    rw [e] at k
    exact setWaterTable_put ok (k.factor rfl) (k.slices rfl) (k.iterations rfl) (k.dist rfl) (k.tolerance rfl) (k.turns rfl)
  cases b <;> cases a <;> first | exact h.elim | exact ha.elim | skip
  · exact wt _ _ ok k
  · exact wt _ .none ok k
  · exact wt .none _ rfl k
  · exact wt .none .none rfl k
  · rename_i auto v auto' v'
    obtain ⟨x, z, e⟩ := fac auto' v'
    change StillAgree f (s.updateWaterAnalysisOptions auto' v').1.unread _ _ _ at k
    rw [e] at k
    exact updateWaterAnalysisOptions_put ok (k.table ⟨rfl, rfl⟩).1 (k.table ⟨rfl, rfl⟩).2 (k.slices rfl)
      (k.iterations rfl) (k.dist rfl) (k.tolerance rfl) (k.turns rfl)
  · rename_i n i g t m n' i' g' t' m'
    change StillAgree f (s.updateAnalysisOptions n' i' g' t' m').1.unread _ _ _ at k
    rw [updateAnalysisOptions_eq] at k
    have key : ∀ {α : Type} {x y : Option α}, (y ≠ none → x ≠ none) → x = none → y = none :=
      fun hh hx => by_contra fun hy => hh hy hx
    refine updateAnalysisOptions_put (k.table ⟨rfl, rfl⟩).1 (k.table ⟨rfl, rfl⟩).2 (k.factor rfl)
      (fun hn => k.slices (optInt_not (fun g => hn (h.1 g)) _ _))
      (fun hn => k.iterations (optInt_not (fun g => hn (h.2.1 g)) _ _)) (fun hn => k.dist ?_)
      (fun hn => k.tolerance ?_) (fun hn => k.turns ?_)
    · rw [key h.2.2.1 hn]; rfl
    · rw [key h.2.2.2.1 hn]; rfl
    · rw [key h.2.2.2.2 hn]; rfl

theorem fillFos_outcome (s : Slope ℝ) {l l' : List (Plane ℝ)} (h : l.map Plane.bare = l'.map Plane.bare) :
    (s.fillFos l).2 = (s.fillFos l').2 := by
  induction l generalizing l' with
  | nil =>
    cases l' with
    | nil => rfl
    | cons p l' => simp at h
  | cons p l ih =>
    cases l' with
    | nil => simp at h
    | cons q l' =>
      simp only [List.map_cons, List.cons.injEq] at h
      have e := ih h.2
      have h1 : p.cx = q.cx := by have := h.1; simp only [Plane.bare] at this; first | exact congrArg (fun c => c.cx) this | (simp at this; tauto)
      have h2 : p.cy = q.cy := by have := h.1; simp only [Plane.bare] at this; first | exact congrArg (fun c => c.cy) this | (simp at this; tauto)
      have h3 : p.radius = q.radius := by have := h.1; simp only [Plane.bare] at this; first | exact congrArg (fun c => c.radius) this | (simp at this; tauto)
      unfold Slope.fillFos
      rw [h1, h2, h3]
      split
      · rfl
      · exact e

theorem analyse_second (s : Slope ℝ) (m : Option ℝ) : (s.analyseSlope m).2 = match s.individual with
    | p :: ps => (match (s.fillFos (p :: ps)).2 with | some e => .error e | none => .ok ())
    | [] => (match s.entryExitPlanes with
      | .error e => .error e
      | .ok ps => match (s.fillFos ps).2 with | some e => .error e | none => .ok ()) := by
  unfold Slope.analyseSlope
  rcases s.individual with _ | ⟨p, ps⟩
  · simp only
    rcases s.entryExitPlanes with e | ps
    · rfl
    · dsimp only
      rcases (s.fillFos ps).2 with _ | e <;> rfl
  · dsimp only
    rcases (s.fillFos (p :: ps)).2 with _ | e <;> rfl

theorem analyse_bare_outcome {s : Slope ℝ} {l : List (Plane ℝ)} (h : l.map Plane.bare = s.individual.map Plane.bare)
    (m : Option ℝ) : ((s.withPlanes l).analyseSlope m).2 = (s.analyseSlope m).2 := by
  have hS : SameSetup s (s.withPlanes l) := .res s s.search l
  have hi : (s.withPlanes l).individual = l := rfl
  rw [analyse_second, analyse_second, hi]
  generalize s.individual = l' at h
  rcases l with _ | ⟨p, l⟩ <;> rcases l' with _ | ⟨p', l'⟩
  · simp only [hS.entryExitPlanes, hS.fillFos]
  · simp at h
  · simp at h
  · simp only [hS.fillFos, fillFos_outcome s h]

/-- C130: a setting read only by the analyses leaves no trace once a later call sets the same, whatever calls that are
not analyses come between; and those calls raise or succeed as without it. -/
theorem C130_no_trace (s : Slope ℝ) (r : Reachable s) (a b : Op ℝ) (h : b.Replaces a) (ha : a.ForAnalysis)
    (os : List (Op ℝ)) (hv : ∀ o ∈ os, o.Valid) (ho : ∀ o ∈ os, ¬ o.IsAnalysis)
    (ok : (b.run (runAll os s)).2 = .ok ()) :
    b.run (runAll os (a.run s).1) = b.run (runAll os s) ∧ outcomes os (a.run s).1 = outcomes os s := by
  obtain ⟨⟨l, e, k⟩, q⟩ := no_trace id r h ha hv (fun o h' c d e => ho o h' (by rw [e]; trivial)) (.inl ho) ok
  refine ⟨?_, q ho⟩
  rw [List.map_id, List.map_id] at k
  rw [e, k, run_planes_eq _ _ (h.forAnalysis ha), ← ok]

/-- C130: with analyses in between as well, the next analysis raises the same or ends as without the setting, and if it
ends, it leaves the same slope with the same results. -/
theorem C130_no_trace_analysed (s : Slope ℝ) (r : Reachable s) (a b : Op ℝ) (h : b.Replaces a) (ha : a.ForAnalysis)
    (os : List (Op ℝ)) (hv : ∀ o ∈ os, o.Valid) (hd : ∀ o ∈ os, ∀ c d, o ≠ .analyseDynamic c d)
    (ok : (b.run (runAll os s)).2 = .ok ()) (m : Option ℝ) :
    (b.run (runAll os (a.run s).1)).2 = .ok () ∧
    ((b.run (runAll os (a.run s).1)).1.analyseSlope m).2 = ((b.run (runAll os s)).1.analyseSlope m).2 ∧
    (((b.run (runAll os s)).1.analyseSlope m).2 = .ok () →
      (b.run (runAll os (a.run s).1)).1.analyseSlope m = (b.run (runAll os s)).1.analyseSlope m) := by
  obtain ⟨⟨l, e, k⟩, -⟩ := no_trace Plane.bare r h ha hv hd (.inr rfl) ok
  rw [e]
  have k' : l.map Plane.bare = (b.run (runAll os s)).1.individual.map Plane.bare := by
    rw [k, run_individual _ _ (h.forAnalysis ha)]
  exact ⟨rfl, analyse_bare_outcome k' m, analyse_bare_eq k'⟩

/-- A case: a water table, a change of the boundary and a material, and then another water table. -/
example : (Op.setWaterTable (.num 2)).run
      (runAll [.setExternalBoundary (.num 5) (.num 30) (.num 8), .setMaterials [some (exMat 2)]]
        ((Op.setWaterTable (.num 1)).run exSlope).1) =
    (Op.setWaterTable (.num 2)).run
      (runAll [.setExternalBoundary (.num 5) (.num 30) (.num 8), .setMaterials [some (exMat 2)]] exSlope) ∧
    ((Op.setWaterTable (.num 1)).run exSlope).1.waterDepth = some 1 ∧ exSlope.waterDepth = none := by
  have e : ∀ (x : ℝ) (s : Slope ℝ), 0 ≤ x → ((Op.setWaterTable (.num x)).run s).2 = .ok () ∧
      ((Op.setWaterTable (.num x)).run s).1.waterDepth = some x := by
    intro x s hx
    have a1 : assertPositiveNumber (@OfNat.ofNat ℝ 0 (Lit.natLit 0)) (.num x) = .ok () := by
      simp [assertPositiveNumber, PyCmp.ltb, not_lt.mpr hx]
    change (s.setWaterTable (.num x)).2 = .ok () ∧ (s.setWaterTable (.num x)).1.waterDepth = some x
    unfold Slope.setWaterTable
    simp only [a1]
    exact ⟨trivial, rfl⟩
  refine ⟨(C130_no_trace exSlope exSlope_reachable (.setWaterTable _) (.setWaterTable _) trivial trivial _ ?_ ?_
    (e 2 _ (by norm_num)).1).1,
    (e 1 _ (by norm_num)).2, rfl⟩
  · intro o ho
    simp only [List.mem_cons, List.not_mem_nil, or_false] at ho
    rcases ho with rfl | rfl
    · trivial
    · intro m hm
      simp only [List.mem_singleton, Option.some.injEq] at hm
      subst hm
      exact exMat_constructed _
  · intro o ho
    simp only [List.mem_cons, List.not_mem_nil, or_false] at ho
    rcases ho with rfl | rfl <;> exact id

/-- … and a slope analysed with a water table, which is then taken away. -/
example : (runAll [.setWaterTable (.num 1), .analyseSlope none, .removeWaterTable] exReady).analyseSlope none =
    (runAll [.analyseSlope none, .removeWaterTable] exReady).analyseSlope none ∧
    ((runAll [.analyseSlope none, .removeWaterTable] exReady).analyseSlope none).1.search ≠ [] := by
  have e : runAll [.analyseSlope none, .removeWaterTable] exReady = exReady.withPlanes ([exPlane].map (withFos exReady)) := by
    change (exReady.analyseSlope none).1.removeWaterTable.1 = _
    rw [exAnalyse]
    rfl
  have k : (exReady.withPlanes ([exPlane].map (withFos exReady))).analyseSlope none = exReady.analyseSlope none :=
    analyse_bare_eq (l := [exPlane].map (withFos exReady)) rfl (by rw [exAnalyse none])
  refine ⟨(C130_no_trace_analysed exReady exReady_reachable (.setWaterTable (.num 1)) .removeWaterTable trivial trivial
    [.analyseSlope none] ?_ ?_ rfl none).2.2 ?_, ?_⟩
  · intro o ho
    rw [List.mem_singleton.mp ho]
    trivial
  · intro o ho c d
    rw [List.mem_singleton.mp ho]
    exact nofun
  · change ((runAll [.analyseSlope none, .removeWaterTable] exReady).analyseSlope none).2 = _
    rw [e, k, exAnalyse]
  · rw [e, k, exAnalyse_search]
    simp

end PySlope
