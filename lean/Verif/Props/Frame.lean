import Verif.Spec.Frame
import Verif.Props.Dynamic
import Verif.Lemmas.PlaneHistory

/-! # C125: a call changes only what it is about -/

namespace PySlope

/-- `t` has all of `s` but, perhaps, `ps`. -/
def AllBut (ps : List Part) (s t : Slope ℝ) : Prop := Geo t ∧ ∀ p, p ∉ ps → SamePart s t p

theorem SamePart.refl (s : Slope ℝ) (p : Part) : SamePart s s p := by
  cases p <;> simp [SamePart]

theorem SamePart.trans {s t u : Slope ℝ} {p : Part} (h : SamePart s t p) (k : SamePart t u p) : SamePart s u p := by
  cases p <;> simp only [SamePart] at *
  · exact ⟨k.1.trans h.1, k.2.1.trans h.2.1, k.2.2.trans h.2.2⟩
  all_goals exact k.trans h

theorem SamePart.symm {s t : Slope ℝ} {p : Part} (h : SamePart s t p) : SamePart t s p := by
  cases p <;> simp only [SamePart] at *
  · exact ⟨h.1.symm, h.2.1.symm, h.2.2.symm⟩
  all_goals exact h.symm

theorem AllBut.trans {ps : List Part} {s t u : Slope ℝ} (h : AllBut ps s t) (k : AllBut ps t u) : AllBut ps s u :=
  ⟨k.1, fun p hp => (h.2 p hp).trans (k.2 p hp)⟩

theorem AllBut.refl {s : Slope ℝ} (g : Geo s) (ps : List Part) : AllBut ps s s := ⟨g, fun p _ => .refl s p⟩

theorem AllBut.weaken {ps qs : List Part} {s t : Slope ℝ} (h : AllBut ps s t) (k : ∀ p ∈ ps, p ∈ qs) : AllBut qs s t :=
  ⟨h.1, fun p hp => h.2 p fun hq => hp (k p hq)⟩

/-- Rebuilding the ground of the same slope. -/
theorem withGeo_same {s : Slope ℝ} (g : Geo s) (a b : ℝ) :
    AllBut [] s (({ s with minExtL := a, minExtH := b } : Slope ℝ).withGeo s.height s.length) := by
  refine ⟨Geo.withGeo _ g.hgt g.len, fun p _ => ?_⟩
  cases p <;> simp [SamePart, Slope.withGeo, g.grad, Function.comp_def, placeUdl, placeLl]

theorem updateBoundaryOptions_same {s : Slope ℝ} (g : Geo s) (l h : PyVal ℝ) :
    AllBut [] s (s.updateBoundaryOptions l h).1 := by
  obtain ⟨mL, mH, -, e | ⟨x, e⟩⟩ := updateBoundaryOptions_form g l h
  · rw [e]
    exact withGeo_same g _ _
  · rw [e]
    refine ⟨{ g with }, fun p _ => ?_⟩
    cases p <;> simp [SamePart]

theorem addUdl_same {s : Slope ℝ} (g : Geo s) (u : UdlArg ℝ) : AllBut [.udls] s (s.addUdl u).1 := by
  cases u with
  | none => exact .refl g _
  | some u =>
    have k : ∀ l, AllBut [.udls] s { s with udls := l } := by
      refine fun l => ⟨{ g with }, fun p hp => ?_⟩
      cases p <;> simp [SamePart] at hp ⊢
    unfold Slope.addUdl
    simp only
    split
    · split
      · exact (k _).trans ((updateBoundaryOptions_same (k _).1 _ _).weaken (by simp))
      · exact k _
    · exact .refl g _

theorem addLl_same {s : Slope ℝ} (g : Geo s) (u : Option (LineLoad ℝ)) : AllBut [.lls] s (s.addLl u).1 := by
  cases u with
  | none => exact .refl g _
  | some u =>
    have k : ∀ l, AllBut [.lls] s { s with lls := l } := by
      refine fun l => ⟨{ g with }, fun p hp => ?_⟩
      cases p <;> simp [SamePart] at hp ⊢
    unfold Slope.addLl
    simp only
    split
    · split
      · exact (k _).trans ((updateBoundaryOptions_same (k _).1 _ _).weaken (by simp))
      · exact k _
    · exact .refl g _

theorem setUdls_same {s : Slope ℝ} (g : Geo s) (us : List (UdlArg ℝ)) : AllBut [.udls] s (s.setUdls us).1 := by
  unfold Slope.setUdls
  refine andThen_inv (I := AllBut [.udls] s) _ _ ?_ ?_
  · exact forEach_inv (I := AllBut [.udls] s) _ (fun t a h => h.trans (addUdl_same h.1 a)) _ _ (.refl g _)
  · intro t _ h
    refine h.trans ⟨{ h.1 with }, fun p hp => ?_⟩
    cases p <;> simp [SamePart, Slope.updateUdlCoordinates, Slope.resetResults] at hp ⊢

theorem setLls_same {s : Slope ℝ} (g : Geo s) (us : List (Option (LineLoad ℝ))) :
    AllBut [.lls] s (s.setLls us).1 := by
  unfold Slope.setLls
  refine andThen_inv (I := AllBut [.lls] s) _ _ ?_ ?_
  · exact forEach_inv (I := AllBut [.lls] s) _ (fun t a h => h.trans (addLl_same h.1 a)) _ _ (.refl g _)
  · intro t _ h
    refine h.trans ⟨{ h.1 with }, fun p hp => ?_⟩
    cases p <;> simp [SamePart, Slope.updateLlCoordinates, Slope.resetResults] at hp ⊢

theorem analyseSlope_same (s : Slope ℝ) (m : Option ℝ) (p : Part) : SamePart s (s.analyseSlope m).1 p := by
  obtain ⟨x, y, e, h⟩ := C25_configuration_untouched s m
  rw [e]
  cases p with
  | circles =>
    have := congrArg (List.map fun p : Plane ℝ => (p.cx, p.cy, p.radius, p.lc, p.rc)) h
    simpa [SamePart, Function.comp_def] using this
  | _ => simp [SamePart]

theorem analyseDynamic_circles (s : Slope ℝ) (c : ℝ) (d : Bool) : SamePart s (s.analyseDynamic c d).1 .circles := by
  have S : Steady (fun t => SamePart s t .circles) :=
    { minH := fun _ _ h => h
      minL := fun _ _ h => h
      setExternalBoundary := fun h a b c => steady_geo (I := fun t => SamePart s t .circles) (fun _ _ _ _ _ h => h) h a b c
      udls := fun _ _ _ h => h
      lls := fun _ _ h => h
      forget := fun _ h => h
      dyn := fun _ _ h => h
      analyse := fun t m h => h.trans (analyseSlope_same t m _) }
  exact S.analyseDynamic (.refl s _) c d

/-- C125: whatever the state, the arguments and the outcome, a call changes nothing the user entered but what
the call is about. -/
theorem C125_only_its_own (s : Slope ℝ) (r : Reachable s) (o : Op ℝ) (p : Part) (hp : p ∉ o.about) :
    SamePart s (o.run s).1 p := by
  have g := r.wf.geo
  cases o with
  | setExternalBoundary h a l =>
    refine steady_geo (I := fun t => SamePart s t p) (fun t h l _ _ k => ?_) (.refl s p) h a l
    refine k.trans ?_
    cases p <;> simp [SamePart, Slope.withGeo, Function.comp_def, placeUdl, placeLl, Op.about] at hp ⊢
  | setWaterTable d =>
    change SamePart s (s.setWaterTable d).1 p
    unfold Slope.setWaterTable
    split
    · cases p <;> simp [SamePart, Slope.resetResults, Op.about] at hp ⊢
    · split <;> cases p <;> simp [SamePart, Slope.resetResults, Op.about] at hp ⊢
  | removeWaterTable => cases p <;> simp [SamePart, Op.run, Slope.removeWaterTable, Slope.resetResults, Op.about] at hp ⊢
  | setUdls us => exact (setUdls_same g us).2 p hp
  | removeUdls us all =>
    change SamePart s (s.removeUdls us all).1 p
    obtain ⟨_, _, e⟩ := WFS.removeUdls_rest s us all
    rw [e]
    cases p <;> simp [SamePart, Op.about] at hp ⊢
  | setLls us => exact (setLls_same g us).2 p hp
  | removeLls us all =>
    change SamePart s (s.removeLls us all).1 p
    obtain ⟨_, e⟩ := WFS.removeLls_rest s us all
    rw [e]
    cases p <;> simp [SamePart, Op.about] at hp ⊢
  | setMaterials ms =>
    change SamePart s (s.setMaterials ms).1 p
    unfold Slope.setMaterials
    split
    · exact .refl s p
    · simp only
      split
      · exact .refl s p
      · refine andThen_inv (I := fun t => SamePart s t p) _ _ ?_ (fun t _ k => ?_)
        · split
          · exact (updateBoundaryOptions_same g _ _).2 p (by simp)
          · exact .refl s p
        · split
          · exact k
          · refine k.trans ?_
            cases p <;> simp [SamePart, Slope.resetResults, Op.about] at hp ⊢
  | removeMaterial m d all =>
    cases p <;> simp [SamePart, Op.run, Slope.removeMaterial, Slope.resetResults, Op.about] at hp ⊢
  | updateWaterAnalysisOptions auto h =>
    change SamePart s (s.updateWaterAnalysisOptions auto h).1 p
    unfold Slope.updateWaterAnalysisOptions
    split
    · cases p <;> simp [SamePart, Slope.resetResults, Op.about] at hp ⊢
    · split <;> cases p <;> simp [SamePart, Slope.resetResults, Op.about] at hp ⊢
  | updateAnalysisOptions a b c d e =>
    change SamePart s (s.updateAnalysisOptions a b c d e).1 p
    obtain ⟨_, _, _, _, _, _, _, k⟩ := updateAnalysisOptions_rest s a b c d e
    rw [k]
    cases p <;> simp [SamePart, Op.about] at hp ⊢
  | updateBoundaryOptions l h => exact (updateBoundaryOptions_same g l h).2 p (by simp)
  | removeAnalysisLimits =>
    change SamePart s s.removeAnalysisLimits.1 p
    have w := r.wf
    rw [removeAnalysisLimits_eq s (by have := w.l1; have := w.l12; have := w.l2; linarith)
      (by have := w.l3; have := w.l34; have := w.l4; linarith)]
    cases p <;> simp [SamePart]
  | setAnalysisLimits a b c d =>
    change SamePart s (s.setAnalysisLimits a b c d).1 p
    rcases WFS.setAnalysisLimits_rest s a b c d with ⟨l1, l2, l3, l4, e⟩ | ⟨x, e⟩
    · rw [e]
      cases p <;> simp [SamePart]
    · rw [e]
      exact .refl s p
  | addSingleEntryExitPlane l r n =>
    change SamePart s (s.addSingleEntryExitPlane l r n).1 p
    unfold Slope.addSingleEntryExitPlane
    repeat' split
    all_goals cases p <;> simp [SamePart, Slope.resetResults, Op.about] at hp ⊢
  | addSingleCircularPlane x y r =>
    change SamePart s (s.addSingleCircularPlane x y r).1 p
    unfold Slope.addSingleCircularPlane
    repeat' split
    all_goals cases p <;> simp [SamePart, Slope.resetResults, Op.about] at hp ⊢
  | removeIndividualPlanes =>
    cases p <;> simp [SamePart, Op.run, Slope.removeIndividualPlanes, Slope.resetResults, Op.about] at hp ⊢
  | analyseSlope m => exact analyseSlope_same s m p
  | analyseDynamic c d =>
    change SamePart s (s.analyseDynamic c d).1 p
    obtain ⟨k, -⟩ := C47_only_dynamic_loads_move s r c d
    cases p with
    | udls => simp [Op.about] at hp
    | lls => simp [Op.about] at hp
    | slope => exact ⟨k.height, k.length, k.gradient⟩
    | materials => simp [SamePart, k.materials]
    | water => exact k.waterDepth
    | waterFactor => exact k.waterH
    | options => simp [SamePart, k.slices, k.iterations, k.minFailureDist, k.tolerance, k.maxIterations]
    | circles => exact analyseDynamic_circles s c d

/-- C125 for a whole history: what none of its calls is about is at the end what it was at the start. -/
theorem C125_history (os : List (Op ℝ)) (s : Slope ℝ) (r : Reachable s) (hv : ∀ o ∈ os, o.Valid) (p : Part)
    (hp : ∀ o ∈ os, p ∉ o.about) : SamePart s (runAll os s) p := by
  induction os generalizing s with
  | nil => exact .refl s p
  | cons o os ih =>
    exact (C125_only_its_own s r o p (hp o (by simp))).trans
      (ih _ (r.call (Op.call (hv o (by simp)))) (fun o ho => hv o (by simp [ho])) (fun o ho => hp o (by simp [ho])))

/-- A case: the example, with its material, after a load 40 m away (for which the ground is moved), a water table
and other options. The material is what it was. -/
example : SamePart exSoil (runAll [.setLls [some (exLl 40)], .setWaterTable (.num 2),
    .updateAnalysisOptions (some 50) none none none none] exSoil) .materials ∧ exSoil.materials ≠ [] ∧
    (exSoil.setLls [some (exLl 40)]).1.lls ≠ exSoil.lls := by
  refine ⟨C125_history _ exSoil exSoil_reachable ?_ _ ?_, by simp, ?_⟩
  · intro o ho
    simp only [List.mem_cons, List.not_mem_nil, or_false] at ho
    rcases ho with rfl | rfl | rfl
    · intro u hu
      simp at hu
      subst hu
      exact exLl_constructed 40
    · trivial
    · trivial
  · intro o ho
    simp only [List.mem_cons, List.not_mem_nil, or_false] at ho
    rcases ho with rfl | rfl | rfl <;> simp [Op.about]
  · obtain ⟨-, h, -⟩ := (C15_loads_fit exSoil exSoil_reachable).2 [some (exLl 40)]
      (by intro u hu; simp at hu; subst hu; exact exLl_constructed 40)
    intro e
    rw [e] at h
    have : exSoil.lls = [] := rfl
    rw [this] at h
    simp [exLl] at h

end PySlope
