import Verif.Lemmas.WFCalls

/-! # Properties that the boundary, the loads and the analyses do not touch -/

namespace PySlope

/-- `I` survives the assignments made by the boundary options and the loads, and the loss of the
results. -/
structure SteadyLoads {K : Type} [PyNum K] (I : Slope K → Prop) : Prop where
  minH : ∀ s x, I s → I { s with minExtH := x }
  minL : ∀ s x, I s → I { s with minExtL := x }
  setExternalBoundary : ∀ {s}, I s → ∀ a b c, I (s.setExternalBoundary a b c).1
  udls : ∀ s a m, I s → I { s with udls := a, udlMax := m }
  lls : ∀ s a, I s → I { s with lls := a }
  forget : ∀ s, I s → I { s with search := [] }

/-- `I` survives an analysis as well. -/
structure Steady {K : Type} [PyNum K] (I : Slope K → Prop) : Prop extends SteadyLoads I where
  dyn : ∀ s d, I s → I { s with dynResults := d }
  analyse : ∀ s m, I s → I (s.analyseSlope m).1

namespace SteadyLoads
variable {K : Type} [PyNum K] {I : Slope K → Prop} (S : SteadyLoads I) {s : Slope K}
include S

theorem reset (h : I s) : I s.resetResults := S.forget s h

theorem updateBoundaryOptions (w : I s) (l h : PyVal K) : I (s.updateBoundaryOptions l h).1 := by
  unfold Slope.updateBoundaryOptions
  refine andThen_inv (I := I) _ _ ?_ (fun s _ w => andThen_inv (I := I) _ _ ?_ (fun s _ w => andThen_inv (I := I) _ _ ?_
    (fun _ _ w => S.reset w)))
  · split
    · split
      · exact w
      · exact S.minH _ _ w
    · exact w
  · split
    · split
      · exact w
      · exact S.minL _ _ w
    · exact w
  · split
    · exact S.setExternalBoundary w _ _ _
    · exact w

theorem addUdl (w : I s) (u : UdlArg K) : I (s.addUdl u).1 := by
  rcases u with _ | u
  · exact w
  · unfold Slope.addUdl
    simp only
    split
    · have w' := S.udls s (s.udls ++ [placeUdl s.topX u]) s.udlMax w
      split
      · exact S.updateBoundaryOptions w' _ _
      · exact w'
    · exact w

theorem addLl (w : I s) (u : Option (LineLoad K)) : I (s.addLl u).1 := by
  rcases u with _ | u
  · exact w
  · unfold Slope.addLl
    simp only
    split
    · have w' := S.lls s (s.lls ++ [placeLl s.topX u]) w
      split
      · exact S.updateBoundaryOptions w' _ _
      · exact w'
    · exact w

theorem setUdls (w : I s) (us : List (UdlArg K)) : I (s.setUdls us).1 :=
  andThen_inv (I := I) _ _ (forEach_inv (I := I) _ (fun _ a h => S.addUdl h a) us s w) (fun _ _ w =>
    S.udls _ _ _ (S.reset w))

theorem setLls (w : I s) (us : List (Option (LineLoad K))) : I (s.setLls us).1 :=
  andThen_inv (I := I) _ _ (forEach_inv (I := I) _ (fun _ a h => S.addLl h a) us s w) (fun _ _ w =>
    S.lls _ _ (S.reset w))

theorem removeUdls (w : I s) (us : List (Udl K)) (all : Bool) : I (s.removeUdls us all).1 := by
  unfold Slope.removeUdls
  apply S.reset
  cases all
  · simp only [Bool.false_eq_true, if_false]
    split
    · exact S.udls _ _ s.udlMax w
    · exact S.udls _ _ _ w
  · simp only [if_true]
    exact S.udls _ _ _ w

theorem removeLls (w : I s) (us : List (LineLoad K)) (all : Bool) : I (s.removeLls us all).1 := by
  unfold Slope.removeLls
  apply S.reset
  cases all
  · simp only [Bool.false_eq_true, if_false]
    exact S.lls _ _ w
  · simp only [if_true]
    exact S.lls _ _ w

theorem setDynamicOffset (w : I s) (o : K) : I (s.setDynamicOffset o).1 := by
  unfold Slope.setDynamicOffset
  exact andThen_inv (I := I) _ _ (S.removeUdls w _ _) (fun _ _ w => andThen_inv (I := I) _ _ (S.removeLls w _ _)
    (fun _ _ w => andThen_inv (I := I) _ _ (forEach_inv (I := I) _ (fun _ _ h => S.setUdls h _) _ _ w)
      (fun _ _ w => forEach_inv (I := I) _ (fun _ _ h => S.setLls h _) _ _ w)))

end SteadyLoads

namespace Steady
variable {K : Type} [PyNum K] {I : Slope K → Prop} (S : Steady I) {s : Slope K}
include S

theorem tryOffset (w : I s) (o : K) : I (s.tryOffset o).1 := by
  unfold Slope.tryOffset
  refine andThen_inv (I := I) _ _ (S.setDynamicOffset w o) (fun _ _ w => andThen_inv (I := I) _ _
    (S.analyse _ _ w) (fun t _ w => ?_))
  split
  · exact w
  · exact w
  · exact S.dyn _ _ w

theorem dynLoop (w : I s) (c : K) (d : Bool) (n : Nat) (l r p : K) :
    I (s.dynLoop c d n l r p).1 := by
  induction n generalizing s l r p with
  | zero => exact w
  | succ n ih =>
    unfold Slope.dynLoop
    simp only
    split
    · exact w
    · refine andThen_inv (I := I) _ _ (S.tryOffset w _) (fun t f wt => ?_)
      split
      · exact wt
      · split
        · exact ih wt _ _ _
        · exact ih wt _ _ _

theorem analyseDynamic (w : I s) (c : K) (d : Bool) : I (s.analyseDynamic c d).1 := by
  have w0 := S.dyn s [] w
  unfold Slope.analyseDynamic
  simp only
  split
  · exact w0
  · refine andThen_inv (I := I) _ _ (S.tryOffset w0 _) (fun t f wt => ?_)
    split
    · exact wt
    · refine andThen_inv (I := I) _ _ (S.tryOffset wt _) (fun t f wt => ?_)
      split
      · exact wt
      · exact andThen_inv (I := I) _ _ (S.dynLoop wt _ _ _ _ _ _) (fun t _ wt => S.dyn _ _ wt)

end Steady

/-- Over the reals the boundary is one assignment. -/
theorem steady_geo {I : Slope ℝ → Prop} (geo : ∀ s h l, 0 ≤ h → 0.001 ≤ l → I s → I (s.withGeo h l))
    {s : Slope ℝ} (h : I s) (a b c : PyVal ℝ) : I (s.setExternalBoundary a b c).1 := by
  unfold Slope.setExternalBoundary
  split
  · exact h
  · rename_i H L e
    obtain ⟨h1, h2⟩ := boundaryInputs_ok e
    have : (0 : ℝ) < L := by norm_num at h2 ⊢; linarith
    rw [applyBoundary_eq _ _ _ this]
    exact geo _ _ _ h1 h2 h

/-- `I` survives the assignments made by the boundary options, the loads and the analyses, whatever
planes and results they leave. -/
structure Stable (I : Slope ℝ → Prop) : Prop where
  minH : ∀ s x, I s → I { s with minExtH := x }
  minL : ∀ s x, I s → I { s with minExtL := x }
  geo : ∀ s h l, I s → I (s.withGeo h l)
  udls : ∀ s a m, I s → I { s with udls := a, udlMax := m }
  lls : ∀ s a, I s → I { s with lls := a }
  res : ∀ s a b, I s → I { s with search := a, individual := b }
  dyn : ∀ s d, I s → I { s with dynResults := d }

namespace Stable
variable {I : Slope ℝ → Prop} (S : Stable I) {s : Slope ℝ}
include S

theorem analyseSlope (w : I s) (m) : I (s.analyseSlope m).1 := by
  unfold Slope.analyseSlope
  split
  · simp only
    split <;> exact S.res _ _ _ w
  · split
    · exact w
    · simp only
      split <;> exact S.res _ _ s.individual w

theorem steady : Steady I :=
  ⟨⟨S.minH, S.minL, fun w a b c => steady_geo (fun s h l _ _ w => S.geo s h l w) w a b c, S.udls, S.lls,
    fun s w => S.res s [] s.individual w⟩, S.dyn, fun _ m w => S.analyseSlope w m⟩

theorem reset (h : I s) : I s.resetResults := S.steady.reset h

theorem setExternalBoundary (h : I s) (a b c : PyVal ℝ) : I (s.setExternalBoundary a b c).1 :=
  S.steady.setExternalBoundary h a b c

theorem updateBoundaryOptions (w : I s) (l h : PyVal ℝ) : I (s.updateBoundaryOptions l h).1 :=
  S.steady.updateBoundaryOptions w l h

theorem setUdls (w : I s) (us : List (UdlArg ℝ)) : I (s.setUdls us).1 := S.steady.setUdls w us

theorem setLls (w : I s) (us : List (Option (LineLoad ℝ))) : I (s.setLls us).1 :=
  S.steady.setLls w us

theorem removeUdls (w : I s) (us : List (Udl ℝ)) (all : Bool) : I (s.removeUdls us all).1 :=
  S.steady.removeUdls w us all

theorem removeLls (w : I s) (us : List (LineLoad ℝ)) (all : Bool) : I (s.removeLls us all).1 :=
  S.steady.removeLls w us all

theorem analyseDynamic (w : I s) (c : ℝ) (d : Bool) : I (s.analyseDynamic c d).1 :=
  S.steady.analyseDynamic w c d

theorem singleEntryExit (w : I s) (l r n) : I (s.addSingleEntryExitPlane l r n).1 := by
  unfold Slope.addSingleEntryExitPlane
  split
  · split
    · exact w
    · exact S.res s _ _ w
  · exact w

theorem singleCircular (w : I s) (x y r) : I (s.addSingleCircularPlane x y r).1 := by
  unfold Slope.addSingleCircularPlane
  split
  · exact w
  · split
    · exact w
    · split
      · exact S.res s _ _ w
      · exact w

theorem removeIndividual (w : I s) : I s.removeIndividualPlanes.1 := S.res s _ _ w

end Stable

/-- The list of layers is one of the things they do not touch. -/
theorem stable_materials (ms : List (Layer ℝ)) : Stable (fun s => s.materials = ms) :=
  ⟨fun _ _ h => h, fun _ _ h => h, fun _ _ _ h => h, fun _ _ _ h => h, fun _ _ h => h,
    fun _ _ _ h => h, fun _ _ h => h⟩

theorem stable_water (rl dep : Option ℝ) : Stable (fun s => s.waterRL = rl ∧ s.waterDepth = dep) :=
  ⟨fun _ _ h => h, fun _ _ h => h, fun _ _ _ h => h, fun _ _ _ h => h, fun _ _ h => h,
    fun _ _ _ h => h, fun _ _ h => h⟩

end PySlope
