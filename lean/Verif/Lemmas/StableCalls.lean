import Verif.Lemmas.Sane
import Verif.Lemmas.Stable

/-! # What a call can do to a stable property -/

namespace PySlope

/-- The calls that can touch a stable property. -/
theorem Stable.call {I : Slope ℝ → Prop} (S : Stable I) {s t : Slope ℝ} (w : WF s) (h : I s)
    (c : Call s t) :
    I t ∨ (∃ d, t = (s.setWaterTable d).1) ∨ t = s.removeWaterTable.1 ∨
    (∃ ms, t = (s.setMaterials ms).1) ∨ (∃ m d a, t = (s.removeMaterial m d a).1) ∨
    (∃ a h, t = (s.updateWaterAnalysisOptions a h).1) ∨
    (∃ a b c d e, t = (s.updateAnalysisOptions a b c d e).1) ∨
    (∃ l1 l2 l3 l4, t = { s with lim1 := l1, lim2 := l2, lim3 := l3, lim4 := l4, search := [] }) := by
  cases c with
  | setExternalBoundary h' a l => exact .inl (S.setExternalBoundary h _ _ _)
  | setWaterTable d => exact .inr (.inl ⟨d, rfl⟩)
  | removeWaterTable => exact .inr (.inr (.inl rfl))
  | setUdls us _ => exact .inl (S.setUdls h _)
  | removeUdls us all => exact .inl (S.removeUdls h _ _)
  | setLls ls _ => exact .inl (S.setLls h _)
  | removeLls ls all => exact .inl (S.removeLls h _ _)
  | setMaterials ms _ => exact .inr (.inr (.inr (.inl ⟨ms, rfl⟩)))
  | removeMaterial m d all => exact .inr (.inr (.inr (.inr (.inl ⟨m, d, all, rfl⟩))))
  | updateWaterAnalysisOptions a h =>
    exact .inr (.inr (.inr (.inr (.inr (.inl ⟨a, h, rfl⟩)))))
  | updateAnalysisOptions a b c d e =>
    exact .inr (.inr (.inr (.inr (.inr (.inr (.inl ⟨a, b, c, d, e, rfl⟩))))))
  | updateBoundaryOptions l h' => exact .inl (S.updateBoundaryOptions h _ _)
  | removeAnalysisLimits =>
    right; right; right; right; right; right; right
    refine ⟨0, s.topX, s.topX, s.extL, ?_⟩
    rw [removeAnalysisLimits_eq]
    · have := w.l1; have := w.l12; have := w.l2; linarith
    · have := w.l3; have := w.l34; have := w.l4; linarith
  | setAnalysisLimits a b c d =>
    rcases WFS.setAnalysisLimits_rest s a b c d with ⟨l1, l2, l3, l4, e⟩ | ⟨x, e⟩
    · exact .inr (.inr (.inr (.inr (.inr (.inr (.inr ⟨l1, l2, l3, l4, by rw [e]⟩))))))
    · rw [e]; exact .inl h
  | addSingleEntryExitPlane l r n => exact .inl (S.singleEntryExit h _ _ _)
  | addSingleCircularPlane x y r => exact .inl (S.singleCircular h _ _ _)
  | removeIndividualPlanes => exact .inl (S.removeIndividual h)
  | analyseSlope m => exact .inl (S.analyseSlope h _)
  | analyseDynamic c d => exact .inl (S.analyseDynamic h _ _)

/-- `set_materials` on a stable property that does not depend on the materials. -/
theorem Stable.setMaterials {I : Slope ℝ → Prop} (S : Stable I) {s : Slope ℝ} (h : I s)
    (hm : ∀ s m, I s → I { s with materials := m }) (ms) : I (s.setMaterials ms).1 := by
  unfold Slope.setMaterials
  split
  · exact h
  · simp only
    split
    · exact h
    · refine andThen_inv (I := I) _ _ ?_ (fun t _ w => ?_)
      · split
        · exact S.updateBoundaryOptions h _ _
        · exact h
      · split
        · exact w
        · exact S.reset (hm _ _ w)

theorem stable_waterH (x : ℝ) : Stable (fun s => s.waterH = x) :=
  ⟨fun _ _ h => h, fun _ _ h => h, fun _ _ _ h => h, fun _ _ _ h => h, fun _ _ h => h,
    fun _ _ _ h => h, fun _ _ h => h⟩

/-- `update_analysis_options` assigns only its five options and drops the results. -/
theorem updateAnalysisOptions_rest {K : Type} [PyNum K] (s : Slope K) (a b c d e) :
    ∃ n i f t m, (n = s.slices ∨ 10 ≤ n ∧ n ≤ 500) ∧ (i = s.iterations ∨ 500 ≤ i ∧ i ≤ 100000) ∧
      s.updateAnalysisOptions a b c d e =
      ({ s with slices := n, iterations := i, minFailureDist := f, tolerance := t,
                maxIterations := m, search := [] }, .ok ()) := by
  unfold Slope.updateAnalysisOptions Slope.resetResults
  rcases a with _ | n <;> rcases b with _ | m <;> rcases c with _ | _ <;>
    rcases d with _ | _ <;> rcases e with _ | _ <;> simp only <;> (repeat' split) <;>
    exact ⟨_, _, _, _, _, (by first | exact .inl rfl | (right; dsimp only; constructor <;> omega)),
      (by first | exact .inl rfl | (right; dsimp only; constructor <;> omega)), rfl⟩

end PySlope
