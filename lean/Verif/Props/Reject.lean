import Verif.Spec.Reject
import Verif.Props.Loads
import Verif.Props.Materials
import Verif.Props.Circles

/-! # C122: a call that raises changes nothing -/

namespace PySlope

theorem setExternalBoundary_raises {s : Slope ℝ} {h a l : PyVal ℝ} {e : PyErr}
    (x : (s.setExternalBoundary h a l).2 = .error e) : (s.setExternalBoundary h a l).1 = s := by
  unfold Slope.setExternalBoundary at x ⊢
  cases hb : boundaryInputs h a l with
  | error e => rfl
  | ok p =>
    obtain ⟨H, L⟩ := p
    rw [hb] at x
    have h2 := (boundaryInputs_ok hb).2
    simp only at x
    rw [applyBoundary_eq _ _ _ (by norm_num at h2 ⊢; linarith)] at x
    cases x

/-- C122 (partial): a call that raises leaves the slope exactly as it was, results included. This covers every
public method that enters something or takes something out but `set_materials` and `update_boundary_options`,
for which see below. -/
theorem C122_raise_changes_nothing_partial (s : Slope ℝ) (r : Reachable s) (o : Out ℝ Unit) (h : Entry s o)
    (e : PyErr) (x : o.2 = .error e) : o.1 = s := by
  have w := r.wfs
  cases h with
  | setExternalBoundary h a l => exact setExternalBoundary_raises x
  | setWaterTable d =>
    unfold Slope.setWaterTable at x ⊢
    split at x
    · cases x
    · split at x
      · rfl
      · cases x
  | removeWaterTable => cases x
  | setUdls us hu =>
    obtain ⟨t, e', -⟩ := forEach_addUdl w us (fun v hv => (hu v hv).facts.2.2)
    unfold Slope.setUdls at x
    rw [e'] at x
    cases x
  | removeUdls us all => cases x
  | setLls ls =>
    obtain ⟨t, e', -⟩ := forEach_addLl w ls
    unfold Slope.setLls at x
    rw [e'] at x
    cases x
  | removeLls ls all => cases x
  | removeMaterial m d all => cases x
  | updateWaterAnalysisOptions auto h =>
    unfold Slope.updateWaterAnalysisOptions at x ⊢
    split at x
    · cases x
    · rename_i ha
      rw [if_neg ha]
      split at x
      · rfl
      · cases x
  | updateAnalysisOptions a b c d e => cases x
  | setAnalysisLimits a b c d =>
    rcases WFS.setAnalysisLimits_rest s a b c d with ⟨_, _, _, _, h⟩ | ⟨_, h⟩
    · rw [h] at x; cases x
    · rw [h]
  | removeAnalysisLimits =>
    unfold Slope.removeAnalysisLimits at x ⊢
    rcases WFS.setAnalysisLimits_rest s (.num (@OfNat.ofNat ℝ 0 (Lit.natLit 0))) (.num s.extL) (.num s.topX)
        (.num s.topX) with
      ⟨_, _, _, _, h⟩ | ⟨_, h⟩
    · rw [h] at x; cases x
    · rw [h]; rfl
  | addSingleEntryExitPlane l r n =>
    unfold Slope.addSingleEntryExitPlane at x ⊢
    split at x
    · split at x
      · rfl
      · cases x
    · rfl
  | addSingleCircularPlane a b c =>
    unfold Slope.addSingleCircularPlane at x ⊢
    split at x
    · rfl
    · split at x
      · cases x
      · rename_i hn
        rw [if_neg hn]
        split at x
        · cases x
        · rfl
  | removeIndividualPlanes => cases x

/-- C122 (partial) for `set_materials`: if an argument is not a material, or if no material reaches below the
model, a call that raises leaves the slope exactly as it was. -/
theorem C122_materials_partial (s : Slope ℝ) (ms : List (Option (Material ℝ)))
    (h : none ∈ ms ∨ (∀ m, some m ∈ ms → m.depth ≤ s.extH) ∧ ∀ l ∈ s.materials, l.mat.depth ≤ s.extH)
    (e : PyErr) (x : (s.setMaterials ms).2 = .error e) : (s.setMaterials ms).1 = s := by
  unfold Slope.setMaterials at x ⊢
  by_cases ha : ms.any (·.isNone)
  · rw [if_pos ha]
  · rw [if_neg ha] at x ⊢
    rcases h with h | ⟨h1, h2⟩
    · exact absurd (List.any_eq_true.mpr ⟨none, h, rfl⟩) ha
    · simp only at x ⊢
      split at x
      · rfl
      · rename_i d hd
        have hle : ¬ s.extH < d := by
          have hm := List.mem_of_getLast? hd
          obtain ⟨m, hs, rfl⟩ := List.mem_map.mp hm
          have := (sortByKey_perm Material.depth (ms.filterMap id ++ s.materials.map Layer.mat)).mem_iff.mp hs
          rw [List.mem_append] at this
          rw [not_lt]
          rcases this with h | h
          · obtain ⟨a, ha, e⟩ := List.mem_filterMap.mp h
            cases e
            exact h1 m ha
          · obtain ⟨l, hl, rfl⟩ := List.mem_map.mp h
            exact h2 l hl
        rw [if_neg hle] at x ⊢
        simp only [Out.andThen] at x ⊢
        split at x
        · rename_i hc; rw [if_pos hc]
        · cases x

/-- C122 (partial) for `update_boundary_options`: a call that raises changes nothing but the least height of
the model for later calls, and not even that if a single size is given. -/
theorem C122_boundary_options_partial (s : Slope ℝ) (r : Reachable s) (l h : PyVal ℝ) (e : PyErr)
    (x : (s.updateBoundaryOptions l h).2 = .error e) :
    (∃ m, (s.updateBoundaryOptions l h).1 = { s with minExtH := m }) ∧
    (l = .none ∨ h = .none → (s.updateBoundaryOptions l h).1 = s) := by
  have g := r.wf.geo
  constructor
  · obtain ⟨mL, mH, -, h1 | ⟨e', h1⟩⟩ := updateBoundaryOptions_form g l h
    · rw [h1] at x; cases x
    · exact ⟨mH, by rw [h1]⟩
  · obtain ⟨b, hb⟩ := Option.isSome_iff_exists.mp g.bnd
    rintro (rfl | rfl)
    · unfold Slope.updateBoundaryOptions at x ⊢
      by_cases ht : h.truthy
      · rw [if_pos ht] at x ⊢
        cases h2 : assertStrictlyPositiveNumber (@OfNat.ofNat ℝ 0 (Lit.natLit 0)) h with
        | error e => rfl
        | ok u =>
          rw [h2] at x
          have g' : Geo { s with minExtH := h.get! } := { g with }
          simp only [Out.andThen, PyVal.truthy, Bool.false_eq_true, if_false, hb,
            setExternalBoundary_same g'] at x
          cases x
      · rw [if_neg ht] at x
        simp only [Out.andThen, PyVal.truthy, Bool.false_eq_true, if_false, hb, setExternalBoundary_same g] at x
        cases x
    · have tn : (PyVal.none : PyVal ℝ).truthy = false := rfl
      unfold Slope.updateBoundaryOptions at x ⊢
      simp only [tn, Bool.false_eq_true, if_false, Out.andThen] at x ⊢
      by_cases ht : l.truthy
      · rw [if_pos ht] at x ⊢
        cases h2 : assertStrictlyPositiveNumber (@OfNat.ofNat ℝ 0 (Lit.natLit 0)) l with
        | error e => rfl
        | ok u =>
          rw [h2] at x
          have g' : Geo { s with minExtL := l.get! } := { g with }
          simp only [Out.andThen, hb, setExternalBoundary_same g'] at x
          cases x
      · rw [if_neg ht] at x
        simp only [Out.andThen, hb, setExternalBoundary_same g] at x
        cases x

theorem exSoil_refused : exSoil.setMaterials ([exMat 20, exMat 20].map some) =
    (exSoil.deepen 20, .error .valueError) := by
  have g := exSoil_reachable.wf.geo
  have hm : ∀ m, m ∈ exSoil.allMats [exMat 20, exMat 20] ↔ m = exMat 20 ∨ m = exMat 2 := by
    intro m
    rw [mem_allMats]
    simp [mkLayer]
  have hd : ((exSoil.allMats [exMat 20, exMat 20]).map Material.depth).getLast? = some 20 := by
    have hs : ((exSoil.allMats [exMat 20, exMat 20]).map Material.depth).Pairwise (· ≤ ·) := by
      rw [List.pairwise_map]
      exact sortByKey_sorted _ _
    cases h : ((exSoil.allMats [exMat 20, exMat 20]).map Material.depth).getLast? with
    | none =>
      rw [List.getLast?_eq_none_iff, List.map_eq_nil_iff] at h
      have := (hm (exMat 20)).mpr (.inl rfl)
      rw [h] at this
      cases this
    | some d =>
      obtain ⟨h1, h2⟩ := getLast_sorted hs h
      have h3 := h2 20 (List.mem_map.mpr ⟨exMat 20, (hm _).mpr (.inl rfl), by simp [exMat]⟩)
      obtain ⟨m, hm', rfl⟩ := List.mem_map.mp h1
      rcases (hm m).mp hm' with rfl | rfl
      · simp [exMat]
      · simp [exMat] at h3
        norm_num at h3
  rw [setMaterials_eq g _ 20 hd, if_neg]
  intro h
  have hp := (sortByKey_perm Material.depth ([exMat 20, exMat 20] ++ exSoil.materials.map Layer.mat)).map
    Material.depth
  have := hp.nodup_iff.mp h
  simp at this

/-- C122 is violated by `set_materials`: two materials at the same depth, below the model, are refused, and the
crest of the example is 11 m higher than before. The layer it has keeps its level: its bottom was 2 m below the
crest and is 13 m below it now. -/
theorem C122_materials_violated : ∃ (s : Slope ℝ) (ms : List (Option (Material ℝ))), Reachable s ∧
    (∀ m, some m ∈ ms → Material.Constructed m) ∧ (s.setMaterials ms).2 = .error .valueError ∧
    s.topY = 9 ∧ (s.setMaterials ms).1.topY = 20 ∧
    s.materials.map (fun l => (l.mat.depth, l.rl)) = [(2, 7)] ∧
    (s.setMaterials ms).1.materials.map (fun l => (l.mat.depth, l.rl)) = [(2, 7)] := by
  have hm : exSoil.materials.map (fun l => (l.mat.depth, l.rl)) = [(2, 7)] := by
    simp [mkLayer, exMat]
    norm_num
  refine ⟨exSoil, [exMat 20, exMat 20].map some, exSoil_reachable, ?_, ?_, exSoil_topY, ?_, hm, ?_⟩
  · intro m hm; simp at hm; subst hm; exact exMat_constructed _
  · rw [exSoil_refused]
  · rw [exSoil_refused, (exSoil_reachable.wf.geo.deepen 20).topY,
      exSoil_reachable.wf.geo.deepen_eq (by simp; norm_num)]
  · rw [exSoil_refused, Slope.deepen_materials]
    exact hm

/-- C122 is violated by `update_boundary_options`: with a height of 20 m and a length that is refused the call
raises, and the height of 20 m is in force at the next call, here `update_boundary_options()`. -/
theorem C122_boundary_options_violated : ∃ s : Slope ℝ, Reachable s ∧
    (s.updateBoundaryOptions (.num (-1)) (.num 20)).2 = .error .valueError ∧
    (s.updateBoundaryOptions .none .none).1.topY = 9 ∧
    ((s.updateBoundaryOptions (.num (-1)) (.num 20)).1.updateBoundaryOptions .none .none).1.topY = 20 := by
  have e : exSoil.updateBoundaryOptions (.num (-1)) (.num 20) = ({ exSoil with minExtH := 20 }, .error .valueError) := by
    have t1 : (PyVal.num (20 : ℝ)).truthy = true := by rw [truthy_num]; norm_num
    have t2 : (PyVal.num (-1 : ℝ)).truthy = true := by rw [truthy_num]; norm_num
    have a2 : assertStrictlyPositiveNumber (@OfNat.ofNat ℝ 0 (Lit.natLit 0)) (PyVal.num (-1 : ℝ)) =
        .error .valueError := by
      simp only [assertStrictlyPositiveNumber, lit_zero]
      exact if_pos (by simp [PyCmp.ltb])
    unfold Slope.updateBoundaryOptions
    simp only [t1, t2, if_true, assertStrict_num (show (0 : ℝ) ≤ 20 by norm_num), a2, Out.andThen, PyVal.get!]
  have n : ∀ t : Slope ℝ, Geo t → (t.updateBoundaryOptions .none .none).1.topY = totH t t.height t.length := by
    intro t g
    obtain ⟨b, hb⟩ := Option.isSome_iff_exists.mp g.bnd
    have tn : (PyVal.none : PyVal ℝ).truthy = false := rfl
    unfold Slope.updateBoundaryOptions
    simp only [tn, Bool.false_eq_true, if_false, Out.andThen, hb, setExternalBoundary_same g]
    rfl
  have g := exSoil_reachable.wf.geo
  have h1 : exSoil.height = 3 := rfl
  have h2 : exSoil.length = 3 := rfl
  refine ⟨exSoil, exSoil_reachable, by rw [e], ?_, ?_⟩
  · have h3 : exSoil.minExtH = 6 := rfl
    rw [n _ g, totH, h1, h2, h3]
    norm_num
  · rw [e, n _ (by exact { g with }), totH]
    simp only [h1, h2]
    norm_num

/-- A case of the first theorem: `set_water_table(-1)` raises. -/
example : (exSoil.setWaterTable (.num (-1))).2 = .error .valueError ∧ (exSoil.setWaterTable (.num (-1))).1 = exSoil := by
  have h : (exSoil.setWaterTable (.num (-1))).2 = .error .valueError := by
    unfold Slope.setWaterTable
    simp only [assertPositiveNumber, lit_zero]
    rw [if_pos (by simp [PyCmp.ltb])]
  exact ⟨h, C122_raise_changes_nothing_partial exSoil exSoil_reachable _ (.setWaterTable _) _ h⟩

/-- A case of the second: a second material at 2 m. -/
example : (exSoil.setMaterials ([exMat 2].map some)).2 = .error .valueError ∧
    (exSoil.setMaterials ([exMat 2].map some)).1 = exSoil := by
  have h := (C12_duplicate_refused exSoil exSoil_reachable [exMat 2] (by simp [mkLayer])).1
  refine ⟨h, C122_materials_partial exSoil _ (.inr ⟨?_, ?_⟩) _ h⟩
  · intro m hm
    simp at hm
    subst hm
    simp [exMat]
    norm_num
  · intro l hl
    simp at hl
    subst hl
    simp [exMat, mkLayer]
    norm_num

end PySlope
