import Verif.Lemmas.WF

/-! # Every public call keeps the invariant -/

namespace PySlope

/-- The parts of a state the invariant reads. -/
def SameCore (s t : Slope ℝ) : Prop :=
  t.extBoundary = s.extBoundary ∧ t.height = s.height ∧ t.length = s.length ∧
  t.gradient = s.gradient ∧ t.topX = s.topX ∧ t.topY = s.topY ∧ t.botX = s.botX ∧
  t.botY = s.botY ∧ t.extL = s.extL ∧ t.extH = s.extH ∧ t.lim1 = s.lim1 ∧ t.lim2 = s.lim2 ∧
  t.lim3 = s.lim3 ∧ t.lim4 = s.lim4 ∧ t.slices = s.slices ∧ t.iterations = s.iterations ∧
  t.waterH = s.waterH ∧ t.udls = s.udls ∧ t.lls = s.lls ∧ t.materials = s.materials

theorem WF.congr {s t : Slope ℝ} (w : WF s) (h : SameCore s t) : WF t := by
  obtain ⟨h1, h2, h3, h4, h5, h6, h7, h8, h9, h10, h11, h12, h13, h14, h15, h16, h17, h18, h19,
    h20⟩ := h
  obtain ⟨⟨a1, a2, a3, a4, a5, a6, a7, a8, a9, a10, a11, a12⟩, b1, b2, b3, b4, b5, b6, b7, b8,
    b9, b10, b11, b12⟩ := w
  refine ⟨⟨?_, ?_, ?_, ?_, ?_, ?_, ?_, ?_, ?_, ?_, ?_, ?_⟩, ?_, ?_, ?_, ?_, ?_, ?_, ?_, ?_, ?_,
    ?_, ?_, ?_⟩ <;> simp only [h1, h2, h3, h4, h5, h6, h7, h8, h9, h10, h11, h12, h13, h14, h15,
    h16, h17, h18, h19, h20] <;> assumption

theorem WF.search {s : Slope ℝ} (w : WF s) (ps) : WF { s with search := ps } :=
  w.congr (by simp [SameCore])

theorem WF.reset {s : Slope ℝ} (w : WF s) : WF s.resetResults := w.search []

theorem WF.setAnalysisLimits {s : Slope ℝ} (w : WF s) (a b c d : PyVal ℝ) :
    WF (s.setAnalysisLimits a b c d).1 := by
  unfold Slope.setAnalysisLimits
  simp only
  split
  · rename_i s' e
    apply WF.reset
    simp only [bind, Except.bind] at e
    split at e
    · cases e
    · rename_i lx _
      split at e
      · cases e
      · rename_i lxr _
        split at e
        · cases e
        · rename_i rxl _
          split at e
          · cases e
          · rename_i rx _
            split at e
            · cases e
            · rename_i rx' hrx
              have hrx' : rx' ≤ s.extL := by
                revert hrx
                rcases rx with x | x | _ | _ <;>
                  simp [pure, Except.pure, throw, throwThe, MonadExceptOf.throw] <;>
                  intro h <;> rw [← h] <;> exact min_le_right _ _
              simp only [pyMax_real, pyMin_real, lit_zero] at e
              by_cases hc : min lxr s.topX ≤ max lx 0 ∨ rx' ≤ max rxl.get! s.topX
              · rw [if_pos hc] at e
                cases e
              · rw [if_neg hc] at e
                cases e
                push Not at hc
                exact ⟨⟨w.geo.1, w.geo.2, w.geo.3, w.geo.4, w.geo.5, w.geo.6, w.geo.7, w.geo.8,
                  w.geo.9, w.geo.10, w.geo.11, w.geo.12⟩, le_max_right _ _, hc.1,
                  min_le_right _ _, le_max_right _ _, hc.2, hrx', w.sl, w.it, w.wh, w.udl, w.ll,
                  w.mats⟩
  · exact w

theorem WF.removeAnalysisLimits {s : Slope ℝ} (w : WF s) : WF s.removeAnalysisLimits.1 :=
  andThen_inv _ _ (w.setAnalysisLimits _ _ _ _) (fun _ _ h => h.reset)

theorem WF.updateBoundaryOptions {s : Slope ℝ} (w : WF s) (l h : PyVal ℝ) :
    WF (s.updateBoundaryOptions l h).1 := by
  unfold Slope.updateBoundaryOptions
  refine andThen_inv _ _ ?_ (fun s _ w => andThen_inv _ _ ?_ (fun s _ w => andThen_inv _ _ ?_
    (fun _ _ w => w.reset)))
  · split
    · split
      · exact w
      · exact w.congr (by simp [SameCore])
    · exact w
  · split
    · split
      · exact w
      · exact w.congr (by simp [SameCore])
    · exact w
  · split
    · exact w.setExternalBoundary _ _ _
    · exact w

/-- Loads of a state in the middle of `set_udls` are where they belong too. -/
theorem WF.addUdl {s : Slope ℝ} (w : WF s) (u : UdlArg ℝ) : WF (s.addUdl u).1 := by
  rcases u with _ | u
  · exact w
  · unfold Slope.addUdl
    simp only
    split
    · have w' : WF { s with udls := s.udls ++ [placeUdl s.topX u] } := by
        refine ⟨⟨w.geo.1, w.geo.2, w.geo.3, w.geo.4, w.geo.5, w.geo.6, w.geo.7, w.geo.8,
          w.geo.9, w.geo.10, w.geo.11, w.geo.12⟩, w.l1, w.l12, w.l2, w.l3, w.l34, w.l4, w.sl,
          w.it, w.wh, ?_, w.ll, w.mats⟩
        intro p hp
        rcases List.mem_append.mp hp with hp | hp
        · exact w.udl p hp
        · rw [List.mem_singleton.mp hp]; rfl
      split
      · exact w'.updateBoundaryOptions _ _
      · exact w'
    · exact w

theorem WF.addLl {s : Slope ℝ} (w : WF s) (u : Option (LineLoad ℝ)) : WF (s.addLl u).1 := by
  rcases u with _ | u
  · exact w
  · unfold Slope.addLl
    simp only
    split
    · have w' : WF { s with lls := s.lls ++ [placeLl s.topX u] } := by
        refine ⟨⟨w.geo.1, w.geo.2, w.geo.3, w.geo.4, w.geo.5, w.geo.6, w.geo.7, w.geo.8,
          w.geo.9, w.geo.10, w.geo.11, w.geo.12⟩, w.l1, w.l12, w.l2, w.l3, w.l34, w.l4, w.sl,
          w.it, w.wh, w.udl, ?_, w.mats⟩
        intro p hp
        rcases List.mem_append.mp hp with hp | hp
        · exact w.ll p hp
        · rw [List.mem_singleton.mp hp]; rfl
      split
      · exact w'.updateBoundaryOptions _ _
      · exact w'
    · exact w

theorem map_place_udl {s : Slope ℝ} (w : WF s) :
    s.udls.map (fun p => placeUdl s.topX p.load) = s.udls := by
  conv_rhs => rw [← List.map_id s.udls]
  exact List.map_congr_left (fun p hp => (w.udl p hp).symm)

theorem map_place_ll {s : Slope ℝ} (w : WF s) :
    s.lls.map (fun p => placeLl s.topX p.load) = s.lls := by
  conv_rhs => rw [← List.map_id s.lls]
  exact List.map_congr_left (fun p hp => (w.ll p hp).symm)

theorem WF.setUdls {s : Slope ℝ} (w : WF s) (us : List (UdlArg ℝ)) : WF (s.setUdls us).1 :=
  andThen_inv _ _ (forEach_inv _ (fun _ a h => h.addUdl a) us s w) (fun s _ w => by
    apply WF.reset
    refine w.congr ?_
    simp [SameCore, Slope.updateUdlCoordinates, map_place_udl w])

theorem WF.setLls {s : Slope ℝ} (w : WF s) (us : List (Option (LineLoad ℝ))) :
    WF (s.setLls us).1 :=
  andThen_inv _ _ (forEach_inv _ (fun _ a h => h.addLl a) us s w) (fun s _ w => by
    apply WF.reset
    refine w.congr ?_
    simp [SameCore, Slope.updateLlCoordinates, map_place_ll w])

theorem removeFirst_sublist {α : Type} (p : α → Bool) (l : List α) :
    (removeFirst p l).Sublist l := by
  induction l with
  | nil => exact List.Sublist.refl _
  | cons a l ih =>
    unfold removeFirst
    split
    · exact List.sublist_cons_self a l
    · exact ih.cons_cons a

theorem removeLoop_sublist {α : Type} (t : α → Bool) (eq : α → α → Bool) (fuel i : Nat)
    (l : List α) : (removeLoop t eq fuel i l).Sublist l := by
  induction fuel generalizing i l with
  | zero => exact List.Sublist.refl _
  | succ n ih =>
    unfold removeLoop
    split
    · exact List.Sublist.refl _
    · split
      · exact (ih _ _).trans (removeFirst_sublist _ _)
      · exact ih _ _

theorem foldl_remove_sublist {α β : Type} (f : List α → β → List α)
    (hf : ∀ l b, (f l b).Sublist l) (bs : List β) (l : List α) : (bs.foldl f l).Sublist l := by
  induction bs generalizing l with
  | nil => exact List.Sublist.refl _
  | cons b bs ih => exact (ih _).trans (hf l b)

theorem WF.udlsSub {s t : Slope ℝ} (w : WF s) (h : t.udls.Sublist s.udls)
    (e : SameCore s { t with udls := s.udls }) : WF t := by
  have w' := w.congr e
  exact ⟨⟨w'.geo.1, w'.geo.2, w'.geo.3, w'.geo.4, w'.geo.5, w'.geo.6, w'.geo.7, w'.geo.8,
    w'.geo.9, w'.geo.10, w'.geo.11, w'.geo.12⟩, w'.l1, w'.l12, w'.l2, w'.l3, w'.l34, w'.l4,
    w'.sl, w'.it, w'.wh, fun p hp => w'.udl p (h.subset hp), w'.ll, w'.mats⟩

theorem WF.llsSub {s t : Slope ℝ} (w : WF s) (h : t.lls.Sublist s.lls)
    (e : SameCore s { t with lls := s.lls }) : WF t := by
  have w' := w.congr e
  exact ⟨⟨w'.geo.1, w'.geo.2, w'.geo.3, w'.geo.4, w'.geo.5, w'.geo.6, w'.geo.7, w'.geo.8,
    w'.geo.9, w'.geo.10, w'.geo.11, w'.geo.12⟩, w'.l1, w'.l12, w'.l2, w'.l3, w'.l34, w'.l4,
    w'.sl, w'.it, w'.wh, w'.udl, fun p hp => w'.ll p (h.subset hp), w'.mats⟩

theorem WF.removeUdls {s : Slope ℝ} (w : WF s) (us : List (Udl ℝ)) (all : Bool) :
    WF (s.removeUdls us all).1 := by
  have hs := foldl_remove_sublist (fun (l : List (PUdl ℝ)) (u : Udl ℝ) =>
    removeLoop (fun (c : PUdl ℝ) => c.load.matches u) (fun a b => a.load.eq b.load) l.length 0 l)
    (fun l b => removeLoop_sublist _ _ _ _ _) us s.udls
  unfold Slope.removeUdls
  apply WF.reset
  cases all
  · simp only [Bool.false_eq_true, if_false]
    split
    · exact w.udlsSub hs (by simp [SameCore])
    · exact w.udlsSub hs (by simp [SameCore])
  · simp only [if_true]
    exact w.udlsSub (List.nil_sublist _) (by simp [SameCore])

theorem WF.removeLls {s : Slope ℝ} (w : WF s) (us : List (LineLoad ℝ)) (all : Bool) :
    WF (s.removeLls us all).1 := by
  have hs := foldl_remove_sublist (fun (l : List (PLl ℝ)) (u : LineLoad ℝ) =>
    removeLoop (fun (c : PLl ℝ) => c.load.matches u) (fun a b => a.load.eq b.load) l.length 0 l)
    (fun l b => removeLoop_sublist _ _ _ _ _) us s.lls
  unfold Slope.removeLls
  apply WF.reset
  cases all
  · simp only [Bool.false_eq_true, if_false]
    exact w.llsSub hs (by simp [SameCore])
  · simp only [if_true]
    exact w.llsSub (List.nil_sublist _) (by simp [SameCore])

theorem mkLayers_mats (H : ℝ) (i : Nat) (ms : List (Material ℝ)) :
    (mkLayers H i ms).map Layer.mat = ms := by
  induction ms generalizing i with
  | nil => rfl
  | cons m ms ih => simp [mkLayers, mkLayer, ih]

theorem WF.withMats {s : Slope ℝ} (w : WF s) (ls : List (Layer ℝ))
    (h : ls.Pairwise (fun a b => a.mat.depth < b.mat.depth)) : WF { s with materials := ls } :=
  ⟨⟨w.geo.1, w.geo.2, w.geo.3, w.geo.4, w.geo.5, w.geo.6, w.geo.7, w.geo.8,
    w.geo.9, w.geo.10, w.geo.11, w.geo.12⟩, w.l1, w.l12, w.l2, w.l3, w.l34, w.l4, w.sl, w.it,
    w.wh, w.udl, w.ll, h⟩

/-- Layers made from sorted materials with distinct depths are strictly sorted. -/
theorem mkLayers_strict (H : ℝ) (l : List (Material ℝ))
    (hn : ((sortByKey Material.depth l).map Material.depth).Nodup) :
    (mkLayers H 0 (sortByKey Material.depth l)).Pairwise
      (fun a b => a.mat.depth < b.mat.depth) := by
  have h1 := sortByKey_sorted Material.depth l
  have h2 := List.pairwise_map.mp hn
  have h3 : (sortByKey Material.depth l).Pairwise (fun a b => a.depth < b.depth) :=
    (h1.and h2).imp (fun ⟨a, b⟩ => lt_of_le_of_ne a b)
  have h4 := mkLayers_mats H 0 (sortByKey Material.depth l)
  rw [← h4, List.pairwise_map] at h3
  exact h3

theorem WF.setMaterials {s : Slope ℝ} (w : WF s) (ms : List (Option (Material ℝ))) :
    WF (s.setMaterials ms).1 := by
  unfold Slope.setMaterials
  split
  · exact w
  · simp only
    split
    · exact w
    · refine andThen_inv _ _ ?_ ?_
      · split
        · exact w.updateBoundaryOptions _ _
        · exact w
      · intro t _ wt
        split
        · exact wt
        · rename_i hlt
          rw [setSizeNum_lt_iff, not_not] at hlt
          exact (wt.withMats _ (mkLayers_strict _ _ hlt)).reset

theorem WF.removeMaterial {s : Slope ℝ} (w : WF s) (m d all) :
    WF (s.removeMaterial m d all).1 := by
  unfold Slope.removeMaterial
  apply WF.reset
  apply w.withMats
  cases all
  · simp only [Bool.false_eq_true, if_false]
    split
    · exact w.mats
    · split
      · exact w.mats
      · split
        · exact w.mats
        · exact w.mats.sublist (removeFirst_sublist _ _)
  · simp

theorem WF.withWaterH {s : Slope ℝ} (w : WF s) (x : ℝ) (h : 0 ≤ x ∧ x ≤ 1) :
    WF { s with waterH := x } :=
  ⟨⟨w.geo.1, w.geo.2, w.geo.3, w.geo.4, w.geo.5, w.geo.6, w.geo.7, w.geo.8,
    w.geo.9, w.geo.10, w.geo.11, w.geo.12⟩, w.l1, w.l12, w.l2, w.l3, w.l34, w.l4, w.sl, w.it,
    h, w.udl, w.ll, w.mats⟩

theorem waterH_auto (g : ℝ) : 0 ≤ sq (PyNum.cos (PyNum.atan g)) ∧
    sq (PyNum.cos (PyNum.atan g)) ≤ (1 : ℝ) := by
  rw [sq_real]
  exact ⟨sq_nonneg _, Real.cos_sq_le_one _⟩

theorem waterH_manual (h : ℝ) : 0 ≤ (if 1 < h then 1 else if h < 0 then 0 else h) ∧
    (if 1 < h then 1 else if h < 0 then 0 else h) ≤ (1 : ℝ) := by
  split
  · norm_num
  · split
    · norm_num
    · constructor <;> linarith

theorem WF.updateWater {s : Slope ℝ} (w : WF s) (auto h) :
    WF (s.updateWaterAnalysisOptions auto h).1 := by
  unfold Slope.updateWaterAnalysisOptions
  split
  · exact (w.withWaterH _ (waterH_auto _)).reset
  · split
    · exact w
    · simp only [lit_zero, lit_one]
      exact (w.withWaterH _ (waterH_manual _)).reset

theorem WF.updateAnalysis {s : Slope ℝ} (w : WF s) (a b c d e) :
    WF (s.updateAnalysisOptions a b c d e).1 := by
  obtain ⟨⟨a1, a2, a3, a4, a5, a6, a7, a8, a9, a10, a11, a12⟩, b1, b2, b3, b4, b5, b6, b7, b8,
    b9, b10, b11, b12⟩ := w
  unfold Slope.updateAnalysisOptions
  apply WF.reset
  rcases a with _ | n <;> rcases b with _ | m <;> rcases c with _ | _ <;> rcases d with _ | _ <;>
    rcases e with _ | _ <;> simp only <;> (repeat' split) <;>
    refine ⟨⟨a1, a2, a3, a4, a5, a6, a7, a8, a9, a10, a11, a12⟩, b1, b2, b3, b4, b5, b6, ?_, ?_,
      b9, b10, b11, b12⟩ <;> first | exact b7 | exact b8 | (dsimp only; omega)

theorem WF.water {s : Slope ℝ} (w : WF s) (d) : WF (s.setWaterTable d).1 := by
  unfold Slope.setWaterTable
  split
  · exact (w.congr (by simp [SameCore])).reset
  · split
    · exact w
    · exact (w.congr (by simp [SameCore])).reset

theorem WF.analyseSlope {s : Slope ℝ} (w : WF s) (m) : WF (s.analyseSlope m).1 := by
  unfold Slope.analyseSlope
  split
  · simp only
    split <;> exact w.congr (by simp [SameCore])
  · split
    · exact w
    · simp only
      split <;> exact w.congr (by simp [SameCore])

theorem WF.setDynamicOffset {s : Slope ℝ} (w : WF s) (o : ℝ) : WF (s.setDynamicOffset o).1 := by
  unfold Slope.setDynamicOffset
  exact andThen_inv _ _ (w.removeUdls _ _) (fun _ _ w => andThen_inv _ _ (w.removeLls _ _)
    (fun _ _ w => andThen_inv _ _ (forEach_inv _ (fun _ _ h => h.setUdls _) _ _ w)
      (fun _ _ w => forEach_inv _ (fun _ _ h => h.setLls _) _ _ w)))

theorem WF.tryOffset {s : Slope ℝ} (w : WF s) (o : ℝ) : WF (s.tryOffset o).1 := by
  unfold Slope.tryOffset
  refine andThen_inv _ _ (w.setDynamicOffset o) (fun _ _ w => andThen_inv _ _ (w.analyseSlope _)
    (fun t _ w => ?_))
  split
  · exact w
  · exact w
  · exact w.congr (by simp [SameCore])

theorem WF.dynLoop {s : Slope ℝ} (w : WF s) (c : ℝ) (d : Bool) (n : Nat) (l r p : ℝ) :
    WF (s.dynLoop c d n l r p).1 := by
  induction n generalizing s l r p with
  | zero => exact w
  | succ n ih =>
    unfold Slope.dynLoop
    simp only
    split
    · exact w
    · refine andThen_inv _ _ (w.tryOffset _) (fun t f wt => ?_)
      split
      · exact wt
      · split
        · exact ih wt _ _ _
        · exact ih wt _ _ _

theorem WF.analyseDynamic {s : Slope ℝ} (w : WF s) (c : ℝ) (d : Bool) :
    WF (s.analyseDynamic c d).1 := by
  have w0 : WF { s with dynResults := [] } := w.congr (by simp [SameCore])
  unfold Slope.analyseDynamic
  simp only
  split
  · exact w0
  · refine andThen_inv _ _ (w0.tryOffset _) (fun t f wt => ?_)
    split
    · exact wt
    · refine andThen_inv _ _ (wt.tryOffset _) (fun t f wt => ?_)
      split
      · exact wt
      · exact andThen_inv _ _ (wt.dynLoop _ _ _ _ _ _)
          (fun t _ wt => wt.congr (by simp [SameCore, Slope.sortDynResults]))

theorem WF.call {s t : Slope ℝ} (w : WF s) (c : Call s t) : WF t := by
  cases c with
  | setExternalBoundary h a l => exact w.setExternalBoundary h a l
  | setWaterTable d => exact w.water d
  | removeWaterTable => exact (w.congr (by simp [SameCore])).reset
  | setUdls us _ => exact w.setUdls us
  | removeUdls us all => exact w.removeUdls us all
  | setLls ls _ => exact w.setLls ls
  | removeLls ls all => exact w.removeLls ls all
  | setMaterials ms _ => exact w.setMaterials ms
  | removeMaterial m d all => exact w.removeMaterial m d all
  | updateWaterAnalysisOptions a h => exact w.updateWater a h
  | updateAnalysisOptions a b c d e => exact w.updateAnalysis a b c d e
  | updateBoundaryOptions l h => exact w.updateBoundaryOptions l h
  | removeAnalysisLimits => exact w.removeAnalysisLimits
  | setAnalysisLimits a b c d => exact w.setAnalysisLimits a b c d
  | addSingleEntryExitPlane l r n =>
    unfold Slope.addSingleEntryExitPlane
    split
    · split
      · exact w
      · exact (w.congr (by simp [SameCore])).reset
    · exact w
  | addSingleCircularPlane x y r =>
    unfold Slope.addSingleCircularPlane
    split
    · exact w
    · split
      · exact w
      · split
        · exact (w.congr (by simp [SameCore])).reset
        · exact w
  | removeIndividualPlanes => exact (w.congr (by simp [SameCore])).reset
  | analyseSlope m => exact w.analyseSlope m
  | analyseDynamic c d => exact w.analyseDynamic c d

/-- A new slope of height `H` and length `L`, all options at their defaults. -/
noncomputable def freshSlope (H L : ℝ) : Slope ℝ :=
  { ({ (Slope.blank : Slope ℝ) with minExtH := 6, minExtL := 10 } : Slope ℝ).withGeo H L with
    slices := 25, iterations := 1000,
    minFailureDist := min 0 (max (max (5 * L) 10) (4 * H) * 0.9)
    tolerance := 0.005, maxIterations := 15
    waterH := Real.cos (Real.arctan (H / L)) ^ 2 }

theorem assertStrict_num {x : ℝ} (h : 0 ≤ x) :
    assertStrictlyPositiveNumber (@OfNat.ofNat ℝ 0 (Lit.natLit 0)) (.num x) = .ok () := by
  simp only [assertStrictlyPositiveNumber, PyCmp.ltb, lit_zero]
  rw [if_neg]
  simpa using h

theorem truthy_num (x : ℝ) : (PyVal.num x).truthy = !decide (x = 0) := by
  simp [PyVal.truthy]

theorem init_options : Slope.updateBoundaryOptions (Slope.blank : Slope ℝ) (.num 10) (.num 6) =
    ({ (Slope.blank : Slope ℝ) with minExtH := 6, minExtL := 10 }, .ok ()) := by
  unfold Slope.updateBoundaryOptions
  rw [assertStrict_num (by norm_num), assertStrict_num (by norm_num), truthy_num, truthy_num]
  norm_num
  rfl

theorem new_eq (h a l : PyVal ℝ) : (Slope.new h a l : Except PyErr (Slope ℝ)) =
    match boundaryInputs h a l with
    | .error e => .error e
    | .ok (H, L) => .ok (freshSlope H L) := by
  have e0 : Slope.updateBoundaryOptions (Slope.blank : Slope ℝ)
      (.num (@OfNat.ofNat ℝ 10 (Lit.natLit 10))) (.num (@OfNat.ofNat ℝ 6 (Lit.natLit 6))) = _ :=
    init_options
  unfold Slope.new Slope.init
  rw [e0]
  simp only [Out.andThen, Slope.setExternalBoundary]
  cases hb : boundaryInputs h a l with
  | error e' => rfl
  | ok HL =>
    obtain ⟨H, L⟩ := HL
    obtain ⟨h1, h2⟩ := boundaryInputs_ok hb
    have hL : (0 : ℝ) < L := by norm_num at h2 ⊢; linarith
    simp only [applyBoundary_eq _ _ _ hL]
    have hT := totL_ge ({ (Slope.blank : Slope ℝ) with minExtH := 6, minExtL := 10 } : Slope ℝ) H L
    simp only [Slope.updateAnalysisOptions, Slope.updateWaterAnalysisOptions, if_true]
    rw [removeAnalysisLimits_eq]
    · simp [freshSlope, Slope.withGeo, Slope.resetResults, totL, totH]
      rfl
    · change 0 < (totL _ H L - L) / 2
      linarith
    · change (totL _ H L - L) / 2 < totL _ H L
      linarith

theorem WF.fresh {H L : ℝ} (h : 0 ≤ H) (l : 0.001 ≤ L) : WF (freshSlope H L) := by
  obtain ⟨⟨a1, a2, a3, a4, a5, a6, a7, a8, a9, a10, a11, a12⟩, b1, b2, b3, b4, b5, b6, b7, b8,
    b9, b10, b11, b12⟩ := WF.withGeo (s := { (Slope.blank : Slope ℝ) with
      minExtH := 6, minExtL := 10, slices := 25, iterations := 1000 }) h l
      (by norm_num) (by norm_num) (by simp [Slope.blank]) (by simp [Slope.blank])
  exact ⟨⟨a1, a2, a3, a4, a5, a6, a7, a8, a9, a10, a11, a12⟩, b1, b2, b3, b4, b5, b6, b7, b8,
    ⟨sq_nonneg _, Real.cos_sq_le_one _⟩, b10, b11, b12⟩

theorem WF.of_new {h a l : PyVal ℝ} {s : Slope ℝ} (e : Slope.new h a l = .ok s) : WF s := by
  rw [new_eq] at e
  split at e
  · cases e
  · rename_i H L hb
    obtain ⟨h1, h2⟩ := boundaryInputs_ok hb
    cases e
    exact WF.fresh h1 h2

/-- Every reachable state is well formed. -/
theorem Reachable.wf {s : Slope ℝ} (r : Reachable s) : WF s := by
  induction r with
  | init e => exact WF.of_new e
  | call _ c ih => exact ih.call c

/-! ## Closed forms on a well-formed state -/

theorem Geo.lenPos {s : Slope ℝ} (g : Geo s) : 0 < s.length := by
  have := g.len; norm_num at this ⊢; linarith

theorem setExternalBoundary_len {s : Slope ℝ} (h a l : ℝ) (hh : 0 ≤ h) (ha : 0 < a ∧ a ≤ 90)
    (hl : 0 ≤ l) : s.setExternalBoundary (.num h) (.num a) (.num l) =
      (s.withGeo h (max l 0.001), .ok ()) := by
  have e : boundaryInputs (.num h) (.num a) (.num l) = .ok (h, max l 0.001) := by
    simp [boundaryInputs, assertStrictlyPositiveNumber, assertPositiveNumber, assertRange,
      PyCmp.ltb, PyCmp.eqb, bind, Except.bind, pure, Except.pure, PyVal.get!, not_lt.mpr hh,
      not_lt.mpr hl, not_lt.mpr ha.1.le, ha.1.ne']
    have h90 : ¬ ((@OfNat.ofNat ℝ 90 (Lit.natLit 90)) < a) := not_lt.mpr ha.2
    simp [h90]
  unfold Slope.setExternalBoundary
  rw [e]
  exact applyBoundary_eq _ _ _ (lt_of_lt_of_le (by norm_num) (le_max_right _ _))

theorem setExternalBoundary_same {s : Slope ℝ} (g : Geo s) (t : Slope ℝ) :
    t.setExternalBoundary (.num s.height) (.num (@OfNat.ofNat ℝ 30 (Lit.natLit 30)))
          (.num s.length) = (t.withGeo s.height s.length, .ok ()) := by
  rw [setExternalBoundary_len _ _ _ g.hgt ⟨?_, ?_⟩ g.lenPos.le, max_eq_left g.len]
  · change (0 : ℝ) < 30; norm_num
  · change (30 : ℝ) ≤ 90; norm_num

theorem updateBoundaryOptions_L {s : Slope ℝ} (w : Geo s) (x : ℝ) (hx : 0 < x) :
    s.updateBoundaryOptions (.num x) .none =
      (({ s with minExtL := x } : Slope ℝ).withGeo s.height s.length, .ok ()) := by
  obtain ⟨b, hb⟩ := Option.isSome_iff_exists.mp w.bnd
  unfold Slope.updateBoundaryOptions
  rw [assertStrict_num hx.le, truthy_num]
  simp only [hx.ne', decide_false, Bool.not_false, if_true, PyVal.truthy, Out.andThen,
    Bool.false_eq_true, if_false, PyVal.get!, hb, setExternalBoundary_same w]
  rfl

theorem updateBoundaryOptions_H {s : Slope ℝ} (w : Geo s) (x : ℝ) (hx : 0 < x) :
    s.updateBoundaryOptions .none (.num x) =
      (({ s with minExtH := x } : Slope ℝ).withGeo s.height s.length, .ok ()) := by
  obtain ⟨b, hb⟩ := Option.isSome_iff_exists.mp w.bnd
  unfold Slope.updateBoundaryOptions
  rw [assertStrict_num hx.le, truthy_num]
  simp only [hx.ne', decide_false, Bool.not_false, if_true, PyVal.truthy, Out.andThen,
    Bool.false_eq_true, if_false, PyVal.get!, hb, setExternalBoundary_same w]
  rfl

theorem updateBoundaryOptions_LH {s : Slope ℝ} (w : Geo s) (x y : ℝ) (hx : 0 < x) (hy : 0 < y) :
    s.updateBoundaryOptions (.num x) (.num y) =
      (({ s with minExtL := x, minExtH := y } : Slope ℝ).withGeo s.height s.length, .ok ()) := by
  obtain ⟨b, hb⟩ := Option.isSome_iff_exists.mp w.bnd
  unfold Slope.updateBoundaryOptions
  rw [assertStrict_num hx.le, truthy_num, assertStrict_num hy.le, truthy_num]
  simp only [hx.ne', hy.ne', decide_false, Bool.not_false, if_true, Out.andThen, PyVal.get!,
    hb, setExternalBoundary_same w]
  rfl

theorem strict_get {v : PyVal ℝ} {u : Unit} (h : v.truthy = true)
    (e : assertStrictlyPositiveNumber (@OfNat.ofNat ℝ 0 (Lit.natLit 0)) v = .ok u) :
    0 < v.get! := by
  rcases v with x | x | _ | t <;> simp [PyVal.truthy, assertStrictlyPositiveNumber, PyCmp.ltb,
    PyVal.get!] at h e ⊢ <;> exact lt_of_le_of_ne e (Ne.symm h)

/-- What `update_boundary_options` leaves: only the minima when it raises, a new box around the
same slope when it does not. -/
theorem updateBoundaryOptions_form {s : Slope ℝ} (g : Geo s) (l h : PyVal ℝ) :
    ∃ mL mH, (mL = s.minExtL ∨ 0 < mL) ∧ (s.updateBoundaryOptions l h =
        (({ s with minExtL := mL, minExtH := mH } : Slope ℝ).withGeo s.height s.length, .ok ()) ∨
      ∃ e, s.updateBoundaryOptions l h = ({ s with minExtH := mH }, .error e)) := by
  obtain ⟨b, hb⟩ := Option.isSome_iff_exists.mp g.bnd
  unfold Slope.updateBoundaryOptions
  by_cases h1 : h.truthy
  · rw [if_pos h1]
    cases h2 : assertStrictlyPositiveNumber (@OfNat.ofNat ℝ 0 (Lit.natLit 0)) h with
    | error e => exact ⟨s.minExtL, s.minExtH, .inl rfl, .inr ⟨e, rfl⟩⟩
    | ok u =>
      simp only [Out.andThen]
      by_cases h3 : l.truthy
      · rw [if_pos h3]
        cases h4 : assertStrictlyPositiveNumber (@OfNat.ofNat ℝ 0 (Lit.natLit 0)) l with
        | error e => exact ⟨s.minExtL, h.get!, .inl rfl, .inr ⟨e, rfl⟩⟩
        | ok u =>
          simp only [hb, setExternalBoundary_same g]
          exact ⟨l.get!, h.get!, .inr (strict_get h3 h4), .inl rfl⟩
      · rw [if_neg h3]
        simp only [hb, setExternalBoundary_same g]
        exact ⟨s.minExtL, h.get!, .inl rfl, .inl rfl⟩
  · rw [if_neg h1]
    simp only [Out.andThen]
    by_cases h3 : l.truthy
    · rw [if_pos h3]
      cases h4 : assertStrictlyPositiveNumber (@OfNat.ofNat ℝ 0 (Lit.natLit 0)) l with
      | error e => exact ⟨s.minExtL, s.minExtH, .inl rfl, .inr ⟨e, rfl⟩⟩
      | ok u =>
        simp only [hb, setExternalBoundary_same g]
        exact ⟨l.get!, s.minExtH, .inr (strict_get h3 h4), .inl rfl⟩
    · rw [if_neg h3]
      simp only [hb, setExternalBoundary_same g]
      exact ⟨s.minExtL, s.minExtH, .inl rfl, .inl rfl⟩

end PySlope
