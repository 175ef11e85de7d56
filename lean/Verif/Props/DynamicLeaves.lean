import Verif.Props.UndoFar
import Verif.Props.Dynamic

/-! # C123: an analysis leaves the slope as it found it -/

namespace PySlope

theorem Grown.setUdl {s t : Slope ℝ} (h : Grown s t) (u : Udl ℝ) (hu : ∀ l, u.length = some l → 0 < l) :
    Grown s (t.setUdls [some u]).1 := by
  have k := h.addUdl (some u) (fun v e => by cases e; exact hu)
  have w := h.1.setUdls [some u] (by intro v hv; simp at hv; subst hv; exact hu)
  refine ⟨w, ?_, h.2.2.trans (setUdl_ground h.1 u).1⟩
  unfold Slope.setUdls Slope.forEach Slope.forEach
  cases e : t.addUdl (some u) with
  | mk v r =>
    rw [e] at k
    cases r with
    | error x => exact k.2.1
    | ok x => exact ⟨k.2.1.1, k.2.1.2⟩

theorem Grown.setLl {s t : Slope ℝ} (h : Grown s t) (u : LineLoad ℝ) : Grown s (t.setLls [some u]).1 := by
  have k := h.addLl (some u)
  have w := h.1.setLls [some u]
  refine ⟨w, ?_, h.2.2.trans (setLl_ground h.1 u).1⟩
  unfold Slope.setLls Slope.forEach Slope.forEach
  cases e : t.addLl (some u) with
  | mk v r =>
    rw [e] at k
    cases r with
    | error x => exact k.2.1
    | ok x => exact ⟨k.2.1.1, k.2.1.2⟩

theorem sized_setDynamicOffset {s : Slope ℝ} (h : WFS s) (z : Sized s) (o : ℝ) :
    Sized (s.setDynamicOffset o).1 := by
  have h1 : WFS (s.removeUdls [] true).1 := h.removeUdls _ _
  have r1 : ∃ m, s.removeUdls [] true = ({ s with udls := [], udlMax := m, search := [] }, .ok ()) :=
    ⟨_, rfl⟩
  obtain ⟨m, r1⟩ := r1
  have r2 : ({ s with udls := [], udlMax := m, search := [] } : Slope ℝ).removeLls [] true =
      ({ s with udls := [], udlMax := m, lls := [], search := [] }, .ok ()) := rfl
  have h2 := WFS.removeLls h1 [] true
  rw [r1] at h2
  simp only at h2
  rw [r2] at h2
  simp only at h2
  have g0 : Grown s { s with udls := [], udlMax := m, lls := [], search := [] } :=
    ⟨h2, ⟨z.1, z.2⟩, ⟨rfl, rfl, rfl, rfl, rfl, rfl, rfl, rfl, rfl, rfl, rfl, rfl, rfl, le_refl _⟩⟩
  unfold Slope.setDynamicOffset
  simp only
  rw [r1]
  simp only [andThen_done]
  rw [r2]
  simp only [andThen_done]
  refine (andThen_inv (I := Grown s) _ _ ?_ ?_).2.1
  · refine forEach_inv_mem (I := Grown s) _ _ (fun t p hp g => ?_) _ g0
    have hl := (h.2.udl p.load (List.mem_map_of_mem hp)).2
    refine g.setUdl _ ?_
    split
    · exact hl
    · exact hl
  · intro t _ g
    exact forEach_inv_mem (I := Grown s) _ _ (fun t p _ g => g.setLl _) t g

theorem Sized.attempts {s t : Slope ℝ} {l : List (ℝ × ℝ)} (hw : WFS s) (z : Sized s) (h : Attempts s l t) :
    Sized t := by
  induction h with
  | nil d => exact ⟨z.1, z.2⟩
  | @snoc l t o f u hA hT ih =>
    have zt := ih
    have wt := (hA.spec hw).1
    obtain ⟨a, b, d, e1, e2, -, rfl⟩ := hT
    have za := sized_setDynamicOffset wt zt o
    rw [e1] at za
    obtain ⟨p, q, e3, -⟩ := C25_configuration_untouched a none
    rw [e2] at e3
    simp only at e3
    rw [e3]
    exact ⟨za.1, za.2⟩

/-- C123 (partial): a dynamic analysis of a slope without dynamic loads that returns leaves a slope that behaves
as before, seen from the crest. (`C25_analysing_twice` and `C25_configuration_untouched` say so, and more, for
`analyse_slope`.) Missing: slopes with dynamic loads, see `C123_loads_left_elsewhere`. -/
theorem C123_no_dynamic_loads_partial (s : Slope ℝ) (r : Reachable s) (z : Sized s) (ps : InPlace s)
    (hu : ∀ p ∈ s.udls, p.load.dynamic = false) (hl : ∀ p ∈ s.lls, p.load.dynamic = false)
    (c : ℝ) (dec : Bool) {t : Slope ℝ} {k : Option Nat} (h : s.analyseDynamic c dec = (t, .ok k)) :
    ActsAsFromCrest s t := by
  have rt : Reachable t := by
    have := r.call (.analyseDynamic s c dec)
    rwa [h] at this
  have zt : Sized t := by
    obtain ⟨left, -, ⟨-, f, hA, -⟩ | ⟨-, f, g, hA, -⟩ | ⟨-, f, g, m, hA, -⟩⟩ := C49_return_codes_partial s r c dec h
    all_goals exact z.attempts r.wfs hA
  obtain ⟨g, hm⟩ := C47_only_dynamic_loads_move s r c dec
  rw [h] at g hm
  have hu' : ∀ o, (s.udls.map PUdl.load).map (Udl.movedTo o) = s.udls.map PUdl.load := by
    intro o
    rw [List.map_map]
    refine List.map_congr_left fun p hp => ?_
    simp [Udl.movedTo, hu p hp]
  have hl' : ∀ o, (s.lls.map PLl.load).map (LineLoad.movedTo o) = s.lls.map PLl.load := by
    intro o
    rw [List.map_map]
    refine List.map_congr_left fun p hp => ?_
    simp [LineLoad.movedTo, hl p hp]
  rcases hm with ⟨e1, e2⟩ | ⟨o, e1, e2⟩
  · exact fromCrest_of r rt z zt g ps (by rw [e1]) (by rw [e2])
  · exact fromCrest_of r rt z zt g ps (e1.trans (hu' o)) (e2.trans (hl' o))

/-- The example is as big as it has to be, and everything is in its place. -/
theorem exReady_sized : Sized exReady := by
  have h1 : exReady.extH = 9 := exSlope_extH
  have h2 : exReady.extL = 15 := exSlope_extL
  have h3 : exReady.minExtH = 6 := rfl
  have h4 : exReady.minExtL = 10 := rfl
  have h5 : exReady.height = 3 := rfl
  have h6 : exReady.length = 3 := rfl
  constructor
  · rw [h1, h3, h5, h6]; norm_num
  · rw [h2, h4, h5, h6]; norm_num

/-- A case: the example, which has no loads, in a dynamic analysis that returns 0. -/
example : ∃ t, exReady.analyseDynamic (exFos - 1) false = (t, .ok (some 0)) ∧ ActsAsFromCrest exReady t := by
  set b : Slope ℝ := { exReady with dynResults := [] } with hb
  have ra : Reachable ((exReady.removeUdls [] true).1.removeLls [] true).1 :=
    (exReady_reachable.call (.removeUdls _ _ _)).call (.removeLls _ _ _)
  have e0 : ∃ m, b.setDynamicOffset 0 = ({ exReady with udls := [], udlMax := m, lls := [], search := [] }, .ok ()) ∧
      ((exReady.removeUdls [] true).1.removeLls [] true).1 =
        { exReady with udls := [], udlMax := m, lls := [], search := [] } := ⟨_, rfl, rfl⟩
  obtain ⟨m, e1, e2⟩ := e0
  rw [e2] at ra
  have act : ActsAs exReady { exReady with udls := [], udlMax := m, lls := [], search := [] } :=
    actsAs_of exReady_reachable ra (by constructor <;> rfl) rfl rfl rfl
  have ok : (exReady.analyseSlope none).2 = .ok () := by rw [exAnalyse]
  have e3 := act.outcome none
  have e4 := (act.results none ok).2
  rw [ok] at e3
  rw [exMinFos] at e4
  have e5 : b.tryOffset 0 = ({ (Slope.analyseSlope { exReady with udls := [], udlMax := m, lls := [], search := [] } none).1 with
      dynResults := dictSet (Slope.analyseSlope { exReady with udls := [], udlMax := m, lls := [], search := [] } none).1.dynResults
        0 exFos }, .ok exFos) := by
    unfold Slope.tryOffset
    rw [e1, andThen_done]
    generalize Slope.analyseSlope { exReady with udls := [], udlMax := m, lls := [], search := [] } none = x at e3 e4 ⊢
    obtain ⟨x, y⟩ := x
    simp only at e3 e4
    rw [e3, andThen_done, e4]
  have e6 : ∃ t, exReady.analyseDynamic (exFos - 1) false = (t, .ok (some 0)) := by
    unfold Slope.analyseDynamic
    simp only
    rw [show maxOffset exReady.topX exReady.udls exReady.length = .ok 3 from rfl]
    simp only [lit_zero]
    rw [e5]
    simp only [Out.andThen]
    rw [if_pos (by linarith)]
    exact ⟨_, rfl⟩
  obtain ⟨t, ht⟩ := e6
  exact ⟨t, ht, C123_no_dynamic_loads_partial exReady exReady_reachable exReady_sized { exSoil_inPlace with }
    (by intro p hp; cases hp) (by intro p hp; cases hp) _ _ ht⟩

/-- What an analysis of the example reports, wherever it comes from. -/
theorem DynState.min {c e o : ℝ} {t : Slope ℝ} (h : DynState c e o t) (h3 : 3 ≤ e) (h4 : e ≤ 4) (hc : c ≠ 0)
    (ho : |o| ≤ 10 / 3) : (t.analyseSlope none).1.getMinFos = .ok (some (cFos c e o)) := by
  obtain ⟨hsa, ⟨v, hia⟩, -, -⟩ := h
  have hb : t.bishop 9 (6 + cRad e) (cRad e) none none = .ok (cFos c e o) := by
    rw [hsa.bishop]
    exact exDyn_bishop h3 h4 hc ho
  have hA := analyseSlope_of (s := t) (ps := t.individual) (.inl ⟨by rw [hia]; simp, rfl⟩) (by
    intro p hp x hx
    rw [hia, List.mem_singleton] at hp
    subst hp
    unfold FosRaises at hx
    change t.bishop 9 (6 + cRad e) (cRad e) none none = _ at hx
    rw [hb] at hx
    cases hx) none
  have hfo : ∀ w, fosOf t { cPlane e with fos := w } = some (cFos c e o) := fun w => fosOf_some.mpr hb
  have hsearch : (t.analysedTo none t.individual).search = [withFos t { cPlane e with fos := v }] := by
    rw [hia]
    change tidySearch none [withFos t { cPlane e with fos := v }] = _
    rw [tidySearch_eq]
    have : (withFos t { cPlane e with fos := v }).fosVal.isSome := by
      rw [fosVal_withFos, hfo]; rfl
    simp [this, sortByKey, pySort, keeps]
  rw [hA]
  unfold Slope.getMinFos
  simp only
  rw [hsearch]
  simp only [withFos, hfo]

/-- C123 is violated: a line load 3 m behind the crest, off the sliding mass. `analyse_dynamic` returns 0, safe
at the crest, and leaves the load at the crest; analysing the slope again reports less than before. -/
theorem C123_loads_left_elsewhere : ∃ (s t : Slope ℝ) (c a b : ℝ), Reachable s ∧
    s.analyseDynamic c false = (t, .ok (some 0)) ∧
    s.lls.map (·.load.offset) = [3] ∧ t.lls.map (·.load.offset) = [0] ∧
    (s.analyseSlope none).1.getMinFos = .ok (some a) ∧ (t.analyseSlope none).1.getMinFos = .ok (some b) ∧ b < a := by
  have h3 : (3 : ℝ) ≤ 4 := by norm_num
  have h4 : (4 : ℝ) ≤ 4 := le_rfl
  have h5 : (5 : ℝ) ≠ 0 := by norm_num
  have a3 : |(3 : ℝ)| = 3 := by norm_num
  have hs := exDyn_state (c := 5) (e := 4) (o := 3) h3 h4 (by norm_num)
  obtain ⟨u, e1, hu⟩ := (hs.dyn []).try h3 h4 h5 (o' := 0) le_rfl (by norm_num)
  have l1 : cFos 5 4 0 < cFos 5 4 3 := cFos_lt h3 h4 h5 (by norm_num) (by norm_num)
  refine ⟨exDyn 5 4 3, u, cFos 5 4 0 - 1, cFos 5 4 3, cFos 5 4 0, exDyn_reachable h3 h4 (by norm_num), ?_, ?_, ?_, ?_, ?_, l1⟩
  · unfold Slope.analyseDynamic
    simp only
    rw [show maxOffset (exDyn 5 4 3).topX (exDyn 5 4 3).udls (exDyn 5 4 3).length = .ok 3 from rfl]
    simp only [lit_zero]
    rw [e1]
    simp only [Out.andThen]
    rw [if_pos (by linarith)]
  · simp [exDyn, placeLl, dynLl]
  · have : u.lls = [placeLl exSlope.topX (dynLl 0)] := hu.setup.lls
    rw [this]
    simp [placeLl, dynLl]
  · exact hs.min h3 h4 h5 (by norm_num)
  · exact hu.min h3 h4 h5 (by norm_num)

end PySlope
