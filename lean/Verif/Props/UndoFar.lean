import Verif.Props.UndoCase
import Verif.Lemmas.Heap
import Verif.Props.Size

/-! # C121: loads so far that the model grows -/

namespace PySlope

theorem foldl_removeLoop_map {α β γ : Type} (f : α → β) (p : γ → β → Bool) (e : β → β → Bool) (us : List γ)
    (l : List α) :
    (us.foldl (fun l u => removeLoop (fun a => p u (f a)) (fun a b => e (f a) (f b)) l.length 0 l) l).map f =
      us.foldl (fun l u => removeLoop (p u) e l.length 0 l) (l.map f) := by
  induction us generalizing l with
  | nil => rfl
  | cons u us ih => rw [List.foldl_cons, List.foldl_cons, ih, removeLoop_map f (p u) e, List.length_map]

/-- What putting loads on keeps. -/
def Grown (s t : Slope ℝ) : Prop := WFS t ∧ Sized t ∧ SameGround s t

theorem Grown.addUdl {s t : Slope ℝ} (h : Grown s t) (a : UdlArg ℝ)
    (hu : ∀ v, a = some v → ∀ l, v.length = some l → 0 < l) : Grown s (t.addUdl a).1 := by
  obtain ⟨w, z, g⟩ := h
  refine ⟨⟨w.1.addUdl a, w.2.addUdl w.1.geo a hu⟩, ?_, g.trans (addUdl_ground w a).1⟩
  rcases a with _ | u
  · exact z
  · by_cases hm : 0 < u.magnitude
    · rw [addUdl_eq w.2 w.1.geo u hm]
      split
      · exact ⟨rfl, rfl⟩
      · exact ⟨z.1, z.2⟩
    · have : t.addUdl (some u) = (t, .ok ()) := by
        unfold Slope.addUdl
        simp only [lit_zero]
        rw [if_neg hm]
      rw [this]
      exact z

theorem Grown.addLl {s t : Slope ℝ} (h : Grown s t) (a : Option (LineLoad ℝ)) : Grown s (t.addLl a).1 := by
  obtain ⟨w, z, g⟩ := h
  refine ⟨⟨w.1.addLl a, w.2.addLl w.1.geo a⟩, ?_, g.trans (addLl_ground w a).1⟩
  rcases a with _ | u
  · exact z
  · by_cases hm : 0 < u.magnitude
    · rw [addLl_eq w.2 w.1.geo u hm]
      split
      · exact ⟨rfl, rfl⟩
      · exact ⟨z.1, z.2⟩
    · have : t.addLl (some u) = (t, .ok ()) := by
        unfold Slope.addLl
        simp only [lit_zero]
        rw [if_neg hm]
      rw [this]
      exact z

theorem fromCrest_of {s t : Slope ℝ} (rs : Reachable s) (rt : Reachable t) (zs : Sized s) (zt : Sized t)
    (g : SameGround s t) (ps : InPlace s) (hu : t.udls.map (·.load) = s.udls.map (·.load))
    (hl : t.lls.map (·.load) = s.lls.map (·.load)) : ActsAsFromCrest s t := by
  have gs := rs.wf.geo
  have gt := rt.wf.geo
  have hy : t.topY = s.topY := by
    rw [gt.topY, gs.topY, zt.high, zs.high, g.height, g.length, g.minExtH]
  have hL : s.extL ≤ t.extL := by
    rw [zt.long, zs.long, g.height, g.length]
    exact max_le_max (max_le_max le_rfl g.minExtL) le_rfl
  have hx : s.topX ≤ t.topX := by
    rw [gt.topX, gs.topX, g.length]
    linarith
  have et : t.extL = 2 * t.topX + s.length := by rw [gt.topX, g.length]; ring
  have es : s.extL = 2 * s.topX + s.length := by rw [gs.topX]; ring
  have pt : InPlace t := by
    refine ⟨fun l hl => ?_, fun p hp => ?_, fun z hz => ?_⟩
    · rw [hy]; exact ps.levels l (g.materials ▸ hl)
    · have : p.load ∈ t.lls.map (·.load) := List.mem_map_of_mem hp
      rw [hl] at this
      obtain ⟨q, hq, e⟩ := List.mem_map.mp this
      rw [← e]
      exact (ps.lls q hq).trans hx
    · rw [hy]; exact ps.water z (g.waterRL ▸ hz)
  refine ⟨hu, hl, hy, hx, ?_, fun cx cy r h0 h1 h2 h3 => ?_⟩
  · rw [gt.botX, gs.botX, et, es, g.length]; ring
  · refine (C91_model_size s t rs rt ⟨g.height, g.length, g.slices, g.tolerance, g.maxIterations,
      by rw [g.materials], hu, hl, by rw [g.waterRL, hy], g.waterH⟩ ps pt cx cy r ⟨h0, h1, h2, h3⟩
      ⟨h0, by linarith, by rw [et]; linarith, by rw [hy]; exact h3⟩).1

/-- C121 (partial), without a bound on the distance: putting any constructed distributed loads on and taking the
same loads off again leaves a slope that behaves as before seen from the crest. Neither call raises.
Missing: the crest moves if the model grows, and with it the limits and the planes of the search
(`C121_far_load`). -/
theorem C121_udls_far_partial (s : Slope ℝ) (r : Reachable s) (z : Sized s) (ps : InPlace s)
    (us : List (Udl ℝ)) (hc : ∀ u ∈ us, Udl.Constructed u)
    (hn : ∀ p ∈ s.udls, ∀ u ∈ us, ¬ SameUdl p.load u) :
    let a := s.setUdls (us.map some)
    let t := a.1.removeUdls us false
    a.2 = .ok () ∧ t.2 = .ok () ∧ ActsAsFromCrest s t.1 := by
  intro a t
  have w := r.wfs
  have hp : ∀ v, some v ∈ us.map some → ∀ l, v.length = some l → 0 < l := by
    intro v hv
    obtain ⟨u, hu, e⟩ := List.mem_map.mp hv
    cases e
    exact (hc v hu).facts.2.2
  obtain ⟨b, e, wb, hu, hl, -, -⟩ := forEach_addUdl w (us.map some) hp
  have gb : Grown s b := by
    have := forEach_inv_mem (I := Grown s) Slope.addUdl (us.map some)
      (fun u a ha h => h.addUdl a (fun v ev => hp v (ev ▸ ha))) s ⟨w, z, .refl s⟩
    rwa [e] at this
  have ha : a = (({ b.updateUdlCoordinates with
      udlMax := maxMagnitude b.updateUdlCoordinates.udls b.updateUdlCoordinates.udlMax } : Slope ℝ).resetResults,
      .ok ()) := by
    unfold a Slope.setUdls
    rw [e]
    rfl
  have ra : Reachable a.1 := r.call (.setUdls s (us.map some) (by
    intro u hu
    obtain ⟨v, hv, e⟩ := List.mem_map.mp hu
    cases e
    exact hc _ hv))
  have rt : Reachable t.1 := ra.call (.removeUdls a.1 us false)
  obtain ⟨l, m, ht⟩ := WFS.removeUdls_rest a.1 us false
  have hau : a.1.udls.map (·.load) = s.udls.map (·.load) ++ us.filter (fun u => decide (0 < u.magnitude)) := by
    rw [ha]
    simp only [Slope.updateUdlCoordinates, Slope.resetResults, List.map_map, Function.comp_def, placeUdl]
    rw [hu]
    simp
  have htu : t.1.udls.map (·.load) = s.udls.map (·.load) := by
    unfold t
    rw [removeUdls_udls]
    have k := fun x => foldl_removeLoop_map PUdl.load (fun u (c : Udl ℝ) => c.matches u) (fun a b => a.eq b) us x
    refine (k _).trans ?_
    rw [hau]
    refine Eq.trans ?_ (congrArg (List.map PUdl.load) (udls_back s.topX s.udls us hn))
    refine Eq.trans ?_ (k _).symm
    congr 1
    simp [Function.comp_def, placeUdl]
  refine ⟨by rw [ha], rfl, ?_⟩
  have gt : SameGround s t.1 := by
    unfold t
    rw [ht, ha]
    exact { gb.2.2 with }
  have zt : Sized t.1 := by
    unfold t
    rw [ht, ha]
    exact ⟨gb.2.1.1, gb.2.1.2⟩
  refine fromCrest_of r rt z zt gt ps htu ?_
  unfold t
  rw [ht, ha]
  exact hl

/-- C121 (partial) for line loads, without a bound on the distance. -/
theorem C121_lls_far_partial (s : Slope ℝ) (r : Reachable s) (z : Sized s) (ps : InPlace s)
    (us : List (LineLoad ℝ)) (hc : ∀ u ∈ us, LineLoad.Constructed u)
    (hn : ∀ p ∈ s.lls, ∀ u ∈ us, ¬ SameLl p.load u) :
    let a := s.setLls (us.map some)
    let t := a.1.removeLls us false
    a.2 = .ok () ∧ t.2 = .ok () ∧ ActsAsFromCrest s t.1 := by
  intro a t
  have w := r.wfs
  obtain ⟨b, e, wb, hl, hu, -, -⟩ := forEach_addLl w (us.map some)
  have gb : Grown s b := by
    have := forEach_inv_mem (I := Grown s) Slope.addLl (us.map some) (fun u a _ h => h.addLl a) s ⟨w, z, .refl s⟩
    rwa [e] at this
  have ha : a = (b.updateLlCoordinates.resetResults, .ok ()) := by
    unfold a Slope.setLls
    rw [e]
    rfl
  have ra : Reachable a.1 := r.call (.setLls s (us.map some) (by
    intro u hu
    obtain ⟨v, hv, e⟩ := List.mem_map.mp hu
    cases e
    exact hc _ hv))
  have rt : Reachable t.1 := ra.call (.removeLls a.1 us false)
  have ht : t.1 = { a.1 with lls := t.1.lls, search := [] } := rfl
  have hau : a.1.lls.map (·.load) = s.lls.map (·.load) ++ us.filter (fun u => decide (0 < u.magnitude)) := by
    rw [ha]
    simp only [Slope.updateLlCoordinates, Slope.resetResults, List.map_map, Function.comp_def, placeLl]
    rw [hl]
    simp
  have htu : t.1.lls.map (·.load) = s.lls.map (·.load) := by
    have k := fun x => foldl_removeLoop_map PLl.load (fun u (c : LineLoad ℝ) => c.matches u) (fun a b => a.eq b) us x
    refine (k _).trans ?_
    rw [hau]
    refine Eq.trans ?_ (congrArg (List.map PLl.load) (lls_back s.topX s.lls us hn))
    refine Eq.trans ?_ (k _).symm
    congr 1
    simp [Function.comp_def, placeLl]
  refine ⟨by rw [ha], rfl, ?_⟩
  have gt : SameGround s t.1 := by
    rw [ht, ha]
    exact { gb.2.2 with }
  have zt : Sized t.1 := by
    rw [ht, ha]
    exact ⟨gb.2.1.1, gb.2.1.2⟩
  refine fromCrest_of r rt z zt gt ps ?_ htu
  rw [ht, ha]
  exact hu

/-- A case of `C121_lls_far_partial`: the line load 40 m behind the crest of `C121_far_load`, where the crest
moves by 52.5 m. The circle of the example has its factor of safety 52.5 m further right. -/
example : exFar.bishop (exFar.topX + 3) (exFar.topY + 8 / 3) (17 / 3) none none =
    exReady.bishop (exReady.topX + 3) (exReady.topY + 8 / 3) (17 / 3) none none := by
  have z : Sized exReady := by
    have h1 : exReady.extH = 9 := exSlope_extH
    have h2 : exReady.extL = 15 := exSlope_extL
    have h3 : exReady.minExtH = 6 := rfl
    have h4 : exReady.minExtL = 10 := rfl
    have h5 : exReady.height = 3 := rfl
    have h6 : exReady.length = 3 := rfl
    constructor
    · rw [h1, h3, h5, h6]; norm_num
    · rw [h2, h4, h5, h6]; norm_num
  have p : InPlace exReady := { exSoil_inPlace with }
  obtain ⟨-, -, h⟩ := C121_lls_far_partial exReady exReady_reachable z p [exLl 40]
    (by intro u hu; simp at hu; subst hu; exact exLl_constructed 40) (by intro p hp; cases hp)
  have hx : exReady.topX = 6 := exSoil_topX
  have hy : exReady.topY = 9 := exSoil_topY
  have h2 : exReady.extL = 15 := exSlope_extL
  refine h.bishop 3 (8 / 3) (17 / 3) ?_ ?_ ?_ ?_
  · norm_num
  · rw [hx]; norm_num
  · rw [hx, h2]; norm_num
  · rw [hy]; norm_num

end PySlope
