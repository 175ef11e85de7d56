import Verif.Props.Order
import Verif.Props.UndoFar

/-! # C126 for a new slope -/

namespace PySlope

/-- What entries that fit keep. -/
structure Settled (H : ℝ) (t : Slope ℝ) : Prop where
  reach : Reachable t
  sized : Sized t
  level : t.topY = H
  levels : LevelsAgree t
  water : WaterAgrees t
  wet : ∀ d, t.waterDepth = some d → 0 ≤ d ∧ d < H
  lls : ∀ p ∈ t.lls, p.load.offset * 3 ≤ t.minExtL

theorem Settled.setMaterials {H : ℝ} {s : Slope ℝ} (h : Settled H s) (ms : List (Option (Material ℝ)))
    (hm : ∀ m, some m ∈ ms → m.depth ≤ H) : ∃ l c, (s.setMaterials ms).1 = { s with materials := l, search := c } := by
  have g := h.reach.wf.geo
  unfold Slope.setMaterials
  split
  · exact ⟨s.materials, s.search, rfl⟩
  · simp only
    split
    · exact ⟨s.materials, s.search, rfl⟩
    · rename_i d hd
      have hd : d ≤ s.extH := by
        have hmem := List.mem_of_getLast? hd
        obtain ⟨m, hm', rfl⟩ := List.mem_map.mp hmem
        rw [← g.topY]
        have hm' := (sortByKey_perm Material.depth _).mem_iff.mp hm'
        rcases List.mem_append.mp hm' with k | k
        · rw [h.level]
          refine hm m ?_
          simpa using k
        · obtain ⟨l, hl, rfl⟩ := List.mem_map.mp k
          exact (h.levels l hl).2
      rw [if_neg (not_lt.mpr hd)]
      simp only [Out.andThen]
      split
      · exact ⟨s.materials, s.search, rfl⟩
      · exact ⟨_, _, rfl⟩

theorem Settled.step {H : ℝ} {s : Slope ℝ} (h : Settled H s) {o : Op ℝ} (he : o.Entry) (hv : o.Valid) (hf : o.Fits H) :
    Settled H (o.run s).1 := by
  have c : Call s (o.run s).1 := Op.call hv
  have r := h.reach.call c
  have g := h.reach.wf.geo
  -- the level of the crest decides on the layers and the water
  have key : (o.run s).1.topY = s.topY → Sized (o.run s).1 →
      (∀ d, (o.run s).1.waterDepth = some d → 0 ≤ d ∧ d < H) →
      (∀ p ∈ (o.run s).1.lls, p.load.offset * 3 ≤ (o.run s).1.minExtL) → Settled H (o.run s).1 := by
    intro k1 k2 k3 k4
    have st : Relation.ReflTransGen (fun a b => Call a b ∧ b.topY = a.topY) s (o.run s).1 := .single ⟨c, k1⟩
    exact ⟨r, k2, k1.trans h.level, C14_levels_agree_partial.1 s _ h.reach h.levels st,
      C19_water_level_partial.2.2.2.1 s _ h.reach h.water st, k3, k4⟩
  have z := h.sized
  cases o with
  | setExternalBoundary a b c => exact hf.elim
  | updateBoundaryOptions l x => exact hf.elim
  | setWaterTable v =>
    have e : ∃ x y c, (s.setWaterTable v).1 = { s with waterRL := x, waterDepth := y, search := c } ∧
        ∀ d, y = some d → 0 ≤ d ∧ d < H := by
      unfold Slope.setWaterTable
      split
      · exact ⟨none, none, [], rfl, by simp⟩
      · split
        · exact ⟨s.waterRL, s.waterDepth, s.search, rfl, h.wet⟩
        · refine ⟨_, _, _, rfl, fun d hd => ?_⟩
          rename_i hok
          obtain rfl := Option.some.inj hd
          have : v.asNum = some v.get! ∧ 0 ≤ v.get! := by
            rcases v with x | x | _ | _ <;>
              simp [PyVal.asNum, PyVal.get!, assertPositiveNumber, PyCmp.ltb] at hok ⊢ <;> exact hok
          exact ⟨this.2, hf _ this.1⟩
    obtain ⟨x, y, c, e, hy⟩ := e
    refine key ?_ ?_ ?_ ?_ <;> simp only [Op.run, e]
    · exact ⟨z.1, z.2⟩
    · exact hy
    · exact h.lls
  | removeWaterTable => exact key rfl ⟨z.1, z.2⟩ (fun d hd => by cases hd) h.lls
  | setUdls us =>
    have hu : ∀ v, some v ∈ us → ∀ l, v.length = some l → 0 < l := fun v hv' => (hv v hv').facts.2.2
    obtain ⟨t, e, w, e1, e2, e3, -⟩ := forEach_addUdl h.reach.wfs us hu
    have gr : Grown s t := by
      have := forEach_inv_mem (I := Grown s) Slope.addUdl us
        (fun t a ha k => k.addUdl a fun v hv' => by subst hv'; exact hu v ha) s ⟨h.reach.wfs, z, .refl s⟩
      rwa [e] at this
    have e5 : (s.setUdls us).1 = ({ t.updateUdlCoordinates with
        udlMax := maxMagnitude t.updateUdlCoordinates.udls t.updateUdlCoordinates.udlMax } : Slope ℝ).resetResults := by
      unfold Slope.setUdls
      rw [e]
      rfl
    obtain ⟨-, zt, gt⟩ := gr
    refine key ?_ ?_ ?_ ?_ <;> simp only [Op.run, e5]
    · change t.topY = s.topY
      rw [w.1.geo.topY, g.topY, zt.high, z.high, gt.height, gt.length, gt.minExtH]
    · exact ⟨zt.1, zt.2⟩
    · intro d hd
      exact h.wet d (gt.waterDepth ▸ hd)
    · intro p hp
      have : p.load ∈ s.lls.map PLl.load := e2 ▸ List.mem_map_of_mem (f := PLl.load) hp
      obtain ⟨q, hq, e⟩ := List.mem_map.mp this
      rw [← e]
      exact (h.lls q hq).trans e3
  | removeUdls us all =>
    obtain ⟨l, m, e⟩ := WFS.removeUdls_rest s us all
    refine key ?_ ?_ ?_ ?_ <;> simp only [Op.run, e]
    · exact ⟨z.1, z.2⟩
    · exact h.wet
    · exact h.lls
  | setLls us =>
    obtain ⟨t, e, w, e1, e2, e3, e4⟩ := forEach_addLl h.reach.wfs us
    have gr : Grown s t := by
      have := forEach_inv (I := Grown s) Slope.addLl (fun t a k => k.addLl a) us s ⟨h.reach.wfs, z, .refl s⟩
      rwa [e] at this
    have e5 : (s.setLls us).1 = t.updateLlCoordinates.resetResults := by
      unfold Slope.setLls
      rw [e]
      rfl
    obtain ⟨-, zt, gt⟩ := gr
    refine key ?_ ?_ ?_ ?_ <;> simp only [Op.run, e5]
    · change t.topY = s.topY
      rw [w.1.geo.topY, g.topY, zt.high, z.high, gt.height, gt.length, gt.minExtH]
    · exact ⟨zt.1, zt.2⟩
    · intro d hd
      exact h.wet d (gt.waterDepth ▸ hd)
    · intro p hp
      have e6 : t.updateLlCoordinates.resetResults.lls.map PLl.load = t.lls.map PLl.load := by
        simp [Slope.updateLlCoordinates, Slope.resetResults, Function.comp_def, placeLl]
      have : p.load ∈ t.lls.map PLl.load := e6 ▸ List.mem_map_of_mem (f := PLl.load) hp
      rw [e1] at this
      change p.load.offset * 3 ≤ t.minExtL
      rcases List.mem_append.mp this with k | k
      · obtain ⟨q, hq, e⟩ := List.mem_map.mp k
        rw [← e]
        exact (h.lls q hq).trans e3
      · simp only [List.mem_filter, List.mem_filterMap, id, decide_eq_true_eq] at k
        obtain ⟨⟨a, ha, rfl⟩, hm⟩ := k
        exact e4 _ ha hm
  | removeLls us all =>
    obtain ⟨l, e⟩ := WFS.removeLls_rest s us all
    have sub := WFS.removeLls_sub s us all
    rw [e] at sub
    refine key ?_ ?_ ?_ ?_ <;> simp only [Op.run, e]
    · exact ⟨z.1, z.2⟩
    · exact h.wet
    · exact fun p hp => h.lls p (sub.subset hp)
  | setMaterials ms =>
    obtain ⟨l, c, e⟩ := h.setMaterials ms hf
    refine key ?_ ?_ ?_ ?_ <;> simp only [Op.run, e]
    · exact ⟨z.1, z.2⟩
    · exact h.wet
    · exact h.lls
  | removeMaterial m d all => exact key rfl ⟨z.1, z.2⟩ h.wet h.lls
  | updateWaterAnalysisOptions auto x =>
    have e : ∃ y c, (s.updateWaterAnalysisOptions auto x).1 = { s with waterH := y, search := c } := by
      unfold Slope.updateWaterAnalysisOptions
      split
      · exact ⟨_, _, rfl⟩
      · split
        · exact ⟨s.waterH, s.search, rfl⟩
        · exact ⟨_, _, rfl⟩
    obtain ⟨y, c, e⟩ := e
    refine key ?_ ?_ ?_ ?_ <;> simp only [Op.run, e]
    · exact ⟨z.1, z.2⟩
    · exact h.wet
    · exact h.lls
  | updateAnalysisOptions a b f d e =>
    obtain ⟨_, _, _, _, _, _, _, k⟩ := updateAnalysisOptions_rest s a b f d e
    refine key ?_ ?_ ?_ ?_ <;> simp only [Op.run, k]
    · exact ⟨z.1, z.2⟩
    · exact h.wet
    · exact h.lls
  | _ => exact he.elim

theorem Settled.runAll {H : ℝ} {os : List (Op ℝ)} (he : ∀ o ∈ os, o.Entry) (hv : ∀ o ∈ os, o.Valid)
    (hf : ∀ o ∈ os, o.Fits H) {s : Slope ℝ} (h : Settled H s) : Settled H (runAll os s) := by
  induction os generalizing s with
  | nil => exact h
  | cons o os ih =>
    exact ih (fun o ho => he o (by simp [ho])) (fun o ho => hv o (by simp [ho])) (fun o ho => hf o (by simp [ho]))
      (h.step (he o (by simp)) (hv o (by simp)) (hf o (by simp)))

theorem Settled.inPlace {H : ℝ} {s : Slope ℝ} (h : Settled H s) : InPlace s where
  levels := fun l hl => (h.levels l hl).1
  lls := by
    intro p hp
    have g := h.reach.wf.geo
    have := h.lls p hp
    have : s.minExtL ≤ s.extL := by
      rw [h.sized.long]
      exact (le_max_right _ _).trans (le_max_left _ _)
    have := g.extL5
    have := g.len
    have : 0 ≤ s.length := by norm_num at this; linarith
    rw [g.topX]
    linarith
  water := by
    intro x hx
    have w := h.water
    unfold WaterAgrees at w
    cases hd : s.waterDepth with
    | none => rw [hd] at w; rw [w] at hx; cases hx
    | some d =>
      rw [hd] at w
      rw [w] at hx
      obtain rfl := Option.some.inj hx
      have h0 := h.wet d hd
      have := h.level
      have hp : 0 < s.topY - d := by linarith [h0.2]
      simp only [max_eq_right hp.le]
      exact ⟨by linarith [h0.1], hp.ne'⟩

theorem Settled.new {h a l : PyVal ℝ} {s : Slope ℝ} (e : Slope.new h a l = .ok s) : Settled s.topY s := by
  have r : Reachable s := .init e
  have l1 := C14_levels_agree_partial.2.1 h a l s e
  have l2 := C19_water_level_partial.2.2.2.2 h a l s e
  refine ⟨r, ?_, rfl, l1, l2.1, fun d hd => absurd (l2.2.symm.trans hd) (by simp), ?_⟩
  all_goals
    rw [new_eq] at e
    split at e
    · cases e
    · cases e
      first | exact ⟨rfl, rfl⟩ | (intro p hp; cases hp)

/-- C126 for a new slope: whatever is entered, short of another boundary, materials deeper than the model and water
below it, the order does not matter to the safety factor of any circle that is in the model. -/
theorem C126_new_slope {h a l : PyVal ℝ} {s : Slope ℝ} (e0 : Slope.new h a l = .ok s) {os os' : List (Op ℝ)}
    (e : os.Perm os') (he : ∀ o ∈ os, o.Entry) (hv : ∀ o ∈ os, o.Valid) (hf : ∀ o ∈ os, o.Fits s.topY)
    (ha : os.Pairwise Unrelated) (cx cy rad : ℝ)
    (h1 : Holds (runAll os s) ((runAll os s).topX + cx) ((runAll os s).topY + cy) rad)
    (h2 : Holds (runAll os' s) ((runAll os' s).topX + cx) ((runAll os' s).topY + cy) rad) :
    (runAll os' s).bishop ((runAll os' s).topX + cx) ((runAll os' s).topY + cy) rad none none =
      (runAll os s).bishop ((runAll os s).topX + cx) ((runAll os s).topY + cy) rad none none := by
  have k := Settled.new e0
  have k1 := k.runAll he hv hf
  have k2 := k.runAll (os := os') (fun o ho => he o (e.mem_iff.mpr ho)) (fun o ho => hv o (e.mem_iff.mpr ho))
    (fun o ho => hf o (e.mem_iff.mpr ho))
  exact C126_same_safety_partial e s k.reach he hv ha k1.inPlace k2.inPlace k1.water k2.water cx cy rad h1 h2

/-! ## A case -/

/-- A material, a water table and a load 40 m from the crest. -/
noncomputable def exEntries : List (Op ℝ) :=
  [.setMaterials [some (exMat 2)], .setWaterTable (.num 2), .setLls [some (exLl 40)]]

theorem exEntries_ok : (∀ o ∈ exEntries, o.Entry) ∧ (∀ o ∈ exEntries, o.Valid) ∧
    (∀ o ∈ exEntries, o.Fits exSlope.topY) ∧ exEntries.Pairwise Unrelated := by
  refine ⟨?_, ?_, ?_, exOrder_apart⟩ <;> intro o ho <;>
    simp only [exEntries, List.mem_cons, List.not_mem_nil, or_false] at ho <;> rcases ho with rfl | rfl | rfl
  · trivial
  · trivial
  · trivial
  · intro m hm
    simp at hm
    subst hm
    exact exMat_constructed _
  · trivial
  · intro u hu
    simp at hu
    subst hu
    exact exLl_constructed 40
  · intro m hm
    simp at hm
    subst hm
    simp [exMat]
    norm_num
  · intro d hd
    simp [PyVal.asNum] at hd
    subst hd
    norm_num
  · trivial

/-- The circle of the examples is in the model after any entries that fit. -/
theorem exEntries_holds {os : List (Op ℝ)} (he : ∀ o ∈ os, o.Entry) (hv : ∀ o ∈ os, o.Valid)
    (hf : ∀ o ∈ os, o.Fits exSlope.topY) :
    Holds (runAll os exSlope) ((runAll os exSlope).topX + 3) ((runAll os exSlope).topY + 8 / 3) (17 / 3) := by
  have k := (Settled.new exSlope_new).runAll he hv hf
  have hl : (runAll os exSlope).length = 3 := by
    have := (C125_history os exSlope exSlope_reachable hv .slope (fun o ho => by
      have := hf o ho
      have := he o ho
      cases o <;> simp_all [Op.about, Op.Fits, Op.Entry])).2.1
    rw [this]
    simp
  have g := k.reach.wf.geo
  have h5 := g.extL5
  rw [hl] at h5
  have ht := g.topX
  rw [hl] at ht
  have hy := k.level
  constructor
  · norm_num
  · rw [ht]; linarith
  · rw [ht]; linarith
  · rw [hy]; norm_num

example : (runAll exEntries.reverse exSlope).bishop ((runAll exEntries.reverse exSlope).topX + 3)
      ((runAll exEntries.reverse exSlope).topY + 8 / 3) (17 / 3) none none =
    (runAll exEntries exSlope).bishop ((runAll exEntries exSlope).topX + 3)
      ((runAll exEntries exSlope).topY + 8 / 3) (17 / 3) none none := by
  obtain ⟨he, hv, hf, ha⟩ := exEntries_ok
  have e := (List.reverse_perm exEntries).symm
  exact C126_new_slope exSlope_new e he hv hf ha _ _ _ (exEntries_holds he hv hf)
    (exEntries_holds (fun o ho => he o (e.mem_iff.mpr ho)) (fun o ho => hv o (e.mem_iff.mpr ho))
      (fun o ho => hf o (e.mem_iff.mpr ho)))

end PySlope
