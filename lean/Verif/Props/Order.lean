import Verif.Spec.Order
import Verif.Props.Frame
import Verif.Props.Size
import Verif.Props.Materials
import Verif.Props.Options
import Verif.Lemmas.Heap

/-! # C126: the order in which different things are entered -/

namespace PySlope

/-- The answer of `update_boundary_options` from its arguments. -/
noncomputable def boundaryAnswer (l h : PyVal ℝ) : Except PyErr Unit :=
  match (if h.truthy then assertStrictlyPositiveNumber (@OfNat.ofNat ℝ 0 (Lit.natLit 0)) h else .ok ()) with
  | .error e => .error e
  | .ok () => if l.truthy then assertStrictlyPositiveNumber (@OfNat.ofNat ℝ 0 (Lit.natLit 0)) l else .ok ()

theorem updateBoundaryOptions_answer {s : Slope ℝ} (g : Geo s) (l h : PyVal ℝ) :
    (s.updateBoundaryOptions l h).2 = boundaryAnswer l h := by
  obtain ⟨b, hb⟩ := Option.isSome_iff_exists.mp g.bnd
  unfold Slope.updateBoundaryOptions boundaryAnswer
  by_cases h1 : h.truthy
  · rw [if_pos h1, if_pos h1]
    cases h2 : assertStrictlyPositiveNumber (@OfNat.ofNat ℝ 0 (Lit.natLit 0)) h with
    | error e => rfl
    | ok u =>
      simp only [Out.andThen]
      by_cases h3 : l.truthy
      · rw [if_pos h3, if_pos h3]
        cases h4 : assertStrictlyPositiveNumber (@OfNat.ofNat ℝ 0 (Lit.natLit 0)) l with
        | error e => rfl
        | ok u =>
          simp only [hb, setExternalBoundary_same g]
      · rw [if_neg h3, if_neg h3]
        simp only [hb, setExternalBoundary_same g]
  · rw [if_neg h1, if_neg h1]
    simp only [Out.andThen]
    by_cases h3 : l.truthy
    · rw [if_pos h3, if_pos h3]
      cases h4 : assertStrictlyPositiveNumber (@OfNat.ofNat ℝ 0 (Lit.natLit 0)) l with
      | error e => rfl
      | ok u =>
        simp only [hb, setExternalBoundary_same g]
    · rw [if_neg h3, if_neg h3]
      simp only [hb, setExternalBoundary_same g]

theorem mkLayers_entered (H H' : ℝ) (i : Nat) (ms : List (Material ℝ)) :
    (mkLayers H i ms).map (fun l => (l.mat, l.color)) = (mkLayers H' i ms).map (fun l => (l.mat, l.color)) := by
  induction ms generalizing i with
  | nil => rfl
  | cons m ms ih =>
    simp only [mkLayers, List.map_cons, ih]
    rfl

/-- What `set_materials` answers and leaves, from the materials entered only. -/
theorem setMaterials_own {s t : Slope ℝ} (r : Reachable s) (q : Reachable t) (h : SamePart s t .materials)
    (ms : List (Option (Material ℝ))) :
    SamePart (s.setMaterials ms).1 (t.setMaterials ms).1 .materials ∧
      (s.setMaterials ms).2 = (t.setMaterials ms).2 := by
  have hm : t.materials.map Layer.mat = s.materials.map Layer.mat := by
    have := congrArg (List.map Prod.fst) h
    simpa [Function.comp_def] using this
  unfold Slope.setMaterials
  split
  · exact ⟨h, rfl⟩
  · simp only [hm]
    split
    · exact ⟨h, rfl⟩
    · rename_i deepest _
      have key : ∀ {u : Slope ℝ}, Reachable u → ∃ v : Slope ℝ, (if u.extH < deepest then
          u.updateBoundaryOptions .none (.num deepest) else (u, .ok ())) = (v, .ok ()) ∧ SamePart u v .materials := by
        intro u ru
        by_cases hd : u.extH < deepest
        · rw [if_pos hd]
          have g := ru.wf.geo
          have h0 : (0 : ℝ) < deepest := by
            have := g.hgt; have := g.extH3
            linarith
          have a := updateBoundaryOptions_answer g .none (.num deepest)
          have hk : boundaryAnswer .none (.num deepest) = .ok () := by
            simp [boundaryAnswer, PyVal.truthy, assertStrictlyPositiveNumber, PyCmp.ltb, PyCmp.eqb, h0.ne', h0.le,
              not_lt.mpr h0.le]
          rw [hk] at a
          exact ⟨(u.updateBoundaryOptions .none (.num deepest)).1, Prod.ext rfl a,
            (updateBoundaryOptions_same g _ _).2 _ (by simp)⟩
        · rw [if_neg hd]
          exact ⟨u, rfl, .refl u _⟩
      obtain ⟨v, e1, p1⟩ := key r
      obtain ⟨w, e2, p2⟩ := key q
      rw [e1, e2]
      simp only [Out.andThen]
      split
      · refine ⟨?_, rfl⟩
        change _ = _
        rw [p2, p1]
        exact h
      · exact ⟨mkLayers_entered w.extH v.extH 0 _, rfl⟩

/-- `remove_material` on the materials and colours. -/
noncomputable def dropEntered (d : Option ℝ) (all : Bool) (l : List (Material ℝ × String)) : List (Material ℝ × String) :=
  if all then [] else
  match d with
  | none => l
  | some d =>
    if pyEq d (@OfNat.ofNat ℝ 0 (Lit.natLit 0)) then l
    else match l.find? (fun p => pyEq p.1.depth d) with
      | none => l
      | some m => removeFirst (fun p => Layer.eq ⟨m.1, 0, m.2⟩ ⟨p.1, 0, p.2⟩) l

theorem removeMaterial_entered (s : Slope ℝ) (d : Option ℝ) (all : Bool) :
    (s.removeMaterial none d all).1.materials.map (fun l => (l.mat, l.color)) =
      dropEntered d all (s.materials.map fun l => (l.mat, l.color)) := by
  unfold Slope.removeMaterial dropEntered Slope.resetResults
  simp only
  cases all
  · simp only [Bool.false_eq_true, if_false]
    cases d with
    | none => rfl
    | some d =>
      simp only
      split
      · rfl
      · rw [List.find?_map]
        simp only [Function.comp_def]
        cases s.materials.find? (fun l => pyEq l.mat.depth d) with
        | none => rfl
        | some c =>
          simp only [Option.map_some]
          exact removeFirst_map (fun l : Layer ℝ => (l.mat, l.color))
            (fun p => Layer.eq ⟨c.mat, 0, c.color⟩ ⟨p.1, 0, p.2⟩) s.materials
  · rfl

theorem removeUdls_entered (s : Slope ℝ) (us : List (Udl ℝ)) (all : Bool) :
    (s.removeUdls us all).1.udls.map (·.load) = if all then [] else
      us.foldl (fun l u => removeLoop (fun c => c.matches u) (fun a b => a.eq b) l.length 0 l) (s.udls.map (·.load)) := by
  have key : ∀ l : List (PUdl ℝ), (us.foldl (fun l u =>
      removeLoop (fun (c : PUdl ℝ) => c.load.matches u) (fun a b => a.load.eq b.load) l.length 0 l) l).map (·.load) =
      us.foldl (fun l u => removeLoop (fun c => c.matches u) (fun a b => a.eq b) l.length 0 l) (l.map (·.load)) := by
    induction us with
    | nil => intro l; rfl
    | cons u us ih =>
      intro l
      simp only [List.foldl_cons, ih]
      congr 1
      have := removeLoop_map (fun c : PUdl ℝ => c.load) (fun c => c.matches u) (fun a b => a.eq b) l.length 0 l
      simpa using this
  unfold Slope.removeUdls Slope.resetResults
  cases all
  · simp only [Bool.false_eq_true, if_false]
    rw [← key]
    split <;> rfl
  · rfl

theorem removeLls_entered (s : Slope ℝ) (us : List (LineLoad ℝ)) (all : Bool) :
    (s.removeLls us all).1.lls.map (·.load) = if all then [] else
      us.foldl (fun l u => removeLoop (fun c => c.matches u) (fun a b => a.eq b) l.length 0 l) (s.lls.map (·.load)) := by
  have key : ∀ l : List (PLl ℝ), (us.foldl (fun l u =>
      removeLoop (fun (c : PLl ℝ) => c.load.matches u) (fun a b => a.load.eq b.load) l.length 0 l) l).map (·.load) =
      us.foldl (fun l u => removeLoop (fun c => c.matches u) (fun a b => a.eq b) l.length 0 l) (l.map (·.load)) := by
    induction us with
    | nil => intro l; rfl
    | cons u us ih =>
      intro l
      simp only [List.foldl_cons, ih]
      congr 1
      have := removeLoop_map (fun c : PLl ℝ => c.load) (fun c => c.matches u) (fun a b => a.eq b) l.length 0 l
      simpa using this
  unfold Slope.removeLls Slope.resetResults
  cases all
  · simp only [Bool.false_eq_true, if_false]
    rw [← key]
  · rfl

theorem setExternalBoundary_own {s t : Slope ℝ} (h : SamePart s t .slope) (a b c : PyVal ℝ) :
    SamePart (s.setExternalBoundary a b c).1 (t.setExternalBoundary a b c).1 .slope ∧
      (s.setExternalBoundary a b c).2 = (t.setExternalBoundary a b c).2 := by
  unfold Slope.setExternalBoundary
  split
  · exact ⟨h, rfl⟩
  · rename_i H L e
    have h2 := (boundaryInputs_ok e).2
    have : (0 : ℝ) < L := by norm_num at h2 ⊢; linarith
    rw [applyBoundary_eq _ _ _ this, applyBoundary_eq _ _ _ this]
    exact ⟨⟨rfl, rfl, rfl⟩, rfl⟩

/-- An entry leaves of its own kind, and answers, the same from any two slopes that agree in that kind. -/
theorem Op.Entry.own {o : Op ℝ} (ho : o.Entry) (hv : o.Valid) {s t : Slope ℝ} (r : Reachable s) (q : Reachable t)
    (h : ∀ p ∈ o.about, SamePart s t p) :
    (∀ p ∈ o.about, SamePart (o.run s).1 (o.run t).1 p) ∧ (o.run s).2 = (o.run t).2 := by
  have one : ∀ p, o.about = [p] → ∀ P : Part → Prop, P p → ∀ p ∈ o.about, P p := by
    intro p e P hp p' hp'
    rw [e, List.mem_singleton] at hp'
    exact hp' ▸ hp
  cases o with
  | setExternalBoundary a b c =>
    obtain ⟨k1, k2⟩ := setExternalBoundary_own (h .slope (by simp [Op.about])) a b c
    exact ⟨one _ rfl _ k1, k2⟩
  | setWaterTable d =>
    have h := h .water (by simp [Op.about])
    refine ⟨one _ rfl _ ?_, ?_⟩ <;> simp only [Op.run, Slope.setWaterTable] <;> split <;>
      first | rfl | (split <;> first | rfl | exact h)
  | removeWaterTable => exact ⟨one _ rfl _ rfl, rfl⟩
  | setUdls us =>
    have h : _ = _ := h .udls (by simp [Op.about])
    obtain ⟨a1, a2, -⟩ := (C15_loads_fit s r).1 us hv
    obtain ⟨b1, b2, -⟩ := (C15_loads_fit t q).1 us hv
    refine ⟨one _ rfl _ ?_, a1.trans b1.symm⟩
    change (t.setUdls us).1.udls.map PUdl.load = (s.setUdls us).1.udls.map PUdl.load
    rw [a2, b2, h]
  | removeUdls us all =>
    have h : _ = _ := h .udls (by simp [Op.about])
    refine ⟨one _ rfl _ ?_, rfl⟩
    change (t.removeUdls us all).1.udls.map _ = (s.removeUdls us all).1.udls.map _
    rw [removeUdls_entered, removeUdls_entered, h]
  | setLls us =>
    have h : _ = _ := h .lls (by simp [Op.about])
    obtain ⟨a1, a2, -⟩ := (C15_loads_fit s r).2 us hv
    obtain ⟨b1, b2, -⟩ := (C15_loads_fit t q).2 us hv
    refine ⟨one _ rfl _ ?_, a1.trans b1.symm⟩
    change (t.setLls us).1.lls.map PLl.load = (s.setLls us).1.lls.map PLl.load
    rw [a2, b2, h]
  | removeLls us all =>
    have h : _ = _ := h .lls (by simp [Op.about])
    refine ⟨one _ rfl _ ?_, rfl⟩
    change (t.removeLls us all).1.lls.map _ = (s.removeLls us all).1.lls.map _
    rw [removeLls_entered, removeLls_entered, h]
  | setMaterials ms =>
    obtain ⟨k1, k2⟩ := setMaterials_own r q (h .materials (by simp [Op.about])) ms
    exact ⟨one _ rfl _ k1, k2⟩
  | removeMaterial m d all =>
    have h : _ = _ := h .materials (by simp [Op.about])
    refine ⟨one _ rfl _ ?_, rfl⟩
    have key : ∀ d, (t.removeMaterial none d all).1.materials.map (fun l => (l.mat, l.color)) =
        (s.removeMaterial none d all).1.materials.map (fun l => (l.mat, l.color)) := by
      intro d
      rw [removeMaterial_entered, removeMaterial_entered, h]
    cases m with
    | none => exact key d
    | some m => exact key (some m.depth)
  | updateWaterAnalysisOptions auto x =>
    obtain rfl : auto = false := ho
    have h := h .waterFactor (by simp [Op.about])
    refine ⟨one _ rfl _ ?_, ?_⟩ <;>
      simp only [Op.run, Slope.updateWaterAnalysisOptions, Bool.false_eq_true, if_false] <;> split <;>
      first | rfl | exact h
  | updateAnalysisOptions n i f tol m =>
    obtain rfl : f = none := ho
    have h := h .options (by simp [Op.about])
    simp only [SamePart, Prod.mk.injEq] at h
    obtain ⟨h1, h2, h3, h4, h5⟩ := h
    refine ⟨one _ rfl _ ?_, rfl⟩
    simp only [SamePart, Op.run, Slope.updateAnalysisOptions, Slope.resetResults]
    cases n <;> cases i <;> cases tol <;> cases m <;> simp only [Prod.mk.injEq] <;> (repeat' split) <;>
      simp [h1, h2, h3, h4, h5]
  | updateBoundaryOptions l x =>
    refine ⟨by simp [Op.about], ?_⟩
    exact (updateBoundaryOptions_answer r.wf.geo l x).trans (updateBoundaryOptions_answer q.wf.geo l x).symm
  | _ => exact ho.elim

/-- … and all that was entered. -/
theorem Op.Entry.step {o : Op ℝ} (ho : o.Entry) (hv : o.Valid) {s t : Slope ℝ} (r : Reachable s) (q : Reachable t)
    (h : ∀ p, SamePart s t p) : (∀ p, SamePart (o.run s).1 (o.run t).1 p) ∧ (o.run s).2 = (o.run t).2 := by
  obtain ⟨k1, k2⟩ := ho.own hv r q fun p _ => h p
  refine ⟨fun p => ?_, k2⟩
  by_cases hp : p ∈ o.about
  · exact k1 p hp
  · exact (C125_only_its_own s r o p hp).symm.trans ((h p).trans (C125_only_its_own t q o p hp))

theorem entries_step {os : List (Op ℝ)} (he : ∀ o ∈ os, o.Entry) (hv : ∀ o ∈ os, o.Valid) {s t : Slope ℝ}
    (r : Reachable s) (q : Reachable t) (h : ∀ p, SamePart s t p) :
    (∀ p, SamePart (runAll os s) (runAll os t) p) ∧ answers os s = answers os t := by
  induction os generalizing s t with
  | nil => exact ⟨h, rfl⟩
  | cons o os ih =>
    have v := hv o (by simp)
    obtain ⟨k1, k2⟩ := (he o (by simp)).step v r q h
    obtain ⟨k3, k4⟩ := ih (fun o ho => he o (by simp [ho])) (fun o ho => hv o (by simp [ho]))
      (r.call (Op.call v)) (q.call (Op.call v)) k1
    exact ⟨k3, by simp only [answers, k2, k4]⟩

theorem Unrelated.symm {a b : Op ℝ} (h : Unrelated a b) : Unrelated b a := fun p hb ha => h p ha hb

/-- Two entries of different kinds in either order. -/
theorem swap_entries {a b : Op ℝ} (ha : a.Entry) (hb : b.Entry) (va : a.Valid) (vb : b.Valid) (h : Unrelated a b)
    {s : Slope ℝ} (r : Reachable s) :
    (∀ p, SamePart (b.run (a.run s).1).1 (a.run (b.run s).1).1 p) ∧
      (b.run (a.run s).1).2 = (b.run s).2 ∧ (a.run (b.run s).1).2 = (a.run s).2 := by
  have ra := r.call (Op.call va)
  have rb := r.call (Op.call vb)
  obtain ⟨k1, k2⟩ := hb.own vb r ra fun p hp => C125_only_its_own s r a p fun hq => h p hq hp
  obtain ⟨k3, k4⟩ := ha.own va r rb fun p hp => C125_only_its_own s r b p fun hq => h p hp hq
  refine ⟨fun p => ?_, k2.symm, k4.symm⟩
  by_cases hp : p ∈ a.about
  · exact (C125_only_its_own _ ra b p (h p hp)).symm.trans (k3 p hp)
  · by_cases hq : p ∈ b.about
    · exact (k1 p hq).symm.trans (C125_only_its_own _ rb a p hp)
    · exact ((C125_only_its_own s r a p hp).trans (C125_only_its_own _ ra b p hq)).symm.trans
        ((C125_only_its_own s r b p hq).trans (C125_only_its_own _ rb a p hp))

/-- C126, what is entered: the same entries in any order, no two about the same thing, leave the same slope,
materials, loads, water table, water factor, options and circles, and each call has the same answer. -/
theorem C126_any_order {os os' : List (Op ℝ)} (e : os.Perm os') (s : Slope ℝ) (r : Reachable s)
    (he : ∀ o ∈ os, o.Entry) (hv : ∀ o ∈ os, o.Valid) (ha : os.Pairwise Unrelated) :
    (∀ p, SamePart (runAll os s) (runAll os' s) p) ∧ (answers os s).Perm (answers os' s) := by
  induction e generalizing s with
  | nil => exact ⟨SamePart.refl _, .refl _⟩
  | cons o _ ih =>
    obtain ⟨k1, k2⟩ := ih _ (r.call (Op.call (hv o (by simp)))) (fun o ho => he o (by simp [ho]))
      (fun o ho => hv o (by simp [ho])) (List.pairwise_cons.mp ha).2
    exact ⟨k1, k2.cons _⟩
  | swap a b os =>
    have va := hv a (by simp)
    have vb := hv b (by simp)
    have hba : Unrelated b a := (List.pairwise_cons.mp ha).1 a (by simp)
    obtain ⟨k1, k2, k3⟩ := swap_entries (he b (by simp)) (he a (by simp)) vb va hba r
    obtain ⟨k4, k5⟩ := entries_step (os := os) (fun o ho => he o (by simp [ho])) (fun o ho => hv o (by simp [ho]))
      ((r.call (Op.call vb)).call (Op.call va)) ((r.call (Op.call va)).call (Op.call vb)) k1
    refine ⟨k4, ?_⟩
    simp only [answers, k2, k3, k5]
    exact .swap _ _ _
  | trans e1 _ ih1 ih2 =>
    obtain ⟨k1, k2⟩ := ih1 s r he hv ha
    obtain ⟨k3, k4⟩ := ih2 s r (fun o ho => he o (e1.mem_iff.mpr ho)) (fun o ho => hv o (e1.mem_iff.mpr ho))
      (ha.perm e1 fun h => h.symm)
    exact ⟨fun p => (k1 p).trans (k3 p), k2.trans k4⟩

/-- C126, the safety factor (partial): if after both orders the layers and the water are at their depths, a circle
given from the crest that both models hold has the same safety factor. Missing: a boundary entered after the
water table or the materials leaves these where they were (`C126_order_matters`). -/
theorem C126_same_safety_partial {os os' : List (Op ℝ)} (e : os.Perm os') (s : Slope ℝ) (r : Reachable s)
    (he : ∀ o ∈ os, o.Entry) (hv : ∀ o ∈ os, o.Valid) (ha : os.Pairwise Unrelated)
    (p1 : InPlace (runAll os s)) (p2 : InPlace (runAll os' s))
    (w1 : WaterAgrees (runAll os s)) (w2 : WaterAgrees (runAll os' s)) (cx cy rad : ℝ)
    (h1 : Holds (runAll os s) ((runAll os s).topX + cx) ((runAll os s).topY + cy) rad)
    (h2 : Holds (runAll os' s) ((runAll os' s).topX + cx) ((runAll os' s).topY + cy) rad) :
    (runAll os' s).bishop ((runAll os' s).topX + cx) ((runAll os' s).topY + cy) rad none none =
      (runAll os s).bishop ((runAll os s).topX + cx) ((runAll os s).topY + cy) rad none none := by
  obtain ⟨k, -⟩ := C126_any_order e s r he hv ha
  have reach : ∀ (os : List (Op ℝ)) (s : Slope ℝ), Reachable s → (∀ o ∈ os, o.Valid) → Reachable (runAll os s) := by
    intro os
    induction os with
    | nil => exact fun s r _ => r
    | cons o os ih =>
      exact fun s r hv => ih _ (r.call (Op.call (hv o (by simp)))) fun o ho => hv o (by simp [ho])
  have r1 := reach os s r hv
  have r2 := reach os' s r fun o ho => hv o (e.mem_iff.mpr ho)
  have hw : ∀ {u : Slope ℝ}, InPlace u → WaterAgrees u → u.waterRL.map (u.topY - ·) = u.waterDepth := by
    intro u p w
    unfold WaterAgrees at w
    cases hd : u.waterDepth with
    | none => rw [w, hd]; rfl
    | some d =>
      rw [hd] at w
      have h0 := (p.water _ w).2
      have : 0 < u.topY - d := by
        by_contra hn
        exact h0 (max_eq_left (not_lt.mp hn))
      rw [w]
      simp only [Option.map_some, max_eq_right this.le, sub_sub_cancel]
  have ho := k .options
  simp only [SamePart, Prod.mk.injEq] at ho
  have hm : _ = _ := congrArg (List.map Prod.fst) (k .materials)
  refine (C91_model_size (runAll os s) (runAll os' s) r1 r2 ?_ p1 p2 cx cy rad h1 h2).1
  exact {
    height := (k .slope).1
    length := (k .slope).2.1
    slices := ho.1
    tolerance := ho.2.2.2.1
    maxIterations := ho.2.2.2.2
    mats := by simpa [Function.comp_def] using hm
    udls := k .udls
    lls := k .lls
    water := (hw p2 w2).trans (Eq.trans (k .water) (hw p1 w1).symm)
    waterH := k .waterFactor }

theorem setWaterTable_two (u : Slope ℝ) : u.setWaterTable (.num 2) =
    (({ u with waterRL := some (max 0 (u.topY - 2)), waterDepth := some 2 } : Slope ℝ).resetResults, .ok ()) := by
  simp [Slope.setWaterTable, assertPositiveNumber, PyCmp.ltb, PyVal.get!, not_lt.mpr (zero_le_two (α := ℝ))]

/-- C126 is violated: the slope 6 m high and 3 m long and the water table 2 m deep, entered in two orders, both
without an exception. The crest is at level 18 after both; the water is at 16 after one and at 7 after the other. -/
theorem C126_order_matters :
    ∃ (s : Slope ℝ) (a b : Op ℝ), Reachable s ∧ a.Entry ∧ b.Entry ∧ a.Valid ∧ b.Valid ∧ Unrelated a b ∧
      answers [a, b] s = [(a, .ok ()), (b, .ok ())] ∧ answers [b, a] s = [(b, .ok ()), (a, .ok ())] ∧
      (runAll [a, b] s).topY = 18 ∧ (runAll [b, a] s).topY = 18 ∧
      (runAll [a, b] s).waterDepth = some 2 ∧ (runAll [b, a] s).waterDepth = some 2 ∧
      (runAll [a, b] s).waterRL = some 16 ∧ (runAll [b, a] s).waterRL = some 7 := by
  have eb : ∀ u : Slope ℝ, u.setExternalBoundary (.num 6) (.num 30) (.num 3) = (u.withGeo 6 3, .ok ()) := by
    intro u
    rw [setExternalBoundary_len _ _ _ (by norm_num) (by norm_num) (by norm_num)]
    norm_num
  have ht : (exSlope.withGeo 6 3).topY = 18 := by
    change max (max (3 * 6) exSlope.minExtH) (5 * 3 / 2) = (18 : ℝ)
    simp
    norm_num
  refine ⟨exSlope, .setExternalBoundary (.num 6) (.num 30) (.num 3), .setWaterTable (.num 2), exSlope_reachable,
    trivial, trivial, trivial, trivial, by simp [Unrelated, Op.about], ?_, ?_, ?_, ?_, ?_, ?_, ?_, ?_⟩ <;>
    simp only [answers, runAll, Op.run, setWaterTable_two, eb]
  · exact ht
  · exact ht
  · rfl
  · rfl
  · change some (max 0 ((exSlope.withGeo 6 3).topY - 2)) = _
    rw [ht]; norm_num
  · change some (max 0 (exSlope.topY - 2)) = _
    norm_num

/-! ## Cases -/

theorem exOrder_apart : ([.setMaterials [some (exMat 2)], .setWaterTable (.num 2),
    .setLls [some (exLl 40)]] : List (Op ℝ)).Pairwise Unrelated := by
  simp [Unrelated, Op.about]

/-- A case: a material, a water table and a load 40 m away, for which the ground is moved, in two orders. -/
example : (∀ p, SamePart (runAll [.setMaterials [some (exMat 2)], .setWaterTable (.num 2), .setLls [some (exLl 40)]]
      exSlope) (runAll [.setLls [some (exLl 40)], .setWaterTable (.num 2), .setMaterials [some (exMat 2)]] exSlope) p) ∧
    Reachable exSlope := by
  refine ⟨(C126_any_order ?_ exSlope exSlope_reachable ?_ ?_ exOrder_apart).1, exSlope_reachable⟩
  · exact (List.reverse_perm [(.setLls [some (exLl 40)] : Op ℝ), .setWaterTable (.num 2), .setMaterials [some (exMat 2)]])
  · intro o ho
    simp only [List.mem_cons, List.not_mem_nil, or_false] at ho
    rcases ho with rfl | rfl | rfl <;> trivial
  · intro o ho
    simp only [List.mem_cons, List.not_mem_nil, or_false] at ho
    rcases ho with rfl | rfl | rfl
    · intro m hm
      simp at hm
      subst hm
      exact exMat_constructed _
    · trivial
    · intro u hu
      simp at hu
      subst hu
      exact exLl_constructed 40

/-- The example with its material and water 2 m deep. -/
noncomputable def exWetSoil : Slope ℝ := { exSoil with waterRL := some 7, waterDepth := some 2 }

theorem exWetSoil_one : runAll [.setMaterials [some (exMat 2)], .setWaterTable (.num 2)] exSlope = exWetSoil := by
  have hd : exSlope.deepen (exMat 2).depth = exSlope := by
    unfold Slope.deepen; rw [if_neg]; simp [exMat]; norm_num
  simp only [runAll, Op.run, setWaterTable_two]
  rw [setMaterials_one exSlope_reachable.wf.geo rfl, hd]
  have : max 0 (exSlope.topY - 2) = 7 := by norm_num
  change ({ exSoil with waterRL := some (max 0 (exSlope.topY - 2)), waterDepth := some 2 } : Slope ℝ) = _
  rw [this]
  rfl

theorem exWetSoil_two : runAll [.setWaterTable (.num 2), .setMaterials [some (exMat 2)]] exSlope = exWetSoil := by
  have g := (exSlope_reachable.call (.setWaterTable _ (.num 2))).wf.geo
  simp only [runAll, Op.run]
  rw [setMaterials_one g (by rw [setWaterTable_two]; rfl)]
  rw [setWaterTable_two]
  have hd : ∀ x y, ({ exSlope with waterRL := x, waterDepth := y } : Slope ℝ).resetResults.deepen (exMat 2).depth =
      ({ exSlope with waterRL := x, waterDepth := y } : Slope ℝ).resetResults := by
    intro x y
    unfold Slope.deepen; rw [if_neg]; simp [exMat, Slope.resetResults]; norm_num
  rw [hd]
  have : max 0 (exSlope.topY - 2) = 7 := by norm_num
  rw [this]
  rfl

theorem exWetSoil_inPlace : InPlace exWetSoil where
  levels := exSoil_inPlace.levels
  lls := exSoil_inPlace.lls
  water := by
    intro z hz
    obtain rfl : (7 : ℝ) = z := Option.some.inj hz
    change (7 : ℝ) ≤ exSoil.topY ∧ _
    norm_num

/-- A case of `C126_same_safety_partial`: the material and the water table in two orders, and a circle. -/
example : InPlace (runAll [.setMaterials [some (exMat 2)], .setWaterTable (.num 2)] exSlope) ∧
    InPlace (runAll [.setWaterTable (.num 2), .setMaterials [some (exMat 2)]] exSlope) ∧
    WaterAgrees (runAll [.setMaterials [some (exMat 2)], .setWaterTable (.num 2)] exSlope) ∧
    WaterAgrees (runAll [.setWaterTable (.num 2), .setMaterials [some (exMat 2)]] exSlope) ∧
    Holds exWetSoil (exWetSoil.topX + 3) (exWetSoil.topY + 8 / 3) (17 / 3) := by
  rw [exWetSoil_one, exWetSoil_two]
  have w : WaterAgrees exWetSoil := by
    change some (7 : ℝ) = some (max 0 (exSoil.topY - 2))
    norm_num
  exact ⟨exWetSoil_inPlace, exWetSoil_inPlace, w, w, { exSoil_holds with }⟩

end PySlope
