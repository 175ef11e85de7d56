import Verif.Spec.IeeeForm
import Verif.Lemmas.IeeeForm

/-! # Slopes in double precision (C89) -/

namespace PySlope
open Lit

variable {A : Machine}

theorem DWF.ground {s : Slope (F64 A)} (w : DWF s) : SoundGround s := by
  obtain ⟨c1, c2, c3, c4, c5, c6⟩ := F64.crest_toe s.extL s.length w.lenPos w.extL5
  have e3 : (3 * s.height).val = A.rnd (3 * s.height.val) := by
    rw [F64.val_mul, F64.val_small 3 (by norm_num)]; norm_num
  have b3 := (F64.rnd_coarse (A := A) (x := 3 * s.height.val) (by linarith [w.hgt])).1
  have hH := w.extH3
  rw [e3] at hH
  have h0 := w.hgt
  have hle : s.height.val ≤ s.extH.val := by norm_num at b3; linarith
  have eY : s.botY.val = A.rnd (s.extH.val - s.height.val) := by rw [w.botY, F64.val_sub]
  obtain ⟨y1, y2⟩ := F64.rnd_bounds (A := A) (x := s.extH.val - s.height.val) (by linarith)
  have q : (s.extH.val - s.height.val) / 2 ^ 53 ≤ s.extH.val / 2 ^ 53 :=
    div_le_div_of_nonneg_right (by linarith) (by positivity)
  rw [← w.topX] at c1 c2 c3 c4 c5 c6
  rw [← w.botX] at c3 c4 c5 c6
  refine ⟨w.bnd, ⟨c1, c3, c4⟩, ⟨?_, ?_, by rw [w.topY]⟩, ⟨w.lenPos, c5⟩, ⟨h0, ?_⟩, ?_⟩
  · rw [eY]; exact F64.rnd_nonneg (by linarith)
  · rw [eY, w.topY]; exact F64.rnd_le _ (by linarith)
  · rw [eY, w.topY, abs_le]; constructor <;> linarith
  · rw [add_comm s.topX.val]; exact c6

theorem DWF.loads {s : Slope (F64 A)} (w : DWF s) : SoundLoads s := by
  have hr : ∀ p ∈ s.udls, p.right.val = A.rnd (s.topX.val - p.load.offset.val) := by
    intro p hp; rw [w.udl p hp]; rfl
  refine ⟨hr, ?_, ?_, ?_, ?_⟩
  · intro p hp l hl h0
    have e := w.udl p hp
    have : p.left = pyMax 0 (p.right - l) := by
      have h1 : p.left = (placeUdl s.topX p.load).left := by rw [← e]
      have h2 : p.right = s.topX - p.load.offset := by rw [e]; rfl
      rw [h1, h2]
      simp only [placeUdl, hl]
      rw [if_neg]
      rw [F64.pyEq_iff, F64.val_zero]
      simpa using h0
    rw [this, F64.val_pyMax, F64.val_zero, F64.val_sub]
  · intro p hp h
    have e := w.udl p hp
    have h1 : p.left = (placeUdl s.topX p.load).left := by rw [← e]
    rw [h1]
    rcases h with h | ⟨l, h, h0⟩
    · simp only [placeUdl, h, F64.val_zero]
    · simp only [placeUdl, h]
      rw [if_pos, F64.val_zero]
      rw [F64.pyEq_iff, F64.val_zero]
      simpa using h0
  · intro p hp
    have h1 : p.coord = (placeLl s.topX p.load).coord := by rw [← w.ll p hp]
    rw [h1]
    simp only [placeLl, F64.val_pyMax, F64.val_zero, F64.val_sub]
  · intro p hp h
    rw [hr p hp]
    exact F64.rnd_le _ (by linarith)

/-- Whatever calls were made before, and however the machine's library computes its functions, a
slope in double precision has a sound ground line, sound limits, loads where they belong and
materials in order. -/
theorem C89_sound (s : Slope (F64 A)) (r : Reachable s) :
    SoundGround s ∧ SoundLimits s ∧ SoundLoads s ∧ SoundMaterials s :=
  ⟨r.form.ground, ⟨⟨r.form.l1, r.form.l12, r.form.l2⟩, ⟨r.form.l3, r.form.l34, r.form.l4⟩⟩,
    r.form.loads, r.form.mats⟩

/-! ## Calls that return -/

theorem boundaryInputs_num {h a l : F64 A} (hh : 0 ≤ h.val) (ha : 0 < a.val ∧ a.val ≤ 90)
    (hl : 0 ≤ l.val) : boundaryInputs (.num h) (.num a) (.num l) = .ok (h, pyMax l 0.001) := by
  have v90 : (90 : F64 A).val = 90 := by rw [F64.val_small 90 (by norm_num)]; norm_num
  have n1 : ¬ h < (0 : F64 A) := by rw [F64.lt_iff, F64.val_zero]; linarith
  have n2 : ¬ a < (0 : F64 A) := by rw [F64.lt_iff, F64.val_zero]; linarith [ha.1]
  have n3 : ¬ (90 : F64 A) < a := by rw [F64.lt_iff, v90]; linarith [ha.2]
  have n4 : pyEq a (0 : F64 A) = false := by
    rw [F64.pyEq_iff, F64.val_zero]; simpa using ha.1.ne'
  have n5 : ¬ l < (0 : F64 A) := by rw [F64.lt_iff, F64.val_zero]; linarith
  simp [boundaryInputs, assertStrictlyPositiveNumber, assertPositiveNumber, assertRange,
    PyCmp.ltb, PyCmp.eqb, bind, Except.bind, pure, Except.pure, PyVal.get!, n1, n2, n3, n4, n5]

theorem setExternalBoundary_returns (s : Slope (F64 A)) {h a l : F64 A} (hh : 0 ≤ h.val)
    (ha : 0 < a.val ∧ a.val ≤ 90) (hl : 0 ≤ l.val) :
    (s.setExternalBoundary (.num h) (.num a) (.num l)).2 = .ok () := by
  unfold Slope.setExternalBoundary
  rw [boundaryInputs_num hh ha hl]
  simp only
  rw [applyBoundary_form _ _ _ (by
    rw [F64.val_pyMax]; exact lt_of_lt_of_le F64.tiny_pos (le_max_right _ _))]

/-- An outcome that keeps the shape and returns. -/
def Good {α : Type} (o : Out (F64 A) α) : Prop := DWF o.1 ∧ ∃ a, o.2 = .ok a

theorem Good.andThen {α β : Type} {o : Out (F64 A) α} {f : Slope (F64 A) → α → Out (F64 A) β}
    (h : Good o) (hf : ∀ s a, DWF s → Good (f s a)) : Good (o.andThen f) := by
  obtain ⟨s, r⟩ := o
  obtain ⟨h1, a, h2⟩ := h
  simp only at h2
  subst h2
  exact hf s a h1

theorem Good.updateBoundaryOptions {s : Slope (F64 A)} (w : DWF s) {l h : PyVal (F64 A)}
    (hl : l = .none ∨ ∃ x, l = .num x ∧ 0 ≤ x.val) (hh : h = .none ∨ ∃ x, h = .num x ∧ 0 ≤ x.val) :
    Good (s.updateBoundaryOptions l h) := by
  have strict : ∀ x : F64 A, 0 ≤ x.val →
      assertStrictlyPositiveNumber (0 : F64 A) (.num x) = .ok () := by
    intro x hx
    simp only [assertStrictlyPositiveNumber]
    rw [if_neg]
    simpa [F64.ltb_iff] using hx
  unfold Slope.updateBoundaryOptions
  refine Good.andThen ?_ (fun s _ w => Good.andThen ?_ (fun s _ w => Good.andThen ?_
    (fun _ _ w => ⟨w.reset, (), rfl⟩)))
  · rcases hh with rfl | ⟨x, rfl, hx⟩
    · exact ⟨w, (), rfl⟩
    · simp only [strict x hx]
      split
      · exact ⟨w.withMinH hx, (), rfl⟩
      · exact ⟨w, (), rfl⟩
  · rcases hl with rfl | ⟨x, rfl, hx⟩
    · exact ⟨w, (), rfl⟩
    · simp only [strict x hx]
      split
      · exact ⟨w.withMinL hx, (), rfl⟩
      · exact ⟨w, (), rfl⟩
  · split
    · refine ⟨w.setExternalBoundary _ _ _, (), setExternalBoundary_returns _ w.hgt ?_ w.lenPos.le⟩
      rw [F64.val_small 30 (by norm_num)]; norm_num
    · exact ⟨w, (), rfl⟩

theorem Good.forEach {α : Type} (f : Slope (F64 A) → α → Out (F64 A) Unit)
    (hf : ∀ s a, DWF s → Good (f s a)) (l : List α) (s : Slope (F64 A)) (h : DWF s) :
    Good (Slope.forEach f l s) := by
  induction l generalizing s with
  | nil => exact ⟨h, (), rfl⟩
  | cons a l ih => exact Good.andThen (hf s a h) (fun s _ w => ih s w)

theorem Good.addUdl {s : Slope (F64 A)} (w : DWF s) (u : UdlArg (F64 A)) : Good (s.addUdl u) := by
  refine ⟨w.addUdl u, (), ?_⟩
  rcases u with _ | u
  · rfl
  · unfold Slope.addUdl
    simp only
    split
    · split
      · rename_i h
        have w' : DWF { s with udls := s.udls ++ [placeUdl s.topX u] } := by
          refine ⟨w.bnd, w.hgt, w.len, w.topX, w.topY, w.botX, w.botY, w.extL5, w.extH3, w.extH5, w.minL,
            w.minH, w.l1, w.l12, w.l2, w.l3, w.l34, w.l4, ?_, w.ll, w.mats⟩
          intro p hp
          rcases List.mem_append.mp hp with hp | hp
          · exact w.udl p hp
          · rw [List.mem_singleton.mp hp]; rfl
        obtain ⟨_, _, h2⟩ := Good.updateBoundaryOptions w'
          (l := .num u.minLength) (h := .none)
          (.inr ⟨_, rfl, by rw [F64.lt_iff] at h; linarith [w.minL]⟩) (.inl rfl)
        exact h2
      · rfl
    · rfl

theorem Good.addLl {s : Slope (F64 A)} (w : DWF s) (u : Option (LineLoad (F64 A))) :
    Good (s.addLl u) := by
  refine ⟨w.addLl u, (), ?_⟩
  rcases u with _ | u
  · rfl
  · unfold Slope.addLl
    simp only
    split
    · split
      · rename_i h
        have w' : DWF { s with lls := s.lls ++ [placeLl s.topX u] } := by
          refine ⟨w.bnd, w.hgt, w.len, w.topX, w.topY, w.botX, w.botY, w.extL5, w.extH3, w.extH5, w.minL,
            w.minH, w.l1, w.l12, w.l2, w.l3, w.l34, w.l4, w.udl, ?_, w.mats⟩
          intro p hp
          rcases List.mem_append.mp hp with hp | hp
          · exact w.ll p hp
          · rw [List.mem_singleton.mp hp]; rfl
        obtain ⟨_, _, h2⟩ := Good.updateBoundaryOptions w'
          (l := .num (u.offset * 3)) (h := .none)
          (.inr ⟨_, rfl, by rw [F64.lt_iff] at h; linarith [w.minL]⟩) (.inl rfl)
        exact h2
      · rfl
    · rfl

/-- In double precision too, no call that only changes the model raises when its numbers are in
range: a new boundary, larger model limits, loads of any kind and number, and the removal of the
analysis limits. -/
theorem C89_returns (s : Slope (F64 A)) (r : Reachable s) :
    (∀ h a l : F64 A, 0 ≤ h.val → 0 < a.val ∧ a.val ≤ 90 → 0 ≤ l.val →
      (s.setExternalBoundary (.num h) (.num a) (.num l)).2 = .ok ()) ∧
    (∀ l h : F64 A, 0 ≤ l.val → 0 ≤ h.val →
      (s.updateBoundaryOptions (.num l) (.num h)).2 = .ok ()) ∧
    (∀ us, (s.setUdls us).2 = .ok ()) ∧ (∀ ls, (s.setLls ls).2 = .ok ()) ∧
    s.removeAnalysisLimits.2 = .ok () := by
  have w := r.form
  refine ⟨fun h a l hh ha hl => setExternalBoundary_returns s hh ha hl, fun l h hl hh => ?_,
    fun us => ?_, fun ls => ?_, ?_⟩
  · obtain ⟨_, _, e⟩ := Good.updateBoundaryOptions w (l := .num l) (h := .num h)
      (.inr ⟨l, rfl, hl⟩) (.inr ⟨h, rfl, hh⟩)
    exact e
  · obtain ⟨_, _, e⟩ : Good (s.setUdls us) :=
      Good.andThen (Good.forEach _ (fun _ a w => Good.addUdl w a) us s w) (fun s _ w => by
        refine ⟨?_, (), rfl⟩
        apply DWF.reset
        refine w.congr ?_
        simp [SameForm, Slope.updateUdlCoordinates, map_place_udl_form w])
    exact e
  · obtain ⟨_, _, e⟩ : Good (s.setLls ls) :=
      Good.andThen (Good.forEach _ (fun _ a w => Good.addLl w a) ls s w) (fun s _ w => by
        refine ⟨?_, (), rfl⟩
        apply DWF.reset
        refine w.congr ?_
        simp [SameForm, Slope.updateLlCoordinates, map_place_ll_form w])
    exact e
  · rw [removeAnalysisLimits_form s w.ground.across.1
      (lt_of_le_of_lt w.ground.across.2.1 w.ground.across.2.2)]

theorem updateBoundaryOptions_udls (s : Slope (F64 A)) (l h : PyVal (F64 A)) :
    (s.updateBoundaryOptions l h).1.udls.length = s.udls.length := by
  unfold Slope.updateBoundaryOptions
  refine andThen_inv (I := fun t => t.udls.length = s.udls.length) _ _ ?_
    (fun t _ w => andThen_inv (I := fun t => t.udls.length = s.udls.length) _ _ ?_
      (fun t _ w => andThen_inv (I := fun t => t.udls.length = s.udls.length) _ _ ?_
        (fun _ _ w => w)))
  · split
    · split <;> rfl
    · rfl
  · split
    · split <;> exact w
    · exact w
  · split
    · unfold Slope.setExternalBoundary
      split
      · exact w
      · rename_i H L e
        rw [applyBoundary_form _ _ _ (lt_of_lt_of_le F64.tiny_pos (boundaryInputs_form e).2)]
        simpa [Slope.withForm] using w
    · exact w

/-- A load the constructor builds: magnitude 20, offset 0.1, length 2. -/
noncomputable def exUdl64 (A : Machine) : Udl (F64 A) :=
  { magnitude := pyAbs (F64.mk 20), offset := pyAbs (F64.mk 0.1), length := some (pyAbs (F64.mk 2))
    color := "red", dynamic := false }

theorem exUdl64_constructed (A : Machine) : Udl.Constructed (exUdl64 A) := by
  refine ⟨fun _ => true, .num (F64.mk 20), .num (F64.mk 0.1), .num (F64.mk 2), "red", false, ?_⟩
  have : pyEq (F64.mk 2 : F64 A) 0 = false := by
    rw [F64.pyEq_iff, F64.val_zero, F64.val_mk]
    have := (F64.rnd_coarse (A := A) (x := 2) (by norm_num)).1
    rw [decide_eq_false_iff_not]
    intro h
    rw [h] at this
    norm_num at this
  simp [Udl.new, assertNumber, PyVal.truthy, this, bind, Except.bind, pure, Except.pure, PyVal.get!,
    exUdl64]

/-- On every machine the slope of 1 m by 2.73 m with that load is reachable and carries it. -/
example (A : Machine) : ∃ s t : Slope (F64 A),
    Slope.new (.num (F64.mk 1)) (.num (F64.mk 30)) (.num (F64.mk 2.73)) = .ok s ∧
    t = (s.setUdls [some (exUdl64 A)]).1 ∧ Reachable t ∧ t.udls.length = 1 ∧ SoundGround t ∧
    SoundLoads t := by
  obtain ⟨s, h, _, hu, _⟩ := exDouble A.rounds
  have hr : Reachable (s.setUdls [some (exUdl64 A)]).1 :=
    .call (.init h) (.setUdls _ _ (by
      intro u hu
      simp only [List.mem_singleton, Option.some.injEq] at hu
      rw [hu]; exact exUdl64_constructed A))
  refine ⟨s, _, h, rfl, hr, ?_, (C89_sound _ hr).1, (C89_sound _ hr).2.2.1⟩
  have hm : (0 : F64 A) < (exUdl64 A).magnitude := by
    rw [F64.lt_iff, F64.val_zero]
    have h1 := (F64.rnd_coarse (A := A) (x := 20) (by norm_num)).1
    have h2 : ¬ (F64.mk 20 : F64 A) < 0 := by
      rw [F64.lt_iff, F64.val_zero, F64.val_mk]; norm_num at h1 ⊢; linarith
    simp only [exUdl64, pyAbs, if_neg h2, F64.val_mk]
    norm_num at h1; linarith
  simp only [Slope.setUdls, Slope.forEach, Slope.addUdl, if_pos hm, hu, List.nil_append]
  split
  · rename_i hlt
    have e := updateBoundaryOptions_udls { s with udls := [placeUdl s.topX (exUdl64 A)] }
      (.num (exUdl64 A).minLength) .none
    have w := (Reachable.init h).form
    have w' : DWF { s with udls := [placeUdl s.topX (exUdl64 A)] } := by
      refine ⟨w.bnd, w.hgt, w.len, w.topX, w.topY, w.botX, w.botY, w.extL5, w.extH3, w.extH5, w.minL,
        w.minH, w.l1, w.l12, w.l2, w.l3, w.l34, w.l4, ?_, w.ll, w.mats⟩
      intro p hp
      rw [List.mem_singleton.mp hp]; rfl
    obtain ⟨_, _, e2⟩ := Good.updateBoundaryOptions w' (l := .num (exUdl64 A).minLength)
      (h := .none) (.inr ⟨_, rfl, by rw [F64.lt_iff] at hlt; linarith [w.minL]⟩) (.inl rfl)
    generalize Slope.updateBoundaryOptions (K := F64 A) _ _ _ = o at e e2 ⊢
    obtain ⟨t, x⟩ := o
    simp only at e2
    subst e2
    simpa [Out.andThen, Slope.updateUdlCoordinates, Slope.resetResults] using e
  · simp [Out.andThen, Slope.updateUdlCoordinates, Slope.resetResults]

end PySlope
