import Verif.Spec.Args
import Verif.Spec.Example
import Verif.Lemmas.Sane

/-! # C02, C15-C18: loads -/

namespace PySlope

/-! ## C02 -/

/-- C02: `Udl` and `LineLoad` accept exactly plain numbers (for a length also a falsy value, which
means continuous), keep absolute values, and so do not depend on the signs. -/
theorem C02_signs_do_not_matter (isColor : String → Bool) (c : String) (dyn : Bool) :
    (∀ m o l m' o' l' : ℝ, |m'| = |m| → |o'| = |o| → |l'| = |l| →
      Udl.new isColor (.num m') (.num o') (.num l') c dyn =
        Udl.new isColor (.num m) (.num o) (.num l) c dyn) ∧
    (∀ m o l : ℝ, Udl.new isColor (.num m) (.num o) (.num l) c dyn = .ok
      { magnitude := |m|, offset := |o|, length := if l = 0 then none else some |l|,
        color := if isColor c then c else "red", dynamic := dyn }) ∧
    (∀ m o : ℝ, Udl.new isColor (.num m) (.num o) .none c dyn = .ok
      { magnitude := |m|, offset := |o|, length := none,
        color := if isColor c then c else "red", dynamic := dyn }) ∧
    (∀ m o l : PyVal ℝ, (m.asPlain = none ∨ o.asPlain = none ∨
        (l.truthy = true ∧ l.asPlain = none)) →
      Udl.new isColor m o l c dyn = .error .valueError) ∧
    (∀ m o m' o' : ℝ, |m'| = |m| → |o'| = |o| →
      LineLoad.new isColor (.num m') (.num o') c dyn =
        LineLoad.new isColor (.num m) (.num o) c dyn) ∧
    (∀ m o : ℝ, LineLoad.new isColor (.num m) (.num o) c dyn = .ok
      { magnitude := |m|, offset := |o|, color := if isColor c then c else "blue",
        dynamic := dyn }) ∧
    (∀ m o : PyVal ℝ, (m.asPlain = none ∨ o.asPlain = none) →
      LineLoad.new isColor m o c dyn = .error .valueError) := by
  have form : ∀ m o l : ℝ, Udl.new isColor (.num m) (.num o) (.num l) c dyn = .ok
      { magnitude := |m|, offset := |o|, length := if l = 0 then none else some |l|,
        color := if isColor c then c else "red", dynamic := dyn } := by
    intro m o l
    by_cases h : l = 0 <;>
      simp [Udl.new, assertNumber, PyVal.truthy, PyVal.get!, bind, Except.bind, pure,
        Except.pure, h]
  have formL : ∀ m o : ℝ, LineLoad.new isColor (.num m) (.num o) c dyn = .ok
      { magnitude := |m|, offset := |o|, color := if isColor c then c else "blue",
        dynamic := dyn } := by
    intro m o
    simp [LineLoad.new, assertNumber, PyVal.get!, bind, Except.bind, pure, Except.pure]
  refine ⟨?_, form, ?_, ?_, ?_, formL, ?_⟩
  · intro m o l m' o' l' h1 h2 h3
    rw [form, form, h1, h2, h3]
    have : (l' = 0) ↔ (l = 0) := by rw [← abs_eq_zero, h3, abs_eq_zero]
    simp only [this]
  · intro m o
    simp [Udl.new, assertNumber, PyVal.truthy, PyVal.get!, bind, Except.bind, pure, Except.pure]
  · intro m o l h
    rcases m with x | x | _ | _ <;> rcases o with y | y | _ | _ <;> rcases l with z | z | _ | t <;>
      simp_all [Udl.new, assertNumber, PyVal.asPlain, bind, Except.bind, pure, Except.pure]
  · intro m o m' o' h1 h2
    rw [formL, formL, h1, h2]
  · intro m o h
    rcases m with x | x | _ | _ <;> rcases o with y | y | _ | _ <;>
      simp_all [LineLoad.new, assertNumber, PyVal.asPlain, bind, Except.bind, pure, Except.pure]

/-- A case of C02: `Udl(-20, -1, -3)` is `Udl(20, 1, 3)`. -/
example : ∃ u : Udl ℝ, Udl.new (fun _ => true) (.num (-20)) (.num (-1)) (.num (-3)) "red" false =
    .ok u ∧ u.magnitude = 20 ∧ u.offset = 1 ∧ u.length = some 3 := by
  refine ⟨_, (C02_signs_do_not_matter _ _ _).2.1 (-20) (-1) (-3), ?_, ?_, ?_⟩ <;> norm_num

/-! ## C15 -/

/-- The load is on the crest plateau, inside the model, and at its full length. -/
def UdlFits (s : Slope ℝ) (p : PUdl ℝ) : Prop :=
  0 ≤ p.left ∧ p.left ≤ p.right ∧ p.right ≤ s.topX ∧
  p.right = s.topX - p.load.offset ∧
  (∀ l, p.load.length = some l → p.right - p.left = l) ∧
  (p.load.length = none → p.left = 0)

/-- The line load is on the crest plateau, inside the model, at its distance from the crest. -/
def LlFits (s : Slope ℝ) (p : PLl ℝ) : Prop :=
  0 ≤ p.coord ∧ p.coord ≤ s.topX ∧ p.coord = s.topX - p.load.offset

theorem minLength_some {u : Udl ℝ} {l : ℝ} (h : u.length = some l) (h0 : 0 < l) :
    u.minLength = (u.offset + l) * 2.5 := by
  unfold Udl.minLength
  simp only [h, pyEq_real, lit_zero, h0.ne', decide_false]
  rfl

theorem minLength_none {u : Udl ℝ} (h : u.length = none) :
    u.minLength = (u.offset + 3) * 2.5 := by
  unfold Udl.minLength
  simp only [h]

theorem forEach_addUdl {s : Slope ℝ} (h : WFS s) (us : List (UdlArg ℝ))
    (hu : ∀ v, some v ∈ us → ∀ l, v.length = some l → 0 < l) :
    ∃ t, Slope.forEach Slope.addUdl us s = (t, .ok ()) ∧ WFS t ∧
      t.udls.map PUdl.load = s.udls.map PUdl.load ++
        (us.filterMap id).filter (fun u => decide (0 < u.magnitude)) ∧
      t.lls.map PLl.load = s.lls.map PLl.load ∧
      s.minExtL ≤ t.minExtL ∧
      (∀ v, some v ∈ us → 0 < v.magnitude → v.minLength ≤ t.minExtL) := by
  induction us generalizing s with
  | nil => exact ⟨s, rfl, h, by simp, rfl, le_refl _, by simp⟩
  | cons a us ih =>
    have hstep : ∃ t, s.addUdl a = (t, .ok ()) ∧ WFS t ∧
        t.udls.map PUdl.load = s.udls.map PUdl.load ++
          ([a].filterMap id).filter (fun u => decide (0 < u.magnitude)) ∧
        t.lls.map PLl.load = s.lls.map PLl.load ∧
        s.minExtL ≤ t.minExtL ∧
        (∀ v, a = some v → 0 < v.magnitude → v.minLength ≤ t.minExtL) := by
      have w := h.1.addUdl a
      have sn := h.2.addUdl h.1.geo a (fun v e => hu v (e ▸ List.mem_cons_self))
      rcases a with _ | u
      · exact ⟨s, rfl, h, by simp, rfl, le_refl _, by simp⟩
      · by_cases hm : 0 < u.magnitude
        · have e := addUdl_eq h.2 h.1.geo u hm
          rw [e] at w sn
          refine ⟨_, e, ⟨w, sn⟩, ?_, ?_, ?_, ?_⟩
          · split <;> simp [Slope.withGeo, hm, Function.comp_def, placeUdl]
          · split <;> simp [Slope.withGeo, Function.comp_def, placeLl]
          · split
            · rename_i hh; exact hh.le
            · exact le_refl _
          · rintro v ⟨⟩ _
            split
            · exact le_refl _
            · rename_i hh; exact not_lt.mp hh
        · refine ⟨s, ?_, h, by simp [hm], rfl, le_refl _, by
            rintro v ⟨⟩ h'; exact absurd h' hm⟩
          unfold Slope.addUdl
          simp only [lit_zero]
          rw [if_neg hm]
    obtain ⟨t, e, w, e1, e2, e3, e4⟩ := hstep
    obtain ⟨t', e', w', e1', e2', e3', e4'⟩ := ih w (fun v hv => hu v (List.mem_cons_of_mem _ hv))
    refine ⟨t', ?_, w', ?_, ?_, e3.trans e3', ?_⟩
    · simp only [Slope.forEach, e, Out.andThen, e']
    · rw [e1', e1]
      rcases a with _ | u
      · simp
      · by_cases hm : 0 < u.magnitude <;> simp [hm]
    · rw [e2', e2]
    · intro v hv hm
      rcases List.mem_cons.mp hv with rfl | hv
      · exact (e4 v rfl hm).trans e3'
      · exact e4' v hv hm

theorem forEach_addLl {s : Slope ℝ} (h : WFS s) (us : List (Option (LineLoad ℝ))) :
    ∃ t, Slope.forEach Slope.addLl us s = (t, .ok ()) ∧ WFS t ∧
      t.lls.map PLl.load = s.lls.map PLl.load ++
        (us.filterMap id).filter (fun u => decide (0 < u.magnitude)) ∧
      t.udls.map PUdl.load = s.udls.map PUdl.load ∧
      s.minExtL ≤ t.minExtL ∧
      (∀ v, some v ∈ us → 0 < v.magnitude → v.offset * 3 ≤ t.minExtL) := by
  induction us generalizing s with
  | nil => exact ⟨s, rfl, h, by simp, rfl, le_refl _, by simp⟩
  | cons a us ih =>
    have hstep : ∃ t, s.addLl a = (t, .ok ()) ∧ WFS t ∧
        t.lls.map PLl.load = s.lls.map PLl.load ++
          ([a].filterMap id).filter (fun u => decide (0 < u.magnitude)) ∧
        t.udls.map PUdl.load = s.udls.map PUdl.load ∧
        s.minExtL ≤ t.minExtL ∧
        (∀ v, a = some v → 0 < v.magnitude → v.offset * 3 ≤ t.minExtL) := by
      have w := h.1.addLl a
      have sn := h.2.addLl h.1.geo a
      rcases a with _ | u
      · exact ⟨s, rfl, h, by simp, rfl, le_refl _, by simp⟩
      · by_cases hm : 0 < u.magnitude
        · have e := addLl_eq h.2 h.1.geo u hm
          rw [e] at w sn
          refine ⟨_, e, ⟨w, sn⟩, ?_, ?_, ?_, ?_⟩
          · split <;> simp [Slope.withGeo, hm, Function.comp_def, placeLl]
          · split <;> simp [Slope.withGeo, Function.comp_def, placeUdl]
          · split
            · rename_i hh; exact hh.le
            · exact le_refl _
          · rintro v ⟨⟩ _
            split
            · exact le_refl _
            · rename_i hh; exact not_lt.mp hh
        · refine ⟨s, ?_, h, by simp [hm], rfl, le_refl _, by
            rintro v ⟨⟩ h'; exact absurd h' hm⟩
          unfold Slope.addLl
          simp only [lit_zero]
          rw [if_neg hm]
    obtain ⟨t, e, w, e1, e2, e3, e4⟩ := hstep
    obtain ⟨t', e', w', e1', e2', e3', e4'⟩ := ih w
    refine ⟨t', ?_, w', ?_, ?_, e3.trans e3', ?_⟩
    · simp only [Slope.forEach, e, Out.andThen, e']
    · rw [e1', e1]
      rcases a with _ | u
      · simp
      · by_cases hm : 0 < u.magnitude <;> simp [hm]
    · rw [e2', e2]
    · intro v hv hm
      rcases List.mem_cons.mp hv with rfl | hv
      · exact (e4 v rfl hm).trans e3'
      · exact e4' v hv hm

/-- The state after `set_udls`. -/
theorem setUdls_spec {s : Slope ℝ} (h : WFS s) (us : List (UdlArg ℝ))
    (hu : ∀ v, some v ∈ us → ∀ l, v.length = some l → 0 < l) :
    ∃ t, s.setUdls us = (t, .ok ()) ∧ WFS t ∧
      t.udls.map PUdl.load = s.udls.map PUdl.load ++
        (us.filterMap id).filter (fun u => decide (0 < u.magnitude)) ∧
      t.lls.map PLl.load = s.lls.map PLl.load ∧
      (∀ v, some v ∈ us → 0 < v.magnitude → v.minLength ≤ t.minExtL) ∧
      (∃ o, t.udlMax = maxMagnitude t.udls o) ∧ t.search = [] := by
  obtain ⟨t, e, w, e1, e2, e3, e4⟩ := forEach_addUdl h us hu
  have ws := h.setUdls us hu
  have e5 : s.setUdls us = (({ t.updateUdlCoordinates with
      udlMax := maxMagnitude t.updateUdlCoordinates.udls t.updateUdlCoordinates.udlMax } :
      Slope ℝ).resetResults, .ok ()) := by
    unfold Slope.setUdls
    rw [e]; rfl
  rw [e5] at ws
  refine ⟨_, e5, ws, ?_, e2, e4, ⟨_, rfl⟩, rfl⟩
  rw [← e1]
  simp [Slope.resetResults, Slope.updateUdlCoordinates, Function.comp_def, placeUdl]

/-- The state after `set_lls`. -/
theorem setLls_spec {s : Slope ℝ} (h : WFS s) (us : List (Option (LineLoad ℝ))) :
    ∃ t, s.setLls us = (t, .ok ()) ∧ WFS t ∧
      t.lls.map PLl.load = s.lls.map PLl.load ++
        (us.filterMap id).filter (fun u => decide (0 < u.magnitude)) ∧
      t.udls.map PUdl.load = s.udls.map PUdl.load ∧
      (∀ v, some v ∈ us → 0 < v.magnitude → v.offset * 3 ≤ t.minExtL) ∧ t.search = [] := by
  obtain ⟨t, e, w, e1, e2, e3, e4⟩ := forEach_addLl h us
  have ws := h.setLls us
  have e5 : s.setLls us = (t.updateLlCoordinates.resetResults, .ok ()) := by
    unfold Slope.setLls
    rw [e]; rfl
  rw [e5] at ws
  refine ⟨_, e5, ws, ?_, e2, e4, rfl⟩
  rw [← e1]
  simp [Slope.resetResults, Slope.updateLlCoordinates, Function.comp_def, placeLl]

theorem topX_ge {s : Slope ℝ} (w : WF s) : 0.4 * s.extL ≤ s.topX := by
  have := w.geo.topX; have := w.geo.extL5
  norm_num; linarith

theorem udl_fits {t : Slope ℝ} (h : WFS t) {p : PUdl ℝ} (hp : p ∈ t.udls)
    (ho : 0 ≤ p.load.offset) (hm : p.load.minLength ≤ t.minExtL) : UdlFits t p := by
  have e := h.1.udl p hp
  have hl := (h.2.udl p.load (List.mem_map_of_mem hp)).2
  have hbox := h.2.box
  have ht := topX_ge h.1
  norm_num at ht
  cases hlen : p.load.length with
  | none =>
    rw [minLength_none hlen] at hm
    norm_num at hm
    have e1 : p.right = t.topX - p.load.offset := by rw [e]; rfl
    have e2 : p.left = 0 := by
      rw [e]; simp [placeUdl, hlen]
    refine ⟨e2.ge, ?_, ?_, e1, ?_, fun _ => e2⟩
    · rw [e1, e2]; linarith
    · rw [e1]; linarith
    · intro l h; rw [hlen] at h; cases h
  | some l =>
    have hl0 := hl l hlen
    rw [minLength_some hlen hl0] at hm
    norm_num at hm
    have e1 : p.right = t.topX - p.load.offset := by rw [e]; rfl
    have e2 : p.left = t.topX - p.load.offset - l := by
      rw [e]
      simp only [placeUdl, hlen, pyEq_real, lit_zero, hl0.ne', decide_false, pyMax_real]
      exact max_eq_right (by linarith)
    refine ⟨?_, ?_, ?_, e1, ?_, ?_⟩
    · rw [e2]; linarith
    · rw [e1, e2]; linarith
    · rw [e1]; linarith
    · intro l' h'; rw [hlen] at h'; cases h'; rw [e1, e2]; ring
    · intro h'; rw [hlen] at h'; cases h'

/-- C15: `set_udls` and `set_lls` do not raise, keep the loads already there and add the ones
given whose magnitude is not 0, in order; and every load they add is on the crest plateau, inside
the model, uncut and at its distance from the crest. -/
theorem C15_loads_fit (s : Slope ℝ) (r : Reachable s) :
    (∀ us : List (UdlArg ℝ), (∀ u, some u ∈ us → Udl.Constructed u) →
      (s.setUdls us).2 = .ok () ∧
      (s.setUdls us).1.udls.map PUdl.load = s.udls.map PUdl.load ++
        (us.filterMap id).filter (fun u => decide (u.magnitude ≠ 0)) ∧
      (s.setUdls us).1.lls.map PLl.load = s.lls.map PLl.load ∧
      ∀ p ∈ (s.setUdls us).1.udls, some p.load ∈ us → UdlFits (s.setUdls us).1 p) ∧
    (∀ ls : List (Option (LineLoad ℝ)), (∀ u, some u ∈ ls → LineLoad.Constructed u) →
      (s.setLls ls).2 = .ok () ∧
      (s.setLls ls).1.lls.map PLl.load = s.lls.map PLl.load ++
        (ls.filterMap id).filter (fun u => decide (u.magnitude ≠ 0)) ∧
      (s.setLls ls).1.udls.map PUdl.load = s.udls.map PUdl.load ∧
      ∀ p ∈ (s.setLls ls).1.lls, some p.load ∈ ls → LlFits (s.setLls ls).1 p) := by
  constructor
  · intro us hc
    obtain ⟨t, e, w, e1, e2, e3, _⟩ :=
      setUdls_spec r.wfs us (fun v hv => (hc v hv).facts.2.2)
    rw [e]
    refine ⟨rfl, ?_, e2, ?_⟩
    · rw [e1]
      congr 1
      apply List.filter_congr
      intro u hu
      have : some u ∈ us := by
        simp only [List.mem_filterMap, id] at hu
        obtain ⟨a, ha, rfl⟩ := hu; exact ha
      have h0 := (hc u this).facts.1
      rw [decide_eq_decide]
      exact ⟨ne_of_gt, fun h => lt_of_le_of_ne h0 (Ne.symm h)⟩
    · intro p hp hin
      have hm := (w.2.udl p.load (List.mem_map_of_mem hp)).1
      exact udl_fits w hp (hc _ hin).facts.2.1 (e3 _ hin hm)
  · intro us hc
    obtain ⟨t, e, w, e1, e2, e3, _⟩ := setLls_spec r.wfs us
    rw [e]
    refine ⟨rfl, ?_, e2, ?_⟩
    · rw [e1]
      congr 1
      apply List.filter_congr
      intro u hu
      have : some u ∈ us := by
        simp only [List.mem_filterMap, id] at hu
        obtain ⟨a, ha, rfl⟩ := hu; exact ha
      have h0 := (hc u this).facts.1
      rw [decide_eq_decide]
      exact ⟨ne_of_gt, fun h => lt_of_le_of_ne h0 (Ne.symm h)⟩
    · intro p hp hin
      have hm := w.2.ll p.load (List.mem_map_of_mem hp)
      have ho := (hc _ hin).facts.2
      have hb := e3 _ hin hm
      have hbox := w.2.box
      have ht := topX_ge w.1
      norm_num at ht
      have e := w.1.ll p hp
      have e1 : p.coord = t.topX - p.load.offset := by
        rw [e]
        simp only [placeLl, pyMax_real, lit_zero]
        exact max_eq_right (by linarith)
      exact ⟨by rw [e1]; linarith, by rw [e1]; linarith, e1⟩

/-- A constructed load, for the examples: `Udl(magnitude=20, offset=o, length=2)`. -/
noncomputable def exUdl (o : ℝ) : Udl ℝ :=
  { magnitude := 20, offset := |o|, length := some 2, color := "red", dynamic := false }

theorem exUdl_constructed (o : ℝ) : Udl.Constructed (exUdl o) := by
  refine ⟨fun _ => true, .num 20, .num o, .num 2, "red", false, ?_⟩
  rw [(C02_signs_do_not_matter _ _ _).2.1]
  simp [exUdl]

/-- A constructed line load: `LineLoad(magnitude=20, offset=o)`. -/
noncomputable def exLl (o : ℝ) : LineLoad ℝ :=
  { magnitude := 20, offset := |o|, color := "blue", dynamic := false }

theorem exLl_constructed (o : ℝ) : LineLoad.Constructed (exLl o) := by
  refine ⟨fun _ => true, .num 20, .num o, "blue", false, ?_⟩
  rw [(C02_signs_do_not_matter _ _ _).2.2.2.2.2.1]
  simp [exLl]

/-- A case of C15 in which the model has to grow: a load at 10 m from the crest of the 15 m model. -/
example : (exSlope.setUdls [some (exUdl 10)]).1.udls ≠ [] ∧
    ∀ p ∈ (exSlope.setUdls [some (exUdl 10)]).1.udls, UdlFits (exSlope.setUdls [some (exUdl 10)]).1 p := by
  obtain ⟨h1, h2, h3, h4⟩ := (C15_loads_fit exSlope exSlope_reachable).1 [some (exUdl 10)]
    (by intro u hu; simp at hu; subst hu; exact exUdl_constructed 10)
  have e : (exSlope.setUdls [some (exUdl 10)]).1.udls.map PUdl.load = [exUdl 10] := by
    rw [h2]; simp [exUdl]
  constructor
  · intro h; rw [h] at e; cases e
  · intro p hp
    refine h4 p hp ?_
    have : p.load ∈ [exUdl 10] := e ▸ List.mem_map_of_mem hp
    simp at this; simp [this]

/-! ## C16 -/

/-- The loads a removal of `u` asks for: same offset, magnitude and length. -/
def SameUdl (a u : Udl ℝ) : Prop :=
  a.offset = u.offset ∧ a.magnitude = u.magnitude ∧ a.length = u.length

/-- The line loads a removal of `u` asks for: same offset and magnitude. -/
def SameLl (a u : LineLoad ℝ) : Prop := a.offset = u.offset ∧ a.magnitude = u.magnitude

theorem optEq_real (a b : Option ℝ) : optEq a b = true ↔ a = b := by
  rcases a with _ | a <;> rcases b with _ | b <;> simp [optEq]

theorem udl_matches (a u : Udl ℝ) : a.matches u = true ↔ SameUdl a u := by
  simp [Udl.matches, SameUdl, optEq_real, and_assoc]

theorem ll_matches (a u : LineLoad ℝ) : a.matches u = true ↔ SameLl a u := by
  simp [LineLoad.matches, SameLl]

theorem removeFirst_filter {α : Type} (eq : α → Bool) (keep : α → Bool)
    (h : ∀ a, eq a = true → keep a = false) (l : List α) :
    (removeFirst eq l).filter keep = l.filter keep := by
  induction l with
  | nil => rfl
  | cons a l ih =>
    unfold removeFirst
    split
    · rename_i ha; rw [List.filter_cons_of_neg (by simp [h a ha])]
    · rw [List.filter_cons, List.filter_cons, ih]

/-- The loop keeps every element that fails the test. -/
theorem removeLoop_filter {α : Type} (test : α → Bool) (eq : α → α → Bool)
    (h : ∀ a b, test a = true → eq a b = true → test b = true) (fuel i : Nat) (l : List α) :
    (removeLoop test eq fuel i l).filter (fun a => !test a) = l.filter (fun a => !test a) := by
  induction fuel generalizing i l with
  | zero => rfl
  | succ n ih =>
    unfold removeLoop
    split
    · rfl
    · rename_i c _
      split
      · rename_i hc
        rw [ih]
        exact removeFirst_filter _ _ (fun b hb => by simp [h c b hc hb]) l
      · exact ih _ _

theorem removeFirst_skip {α : Type} (eq : α → Bool) (pre : List α) (c : α) (rest : List α)
    (hp : ∀ a ∈ pre, eq a = false) (hc : eq c = true) :
    removeFirst eq (pre ++ c :: rest) = pre ++ rest := by
  induction pre with
  | nil => simp [removeFirst, hc]
  | cons a pre ih =>
    rw [List.cons_append, removeFirst, if_neg (by simp [hp a (by simp)]), List.cons_append,
      ih (fun b hb => hp b (List.mem_cons_of_mem _ hb))]

/-- Without two matching neighbours the loop removes every match. -/
theorem removeLoop_exact {α : Type} (test : α → Bool) (eq : α → α → Bool)
    (refl : ∀ a, eq a a = true) (h : ∀ a b, test a = true → eq a b = true → test b = true)
    (fuel : Nat) (pre l : List α) (hf : l.length ≤ fuel) (hp : ∀ a ∈ pre, test a = false)
    (hl : l.IsChain (fun a b => ¬ (test a = true ∧ test b = true))) :
    removeLoop test eq fuel pre.length (pre ++ l) = pre ++ l.filter (fun a => !test a) := by
  induction fuel generalizing pre l with
  | zero =>
    have : l = [] := List.length_eq_zero_iff.mp (by omega)
    subst this; rfl
  | succ n ih =>
    cases l with
    | nil =>
      unfold removeLoop
      simp
    | cons c rest =>
      unfold removeLoop
      rw [List.getElem?_append_right (le_refl _)]
      simp only [Nat.sub_self, List.getElem?_cons_zero]
      by_cases hc : test c = true
      · rw [if_pos hc, removeFirst_skip (eq c) pre c rest (fun a ha => ?_) (refl c)]
        · rw [List.filter_cons_of_neg (by simp [hc])]
          cases rest with
          | nil =>
            simp only [List.append_nil, List.filter_nil]
            cases n with
            | zero => rfl
            | succ n => unfold removeLoop; simp
          | cons d rest =>
            rw [List.isChain_cons_cons] at hl
            have hd : test d = false := by
              by_contra hd
              exact hl.1 ⟨hc, by simpa using hd⟩
            have e : pre ++ d :: rest = (pre ++ [d]) ++ rest := by simp
            have := ih (pre ++ [d]) rest (by simp at hf; omega) (by
              intro a ha
              rcases List.mem_append.mp ha with ha | ha
              · exact hp a ha
              · rw [List.mem_singleton.mp ha]; exact hd) hl.2.tail
            rw [List.length_append] at this
            simp only [List.length_singleton] at this
            rw [e, this, List.filter_cons_of_pos (by simp [hd])]
            simp
        · by_contra hh
          have := h c a hc (by simpa using hh)
          rw [hp a ha] at this; cases this
      · rw [if_neg hc, List.filter_cons_of_pos (by simpa using hc)]
        have e : pre ++ c :: rest = (pre ++ [c]) ++ rest := by simp
        have := ih (pre ++ [c]) rest (by simp at hf; omega) (by
          intro a ha
          rcases List.mem_append.mp ha with ha | ha
          · exact hp a ha
          · rw [List.mem_singleton.mp ha]; simpa using hc) hl.tail
        rw [List.length_append] at this
        simp only [List.length_singleton] at this
        rw [e, this]; simp

theorem udl_eq_matches {u : Udl ℝ} (a b : PUdl ℝ) (h : a.load.matches u = true)
    (e : a.load.eq b.load = true) : b.load.matches u = true := by
  rw [udl_matches] at h ⊢
  simp only [Udl.eq, pyEq_real, Bool.and_eq_true, decide_eq_true_eq, optEq_real] at e
  obtain ⟨⟨⟨⟨e1, e2⟩, e3⟩, _⟩, _⟩ := e
  exact ⟨e2 ▸ h.1, e1 ▸ h.2.1, e3 ▸ h.2.2⟩

theorem ll_eq_matches {u : LineLoad ℝ} (a b : PLl ℝ) (h : a.load.matches u = true)
    (e : a.load.eq b.load = true) : b.load.matches u = true := by
  rw [ll_matches] at h ⊢
  simp only [LineLoad.eq, pyEq_real, Bool.and_eq_true, decide_eq_true_eq] at e
  obtain ⟨⟨⟨e1, e2⟩, _⟩, _⟩ := e
  exact ⟨e2 ▸ h.1, e1 ▸ h.2⟩

theorem udl_eq_refl (a : PUdl ℝ) : a.load.eq a.load = true := by
  simp [Udl.eq, optEq_real]

theorem ll_eq_refl (a : PLl ℝ) : a.load.eq a.load = true := by
  simp [LineLoad.eq]

/-- The loads left by `remove_udls`. -/
theorem removeUdls_udls (s : Slope ℝ) (us : List (Udl ℝ)) :
    (s.removeUdls us false).1.udls = us.foldl (fun l u =>
      removeLoop (fun (c : PUdl ℝ) => c.load.matches u) (fun a b => a.load.eq b.load)
        l.length 0 l) s.udls := by
  unfold Slope.removeUdls Slope.resetResults
  simp only [Bool.false_eq_true, if_false]
  split <;> rfl

theorem foldl_remove_filter {α β : Type} (f : List α → β → List α) (keep : α → Bool) (bs : List β)
    (hf : ∀ l, ∀ b ∈ bs, (f l b).filter keep = l.filter keep) (l : List α) :
    (bs.foldl f l).filter keep = l.filter keep := by
  induction bs generalizing l with
  | nil => rfl
  | cons b bs ih =>
    rw [List.foldl_cons, ih (fun l b hb => hf l b (List.mem_cons_of_mem _ hb)), hf l b (by simp)]

theorem filter_of_filter {α : Type} {p q : α → Bool} (h : ∀ a, p a = true → q a = true)
    {l l' : List α} (e : l.filter q = l'.filter q) : l.filter p = l'.filter p := by
  have := congrArg (List.filter p) e
  rw [List.filter_filter, List.filter_filter] at this
  have hh : ∀ a, (p a && q a) = p a := by
    intro a; cases hp : p a
    · rfl
    · simp [h a hp]
  simpa only [hh] using this

open Classical in
/-- C16 (partial): `remove_udls` and `remove_lls` only ever take loads away, never one that does
not match, and take away every match when no two neighbours match (in particular when the loads
are distinct). `remove_all` takes all. Missing: of two neighbouring matches one may stay
(`C16_neighbours_stay`). -/
theorem C16_remove_matches_partial (s : Slope ℝ) :
    (∀ us : List (Udl ℝ), (s.removeUdls us false).1.udls.Sublist s.udls ∧
      ∀ keep : PUdl ℝ → Prop, (∀ p, keep p → ∀ u ∈ us, ¬ SameUdl p.load u) →
        (s.removeUdls us false).1.udls.filter (fun p => decide (keep p)) =
          s.udls.filter (fun p => decide (keep p))) ∧
    (∀ u : Udl ℝ, s.udls.IsChain (fun a b => ¬ (SameUdl a.load u ∧ SameUdl b.load u)) →
      (s.removeUdls [u] false).1.udls = s.udls.filter (fun p => decide (¬ SameUdl p.load u))) ∧
    (∀ us : List (LineLoad ℝ), (s.removeLls us false).1.lls.Sublist s.lls ∧
      ∀ keep : PLl ℝ → Prop, (∀ p, keep p → ∀ u ∈ us, ¬ SameLl p.load u) →
        (s.removeLls us false).1.lls.filter (fun p => decide (keep p)) =
          s.lls.filter (fun p => decide (keep p))) ∧
    (∀ u : LineLoad ℝ, s.lls.IsChain (fun a b => ¬ (SameLl a.load u ∧ SameLl b.load u)) →
      (s.removeLls [u] false).1.lls = s.lls.filter (fun p => decide (¬ SameLl p.load u))) ∧
    (∀ us, (s.removeUdls us true).1.udls = []) ∧ (∀ us, (s.removeLls us true).1.lls = []) := by
  refine ⟨?_, ?_, ?_, ?_, fun us => rfl, fun us => rfl⟩
  · intro us
    refine ⟨WFS.removeUdls_sub s us false, fun keep hk => ?_⟩
    rw [removeUdls_udls]
    refine foldl_remove_filter _ _ _ (fun l u hu => ?_) _
    refine filter_of_filter ?_ (removeLoop_filter _ _ (udl_eq_matches (u := u)) _ _ _)
    intro p hp
    have := hk p (by simpa using hp) u hu
    rw [← udl_matches] at this
    simpa using this
  · intro u hc
    rw [removeUdls_udls]
    have := removeLoop_exact (fun (c : PUdl ℝ) => c.load.matches u) (fun a b => a.load.eq b.load)
      udl_eq_refl (udl_eq_matches (u := u)) s.udls.length [] s.udls (le_refl _) (by simp)
      (by simpa only [udl_matches] using hc)
    simp only [List.foldl_cons, List.foldl_nil]
    simp only [List.length_nil, List.nil_append] at this
    rw [this]
    apply List.filter_congr
    intro p _
    rw [Bool.eq_iff_iff]
    simp [← udl_matches]
  · intro us
    refine ⟨WFS.removeLls_sub s us false, fun keep hk => ?_⟩
    change (us.foldl (fun acc u =>
      removeLoop (fun (c : PLl ℝ) => c.load.matches u) (fun a b => a.load.eq b.load)
        acc.length 0 acc) s.lls).filter _ = _
    refine foldl_remove_filter _ _ _ (fun l u hu => ?_) _
    refine filter_of_filter ?_ (removeLoop_filter _ _ (ll_eq_matches (u := u)) _ _ _)
    intro p hp
    have := hk p (by simpa using hp) u hu
    rw [← ll_matches] at this
    simpa using this
  · intro u hc
    have := removeLoop_exact (fun (c : PLl ℝ) => c.load.matches u) (fun a b => a.load.eq b.load)
      ll_eq_refl (ll_eq_matches (u := u)) s.lls.length [] s.lls (le_refl _) (by simp)
      (by simpa only [ll_matches] using hc)
    simp only [List.length_nil, List.nil_append] at this
    change removeLoop (fun (c : PLl ℝ) => c.load.matches u) (fun a b => a.load.eq b.load)
        s.lls.length 0 s.lls = _
    rw [this]
    apply List.filter_congr
    intro p _
    rw [Bool.eq_iff_iff]
    simp [← ll_matches]

/-- The loads of a slope with the given `Udl`s set on the example. -/
theorem exSlope_setUdls (us : List (Udl ℝ)) (h : ∀ u ∈ us, Udl.Constructed u ∧ u.magnitude ≠ 0) :
    Reachable (exSlope.setUdls (us.map some)).1 ∧
      (exSlope.setUdls (us.map some)).1.udls.map PUdl.load = us := by
  have hc : ∀ u, some u ∈ us.map some → Udl.Constructed u := by
    intro u hu
    simp only [List.mem_map, Option.some.injEq, exists_eq_right] at hu
    exact (h u hu).1
  refine ⟨exSlope_reachable.call (.setUdls _ _ hc), ?_⟩
  rw [((C15_loads_fit exSlope exSlope_reachable).1 _ hc).2.1]
  have : (us.map some).filterMap id = us := by simp
  rw [this]
  simp
  exact fun u hu => (h u hu).2

/-- A case of C16: two loads at different offsets have no matching neighbours. -/
example : (exSlope.setUdls ([exUdl 1, exUdl 2].map some)).1.udls.map PUdl.load =
      [exUdl 1, exUdl 2] ∧
    ¬ (SameUdl (exUdl 1) (exUdl 1) ∧ SameUdl (exUdl 2) (exUdl 1)) := by
  refine ⟨(exSlope_setUdls _ ?_).2, ?_⟩
  · intro u hu
    simp at hu
    rcases hu with rfl | rfl
    · exact ⟨exUdl_constructed _, by simp [exUdl]⟩
    · exact ⟨exUdl_constructed _, by simp [exUdl]⟩
  · rintro ⟨_, h, _⟩
    simp [exUdl] at h

/-- C16 is violated: with the same load set twice, `remove_udls` of that load leaves one. -/
theorem C16_neighbours_stay :
    ∃ (s : Slope ℝ) (u : Udl ℝ), Reachable s ∧ Udl.Constructed u ∧
      s.udls.map PUdl.load = [u, u] ∧ (s.removeUdls [u] false).1.udls.map PUdl.load = [u] := by
  obtain ⟨r, e⟩ := exSlope_setUdls [exUdl 1, exUdl 1] (by
    intro u hu
    simp at hu; subst hu
    exact ⟨exUdl_constructed _, by simp [exUdl]⟩)
  refine ⟨_, exUdl 1, r, exUdl_constructed _, e, ?_⟩
  rw [removeUdls_udls]
  generalize (exSlope.setUdls ([exUdl 1, exUdl 1].map some)).1.udls = l at e
  rcases l with _ | ⟨a, _ | ⟨b, _ | ⟨c, l⟩⟩⟩ <;> simp at e
  obtain ⟨ha, hb⟩ := e
  have hm : (exUdl 1).matches (exUdl 1) = true := (udl_matches _ _).mpr ⟨rfl, rfl, rfl⟩
  have he : (exUdl 1).eq (exUdl 1) = true := by simp [Udl.eq, optEq_real]
  simp [removeLoop, removeFirst, ha, hb, hm, he]

/-! ## C17 -/

/-- C17 (partial): right after `set_udls`, when there is a load, the recorded maximum is the number
that is the greatest magnitude. Missing: `remove_udls` replaces it by a load object
(`C17_max_not_a_number`). -/
theorem C17_max_after_set_partial (s : Slope ℝ) (r : Reachable s) (us : List (UdlArg ℝ))
    (hc : ∀ u, some u ∈ us → Udl.Constructed u) (hne : (s.setUdls us).1.udls ≠ []) :
    ∃ x, (s.setUdls us).1.udlMax = .num x ∧
      (∃ p ∈ (s.setUdls us).1.udls, p.load.magnitude = x) ∧
      (∀ p ∈ (s.setUdls us).1.udls, p.load.magnitude ≤ x) ∧ 0 < x := by
  obtain ⟨t, e, w, _, _, _, ⟨o, e4⟩, _⟩ := setUdls_spec r.wfs us (fun v hv => (hc v hv).facts.2.2)
  rw [e] at hne ⊢
  rw [e4]
  have key : ∀ (l : List (PUdl ℝ)) (m : ℝ),
      m ≤ l.foldl (fun m v => pyMax m v.load.magnitude) m ∧
      (∀ p ∈ l, p.load.magnitude ≤ l.foldl (fun m v => pyMax m v.load.magnitude) m) ∧
      (l.foldl (fun m v => pyMax m v.load.magnitude) m = m ∨
        ∃ p ∈ l, p.load.magnitude = l.foldl (fun m v => pyMax m v.load.magnitude) m) := by
    intro l
    induction l with
    | nil => intro m; simp
    | cons a l ih =>
      intro m
      simp only [List.foldl_cons, pyMax_real] at ih ⊢
      obtain ⟨h1, h2, h3⟩ := ih (max m a.load.magnitude)
      refine ⟨(le_max_left _ _).trans h1, ?_, ?_⟩
      · intro p hp
        rcases List.mem_cons.mp hp with rfl | hp
        · exact (le_max_right _ _).trans h1
        · exact h2 p hp
      · rcases h3 with h3 | ⟨p, hp, h3⟩
        · rcases max_choice m a.load.magnitude with hh | hh
          · left; rw [h3, hh]
          · right; exact ⟨a, by simp, by rw [h3, hh]⟩
        · right; exact ⟨p, List.mem_cons_of_mem _ hp, h3⟩
  change t.udls ≠ [] at hne
  change ∃ x, _ ∧ (∃ p ∈ t.udls, p.load.magnitude = x) ∧ (∀ p ∈ t.udls, p.load.magnitude ≤ x) ∧ _
  have hpos : ∀ p ∈ t.udls, 0 < p.load.magnitude :=
    fun p hp => (w.2.udl p.load (List.mem_map_of_mem hp)).1
  generalize t.udls = l at hne hpos
  cases l with
  | nil => exact absurd rfl hne
  | cons a l =>
    obtain ⟨h1, h2, h3⟩ := key l a.load.magnitude
    refine ⟨_, rfl, ?_, ?_, lt_of_lt_of_le (hpos a (by simp)) h1⟩
    · rcases h3 with h3 | ⟨p, hp, h3⟩
      · exact ⟨a, by simp, h3.symm⟩
      · exact ⟨p, List.mem_cons_of_mem _ hp, h3⟩
    · intro p hp
      rcases List.mem_cons.mp hp with rfl | hp
      · exact h1
      · exact h2 p hp

/-- The hypotheses of C17 are met by one load on the example. -/
example : (exSlope.setUdls ([exUdl 1].map some)).1.udls ≠ [] := by
  have := (exSlope_setUdls [exUdl 1] (by
    intro u hu; simp at hu; subst hu; exact ⟨exUdl_constructed _, by simp [exUdl]⟩)).2
  intro h; rw [h] at this; cases this

/-- C17 is violated by every `remove_udls` that leaves a load, even one that removes nothing: the
recorded maximum is then not a number. Such states are reachable. -/
theorem C17_max_not_a_number :
    (∀ (s : Slope ℝ) us, (s.removeUdls us false).1.udls ≠ [] →
      ∀ x, (s.removeUdls us false).1.udlMax ≠ .num x) ∧
    ∃ s : Slope ℝ, Reachable s ∧ s.udls ≠ [] ∧ ∀ x, s.udlMax ≠ .num x := by
  have key : ∀ (s : Slope ℝ) us, (s.removeUdls us false).1.udls ≠ [] →
      ∀ x, (s.removeUdls us false).1.udlMax ≠ .num x := by
    intro s us h x hx
    rw [removeUdls_udls] at h
    unfold Slope.removeUdls Slope.resetResults at hx
    simp only [Bool.false_eq_true, if_false] at hx
    split at hx
    · rename_i e; exact h e
    · cases hx
  refine ⟨key, ?_⟩
  obtain ⟨r, e⟩ := exSlope_setUdls [exUdl 1] (by
    intro u hu; simp at hu; subst hu; exact ⟨exUdl_constructed _, by simp [exUdl]⟩)
  have hne : ((exSlope.setUdls ([exUdl 1].map some)).1.removeUdls [] false).1.udls ≠ [] := by
    rw [removeUdls_udls]
    simp only [List.foldl_nil]
    intro h; rw [h] at e; cases e
  exact ⟨_, r.call (.removeUdls _ [] false), hne, key _ _ hne⟩

/-! ## C18 -/

/-- C18: in every reachable state each load is where its offset and length put it: the right end at
`offset` left of the crest, the left end `length` further left but not beyond the model edge, or at
the edge for a continuous load; a line load at `offset` left of the crest but not beyond the edge. -/
theorem C18_loads_in_place (s : Slope ℝ) (r : Reachable s) :
    (∀ p ∈ s.udls, p.right = s.topX - p.load.offset ∧
      (∀ l, p.load.length = some l → p.left = max 0 (p.right - l)) ∧
      (p.load.length = none → p.left = 0)) ∧
    (∀ p ∈ s.lls, p.coord = max 0 (s.topX - p.load.offset)) := by
  constructor
  · intro p hp
    have e := r.wf.udl p hp
    have hl := (r.sane.udl p.load (List.mem_map_of_mem hp)).2
    refine ⟨by rw [e]; rfl, ?_, ?_⟩
    · intro l h
      rw [e]
      simp only [placeUdl, h, pyEq_real, lit_zero, (hl l h).ne', decide_false, pyMax_real]
      rfl
    · intro h
      rw [e]; simp [placeUdl, h]
  · intro p hp
    rw [r.wf.ll p hp]; simp [placeLl]

/-- A reachable state with a load. -/
example : ∃ s : Slope ℝ, Reachable s ∧ s.udls.map PUdl.load = [exUdl 1] :=
  ⟨_, exSlope_setUdls [exUdl 1] (by
    intro u hu; simp at hu; subst hu; exact ⟨exUdl_constructed _, by simp [exUdl]⟩)⟩

end PySlope
