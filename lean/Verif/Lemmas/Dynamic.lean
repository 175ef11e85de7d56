import Verif.Spec.Dynamic
import Verif.Props.Loads
import Verif.Lemmas.Results

/-! # The steps of a dynamic analysis -/

namespace PySlope

theorem andThen_done {α β : Type} (s : Slope ℝ) (a : α) (f : Slope ℝ → α → Out ℝ β) :
    Out.andThen (s, .ok a) f = f s a := rfl

theorem andThen_fail {α β : Type} (s : Slope ℝ) (e : PyErr) (f : Slope ℝ → α → Out ℝ β) :
    Out.andThen (s, .error e) f = (s, .error e) := rfl

namespace SameGround

theorem refl (s : Slope ℝ) : SameGround s s := by constructor <;> first | rfl | exact le_refl _

theorem trans {s t u : Slope ℝ} (h : SameGround s t) (k : SameGround t u) : SameGround s u where
  height := k.height.trans h.height
  length := k.length.trans h.length
  gradient := k.gradient.trans h.gradient
  materials := k.materials.trans h.materials
  waterRL := k.waterRL.trans h.waterRL
  waterDepth := k.waterDepth.trans h.waterDepth
  waterH := k.waterH.trans h.waterH
  slices := k.slices.trans h.slices
  iterations := k.iterations.trans h.iterations
  minFailureDist := k.minFailureDist.trans h.minFailureDist
  tolerance := k.tolerance.trans h.tolerance
  maxIterations := k.maxIterations.trans h.maxIterations
  minExtH := k.minExtH.trans h.minExtH
  minExtL := h.minExtL.trans k.minExtL

end SameGround

theorem addUdl_ground {s : Slope ℝ} (h : WFS s) (a : UdlArg ℝ) :
    SameGround s (s.addUdl a).1 ∧ (s.addUdl a).1.dynResults = s.dynResults ∧
      (s.addUdl a).1.individual = s.individual := by
  rcases a with _ | u
  · exact ⟨.refl _, rfl, rfl⟩
  · by_cases hm : 0 < u.magnitude
    · rw [addUdl_eq h.2 h.1.geo u hm]
      split
      · rename_i hh
        exact ⟨⟨rfl, rfl, h.1.geo.grad.symm, rfl, rfl, rfl, rfl, rfl, rfl, rfl, rfl, rfl, rfl, hh.le⟩, rfl, rfl⟩
      · exact ⟨⟨rfl, rfl, rfl, rfl, rfl, rfl, rfl, rfl, rfl, rfl, rfl, rfl, rfl, le_refl _⟩, rfl, rfl⟩
    · have : s.addUdl (some u) = (s, .ok ()) := by
        unfold Slope.addUdl
        simp only [lit_zero]
        rw [if_neg hm]
      rw [this]
      exact ⟨.refl _, rfl, rfl⟩

theorem addLl_ground {s : Slope ℝ} (h : WFS s) (a : Option (LineLoad ℝ)) :
    SameGround s (s.addLl a).1 ∧ (s.addLl a).1.dynResults = s.dynResults ∧
      (s.addLl a).1.individual = s.individual := by
  rcases a with _ | u
  · exact ⟨.refl _, rfl, rfl⟩
  · by_cases hm : 0 < u.magnitude
    · rw [addLl_eq h.2 h.1.geo u hm]
      split
      · rename_i hh
        exact ⟨⟨rfl, rfl, h.1.geo.grad.symm, rfl, rfl, rfl, rfl, rfl, rfl, rfl, rfl, rfl, rfl, hh.le⟩, rfl, rfl⟩
      · exact ⟨⟨rfl, rfl, rfl, rfl, rfl, rfl, rfl, rfl, rfl, rfl, rfl, rfl, rfl, le_refl _⟩, rfl, rfl⟩
    · have : s.addLl (some u) = (s, .ok ()) := by
        unfold Slope.addLl
        simp only [lit_zero]
        rw [if_neg hm]
      rw [this]
      exact ⟨.refl _, rfl, rfl⟩

theorem setUdl_ground {s : Slope ℝ} (h : WFS s) (u : Udl ℝ) :
    SameGround s (s.setUdls [some u]).1 ∧ (s.setUdls [some u]).1.dynResults = s.dynResults ∧
      (s.setUdls [some u]).1.individual = s.individual := by
  obtain ⟨h1, h2, h3⟩ := addUdl_ground h (some u)
  unfold Slope.setUdls Slope.forEach Slope.forEach
  cases e : s.addUdl (some u) with
  | mk t r =>
    rw [e] at h1 h2 h3
    cases r with
    | error x => exact ⟨h1, h2, h3⟩
    | ok x => exact ⟨⟨h1.1, h1.2, h1.3, h1.4, h1.5, h1.6, h1.7, h1.8, h1.9, h1.10, h1.11, h1.12, h1.13, h1.14⟩, h2, h3⟩

theorem setLl_ground {s : Slope ℝ} (h : WFS s) (u : LineLoad ℝ) :
    SameGround s (s.setLls [some u]).1 ∧ (s.setLls [some u]).1.dynResults = s.dynResults ∧
      (s.setLls [some u]).1.individual = s.individual := by
  obtain ⟨h1, h2, h3⟩ := addLl_ground h (some u)
  unfold Slope.setLls Slope.forEach Slope.forEach
  cases e : s.addLl (some u) with
  | mk t r =>
    rw [e] at h1 h2 h3
    cases r with
    | error x => exact ⟨h1, h2, h3⟩
    | ok x => exact ⟨⟨h1.1, h1.2, h1.3, h1.4, h1.5, h1.6, h1.7, h1.8, h1.9, h1.10, h1.11, h1.12, h1.13, h1.14⟩, h2, h3⟩

theorem movedTo_length (o : ℝ) (u : Udl ℝ) : (u.movedTo o).length = u.length := by
  unfold Udl.movedTo; split <;> rfl

theorem movedTo_magnitude (o : ℝ) (u : Udl ℝ) : (u.movedTo o).magnitude = u.magnitude := by
  unfold Udl.movedTo; split <;> rfl

theorem movedTo_dynamic (o : ℝ) (u : Udl ℝ) : (u.movedTo o).dynamic = u.dynamic := by
  unfold Udl.movedTo; split <;> rfl

theorem ll_movedTo_magnitude (o : ℝ) (u : LineLoad ℝ) : (u.movedTo o).magnitude = u.magnitude := by
  unfold LineLoad.movedTo; split <;> rfl

theorem forEach_udls (o : ℝ) (ps : List (PUdl ℝ)) {s : Slope ℝ} (h : WFS s)
    (hp : ∀ p ∈ ps, 0 < p.load.magnitude ∧ ∀ l, p.load.length = some l → 0 < l) :
    ∃ t, Slope.forEach (fun (s : Slope ℝ) (p : PUdl ℝ) =>
        let u := if p.load.dynamic then { p.load with offset := o } else p.load
        s.setUdls [some u]) ps s = (t, .ok ()) ∧ WFS t ∧ SameGround s t ∧
      t.dynResults = s.dynResults ∧ t.individual = s.individual ∧
      t.udls.map PUdl.load = s.udls.map PUdl.load ++ (ps.map PUdl.load).map (Udl.movedTo o) ∧
      t.lls.map PLl.load = s.lls.map PLl.load ∧
      (∀ p ∈ ps, (p.load.movedTo o).minLength ≤ t.minExtL) := by
  induction ps generalizing s with
  | nil => exact ⟨s, rfl, h, .refl _, rfl, rfl, by simp, rfl, by simp⟩
  | cons p ps ih =>
    have hpp := hp p (by simp)
    obtain ⟨t, e1, e2, e3, e4, e6, _, _⟩ := setUdls_spec h [some (p.load.movedTo o)] (by
      intro v hv l hl
      simp only [List.mem_singleton, Option.some.injEq] at hv
      subst hv
      rw [movedTo_length] at hl
      exact hpp.2 l hl)
    obtain ⟨g1, g2, g3⟩ := setUdl_ground h (p.load.movedTo o)
    rw [e1] at g1 g2 g3
    obtain ⟨u, f1, f2, f3, f4, f5, f6, f7, f8⟩ := ih e2 (fun q hq => hp q (by simp [hq]))
    refine ⟨u, ?_, f2, g1.trans f3, f4.trans g2, f5.trans g3, ?_, f7.trans e4, ?_⟩
    · unfold Slope.forEach
      change (s.setUdls [some (p.load.movedTo o)]).andThen _ = _
      rw [e1]
      exact f1
    · rw [f6, e3]
      have : 0 < (p.load.movedTo o).magnitude := by rw [movedTo_magnitude]; exact hpp.1
      simp [this]
    · intro q hq
      rcases List.mem_cons.mp hq with rfl | hq
      · exact (e6 _ (by simp) (by rw [movedTo_magnitude]; exact hpp.1)).trans f3.minExtL
      · exact f8 q hq

theorem forEach_lls (o : ℝ) (ps : List (PLl ℝ)) {s : Slope ℝ} (h : WFS s)
    (hp : ∀ p ∈ ps, 0 < p.load.magnitude) :
    ∃ t, Slope.forEach (fun (s : Slope ℝ) (p : PLl ℝ) =>
        let u := if p.load.dynamic then { p.load with offset := o } else p.load
        s.setLls [some u]) ps s = (t, .ok ()) ∧ WFS t ∧ SameGround s t ∧
      t.dynResults = s.dynResults ∧ t.individual = s.individual ∧
      t.lls.map PLl.load = s.lls.map PLl.load ++ (ps.map PLl.load).map (LineLoad.movedTo o) ∧
      t.udls.map PUdl.load = s.udls.map PUdl.load ∧
      (∀ p ∈ ps, (p.load.movedTo o).offset * 3 ≤ t.minExtL) := by
  induction ps generalizing s with
  | nil => exact ⟨s, rfl, h, .refl _, rfl, rfl, by simp, rfl, by simp⟩
  | cons p ps ih =>
    have hpp := hp p (by simp)
    obtain ⟨t, e1, e2, e3, e4, e6, _⟩ := setLls_spec h [some (p.load.movedTo o)]
    obtain ⟨g1, g2, g3⟩ := setLl_ground h (p.load.movedTo o)
    rw [e1] at g1 g2 g3
    obtain ⟨u, f1, f2, f3, f4, f5, f6, f7, f8⟩ := ih e2 (fun q hq => hp q (by simp [hq]))
    refine ⟨u, ?_, f2, g1.trans f3, f4.trans g2, f5.trans g3, ?_, f7.trans e4, ?_⟩
    · unfold Slope.forEach
      change (s.setLls [some (p.load.movedTo o)]).andThen _ = _
      rw [e1]
      exact f1
    · rw [f6, e3]
      have : 0 < (p.load.movedTo o).magnitude := by rw [ll_movedTo_magnitude]; exact hpp
      simp [this]
    · intro q hq
      rcases List.mem_cons.mp hq with rfl | hq
      · exact (e6 _ (by simp) (by rw [ll_movedTo_magnitude]; exact hpp)).trans f3.minExtL
      · exact f8 q hq

/-- `_set_dynamic_offset` does not raise. -/
theorem setDynamicOffset_spec {s : Slope ℝ} (h : WFS s) (o : ℝ) :
    ∃ t, s.setDynamicOffset o = (t, .ok ()) ∧ WFS t ∧ SameGround s t ∧ Moved o s t ∧
      t.dynResults = s.dynResults ∧ t.individual = s.individual ∧
      (∀ p ∈ s.udls, (p.load.movedTo o).minLength ≤ t.minExtL) ∧
      (∀ p ∈ s.lls, (p.load.movedTo o).offset * 3 ≤ t.minExtL) := by
  have h1 : WFS (s.removeUdls [] true).1 := h.removeUdls _ _
  have r1 : ∃ m, s.removeUdls [] true = ({ s with udls := [], udlMax := m, search := [] }, .ok ()) :=
    ⟨_, rfl⟩
  obtain ⟨m, r1⟩ := r1
  have r2 : ({ s with udls := [], udlMax := m, search := [] } : Slope ℝ).removeLls [] true =
      ({ s with udls := [], udlMax := m, lls := [], search := [] }, .ok ()) := rfl
  have h2 := WFS.removeLls h1 [] true
  rw [r1] at h2
  simp only at h2
  rw [r2] at h2
  obtain ⟨t, e1, e2, e3, e4, e5, e6, e7, e8⟩ := forEach_udls o s.udls h2
    (fun p hp => h.2.udl p.load (List.mem_map_of_mem hp))
  obtain ⟨u, f1, f2, f3, f4, f5, f6, f7, f8⟩ := forEach_lls o s.lls e2
    (fun p hp => h.2.ll p.load (List.mem_map_of_mem hp))
  have g : SameGround s { s with udls := [], udlMax := m, lls := [], search := [] } :=
    ⟨rfl, rfl, rfl, rfl, rfl, rfl, rfl, rfl, rfl, rfl, rfl, rfl, rfl, le_refl _⟩
  refine ⟨u, ?_, f2, (g.trans e3).trans f3, ⟨?_, ?_⟩, f4.trans e4, f5.trans e5, ?_, f8⟩
  · unfold Slope.setDynamicOffset
    rw [r1, andThen_done, r2, andThen_done]
    refine Eq.trans (congrArg (fun x => Out.andThen x _) e1) ?_
    rw [andThen_done]
    exact f1
  · rw [f7, e6]; rfl
  · rw [f6, e7]; rfl
  · intro p hp
    exact (e8 p hp).trans f3.minExtL

theorem Moved.trans {o o' : ℝ} {s t u : Slope ℝ} (h : Moved o s t) (k : Moved o' t u) : Moved o' s u := by
  have e1 : ∀ v : Udl ℝ, (v.movedTo o).movedTo o' = v.movedTo o' := by
    intro v; unfold Udl.movedTo; by_cases c : v.dynamic <;> simp [c]
  have e2 : ∀ v : LineLoad ℝ, (v.movedTo o).movedTo o' = v.movedTo o' := by
    intro v; unfold LineLoad.movedTo; by_cases c : v.dynamic <;> simp [c]
  exact ⟨by rw [k.1, h.1, List.map_map]; congr 1; funext v; exact e1 v,
    by rw [k.2, h.2, List.map_map]; congr 1; funext v; exact e2 v⟩

theorem analyseSlope_ground (s : Slope ℝ) (m : Option ℝ) :
    SameGround s (s.analyseSlope m).1 ∧ (s.analyseSlope m).1.udls = s.udls ∧
      (s.analyseSlope m).1.lls = s.lls ∧ (s.analyseSlope m).1.dynResults = s.dynResults ∧
      (s.analyseSlope m).1.topX = s.topX := by
  unfold Slope.analyseSlope
  simp only
  split
  · split <;> exact ⟨by exact ⟨rfl, rfl, rfl, rfl, rfl, rfl, rfl, rfl, rfl, rfl, rfl, rfl, rfl, le_refl _⟩, rfl, rfl, rfl, rfl⟩
  · split
    · exact ⟨.refl _, rfl, rfl, rfl, rfl⟩
    · split <;> exact ⟨by exact ⟨rfl, rfl, rfl, rfl, rfl, rfl, rfl, rfl, rfl, rfl, rfl, rfl, rfl, le_refl _⟩, rfl, rfl, rfl, rfl⟩

theorem SameGround.dyn {s t : Slope ℝ} (h : SameGround s t) (d) :
    SameGround s { t with dynResults := d } :=
  ⟨h.1, h.2, h.3, h.4, h.5, h.6, h.7, h.8, h.9, h.10, h.11, h.12, h.13, h.14⟩

/-- An attempt, whatever comes of it. -/
theorem tryOffset_spec {s : Slope ℝ} (h : WFS s) (o : ℝ) :
    SameGround s (s.tryOffset o).1 ∧ Moved o s (s.tryOffset o).1 ∧ WFS (s.tryOffset o).1 ∧
    (∀ f, (s.tryOffset o).2 = .ok f → Attempt s o f (s.tryOffset o).1 ∧
      (s.tryOffset o).1.dynResults = dictSet s.dynResults o f) ∧
    (∀ e, (s.tryOffset o).2 = .error e → (s.tryOffset o).1.dynResults = s.dynResults) := by
  have hw := h.tryOffset o
  obtain ⟨a, e1, e2, e3, e4, e5, _⟩ := setDynamicOffset_spec h o
  obtain ⟨g1, g2, g3, g4, _⟩ := analyseSlope_ground a none
  unfold Slope.tryOffset at hw ⊢
  rw [e1] at hw ⊢
  simp only [andThen_done] at hw ⊢
  cases hb : a.analyseSlope none with
  | mk b r =>
  rw [hb] at g1 g2 g3 g4 hw
  simp only at g1 g2 g3 g4
  have hm : Moved o s b := by
    unfold Moved; rw [g2, g3]; exact e4
  cases r with
  | error x => exact ⟨e3.trans g1, hm, hw, fun f hf => (by cases hf), fun _ _ => g4.trans e5⟩
  | ok x =>
    simp only [andThen_done] at hw ⊢
    cases hf : b.getMinFos with
    | error x =>
      rw [hf] at hw
      exact ⟨e3.trans g1, hm, hw, fun f hf => (by cases hf), fun _ _ => g4.trans e5⟩
    | ok v =>
      rw [hf] at hw
      cases v with
      | none => exact ⟨e3.trans g1, hm, hw, fun f hf => (by cases hf), fun _ _ => g4.trans e5⟩
      | some f =>
        refine ⟨(e3.trans g1).dyn _, hm, hw, ?_, fun e he => by cases he⟩
        intro f' hf'
        cases hf'
        exact ⟨⟨a, b, _, e1, hb, hf, rfl⟩, by simp only [g4, e5]⟩

theorem Attempt.spec {s t : Slope ℝ} {o f : ℝ} (h : Attempt s o f t) (hw : WFS s) :
    WFS t ∧ SameGround s t ∧ Moved o s t := by
  obtain ⟨a, b, d, h1, h2, h3, rfl⟩ := h
  obtain ⟨a', e1, e2, e3, e4, _⟩ := setDynamicOffset_spec hw o
  rw [e1] at h1
  cases h1
  obtain ⟨g1, g2, g3, _⟩ := analyseSlope_ground a none
  have hw' := e2.analyseSlope none
  rw [h2] at g1 g2 g3 hw'
  refine ⟨hw'.dyn _, (e3.trans g1).dyn _, ?_⟩
  unfold Moved
  simp only at g2 g3 ⊢
  rw [g2, g3]
  exact e4

theorem Attempts.spec {s t : Slope ℝ} {l : List (ℝ × ℝ)} (h : Attempts s l t) (hw : WFS s) :
    WFS t ∧ SameGround s t ∧
      ((l = [] ∧ t = { s with dynResults := t.dynResults }) ∨ ∃ o f, l.getLast? = some (o, f) ∧ Moved o s t) := by
  induction h with
  | nil d => exact ⟨hw.dyn _, (SameGround.refl s).dyn _, .inl ⟨rfl, rfl⟩⟩
  | @snoc l t o f u h k ih =>
    obtain ⟨h1, h2, h3⟩ := ih
    obtain ⟨k1, k2, k3⟩ := k.spec h1
    refine ⟨k1, h2.trans k2, .inr ⟨o, f, by simp, ?_⟩⟩
    rcases h3 with ⟨_, h3⟩ | ⟨o', f', _, h3⟩
    · unfold Moved at k3 ⊢
      rw [h3] at k3
      exact k3
    · exact h3.trans k3

theorem Attempts.dyn {s t : Slope ℝ} {l : List (ℝ × ℝ)} (h : Attempts s l t) (d) :
    Attempts s l { t with dynResults := d } := by
  cases h with
  | nil d' => exact .nil _ d
  | snoc h k =>
    obtain ⟨a, b, d', h1, h2, h3, rfl⟩ := k
    exact .snoc h ⟨a, b, d, h1, h2, h3, rfl⟩

/-! ## The dictionary of results -/

theorem mem_dictSet {d : List (ℝ × ℝ)} (hd : (d.map Prod.fst).Nodup) (o f k v : ℝ) :
    (k, v) ∈ dictSet d o f ↔ (k = o ∧ v = f) ∨ (k ≠ o ∧ (k, v) ∈ d) := by
  induction d with
  | nil =>
    unfold dictSet
    constructor
    · intro h
      cases List.mem_singleton.mp h
      exact .inl ⟨rfl, rfl⟩
    · rintro (⟨rfl, rfl⟩ | ⟨_, h⟩)
      · simp
      · cases h
  | cons e d ih =>
    obtain ⟨k', v'⟩ := e
    have hn : k' ∉ d.map Prod.fst ∧ (d.map Prod.fst).Nodup := by simpa using hd
    have hk : ∀ v, (k', v) ∉ d := fun v h => hn.1 (List.mem_map_of_mem h)
    unfold dictSet
    by_cases c : k' = o
    · subst c
      simp only [pyEq_real, decide_true, if_true, List.mem_cons, Prod.mk.injEq]
      constructor
      · rintro (h | h)
        · exact .inl h
        · by_cases c : k = k'
          · subst c; exact absurd h (hk v)
          · exact .inr ⟨c, .inr h⟩
      · rintro (h | ⟨h1, h2 | h2⟩)
        · exact .inl h
        · exact absurd h2.1 h1
        · exact .inr h2
    · simp only [pyEq_real, c, decide_false, Bool.false_eq_true, if_false, List.mem_cons, Prod.mk.injEq, ih hn.2]
      constructor
      · rintro (⟨rfl, rfl⟩ | h | h)
        · exact .inr ⟨c, .inl ⟨rfl, rfl⟩⟩
        · exact .inl h
        · exact .inr ⟨h.1, .inr h.2⟩
      · rintro (h | ⟨h1, h2 | h2⟩)
        · exact .inr (.inl h)
        · exact .inl h2
        · exact .inr (.inr ⟨h1, h2⟩)

theorem dictSet_keys {d : List (ℝ × ℝ)} (hd : (d.map Prod.fst).Nodup) (o f : ℝ) :
    ((dictSet d o f).map Prod.fst).Nodup := by
  have key : ∀ d : List (ℝ × ℝ), (dictSet d o f).map Prod.fst =
      if o ∈ d.map Prod.fst then d.map Prod.fst else d.map Prod.fst ++ [o] := by
    intro d
    induction d with
    | nil => simp [dictSet]
    | cons e d ih =>
      obtain ⟨k, v⟩ := e
      unfold dictSet
      by_cases c : k = o
      · simp [c]
      · have c' : ¬ o = k := fun h => c h.symm
        simp only [pyEq_real, c, decide_false, Bool.false_eq_true, if_false, List.map_cons, ih, List.mem_cons, c', false_or]
        split <;> rfl
  rw [key]
  split
  · exact hd
  · rename_i h
    rw [List.nodup_append]
    refine ⟨hd, by simp, ?_⟩
    intro a ha b hb
    rw [List.mem_singleton] at hb
    subst hb
    rintro rfl
    exact h ha

theorem Records.nil : Records ([] : List (ℝ × ℝ)) [] := by
  refine ⟨by simp, ?_⟩
  intro o f
  simp

theorem Records.snoc {d l : List (ℝ × ℝ)} (h : Records d l) (o f : ℝ) :
    Records (dictSet d o f) (l ++ [(o, f)]) := by
  obtain ⟨h1, h2⟩ := h
  refine ⟨dictSet_keys h1 o f, ?_⟩
  intro k v
  rw [mem_dictSet h1]
  constructor
  · rintro (⟨rfl, rfl⟩ | ⟨hk, hm⟩)
    · exact ⟨l, [], rfl, by simp⟩
    · obtain ⟨l1, l2, rfl, hl⟩ := (h2 k v).mp hm
      refine ⟨l1, l2 ++ [(o, f)], by simp, ?_⟩
      intro f' hf'
      rcases List.mem_append.mp hf' with hf' | hf'
      · exact hl f' hf'
      · simp at hf'
        exact hk hf'.1
  · rintro ⟨l1, l2, e, hl⟩
    rcases List.eq_nil_or_concat l2 with rfl | ⟨l2', x, rfl⟩
    · have := (List.append_inj' e rfl).2
      simp at this
      exact .inl ⟨this.1.symm, this.2.symm⟩
    · rw [List.concat_eq_append, ← List.cons_append, ← List.append_assoc] at e
      obtain ⟨e1, e2⟩ := List.append_inj' e rfl
      simp at e2
      subst e2
      refine .inr ⟨?_, (h2 k v).mpr ⟨l1, l2', e1, ?_⟩⟩
      · rintro rfl
        exact hl f (by simp)
      · intro f' hf'
        exact hl f' (by simp [hf'])

theorem Records.perm {d d' l : List (ℝ × ℝ)} (h : Records d l) (p : d'.Perm d) : Records d' l :=
  ⟨((p.map Prod.fst).nodup_iff).mpr h.1, fun o f => (p.mem_iff).trans (h.2 o f)⟩

/-! ## The loop -/

/-- A new attempt. -/
theorem attempts_step {s0 s t : Slope ℝ} {l : List (ℝ × ℝ)} {o f : ℝ} (hw : WFS s0)
    (hA : Attempts s0 l s) (hR : Records s.dynResults l) (e : s.tryOffset o = (t, .ok f)) :
    Attempts s0 (l ++ [(o, f)]) t ∧ Records t.dynResults (l ++ [(o, f)]) := by
  obtain ⟨_, _, _, h4, _⟩ := tryOffset_spec (hA.spec hw).1 o
  rw [e] at h4
  obtain ⟨h5, h6⟩ := h4 f rfl
  refine ⟨hA.snoc h5, ?_⟩
  simp only at h6
  rw [h6]
  exact hR.snoc o f

theorem maxOffset_spec (topX : ℝ) (us : List (PUdl ℝ)) (start : ℝ) :
    (∀ left, maxOffset topX us start = .ok left →
      (left = start ∨ ∃ p ∈ us, p.load.dynamic = true ∧ ∃ l, p.load.length = some l ∧ left = topX - l) ∧
      start ≤ left ∧
      ∀ p ∈ us, p.load.dynamic = true → ∃ l, p.load.length = some l ∧ topX - l ≤ left) ∧
    (∀ e, maxOffset topX us start = .error e → e = .typeError ∧
      ∃ p ∈ us, p.load.dynamic = true ∧ p.load.length = none) := by
  induction us generalizing start with
  | nil =>
    refine ⟨?_, by intro e h; cases h⟩
    intro left h
    cases h
    exact ⟨.inl rfl, le_refl _, by simp⟩
  | cons p us ih =>
    unfold maxOffset
    by_cases c : p.load.dynamic = true
    · rw [if_pos c]
      cases hl : p.load.length with
      | none =>
        refine ⟨fun left h => (by cases h), ?_⟩
        intro e h
        cases h
        exact ⟨rfl, p, by simp, c, hl⟩
      | some l =>
        simp only [pyMax_real]
        obtain ⟨h1, h2⟩ := ih (max start (topX - l))
        constructor
        · intro left h
          obtain ⟨h3, h4, h5⟩ := h1 left h
          refine ⟨?_, (le_max_left _ _).trans h4, ?_⟩
          · rcases h3 with h3 | ⟨q, hq, h3⟩
            · rcases max_choice start (topX - l) with hm | hm
              · exact .inl (h3.trans hm)
              · exact .inr ⟨p, by simp, c, l, hl, h3.trans hm⟩
            · exact .inr ⟨q, by simp [hq], h3⟩
          · intro q hq hd
            rcases List.mem_cons.mp hq with rfl | hq
            · exact ⟨l, hl, (le_max_right _ _).trans h4⟩
            · exact h5 q hq hd
        · intro e h
          obtain ⟨h3, q, hq, h4⟩ := h2 e h
          exact ⟨h3, q, by simp [hq], h4⟩
    · rw [if_neg c]
      obtain ⟨h1, h2⟩ := ih start
      constructor
      · intro left h
        obtain ⟨h3, h4, h5⟩ := h1 left h
        refine ⟨?_, h4, ?_⟩
        · rcases h3 with h3 | ⟨q, hq, h3⟩
          · exact .inl h3
          · exact .inr ⟨q, by simp [hq], h3⟩
        · intro q hq hd
          rcases List.mem_cons.mp hq with rfl | hq
          · exact absurd hd c
          · exact h5 q hq hd
      · intro e h
        obtain ⟨h3, q, hq, h4⟩ := h2 e h
        exact ⟨h3, q, by simp [hq], h4⟩

/-! ## Moving the loads when the model need not grow -/

theorem place_udls_eq {topX : ℝ} {l : List (PUdl ℝ)} (h : ∀ p ∈ l, p = placeUdl topX p.load) :
    l.map (fun p => placeUdl topX p.load) = l := by
  conv_rhs => rw [← List.map_id l]
  apply List.map_congr_left
  intro p hp
  exact (h p hp).symm

theorem place_lls_eq {topX : ℝ} {l : List (PLl ℝ)} (h : ∀ p ∈ l, p = placeLl topX p.load) :
    l.map (fun p => placeLl topX p.load) = l := by
  conv_rhs => rw [← List.map_id l]
  apply List.map_congr_left
  intro p hp
  exact (h p hp).symm

theorem setUdl_small {s : Slope ℝ} (u : Udl ℝ) (hm : 0 < u.magnitude) (hl : u.minLength ≤ s.minExtL)
    (hp : ∀ p ∈ s.udls, p = placeUdl s.topX p.load) :
    ∃ m, s.setUdls [some u] =
      ({ s with udls := s.udls ++ [placeUdl s.topX u], udlMax := m, search := [] }, .ok ()) := by
  have e : s.addUdl (some u) = ({ s with udls := s.udls ++ [placeUdl s.topX u] }, .ok ()) := by
    unfold Slope.addUdl
    simp only [lit_zero]
    rw [if_pos hm, if_neg (not_lt.mpr hl)]
  refine ⟨maxMagnitude (s.udls ++ [placeUdl s.topX u]) s.udlMax, ?_⟩
  unfold Slope.setUdls Slope.forEach Slope.forEach
  rw [e]
  simp only [andThen_done, Slope.updateUdlCoordinates, Slope.resetResults, List.map_append,
    List.map_cons, List.map_nil]
  rw [place_udls_eq hp]
  rfl

theorem setLl_small {s : Slope ℝ} (u : LineLoad ℝ) (hm : 0 < u.magnitude) (hl : u.offset * 3 ≤ s.minExtL)
    (hp : ∀ p ∈ s.lls, p = placeLl s.topX p.load) :
    s.setLls [some u] =
      ({ s with lls := s.lls ++ [placeLl s.topX u], search := [] }, .ok ()) := by
  have e : s.addLl (some u) = ({ s with lls := s.lls ++ [placeLl s.topX u] }, .ok ()) := by
    unfold Slope.addLl
    simp only [lit_zero]
    rw [if_pos hm,
      if_neg (show ¬ s.minExtL < u.offset * (@OfNat.ofNat ℝ 3 (Lit.natLit 3)) from not_lt.mpr hl)]
  unfold Slope.setLls Slope.forEach Slope.forEach
  rw [e]
  simp only [andThen_done, Slope.updateLlCoordinates, Slope.resetResults, List.map_append,
    List.map_cons, List.map_nil]
  rw [place_lls_eq hp]
  rfl

theorem forEach_udls_small (o : ℝ) (ps : List (PUdl ℝ)) {s : Slope ℝ} (h0 : s.search = [])
    (hp : ∀ p ∈ s.udls, p = placeUdl s.topX p.load)
    (hps : ∀ p ∈ ps, 0 < p.load.magnitude ∧ (p.load.movedTo o).minLength ≤ s.minExtL) :
    ∃ m, Slope.forEach (fun (s : Slope ℝ) (p : PUdl ℝ) =>
        let u := if p.load.dynamic then { p.load with offset := o } else p.load
        s.setUdls [some u]) ps s =
      ({ s with udls := s.udls ++ ps.map (fun p => placeUdl s.topX (p.load.movedTo o)), udlMax := m }, .ok ()) := by
  induction ps generalizing s with
  | nil => exact ⟨s.udlMax, by simp [Slope.forEach]⟩
  | cons p ps ih =>
    obtain ⟨h1, h2⟩ := hps p (by simp)
    obtain ⟨m, e⟩ := setUdl_small (p.load.movedTo o) (by rw [movedTo_magnitude]; exact h1) h2 hp
    obtain ⟨m', e'⟩ := ih (s := { s with udls := s.udls ++ [placeUdl s.topX (p.load.movedTo o)], udlMax := m, search := [] })
      rfl (by
        intro q hq
        rcases List.mem_append.mp hq with hq | hq
        · exact hp q hq
        · rw [List.mem_singleton] at hq
          subst hq
          rfl) (fun q hq => hps q (by simp [hq]))
    refine ⟨m', ?_⟩
    unfold Slope.forEach
    change (s.setUdls [some (p.load.movedTo o)]).andThen _ = _
    rw [e, andThen_done]
    refine e'.trans ?_
    simp [h0]

theorem forEach_lls_small (o : ℝ) (ps : List (PLl ℝ)) {s : Slope ℝ} (h0 : s.search = [])
    (hp : ∀ p ∈ s.lls, p = placeLl s.topX p.load)
    (hps : ∀ p ∈ ps, 0 < p.load.magnitude ∧ (p.load.movedTo o).offset * 3 ≤ s.minExtL) :
    Slope.forEach (fun (s : Slope ℝ) (p : PLl ℝ) =>
        let u := if p.load.dynamic then { p.load with offset := o } else p.load
        s.setLls [some u]) ps s =
      ({ s with lls := s.lls ++ ps.map (fun p => placeLl s.topX (p.load.movedTo o)) }, .ok ()) := by
  induction ps generalizing s with
  | nil => simp [Slope.forEach]
  | cons p ps ih =>
    obtain ⟨h1, h2⟩ := hps p (by simp)
    have e := setLl_small (p.load.movedTo o) (by rw [ll_movedTo_magnitude]; exact h1) h2 hp
    have e' := ih (s := { s with lls := s.lls ++ [placeLl s.topX (p.load.movedTo o)], search := [] })
      rfl (by
        intro q hq
        rcases List.mem_append.mp hq with hq | hq
        · exact hp q hq
        · rw [List.mem_singleton] at hq
          subst hq
          rfl) (fun q hq => hps q (by simp [hq]))
    unfold Slope.forEach
    change (s.setLls [some (p.load.movedTo o)]).andThen _ = _
    rw [e, andThen_done]
    refine e'.trans ?_
    simp [h0]

/-- `_set_dynamic_offset` when no load needs a longer model. -/
theorem setDynamicOffset_small {s : Slope ℝ} (h : WFS s) (o : ℝ)
    (hu : ∀ p ∈ s.udls, (p.load.movedTo o).minLength ≤ s.minExtL)
    (hl : ∀ p ∈ s.lls, (p.load.movedTo o).offset * 3 ≤ s.minExtL) :
    ∃ m, s.setDynamicOffset o =
      ({ s with udls := s.udls.map (fun p => placeUdl s.topX (p.load.movedTo o)), udlMax := m,
                lls := s.lls.map (fun p => placeLl s.topX (p.load.movedTo o)), search := [] }, .ok ()) := by
  have r1 : ∃ m, s.removeUdls [] true = ({ s with udls := [], udlMax := m, search := [] }, .ok ()) :=
    ⟨_, rfl⟩
  obtain ⟨m, r1⟩ := r1
  have r2 : ({ s with udls := [], udlMax := m, search := [] } : Slope ℝ).removeLls [] true =
      ({ s with udls := [], udlMax := m, lls := [], search := [] }, .ok ()) := rfl
  obtain ⟨m', e1⟩ := forEach_udls_small o s.udls
    (s := { s with udls := [], udlMax := m, lls := [], search := [] }) rfl (by simp)
    (fun p hp => ⟨(h.2.udl p.load (List.mem_map_of_mem hp)).1, hu p hp⟩)
  have e2 := forEach_lls_small o s.lls
    (s := { s with udls := s.udls.map (fun p => placeUdl s.topX (p.load.movedTo o)), udlMax := m', lls := [], search := [] })
    rfl (by simp) (fun p hp => ⟨h.2.ll p.load (List.mem_map_of_mem hp), hl p hp⟩)
  refine ⟨m', ?_⟩
  unfold Slope.setDynamicOffset
  rw [r1, andThen_done, r2, andThen_done]
  refine Eq.trans (congrArg (fun x => Out.andThen x _) e1) ?_
  rw [andThen_done]
  exact e2

theorem movedTo_movedTo (o o' : ℝ) (v : Udl ℝ) : (v.movedTo o).movedTo o' = v.movedTo o' := by
  unfold Udl.movedTo; by_cases c : v.dynamic <;> simp [c]

theorem ll_movedTo_movedTo (o o' : ℝ) (v : LineLoad ℝ) : (v.movedTo o).movedTo o' = v.movedTo o' := by
  unfold LineLoad.movedTo; by_cases c : v.dynamic <;> simp [c]

/-- Moving the loads where they are changes nothing an analysis reads. -/
theorem setDynamicOffset_again {s a b : Slope ℝ} (h : WFS s) {o : ℝ}
    (e : s.setDynamicOffset o = (a, .ok ())) (hb : SameSetup a b) (hm : b.minExtL = a.minExtL) (hw : WFS b) :
    ∃ m, b.setDynamicOffset o = ({ b with udlMax := m, search := [] }, .ok ()) := by
  obtain ⟨a', e1, e2, _, ⟨e4, e5⟩, _, _, e7, e8⟩ := setDynamicOffset_spec h o
  rw [e1] at e
  cases e
  have hu : ∀ p ∈ b.udls, p.load.movedTo o = p.load ∧ p.load.minLength ≤ b.minExtL := by
    intro p hp
    rw [hb.udls] at hp
    have : p.load ∈ a.udls.map PUdl.load := List.mem_map_of_mem hp
    rw [e4, List.map_map] at this
    obtain ⟨q, hq, hq'⟩ := List.mem_map.mp this
    rw [← hq', hm]
    exact ⟨movedTo_movedTo _ _ _, e7 q hq⟩
  have hl : ∀ p ∈ b.lls, p.load.movedTo o = p.load ∧ p.load.offset * 3 ≤ b.minExtL := by
    intro p hp
    rw [hb.lls] at hp
    have : p.load ∈ a.lls.map PLl.load := List.mem_map_of_mem hp
    rw [e5, List.map_map] at this
    obtain ⟨q, hq, hq'⟩ := List.mem_map.mp this
    rw [← hq', hm]
    exact ⟨ll_movedTo_movedTo _ _ _, e8 q hq⟩
  obtain ⟨m, r⟩ := setDynamicOffset_small hw o (fun p hp => by rw [(hu p hp).1]; exact (hu p hp).2)
    (fun p hp => by rw [(hl p hp).1]; exact (hl p hp).2)
  refine ⟨m, ?_⟩
  rw [r]
  have h1 : b.udls.map (fun p => placeUdl b.topX (p.load.movedTo o)) = b.udls := by
    conv_rhs => rw [← place_udls_eq hw.1.udl]
    apply List.map_congr_left
    intro p hp
    rw [(hu p hp).1]
  have h2 : b.lls.map (fun p => placeLl b.topX (p.load.movedTo o)) = b.lls := by
    conv_rhs => rw [← place_lls_eq hw.1.ll]
    apply List.map_congr_left
    intro p hp
    rw [(hl p hp).1]
  rw [h1, h2]

theorem getMinFos_congr {x y : Slope ℝ} (h : x.search = y.search) : x.getMinFos = y.getMinFos := by
  unfold Slope.getMinFos; rw [h]

/-- An attempt repeated at once gives the same factor of safety. -/
theorem tryOffset_again {s t : Slope ℝ} (h : WFS s) {o f : ℝ} (e : s.tryOffset o = (t, .ok f)) :
    ∃ u, t.tryOffset o = (u, .ok f) := by
  obtain ⟨_, _, hw, h4, _⟩ := tryOffset_spec h o
  rw [e] at h4 hw
  obtain ⟨⟨a, b, d, h1, h2, h3, h5⟩, _⟩ := h4 f rfl
  obtain ⟨ps, h6, h7, h8⟩ := analyseSlope_ok h2
  have hS := SameSetup.analysedTo a none ps
  have h5' : t = { a.analysedTo none ps with dynResults := d } := by rw [← h8]; exact h5
  have hSt : SameSetup a t := by
    rw [h5']; exact ⟨hS.1, hS.2, hS.3, hS.4, hS.5, hS.6, hS.7, hS.8, hS.9, hS.10, hS.11, hS.12, hS.13,
      hS.14, hS.15, hS.16, hS.17, hS.18, hS.19, hS.20, hS.21⟩
  obtain ⟨m, r⟩ := setDynamicOffset_again h h1 hSt (by rw [h5']; rfl) hw
  have h9 := analyseSlope_again h2
  obtain ⟨qs, k6, k7, k8⟩ := analyseSlope_ok h9
  have hSu : SameSetup b { t with udlMax := m, search := [] } := by
    simp only at h5
    subst h5
    constructor <;> rfl
  have k9 := analyseSlope_of (s := { t with udlMax := m, search := [] })
    ((hSu.analysed (by simp only at h5; subst h5; rfl) qs).mpr k6)
    (fun p hp e => by rw [hSu.raises]; exact k7 p hp e) none
  have k10 : (({ t with udlMax := m, search := [] } : Slope ℝ).analysedTo none qs).getMinFos = .ok (some f) := by
    rw [← h3]
    apply getMinFos_congr
    have : b.search = (b.analysedTo none qs).search := congrArg Slope.search k8
    rw [this]
    change tidySearch none (qs.map (withFos { t with udlMax := m, search := [] })) =
      tidySearch none (qs.map (withFos b))
    rw [hSu.withFos]
  unfold Slope.tryOffset
  rw [r, andThen_done, k9, andThen_done, k10]
  exact ⟨_, rfl⟩

/-! ## The loop -/

theorem dictGet_mem {d : List (ℝ × ℝ)} (hd : (d.map Prod.fst).Nodup) {k v : ℝ} (h : (k, v) ∈ d) :
    dictGet d k = .ok v := by
  unfold dictGet
  have : d.find? (fun e => pyEq e.1 k) = some (k, v) := by
    induction d with
    | nil => cases h
    | cons e d ih =>
      obtain ⟨k', v'⟩ := e
      have hn : k' ∉ d.map Prod.fst ∧ (d.map Prod.fst).Nodup := by simpa using hd
      rcases List.mem_cons.mp h with h | h
      · cases h
        simp
      · have : k' ≠ k := by
          rintro rfl
          exact hn.1 (List.mem_map_of_mem h)
        rw [List.find?_cons]
        have : pyEq (k', v').1 k = false := by simp [this]
        simp only [this]
        exact ih hn.2 h
  rw [this]

/-- The offsets the loop keeps: the factor of safety is at least `c` at `left`, at most `c` at
`right`. -/
structure Bracket (c : ℝ) (s : Slope ℝ) (left right lf rf : ℝ) : Prop where
  ne : left ≠ right
  l : (left, lf) ∈ s.dynResults
  r : (right, rf) ∈ s.dynResults
  rc : rf ≤ c
  cl : c ≤ lf
  again : lf = c → ∀ u f, s.tryOffset left = (u, .ok f) → f = c

/-- The next offset. -/
noncomputable def midOf (c left right lf rf : ℝ) : ℝ := right + (c - rf) / ((lf - rf) / (left - right))

theorem midOf_mem {c left right lf rf : ℝ} (h : left ≠ right) (h1 : rf ≤ c) (h2 : c ≤ lf) (h3 : lf ≠ rf) :
    midOf c left right lf rf ∈ Set.uIcc left right ∧ (midOf c left right lf rf = left ↔ lf = c) ∧
      (midOf c left right lf rf = right ↔ rf = c) := by
  have hd : 0 < lf - rf := by
    rcases lt_or_eq_of_le (h1.trans h2) with h | h
    · linarith
    · exact absurd h.symm h3
  have hlr : left - right ≠ 0 := sub_ne_zero.mpr h
  have e : midOf c left right lf rf = right + (c - rf) / (lf - rf) * (left - right) := by
    unfold midOf; field_simp
  have k0 : 0 ≤ (c - rf) / (lf - rf) := div_nonneg (by linarith) hd.le
  have k1 : (c - rf) / (lf - rf) ≤ 1 := by rw [div_le_one hd]; linarith
  refine ⟨?_, ?_, ?_⟩
  · rw [e, Set.mem_uIcc]
    rcases le_total left right with hh | hh
    · left; constructor <;> nlinarith
    · right; constructor <;> nlinarith
  · rw [e]
    constructor
    · intro hh
      have : ((c - rf) / (lf - rf) - 1) * (left - right) = 0 := by linarith
      rcases mul_eq_zero.mp this with h' | h'
      · have : (c - rf) / (lf - rf) = 1 := by linarith
        rw [div_eq_one_iff_eq hd.ne'] at this
        linarith
      · exact absurd h' hlr
    · rintro rfl
      rw [div_self hd.ne']; ring
  · rw [e]
    constructor
    · intro hh
      have : ((c - rf) / (lf - rf)) * (left - right) = 0 := by linarith
      rcases mul_eq_zero.mp this with h' | h'
      · rcases div_eq_zero_iff.mp h' with h'' | h''
        · linarith
        · exact absurd h'' hd.ne'
      · exact absurd h' hlr
    · rintro rfl
      simp

theorem dynLoop_spec {s0 : Slope ℝ} (hw : WFS s0) (c : ℝ) (dec : Bool) (n : ℕ) :
    ∀ (left right prev lf rf : ℝ) (s : Slope ℝ) (l : List (ℝ × ℝ)), Attempts s0 l s →
    Records s.dynResults l → ((left = right ∧ (left, lf) ∈ s.dynResults) ∨ Bracket c s left right lf rf) →
    ∀ t r, s.dynLoop c dec n left right prev = (t, r) →
    ∃ m, m.length ≤ n ∧ (∀ a ∈ m, a.1 ∈ Set.uIcc left right) ∧
      (r = .ok () → (0 < n → m ≠ [] ∧ dec = false) ∧ Attempts s0 (l ++ m) t ∧ Records t.dynResults (l ++ m)) ∧
      (∀ e, r = .error e → m.length < n ∧ ∃ u, Attempts s0 (l ++ m) u ∧ Records u.dynResults (l ++ m) ∧
        ((t = u ∧ (dec = false → e = .zeroDivision ∧ (left = right ∨ rf = c)) ∧
            (dec = true → left ≠ right → e = .typeError)) ∨
          ∃ o ∈ Set.uIcc left right, u.tryOffset o = (t, .error e))) := by
  induction n with
  | zero =>
    intro left right prev lf rf s l hA hR hB t r h
    unfold Slope.dynLoop at h
    cases h
    exact ⟨[], le_refl _, by simp, fun _ => ⟨by simp, by simpa using hA, by simpa using hR⟩,
      by intro e he; cases he⟩
  | succ n ih =>
    intro left right prev lf rf s l hA hR hB t r h
    -- an exception of the first lines
    have stop : ∀ e, (dec = false → e = .zeroDivision ∧ (left = right ∨ rf = c)) →
        (dec = true → left ≠ right → e = .typeError) → (s, .error e) = (t, r) →
        ∃ m, m.length ≤ n + 1 ∧ (∀ a ∈ m, a.1 ∈ Set.uIcc left right) ∧
      (r = .ok () → (0 < n + 1 → m ≠ [] ∧ dec = false) ∧ Attempts s0 (l ++ m) t ∧ Records t.dynResults (l ++ m)) ∧
      (∀ e, r = .error e → m.length < n + 1 ∧ ∃ u, Attempts s0 (l ++ m) u ∧ Records u.dynResults (l ++ m) ∧
        ((t = u ∧ (dec = false → e = .zeroDivision ∧ (left = right ∨ rf = c)) ∧
            (dec = true → left ≠ right → e = .typeError)) ∨
          ∃ o ∈ Set.uIcc left right, u.tryOffset o = (t, .error e))) := by
      intro e he1 he2 h
      cases h
      refine ⟨[], by simp, by simp, fun he => (by cases he), ?_⟩
      intro e' he'
      cases he'
      exact ⟨by simp, s, by simpa using hA, by simpa using hR, .inl ⟨rfl, he1, he2⟩⟩
    unfold Slope.dynLoop at h
    simp only at h
    rcases hB with ⟨rfl, hB⟩ | hB
    · -- equal offsets
      rw [dictGet_mem hR.1 hB] at h
      have hd1 : ∀ a : ℝ, pyDiv a (left - left) = .error .zeroDivision := by
        intro a; simp [pyDiv]
      simp only [Bind.bind, Except.bind, hd1] at h
      exact stop _ (fun _ => ⟨rfl, .inl rfl⟩) (fun _ h => absurd rfl h) h
    · rw [dictGet_mem hR.1 hB.l, dictGet_mem hR.1 hB.r] at h
      have hlr : ¬ left - right = 0 := sub_ne_zero.mpr hB.ne
      have hd1 : pyDiv (lf - rf) (left - right) = .ok ((lf - rf) / (left - right)) := by
        simp [pyDiv, hlr]
      simp only [Bind.bind, Except.bind, hd1] at h
      by_cases hdec : dec = true
      · subst hdec
        exact stop _ (fun h => by cases h) (fun _ _ => rfl) h
      · have hdec' : dec = false := by simpa using hdec
        subst hdec'
        simp only [Bool.false_eq_true, if_false, pure, Except.pure] at h
        by_cases hm : lf = rf
        · have hrc : rf = c := le_antisymm hB.rc (hm ▸ hB.cl)
          have hd2 : pyDiv (c - rf) ((lf - rf) / (left - right)) = .error .zeroDivision := by
            simp [pyDiv, hm]
          rw [hd2] at h
          exact stop _ (fun _ => ⟨rfl, .inr hrc⟩) (fun h => by cases h) h
        · have hm0 : ¬ (lf - rf) / (left - right) = 0 := div_ne_zero (sub_ne_zero.mpr hm) hlr
          have hd2 : pyDiv (c - rf) ((lf - rf) / (left - right)) =
              .ok ((c - rf) / ((lf - rf) / (left - right))) := by
            simp only [pyDiv, pyEq_real, lit_zero, hm0, decide_false, Bool.false_eq_true, if_false]
          rw [hd2] at h
          simp only at h
          obtain ⟨h1, h2, h3⟩ := midOf_mem hB.ne hB.rc hB.cl hm
          unfold midOf at h1 h2 h3
          generalize right + (c - rf) / ((lf - rf) / (left - right)) = mid at h h1 h2 h3
          cases ht : s.tryOffset mid with
          | mk u v =>
          rw [ht] at h
          cases v with
          | error e =>
            cases h
            refine ⟨[], by simp, by simp, fun he => (by cases he), ?_⟩
            intro e' he
            cases he
            exact ⟨by simp, s, by simpa using hA, by simpa using hR, .inr ⟨mid, h1, ht⟩⟩
          | ok f =>
            obtain ⟨hA', hR'⟩ := attempts_step hw hA hR ht
            obtain ⟨_, _, _, hd, _⟩ := tryOffset_spec (hA.spec hw).1 mid
            rw [ht] at hd
            have hd := (hd f rfl).2
            simp only at hd
            obtain ⟨w, hag⟩ := tryOffset_again (hA.spec hw).1 ht
            have hmid : (mid, f) ∈ u.dynResults := by
              rw [hd, mem_dictSet hR.1]; exact .inl ⟨rfl, rfl⟩
            have hold : ∀ k v, k ≠ mid → (k, v) ∈ s.dynResults → (k, v) ∈ u.dynResults := by
              intro k v hk hkv
              rw [hd, mem_dictSet hR.1]; exact .inr ⟨hk, hkv⟩
            rw [andThen_done] at h
            have key : ∀ l' r' lf' rf', u.dynLoop c false n l' r' f = (t, r) →
                Set.uIcc l' r' ⊆ Set.uIcc left right →
                ((l' = r' ∧ (l', lf') ∈ u.dynResults) ∨ Bracket c u l' r' lf' rf') →
                (l' = r' ∨ rf' = c → rf = c) →
                ∃ m, m.length ≤ n + 1 ∧ (∀ a ∈ m, a.1 ∈ Set.uIcc left right) ∧
      (r = .ok () → (0 < n + 1 → m ≠ [] ∧ false = false) ∧ Attempts s0 (l ++ m) t ∧ Records t.dynResults (l ++ m)) ∧
      (∀ e, r = .error e → m.length < n + 1 ∧ ∃ u, Attempts s0 (l ++ m) u ∧ Records u.dynResults (l ++ m) ∧
        ((t = u ∧ (false = false → e = .zeroDivision ∧ (left = right ∨ rf = c)) ∧
            (false = true → left ≠ right → e = .typeError)) ∨
          ∃ o ∈ Set.uIcc left right, u.tryOffset o = (t, .error e))) := by
              intro l' r' lf' rf' h hsub hb hb'
              obtain ⟨m, m1, m0, m2, m3⟩ := ih l' r' f lf' rf' u _ hA' hR' hb t r h
              rw [List.append_assoc] at m2 m3
              refine ⟨(mid, f) :: m, by simpa using m1, ?_, fun he => ⟨by simp, (m2 he).2⟩, ?_⟩
              · intro a ha
                rcases List.mem_cons.mp ha with rfl | ha
                · exact h1
                · exact hsub (m0 a ha)
              · intro e he
                obtain ⟨m4, u', m5, m6, m7⟩ := m3 e he
                refine ⟨by simpa using m4, u', m5, m6, ?_⟩
                rcases m7 with ⟨m7, m8, m9⟩ | ⟨o, ho, m7⟩
                · refine .inl ⟨m7, fun _ => ⟨(m8 rfl).1, .inr (hb' (m8 rfl).2)⟩, fun h => by cases h⟩
                · exact .inr ⟨o, hsub ho, m7⟩
            split at h
            · cases h
              refine ⟨[(mid, f)], by simp, by simpa using h1, fun _ => ⟨by simp, hA', hR'⟩,
                by intro e he; cases he⟩
            · split at h
              · rename_i hf
                -- the load can come closer
                have hml : mid ≠ left := by
                  intro e
                  have hl := h2.mp e
                  rw [e] at ht
                  exact absurd (hB.again hl _ _ ht) hf.ne
                refine key left mid lf f h ?_ (.inr ⟨hml.symm, hold _ _ hml.symm hB.l, hmid, hf.le, hB.cl, ?_⟩) ?_
                · exact Set.uIcc_subset_uIcc Set.left_mem_uIcc h1
                · intro e; exact absurd (h2.mpr e) hml
                · rintro (e | e)
                  · exact absurd e hml.symm
                  · exact absurd e hf.ne
              · rename_i hf
                push Not at hf
                refine key mid right f rf h ?_ ?_ ?_
                · exact Set.uIcc_subset_uIcc h1 Set.right_mem_uIcc
                · by_cases hmr : mid = right
                  · exact .inl ⟨hmr, hmid⟩
                  · refine .inr ⟨hmr, hmid, hold _ _ (fun e => hmr e.symm) hB.r, hB.rc, hf, ?_⟩
                    intro hc v f' hv
                    rw [hag] at hv
                    cases hv
                    exact hc
                · rintro (e | e)
                  · exact h3.mp e
                  · exact e

/-- How a dynamic analysis that starts with `left` ends. -/
inductive DynEnd (s : Slope ℝ) (c left : ℝ) (dec : Bool) : Slope ℝ → Except PyErr (Option ℕ) → Prop where
  /-- the loads cannot be analysed at the crest -/
  | crestFails {t e} : ({ s with dynResults := [] } : Slope ℝ).tryOffset 0 = (t, .error e) →
      DynEnd s c left dec t (.error e)
  | safe {t f} : Attempts s [(0, f)] t → Records t.dynResults [(0, f)] → c < f →
      DynEnd s c left dec t (.ok (some 0))
  | farFails {t u f e} : Attempts s [(0, f)] u → Records u.dynResults [(0, f)] → f ≤ c →
      u.tryOffset left = (t, .error e) → DynEnd s c left dec t (.error e)
  | failing {t f g} : Attempts s [(0, f), (left, g)] t → Records t.dynResults [(0, f), (left, g)] →
      f ≤ c → g < c → DynEnd s c left dec t (.ok (some 1))
  | looped {t f g m} : Attempts s ((0, f) :: (left, g) :: m) t →
      Records t.dynResults ((0, f) :: (left, g) :: m) → f ≤ c → c ≤ g → dec = false → m ≠ [] → m.length ≤ 10 →
      (∀ a ∈ m, a.1 ∈ Set.uIcc left 0) → t.dynResults.Pairwise (fun a b => a.2 ≤ b.2) →
      DynEnd s c left dec t (.ok none)
  | loopFails {t u f g m e} : Attempts s ((0, f) :: (left, g) :: m) u →
      Records u.dynResults ((0, f) :: (left, g) :: m) → f ≤ c → c ≤ g → m.length < 10 →
      (∀ a ∈ m, a.1 ∈ Set.uIcc left 0) →
      ((t = u ∧ (dec = false → e = .zeroDivision ∧ (left = 0 ∨ f = c)) ∧ (dec = true → left ≠ 0 → e = .typeError)) ∨
        ∃ o ∈ Set.uIcc left 0, u.tryOffset o = (t, .error e)) →
      DynEnd s c left dec t (.error e)

theorem analyseDynamic_end {s : Slope ℝ} (hw : WFS s) (c : ℝ) (dec : Bool) {t r}
    (h : s.analyseDynamic c dec = (t, r)) :
    (t = { s with dynResults := [] } ∧ r = .error .typeError ∧
      ∃ p ∈ s.udls, p.load.dynamic = true ∧ p.load.length = none) ∨
    ∃ left, GreatestOffset s left ∧ DynEnd s c left dec t r := by
  unfold Slope.analyseDynamic at h
  simp only at h
  obtain ⟨hm1, hm2⟩ := maxOffset_spec s.topX s.udls s.length
  cases hm : maxOffset s.topX s.udls s.length with
  | error e =>
    rw [hm] at h
    cases h
    obtain ⟨h1, h2⟩ := hm2 e hm
    exact .inl ⟨rfl, by rw [h1], h2⟩
  | ok left' =>
    rw [hm] at h
    simp only at h
    obtain ⟨h1, h2, h3⟩ := hm1 left' hm
    change (Slope.tryOffset { s with dynResults := [] } (@OfNat.ofNat ℝ 0 (Lit.natLit 0))).andThen _ = _ at h
    rw [lit_zero] at h
    obtain ⟨left, hleft⟩ : ∃ left : ℝ, left = left' - 0.01 := ⟨_, rfl⟩
    rw [← hleft] at h
    have hg : GreatestOffset s left := by
      have : left + 0.01 = left' := by rw [hleft]; ring
      unfold GreatestOffset
      rw [this]
      exact ⟨h1, h2, h3⟩
    refine .inr ⟨left, hg, ?_⟩
    have hA0 : Attempts s [] { s with dynResults := [] } := .nil _ _
    have hR0 : Records ({ s with dynResults := [] } : Slope ℝ).dynResults [] := Records.nil
    cases ht : Slope.tryOffset { s with dynResults := [] } 0 with
    | mk u v =>
    rw [ht] at h
    cases v with
    | error e => cases h; exact .crestFails ht
    | ok f =>
      obtain ⟨hA1, hR1⟩ := attempts_step hw hA0 hR0 ht
      rw [andThen_done] at h
      split at h
      · rename_i hc; cases h; exact .safe hA1 hR1 hc
      · rename_i hc
        push Not at hc
        cases ht2 : u.tryOffset left with
        | mk w v =>
        rw [ht2] at h
        cases v with
        | error e => cases h; exact .farFails hA1 hR1 hc ht2
        | ok g =>
          obtain ⟨hA2, hR2⟩ := attempts_step hw hA1 hR1 ht2
          have hu := (hA1.spec hw).1
          obtain ⟨_, _, _, hd, _⟩ := tryOffset_spec hu left
          rw [ht2] at hd
          have hd := (hd g rfl).2
          simp only at hd
          obtain ⟨w', hag⟩ := tryOffset_again hu ht2
          rw [andThen_done] at h
          split at h
          · rename_i hc'; cases h; exact .failing hA2 hR2 hc hc'
          · rename_i hc'
            push Not at hc'
            have hl : (left, g) ∈ w.dynResults := by rw [hd, mem_dictSet hR1.1]; exact .inl ⟨rfl, rfl⟩
            have hB : (left = 0 ∧ (left, g) ∈ w.dynResults) ∨ Bracket c w left 0 g f := by
              by_cases h0 : left = 0
              · exact .inl ⟨h0, hl⟩
              · refine .inr ⟨h0, hl, ?_, hc, hc', ?_⟩
                · rw [hd, mem_dictSet hR1.1]
                  refine .inr ⟨fun e => h0 e.symm, (hR1.2 0 f).mpr ⟨[], [], rfl, by simp⟩⟩
                · intro hgc v f' hv
                  rw [hag] at hv
                  cases hv
                  exact hgc
            cases hlp : w.dynLoop c dec 10 left 0 0 with
            | mk x y =>
            rw [hlp] at h
            obtain ⟨m, m1, m2, m3, m4⟩ := dynLoop_spec hw c dec 10 left 0 0 g f w _ hA2 hR2 hB x y hlp
            cases y with
            | error e =>
              cases h
              obtain ⟨m5, u', m6, m7, m8⟩ := m4 e rfl
              refine .loopFails m6 m7 hc hc' m5 m2 ?_
              rcases m8 with ⟨a1, a2, a3⟩ | a
              · exact .inl ⟨a1, a2, a3⟩
              · exact .inr a
            | ok y =>
              rw [andThen_done] at h
              cases h
              obtain ⟨m5, m6, m7⟩ := m3 rfl
              obtain ⟨m8, m9⟩ := m5 (by norm_num)
              refine .looped (m6.dyn _) (m7.perm (sortByKey_perm _ _)) hc hc' m9 m8 m1 m2 ?_
              exact sortByKey_sorted _ _

end PySlope
