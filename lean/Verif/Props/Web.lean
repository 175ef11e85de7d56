import Verif.Spec.Web
import Verif.Props.Geometry
import Verif.Props.Dynamic
import Verif.Props.Options
import Verif.Props.Results

/-! # Properties of the web form -/

namespace PySlope

theorem Out.get_ok {o : Out ℝ Unit} {s : Slope ℝ} : o.get = .ok s ↔ o = (s, .ok ()) := by
  obtain ⟨t, r⟩ := o
  cases r with
  | ok u => cases u; unfold Out.get; simp
  | error e => unfold Out.get; simp

/-- The limits are those of a slope without limits. -/
def DefaultLimits (s : Slope ℝ) : Prop :=
  s.lim1 = 0 ∧ s.lim2 = s.topX ∧ s.lim3 = s.topX ∧ s.lim4 = s.extL

/-- What holds while the slope is built: everything but water, limits and loads. -/
structure Stage (f : WebForm ℝ) (done : List (Option (WebMat ℝ))) (s : Slope ℝ) : Prop where
  reach : Reachable s
  height : s.height = f.height
  length : s.length = f.faceLength
  slices : s.slices = f.slices
  iterations : s.iterations = f.iterations
  materials : (s.materials.map fun l =>
      (l.mat.unitWeight, l.mat.frictionAngle, l.mat.cohesion, l.mat.depth)).Perm
    ((done.map fun e => e.getD .default).map fun e =>
      (e.unitWeight, e.frictionAngle, |e.cohesion|, |e.depth|))
  levels : LevelsAgree s
  water : s.waterRL = none ∧ s.waterDepth = none
  planes : s.individual = []
  lims : DefaultLimits s
  tot : s.extH = totH s s.height s.length

theorem newSlope_eq {f : WebForm ℝ} {s : Slope ℝ} (h : f.newSlope = .ok s) :
    Reachable s ∧ s = freshSlope f.height f.faceLength := by
  have key : ∀ v a l, Slope.new v a l = .ok s → s = freshSlope v.get! (boundaryLength v a l) := by
    intro v a l e
    rw [new_eq] at e
    cases eb : boundaryInputs v a l with
    | error x => rw [eb] at e; cases e
    | ok HL =>
      have hA := (boundaryInputs_iff v a l).mp ⟨_, eb⟩
      rw [boundaryInputs_accepted hA] at e
      exact (Except.ok.inj e).symm
  unfold WebForm.newSlope at h
  unfold WebForm.faceLength
  split at h
  · rename_i hb
    rw [if_pos hb]
    exact ⟨.init h, key _ _ _ h⟩
  · rename_i hb
    rw [if_neg hb]
    exact ⟨.init h, key _ _ _ h⟩

theorem Stage.new {f : WebForm ℝ} {s : Slope ℝ} (hv : f.Valid) (h : f.newSlope = .ok s) :
    ∃ t, (s.updateAnalysisOptions (some f.slices) (some f.iterations) none none none).get = .ok t ∧
      Stage f [] t ∧ t.udls = [] ∧ t.lls = [] := by
  obtain ⟨r, rfl⟩ := newSlope_eq h
  have c := (C21_options_in_range _ r).2.2 (some f.slices) (some f.iterations) none none none
  have r' := r.call (.updateAnalysisOptions _ (some f.slices) (some f.iterations) none none none)
  obtain ⟨n, i, fd, tl, m, _, _, e⟩ := updateAnalysisOptions_rest (freshSlope f.height f.faceLength)
    (some f.slices) (some f.iterations) none none none
  rw [e] at c r'
  refine ⟨_, Out.get_ok.mpr e, ⟨r', rfl, rfl, ?_, ?_, .refl _, ?_, ⟨rfl, rfl⟩, rfl,
    ⟨rfl, rfl, rfl, rfl⟩, rfl⟩, rfl, rfl⟩
  · have := hv.slices
    refine (c.2.1 _ rfl (by omega)).trans ?_
    omega
  · have := hv.iterations
    refine (c.2.2.2.1 _ rfl (by omega)).trans ?_
    omega
  · intro l hl; cases hl

theorem newMat_eq {isColor : String → Bool} {e : WebMat ℝ} {m : Material ℝ}
    (h : Material.new isColor (.num e.unitWeight) (.num e.frictionAngle) (.num e.cohesion)
      (.num e.depth) (.str e.name) (.str e.color) = .ok m) :
    Material.Constructed m ∧ m.unitWeight = e.unitWeight ∧ m.frictionAngle = e.frictionAngle ∧
      m.cohesion = |e.cohesion| ∧ m.depth = |e.depth| := by
  refine ⟨⟨_, _, _, _, _, _, _, h⟩, ?_⟩
  obtain ⟨c1, c2, -⟩ := C01_material isColor (.num e.unitWeight) (.num e.frictionAngle)
    (.num e.cohesion) (.num e.depth) (.str e.name) (.str e.color)
  by_cases hA : ∃ u f c' d', MaterialArgs (.num e.unitWeight) (.num e.frictionAngle)
    (.num e.cohesion) (.num e.depth) u f c' d'
  · obtain ⟨u, f, c', d', hA⟩ := hA
    have := c1 u f c' d' _ _ hA rfl rfl
    rw [this] at h
    have := Except.ok.inj h
    subst this
    obtain ⟨a1, _, _, a2, _, a3, a4⟩ := hA
    simp only [PyVal.asNum, PyVal.asPlain, Option.some.injEq] at a1 a2 a3 a4
    subst a1; subst a2; subst a3; subst a4
    exact ⟨rfl, rfl, rfl, rfl⟩
  · rw [c2 hA] at h; cases h

theorem Stage.material {f : WebForm ℝ} {isColor : String → Bool} {done : List (Option (WebMat ℝ))}
    {s t : Slope ℝ} (h : Stage f done s) (hu : s.udls = []) (hl : s.lls = []) {e : Option (WebMat ℝ)}
    (ht : s.webMaterial isColor e = .ok t) :
    Stage f (done ++ [e]) t ∧ t.udls = [] ∧ t.lls = [] := by
  unfold Slope.webMaterial at ht
  simp only [bind, Except.bind] at ht
  split at ht
  · cases ht
  · rename_i m hm
    obtain ⟨hc, m1, m2, m3, m4⟩ := newMat_eq hm
    rw [Out.get_ok] at ht
    have hr : Reachable t := by
      have := h.reach.call (.setMaterials s [some m] (by
        intro q hq; simp at hq; rw [hq]; exact hc))
      rwa [ht] at this
    have hlev := C14_levels_agree_partial.2.2 s [some m] h.reach (by rw [ht])
    rw [ht] at hlev
    have hne : s.allMats [m] ≠ [] := by
      intro hn
      have : m ∈ s.allMats [m] := mem_allMats.mpr (.inl (by simp))
      rw [hn] at this; cases this
    obtain ⟨d, hd⟩ : ∃ d, ((s.allMats [m]).map Material.depth).getLast? = some d := by
      cases hq : ((s.allMats [m]).map Material.depth).getLast? with
      | none => simp at hq; exact absurd hq hne
      | some d => exact ⟨d, rfl⟩
    have e1 := setMaterials_eq h.reach.wf.geo [m] d hd
    change s.setMaterials [some m] = _ at e1
    rw [ht] at e1
    split at e1
    · have e2 := (Prod.mk.inj e1).1
      have hmat : t.materials.map Layer.mat = s.allMats [m] := by
        rw [e2]; exact mkLayers_mats _ _ _
      have hperm : (t.materials.map Layer.mat).Perm (s.materials.map Layer.mat ++ [m]) := by
        rw [hmat]
        exact (sortByKey_perm _ _).trans List.perm_append_comm
      have hperm2 := hperm.map fun m : Material ℝ =>
        (m.unitWeight, m.frictionAngle, m.cohesion, m.depth)
      rw [List.map_append, List.map_map, List.map_map] at hperm2
      have hf : Stage f (done ++ [e]) t ∧ t.udls = [] ∧ t.lls = [] := by
        have hP : (t.materials.map fun l =>
            (l.mat.unitWeight, l.mat.frictionAngle, l.mat.cohesion, l.mat.depth)).Perm
            (((done ++ [e]).map fun e => e.getD .default).map fun e =>
              (e.unitWeight, e.frictionAngle, |e.cohesion|, |e.depth|)) := by
          rw [List.map_append, List.map_append]
          refine hperm2.trans (h.materials.append ?_)
          simp only [List.map_cons, List.map_nil, m1, m2, m3, m4]
          exact .refl _
        unfold Slope.deepen at e2
        split at e2
        · refine ⟨⟨hr, ?_, ?_, ?_, ?_, hP, hlev, ⟨?_, ?_⟩, ?_, ⟨?_, ?_, ?_, ?_⟩, ?_⟩, ?_, ?_⟩ <;>
            rw [e2] <;> try rfl
          · exact h.height
          · exact h.length
          · exact h.slices
          · exact h.iterations
          · exact h.water.1
          · exact h.water.2
          · exact h.planes
          · change s.udls.map _ = []; rw [hu]; rfl
          · change s.lls.map _ = []; rw [hl]; rfl
        · refine ⟨⟨hr, ?_, ?_, ?_, ?_, hP, hlev, ⟨?_, ?_⟩, ?_, ⟨?_, ?_, ?_, ?_⟩, ?_⟩, ?_, ?_⟩ <;>
            rw [e2]
          · exact h.height
          · exact h.length
          · exact h.slices
          · exact h.iterations
          · exact h.water.1
          · exact h.water.2
          · exact h.planes
          · exact h.lims.1
          · exact h.lims.2.1
          · exact h.lims.2.2.1
          · exact h.lims.2.2.2
          · exact h.tot
          · exact hu
          · exact hl
      exact hf
    · cases (Prod.mk.inj e1).2

theorem setLl_frame {s : Slope ℝ} (h : WFS s) (u : LineLoad ℝ)
    (ht : s.extH = totH s s.height s.length) :
    (DefaultLimits s → DefaultLimits (s.setLls [some u]).1) ∧
      (s.setLls [some u]).1.extH = totH (s.setLls [some u]).1 (s.setLls [some u]).1.height
        (s.setLls [some u]).1.length ∧ (s.setLls [some u]).1.topY = s.topY := by
  have key : (DefaultLimits s → DefaultLimits (s.addLl (some u)).1) ∧
      (s.addLl (some u)).1.extH = totH (s.addLl (some u)).1 (s.addLl (some u)).1.height
        (s.addLl (some u)).1.length ∧ (s.addLl (some u)).1.topY = s.topY := by
    by_cases hm : 0 < u.magnitude
    · rw [addLl_eq h.2 h.1.geo u hm]
      split
      · exact ⟨fun _ => ⟨rfl, rfl, rfl, rfl⟩, rfl, (h.1.geo.topY.trans ht).symm⟩
      · exact ⟨fun hL => hL, ht, rfl⟩
    · have : s.addLl (some u) = (s, .ok ()) := by
        unfold Slope.addLl
        simp only [lit_zero]
        rw [if_neg hm]
      rw [this]
      exact ⟨fun hL => hL, ht, rfl⟩
  unfold Slope.setLls Slope.forEach Slope.forEach
  cases e : s.addLl (some u) with
  | mk t r =>
    rw [e] at key
    cases r with
    | error x => exact key
    | ok x => exact key

theorem setUdl_frame {s : Slope ℝ} (h : WFS s) (u : Udl ℝ)
    (ht : s.extH = totH s s.height s.length) :
    (DefaultLimits s → DefaultLimits (s.setUdls [some u]).1) ∧
      (s.setUdls [some u]).1.extH = totH (s.setUdls [some u]).1 (s.setUdls [some u]).1.height
        (s.setUdls [some u]).1.length ∧ (s.setUdls [some u]).1.topY = s.topY := by
  have key : (DefaultLimits s → DefaultLimits (s.addUdl (some u)).1) ∧
      (s.addUdl (some u)).1.extH = totH (s.addUdl (some u)).1 (s.addUdl (some u)).1.height
        (s.addUdl (some u)).1.length ∧ (s.addUdl (some u)).1.topY = s.topY := by
    by_cases hm : 0 < u.magnitude
    · rw [addUdl_eq h.2 h.1.geo u hm]
      split
      · exact ⟨fun _ => ⟨rfl, rfl, rfl, rfl⟩, rfl, (h.1.geo.topY.trans ht).symm⟩
      · exact ⟨fun hL => hL, ht, rfl⟩
    · have : s.addUdl (some u) = (s, .ok ()) := by
        unfold Slope.addUdl
        simp only [lit_zero]
        rw [if_neg hm]
      rw [this]
      exact ⟨fun hL => hL, ht, rfl⟩
  unfold Slope.setUdls Slope.forEach Slope.forEach
  cases e : s.addUdl (some u) with
  | mk t r =>
    rw [e] at key
    cases r with
    | error x => exact key
    | ok x => exact key

theorem Stage.keep {f : WebForm ℝ} {done : List (Option (WebMat ℝ))} {s t : Slope ℝ}
    (h : Stage f done s) (r : Reachable t) (g : SameGround s t) (hi : t.individual = s.individual)
    (hL : DefaultLimits t) (ht : t.extH = totH t t.height t.length) (hT : t.topY = s.topY) :
    Stage f done t where
  reach := r
  height := g.height.trans h.height
  length := g.length.trans h.length
  slices := g.slices.trans h.slices
  iterations := g.iterations.trans h.iterations
  materials := by rw [g.materials]; exact h.materials
  levels := by intro l hl; rw [g.materials] at hl; rw [hT]; exact h.levels l hl
  water := ⟨g.waterRL.trans h.water.1, g.waterDepth.trans h.water.2⟩
  planes := hi.trans h.planes
  lims := hL
  tot := ht

theorem Stage.ll {f : WebForm ℝ} {isColor : String → Bool} {done : List (Option (WebMat ℝ))}
    {s t : Slope ℝ} (h : Stage f done s) {e : Option (WebLl ℝ)} (ht : s.webLl isColor e = .ok t) :
    Stage f done t ∧ t.udls.map PUdl.load = s.udls.map PUdl.load ∧
      ∃ u : LineLoad ℝ, u.magnitude = |(e.getD .default).magnitude| ∧
        u.offset = |(e.getD .default).offset| ∧ u.dynamic = (e.getD .default).dynamic ∧
        t.lls.map PLl.load = s.lls.map PLl.load ++ [u].filter fun u => decide (0 < u.magnitude) := by
  unfold Slope.webLl at ht
  simp only [bind, Except.bind] at ht
  rw [(C02_signs_do_not_matter _ _ _).2.2.2.2.2.1] at ht
  set u : LineLoad ℝ := { magnitude := |(e.getD .default).magnitude|, offset := |(e.getD .default).offset|, color := if isColor (e.getD .default).color then (e.getD .default).color else "blue", dynamic := (e.getD .default).dynamic } with hu
  have hc : LineLoad.Constructed u := ⟨isColor, _, _, _, _,
    (C02_signs_do_not_matter _ _ _).2.2.2.2.2.1 (e.getD .default).magnitude (e.getD .default).offset⟩
  change (s.setLls [some u]).get = .ok t at ht
  rw [Out.get_ok] at ht
  have w := h.reach.wfs
  obtain ⟨t', e1, _, e2, e3, _⟩ := setLls_spec w [some u]
  obtain ⟨g1, _, g2⟩ := setLl_ground w u
  obtain ⟨k1, k2, k3⟩ := setLl_frame w u h.tot
  replace k1 := k1 h.lims
  have hr : Reachable t := by
    have := h.reach.call (.setLls s [some u] (by intro q hq; simp at hq; rw [hq]; exact hc))
    rwa [ht] at this
  rw [ht] at e1 g1 g2 k1 k2 k3
  have : t = t' := (Prod.mk.inj e1).1
  subst this
  exact ⟨h.keep hr g1 g2 k1 k2 k3, e3, u, rfl, rfl, rfl, e2⟩

theorem Stage.udl {f : WebForm ℝ} {isColor : String → Bool} {done : List (Option (WebMat ℝ))}
    {s t : Slope ℝ} (h : Stage f done s) {e : Option (WebUdl ℝ)} (ht : s.webUdl isColor e = .ok t) :
    Stage f done t ∧ t.lls.map PLl.load = s.lls.map PLl.load ∧
      ∃ u : Udl ℝ, u.magnitude = |(e.getD .default).magnitude| ∧
        u.offset = |(e.getD .default).offset| ∧ u.dynamic = (e.getD .default).dynamic ∧
        u.length = (if (e.getD .default).length = 0 then none else some |(e.getD .default).length|) ∧
        t.udls.map PUdl.load = s.udls.map PUdl.load ++ [u].filter fun u => decide (0 < u.magnitude) := by
  unfold Slope.webUdl at ht
  simp only [bind, Except.bind] at ht
  rw [(C02_signs_do_not_matter _ _ _).2.1] at ht
  set u : Udl ℝ := { magnitude := |(e.getD .default).magnitude|, offset := |(e.getD .default).offset|, length := if (e.getD .default).length = 0 then none else some |(e.getD .default).length|, color := if isColor (e.getD .default).color then (e.getD .default).color else "red", dynamic := (e.getD .default).dynamic } with hu
  have hc : Udl.Constructed u := ⟨isColor, _, _, _, _, _,
    (C02_signs_do_not_matter _ _ _).2.1 (e.getD .default).magnitude (e.getD .default).offset
      (e.getD .default).length⟩
  change (s.setUdls [some u]).get = .ok t at ht
  rw [Out.get_ok] at ht
  have w := h.reach.wfs
  obtain ⟨t', e1, _, e2, e3, _⟩ := setUdls_spec w [some u] (by
    intro v hv; simp at hv; rw [hv]; exact hc.facts.2.2)
  obtain ⟨g1, _, g2⟩ := setUdl_ground w u
  obtain ⟨k1, k2, k3⟩ := setUdl_frame w u h.tot
  replace k1 := k1 h.lims
  have hr : Reachable t := by
    have := h.reach.call (.setUdls s [some u] (by intro q hq; simp at hq; rw [hq]; exact hc))
    rwa [ht] at this
  rw [ht] at e1 g1 g2 k1 k2 k3
  have : t = t' := (Prod.mk.inj e1).1
  subst this
  exact ⟨h.keep hr g1 g2 k1 k2 k3, e3, u, rfl, rfl, rfl, rfl, e2⟩

theorem foldlM_ok {α β : Type} {g : β → α → Except PyErr β} (I : List α → β → Prop)
    (step : ∀ d a b b', I d b → g b a = .ok b' → I (d ++ [a]) b') (l : List α) :
    ∀ d b b', I d b → l.foldlM g b = .ok b' → I (d ++ l) b' := by
  induction l with
  | nil =>
    intro d b b' h e
    have : b = b' := Except.ok.inj e
    subst this
    simpa using h
  | cons a l ih =>
    intro d b b' h e
    rw [List.foldlM_cons] at e
    cases hg : g b a with
    | error x => rw [hg] at e; cases e
    | ok c =>
      rw [hg] at e
      have := ih (d ++ [a]) c b' (step d a b c h hg) e
      simpa using this

/-- The values of line load forms. -/
noncomputable def llVals (d : List (Option (WebLl ℝ))) : List (ℝ × ℝ × Bool) :=
  ((d.map fun e => e.getD .default).filter fun e => decide (e.magnitude ≠ 0)).map fun e =>
    (|e.magnitude|, |e.offset|, e.dynamic)

/-- The values of uniform load forms. -/
noncomputable def udlVals (d : List (Option (WebUdl ℝ))) : List (ℝ × ℝ × Option ℝ × Bool) :=
  ((d.map fun e => e.getD .default).filter fun e => decide (e.magnitude ≠ 0)).map fun e =>
    (|e.magnitude|, |e.offset|, if e.length = 0 then none else some |e.length|, e.dynamic)

theorem llsEntered_eq (f : WebForm ℝ) : f.llsEntered = llVals f.lls := by
  have : (WebLl.default : WebLl ℝ) = blankLl := by
    unfold WebLl.default blankLl; simp only [lit_zero]
  unfold WebForm.llsEntered llVals
  rw [this]

theorem udlsEntered_eq (f : WebForm ℝ) : f.udlsEntered = udlVals f.udls := by
  have : (WebUdl.default : WebUdl ℝ) = blankUdl := by
    unfold WebUdl.default blankUdl; simp only [lit_zero]
  unfold WebForm.udlsEntered udlVals
  rw [this]

/-- Everything but water and limits. -/
theorem stage_loads {f : WebForm ℝ} {isColor : String → Bool} (hv : f.Valid) {s s1 s2 s3 s4 : Slope ℝ}
    (h0 : f.newSlope = .ok s)
    (h1 : (s.updateAnalysisOptions (some f.slices) (some f.iterations) none none none).get = .ok s1)
    (h2 : f.materials.foldlM (Slope.webMaterial isColor) s1 = .ok s2)
    (h3 : f.lls.foldlM (Slope.webLl isColor) s2 = .ok s3)
    (h4 : f.udls.foldlM (Slope.webUdl isColor) s3 = .ok s4) :
    Stage f f.materials s4 ∧
      (s4.udls.map fun p => (p.load.magnitude, p.load.offset, p.load.length, p.load.dynamic)) =
        udlVals f.udls ∧
      (s4.lls.map fun p => (p.load.magnitude, p.load.offset, p.load.dynamic)) = llVals f.lls := by
  obtain ⟨t, e, a1, a2, a3⟩ := Stage.new hv h0
  rw [e] at h1
  cases h1
  have b := foldlM_ok (fun d t => Stage f d t ∧ t.udls = [] ∧ t.lls = [])
    (fun d x y y' i e => i.1.material i.2.1 i.2.2 e) f.materials [] _ _ ⟨a1, a2, a3⟩ h2
  rw [List.nil_append] at b
  obtain ⟨b1, b2, b3⟩ := b
  have c := foldlM_ok (fun d (t : Slope ℝ) => Stage f f.materials t ∧ t.udls.map PUdl.load = [] ∧
      (t.lls.map PLl.load).map (fun u => (u.magnitude, u.offset, u.dynamic)) = llVals d)
    (by
      intro d x y y' ⟨i1, i2, i3⟩ e
      obtain ⟨k1, k2, u, u1, u2, u3, k3⟩ := i1.ll e
      refine ⟨k1, k2.trans i2, ?_⟩
      rw [k3, List.map_append, i3]
      unfold llVals
      rw [List.map_append, List.filter_append, List.map_append]
      congr 1
      by_cases hm : (x.getD WebLl.default).magnitude = 0
      · simp [u1, hm]
      · simp [u1, u2, u3, hm]) f.lls [] _ _
    ⟨b1, by rw [b2]; rfl, by rw [b3]; rfl⟩ h3
  rw [List.nil_append] at c
  obtain ⟨c1, c2, c3⟩ := c
  have d := foldlM_ok (fun d (t : Slope ℝ) => Stage f f.materials t ∧
      (t.udls.map PUdl.load).map (fun u => (u.magnitude, u.offset, u.length, u.dynamic)) = udlVals d ∧
      t.lls.map PLl.load = s3.lls.map PLl.load)
    (by
      intro d x y y' ⟨i1, i2, i3⟩ e
      obtain ⟨k1, k2, u, u1, u2, u3, u4, k3⟩ := i1.udl e
      refine ⟨k1, ?_, k2.trans i3⟩
      rw [k3, List.map_append, i2]
      unfold udlVals
      rw [List.map_append, List.filter_append, List.map_append]
      congr 1
      by_cases hm : (x.getD WebUdl.default).magnitude = 0
      · simp [u1, hm]
      · simp [u1, u2, u3, u4, hm]) f.udls [] _ _
    ⟨c1, by rw [c2]; rfl, rfl⟩ h4
  rw [List.nil_append] at d
  obtain ⟨d1, d2, d3⟩ := d
  refine ⟨d1, ?_, ?_⟩
  · rw [← d2, List.map_map]; rfl
  · rw [← c3, ← d3, List.map_map]; rfl

theorem prepare_spec {f : WebForm ℝ} {isColor : String → Bool} (hv : f.Valid) {s : Slope ℝ}
    (h : f.prepare isColor = .ok s) :
    Reachable s ∧ f.Ground s ∧ f.Loads id s ∧ f.Limits s ∧
      s.extH = totH s s.height s.length := by
  unfold WebForm.prepare at h
  cases h0 : f.newSlope with
  | error e => rw [h0] at h; cases h
  | ok s0 =>
  rw [h0] at h
  simp only [bind, Except.bind] at h
  cases h1 : (s0.updateAnalysisOptions (some f.slices) (some f.iterations) none none none).get with
  | error e => rw [h1] at h; cases h
  | ok s1 =>
  rw [h1] at h
  simp only at h
  cases h2 : f.materials.foldlM (Slope.webMaterial isColor) s1 with
  | error e => rw [h2] at h; cases h
  | ok s2 =>
  rw [h2] at h
  simp only at h
  cases h3 : f.lls.foldlM (Slope.webLl isColor) s2 with
  | error e => rw [h3] at h; cases h
  | ok s3 =>
  rw [h3] at h
  simp only at h
  cases h4 : f.udls.foldlM (Slope.webUdl isColor) s3 with
  | error e => rw [h4] at h; cases h
  | ok s4 =>
  rw [h4] at h
  simp only at h
  cases h5 : s4.webWater f with
  | error e => rw [h5] at h; cases h
  | ok s5 =>
  rw [h5] at h
  simp only at h
  obtain ⟨st, hu, hl⟩ := stage_loads hv h0 h1 h2 h3 h4
  -- water
  have w5 : Reachable s5 ∧ f.Ground s5 ∧ s5.udls = s4.udls ∧ s5.lls = s4.lls ∧ DefaultLimits s5 ∧
      s5.extH = totH s5 s5.height s5.length := by
    unfold Slope.webWater at h5
    split at h5
    · rename_i hc
      rw [Out.get_ok] at h5
      have r5 : Reachable s5 := by
        have := st.reach.call (.setWaterTable s4 (.num f.waterDepth))
        rwa [h5] at this
      have hd : 0 ≤ f.waterDepth := by
        by_contra hd
        have := C19_water_level_partial.2.2.1 s4 (.num f.waterDepth) (by intro h; cases h)
          (by intro d hd'; cases hd'; exact not_le.mp hd)
        rw [this] at h5
        cases (Prod.mk.inj h5).2
      have e : s5 = (({ s4 with waterRL := some (pyMax 0 (s4.topY - f.waterDepth)), waterDepth := some f.waterDepth } :
          Slope ℝ).resetResults) := by
        have : assertPositiveNumber (0 : ℝ) (.num f.waterDepth) = .ok () := by
          unfold assertPositiveNumber
          simp [PyCmp.ltb, not_lt.mpr hd]
        unfold Slope.setWaterTable at h5
        simp only at h5
        rw [show (@OfNat.ofNat ℝ 0 (Lit.natLit 0)) = 0 from lit_zero] at h5
        rw [this] at h5
        exact (Prod.mk.inj h5).1.symm
      refine ⟨r5, ?_, ?_, ?_, ?_, ?_⟩
      · constructor
        · rw [e]; exact st.height
        · rw [e]; exact st.length
        · rw [e]; exact st.slices
        · rw [e]; exact st.iterations
        · rw [e]; exact st.materials
        · rw [e]; exact fun l hl => (st.levels l hl).1
        · rw [if_pos hc, e]
          simp [Slope.resetResults]
        · rw [e]; exact st.planes
      all_goals rw [e]
      · rfl
      · rfl
      · exact st.lims
      · exact st.tot
    · rename_i hc
      cases h5
      exact ⟨st.reach, ⟨st.height, st.length, st.slices, st.iterations, st.materials, fun l hl => (st.levels l hl).1,
        by rw [if_neg hc]; exact st.water.1, st.planes⟩, rfl, rfl, st.lims, st.tot⟩
  obtain ⟨r5, g5, u5, l5, L5, t5⟩ := w5
  have loads : f.Loads id s5 := by
    constructor
    · rw [u5, hu]
      rw [udlsEntered_eq]
      simp
    · rw [l5, hl]
      rw [llsEntered_eq]
      simp
  unfold Slope.webLimits at h
  split at h
  · rename_i hc
    have key : ∀ a b c d, s5.setAnalysisLimits a b c d = (s, .ok ()) →
        ∃ p q v w, s = { s5 with lim1 := p, lim2 := q, lim3 := v, lim4 := w, search := [] } ∧ Reachable s := by
      intro a b c d e
      have r := r5.call (.setAnalysisLimits s5 a b c d)
      rw [e] at r
      rcases WFS.setAnalysisLimits_rest s5 a b c d with ⟨p, q, v, w, e'⟩ | ⟨_, e'⟩
      · rw [e] at e'
        exact ⟨p, q, v, w, (Prod.mk.inj e').1, r⟩
      · rw [e] at e'; cases (Prod.mk.inj e').2
    have fin : ∀ p q v w, s = { s5 with lim1 := p, lim2 := q, lim3 := v, lim4 := w, search := [] } →
        f.Ground s ∧ f.Loads id s ∧ s.extH = totH s s.height s.length := by
      intro p q v w e
      rw [e]
      exact ⟨⟨g5.height, g5.length, g5.slices, g5.iterations, g5.materials, g5.levels, g5.water, g5.planes⟩,
        ⟨loads.udls, loads.lls⟩, t5⟩
    split at h
    · rename_i hi
      rw [Out.get_ok] at h
      obtain ⟨p, q, v, w, e, r⟩ := key _ _ _ _ h
      obtain ⟨f1, f2, f3⟩ := fin p q v w e
      refine ⟨r, f1, f2, ?_, f3⟩
      obtain ⟨-, -, c1, c2⟩ := C22_limits_ordered s5 r5
      have hok : ¬ (f.leftX < 0 ∨ f.rightX < 0 ∨ f.leftXRight < 0 ∨ f.rightXLeft < 0 ∨
          min f.leftXRight s5.topX ≤ f.leftX ∨ min f.rightX s5.extL ≤ max f.rightXLeft s5.topX) := by
        intro hb
        rw [c2 _ _ _ _ hb] at h
        cases (Prod.mk.inj h).2
      push Not at hok
      rw [c1 _ _ _ _ hok.1 hok.2.1 hok.2.2.1 hok.2.2.2.1 hok.2.2.2.2.1 hok.2.2.2.2.2] at h
      rw [← (Prod.mk.inj h).1]
      simp [WebForm.Limits, hc, hi]
    · rename_i hi
      rw [Out.get_ok] at h
      obtain ⟨p, q, v, w, e, r⟩ := key _ _ _ _ h
      obtain ⟨f1, f2, f3⟩ := fin p q v w e
      refine ⟨r, f1, f2, ?_, f3⟩
      obtain ⟨L1, L2, L3, L4⟩ := L5
      have w5 := r5.wf
      have nn : ¬ s5.topX < 0 := not_lt.mpr (by linarith [w5.l1, w5.l12, w5.l2])
      simp only [Slope.setAnalysisLimits, assertPositiveNumber, assertStrictlyPositiveNumber,
        PyCmp.ltb, PyVal.get!, bind, Except.bind, pure, Except.pure, lit_zero, decide_eq_true_eq,
        pyMax_real, pyMin_real, L2, L3, nn, if_false] at h
      by_cases h1 : f.leftX < 0
      · rw [if_pos h1] at h
        cases (Prod.mk.inj h).2
      rw [if_neg h1] at h
      simp only [max_eq_left (not_lt.mp h1), min_self, max_self] at h
      split at h
      · rename_i s' he
        split at he
        · cases he
        · cases he
          rw [← (Prod.mk.inj h).1]
          simp [WebForm.Limits, hc, hi, Slope.resetResults]
      · cases (Prod.mk.inj h).2
  · rename_i hc
    cases h
    refine ⟨r5, g5, loads, ?_, t5⟩
    unfold WebForm.Limits
    simp only [hc, Bool.false_and, Bool.false_eq_true, if_false]
    exact L5

/-! ## C68 -/

theorem WebForm.Ground.keep {f : WebForm ℝ} {s t : Slope ℝ} (h : f.Ground s) (g : SameGround s t)
    (hT : t.topY = s.topY) (hi : t.individual = []) : f.Ground t where
  height := g.height.trans h.height
  length := g.length.trans h.length
  slices := g.slices.trans h.slices
  iterations := g.iterations.trans h.iterations
  materials := by rw [g.materials]; exact h.materials
  levels := by intro l hl; rw [g.materials] at hl; rw [hT]; exact h.levels l hl
  water := by rw [g.waterRL, hT]; exact h.water
  planes := hi

theorem analyseSlope_planes {s : Slope ℝ} (h : s.individual = []) (m : Option ℝ) :
    (s.analyseSlope m).1.individual = [] ∧ (s.analyseSlope m).1.topY = s.topY ∧
      ∃ l, (s.analyseSlope m).1 = { s with search := l } := by
  obtain ⟨a, b, e, hb⟩ := C25_configuration_untouched s m
  rw [h] at hb
  have : b = [] := by simpa using hb
  rw [e, this]
  exact ⟨rfl, rfl, a, by rw [← h]⟩

/-- C68: the slope of a normal analysis of the web form is a slope the library could have built; it
has the geometry, options, materials, water, loads and limits entered; and its results are those of
an analysis of it. -/
theorem C68_web_normal (isColor : String → Bool) (f : WebForm ℝ) (hv : f.Valid)
    (hn : f.normal = true) {s : Slope ℝ} (h : f.createSlope isColor = .ok s) :
    Reachable s ∧ f.Ground s ∧ f.Loads id s ∧ f.Limits s ∧
      s.analyseSlope (some 5) = (s, .ok ()) := by
  unfold WebForm.createSlope at h
  cases hp : f.prepare isColor with
  | error e => rw [hp] at h; cases h
  | ok p =>
  rw [hp] at h
  simp only [bind, Except.bind, Slope.webAnalyse, hn, if_true] at h
  obtain ⟨r, g, l, lim, _⟩ := prepare_spec hv hp
  rw [Out.get_ok] at h
  rw [show (@OfNat.ofNat ℝ 5 (Lit.natLit 5)) = 5 from lit_real 5] at h
  have r' := r.call (.analyseSlope p (some 5))
  have ht := C25_analysing_twice p (some 5) (some 5)
  obtain ⟨k1, _, ks, k2⟩ := analyseSlope_planes g.planes (some 5)
  obtain ⟨g1, g2, g3, _⟩ := analyseSlope_ground p (some 5)
  rw [h] at r' ht k1 k2 g1 g2 g3
  refine ⟨r', ?_, ?_, ?_, ht⟩
  · refine g.keep g1 ?_ k1
    simp only at k2
    rw [k2]
  · simp only at g2 g3
    exact ⟨by rw [g2]; exact l.udls, by rw [g3]; exact l.lls⟩
  · simp only at k2
    rw [k2]
    exact lim

/-! ## C69 -/

/-- The height of the model is the one of its geometry. -/
def Tall (T : ℝ) (s : Slope ℝ) : Prop :=
  WFS s ∧ s.extH = totH s s.height s.length ∧ s.topY = T

theorem Tall.setDynamicOffset {T : ℝ} {s : Slope ℝ} (h : Tall T s) (o : ℝ) :
    Tall T (s.setDynamicOffset o).1 := by
  unfold Slope.setDynamicOffset
  have h1 : Tall T (s.removeUdls [] true).1 := by
    obtain ⟨l, m, e⟩ := WFS.removeUdls_rest s [] true
    have w := h.1.removeUdls [] true
    rw [e] at w ⊢
    exact ⟨w, h.2.1, h.2.2⟩
  refine andThen_inv (I := Tall T) _ _ h1 (fun t _ h2 =>
    andThen_inv (I := Tall T) _ _ ?_ (fun t _ h3 =>
    andThen_inv (I := Tall T) _ _ (forEach_inv_mem (I := Tall T) _ _ (fun t p hp ht => ?_) _ h3)
      (fun t _ h4 => forEach_inv (I := Tall T) _ (fun t p ht => ?_) _ _ h4)))
  · obtain ⟨l, e⟩ := WFS.removeLls_rest t [] true
    have w := h2.1.removeLls [] true
    rw [e] at w ⊢
    exact ⟨w, h2.2.1, h2.2.2⟩
  · obtain ⟨_, k2, k3⟩ := setUdl_frame ht.1
      (if p.load.dynamic then { p.load with offset := o } else p.load) ht.2.1
    refine ⟨ht.1.setUdls _ ?_, k2, k3.trans ht.2.2⟩
    intro v hv l hl
    simp only [List.mem_singleton, Option.some.injEq] at hv
    refine (h.1.2.udl p.load (List.mem_map_of_mem hp)).2 l ?_
    rw [hv] at hl
    split at hl <;> exact hl
  · obtain ⟨_, k2, k3⟩ := setLl_frame ht.1
      (if p.load.dynamic then { p.load with offset := o } else p.load) ht.2.1
    exact ⟨ht.1.setLls _, k2, k3.trans ht.2.2⟩

theorem Tall.analyseSlope {T : ℝ} {s : Slope ℝ} (h : Tall T s) (m : Option ℝ) :
    Tall T (s.analyseSlope m).1 := by
  have w := h.1.analyseSlope m
  obtain ⟨a, b, e, _⟩ := C25_configuration_untouched s m
  rw [e] at w ⊢
  exact ⟨w, h.2⟩

theorem Tall.tryOffset {T : ℝ} {s : Slope ℝ} (h : Tall T s) (o : ℝ) : Tall T (s.tryOffset o).1 := by
  unfold Slope.tryOffset
  refine andThen_inv (I := Tall T) _ _ (h.setDynamicOffset o) (fun _ _ w =>
    andThen_inv (I := Tall T) _ _ (w.analyseSlope _) (fun t _ w => ?_))
  split
  · exact w
  · exact w
  · exact ⟨w.1.dyn _, w.2⟩

theorem tryOffset_planes {s : Slope ℝ} (hw : WFS s) (h : s.individual = []) (o : ℝ) :
    (s.tryOffset o).1.individual = [] := by
  obtain ⟨a, e1, _, _, _, _, e6, _⟩ := setDynamicOffset_spec hw o
  unfold Slope.tryOffset
  rw [e1, andThen_done]
  have := (analyseSlope_planes (e6.trans h) none).1
  cases e : a.analyseSlope none with
  | mk b r =>
    rw [e] at this
    cases r with
    | error x => exact this
    | ok x =>
      rw [andThen_done]
      split <;> exact this

theorem analyseSlope_dyn {s b : Slope ℝ} {m : Option ℝ} (h : s.analyseSlope m = (b, .ok ()))
    (d : List (ℝ × ℝ)) :
    ({ s with dynResults := d } : Slope ℝ).analyseSlope m = ({ b with dynResults := d }, .ok ()) := by
  obtain ⟨ps, h1, h2, h3⟩ := analyseSlope_ok h
  have hS : SameSetup s { s with dynResults := d } := by constructor <;> rfl
  rw [analyseSlope_of ((hS.analysed rfl ps).mpr h1) (fun p hp e => by rw [hS.raises]; exact h2 p hp e) m, h3]
  unfold Slope.analysedTo
  rw [hS.withFos]

/-- Analysing again what an attempt left changes nothing. -/
theorem tryOffset_settled {s t : Slope ℝ} (hw : WFS s) {o v : ℝ} (e : s.tryOffset o = (t, .ok v)) :
    t.analyseSlope none = (t, .ok ()) ∧ t.getMinFos = .ok (some v) := by
  obtain ⟨_, _, _, h4, _⟩ := tryOffset_spec hw o
  rw [e] at h4
  obtain ⟨⟨a, b, d, h1, h2, h3, h5⟩, _⟩ := h4 v rfl
  simp only at h5
  have ht := C25_analysing_twice a none none
  rw [h2] at ht
  rw [h5]
  exact ⟨analyseSlope_dyn ht d, h3⟩

/-- A dynamic analysis with a decimal critical factor of safety. -/
theorem analyseDynamic_decimal {s : Slope ℝ} {c : ℝ} {t r} (h : s.analyseDynamic c true = (t, r)) :
    (t = { s with dynResults := [] } ∧ r = .error .typeError) ∨
    (∃ e, ({ s with dynResults := [] } : Slope ℝ).tryOffset 0 = (t, .error e) ∧ r = .error e) ∨
    (∃ a, ({ s with dynResults := [] } : Slope ℝ).tryOffset 0 = (t, .ok a) ∧ c < a ∧ r = .ok (some 0)) ∨
    (∃ left u a, GreatestOffset s left ∧ ({ s with dynResults := [] } : Slope ℝ).tryOffset 0 = (u, .ok a) ∧
      a ≤ c ∧ ((∃ e, u.tryOffset left = (t, .error e) ∧ r = .error e) ∨
        (∃ b, u.tryOffset left = (t, .ok b) ∧ b < c ∧ r = .ok (some 1)) ∨
        (∃ b e, u.tryOffset left = (t, .ok b) ∧ c ≤ b ∧ r = .error e ∧ e ≠ .nonreal))) := by
  unfold Slope.analyseDynamic at h
  simp only at h
  obtain ⟨hm1, hm2⟩ := maxOffset_spec s.topX s.udls s.length
  cases hm : maxOffset s.topX s.udls s.length with
  | error e =>
    rw [hm] at h
    cases h
    exact .inl ⟨rfl, by rw [(hm2 e hm).1]⟩
  | ok left' =>
    rw [hm] at h
    simp only at h
    obtain ⟨h1, h2, h3⟩ := hm1 left' hm
    change (Slope.tryOffset { s with dynResults := [] } (@OfNat.ofNat ℝ 0 (Lit.natLit 0))).andThen _ = _ at h
    rw [lit_zero] at h
    obtain ⟨left, hleft⟩ : ∃ left : ℝ, left = left' - 0.01 := ⟨_, rfl⟩
    rw [← hleft] at h
    have hg : GreatestOffset s left := by
      have : left + 0.01 = left' := by rw [hleft]; ring
      unfold GreatestOffset
      rw [this]
      exact ⟨h1, h2, h3⟩
    cases ht : Slope.tryOffset { s with dynResults := [] } 0 with
    | mk u v =>
    rw [ht] at h
    cases v with
    | error e => cases h; exact .inr (.inl ⟨e, rfl, rfl⟩)
    | ok a =>
      rw [andThen_done] at h
      split at h
      · rename_i hc; cases h; exact .inr (.inr (.inl ⟨a, rfl, hc, rfl⟩))
      · rename_i hc
        refine .inr (.inr (.inr ⟨left, u, a, hg, rfl, not_lt.mp hc, ?_⟩))
        cases ht2 : u.tryOffset left with
        | mk w v =>
        rw [ht2] at h
        cases v with
        | error e => cases h; exact .inl ⟨e, rfl, rfl⟩
        | ok b =>
          rw [andThen_done] at h
          split at h
          · rename_i hb; cases h; exact .inr (.inl ⟨b, rfl, hb, rfl⟩)
          · rename_i hb
            have : ∃ e, w.dynLoop c true 10 left (0 : ℝ) (0 : ℝ) = (w, .error e) ∧ e ≠ .nonreal := by
              unfold Slope.dynLoop
              simp only [if_true]
              have dg : ∀ k e, dictGet w.dynResults k = .error e → e ≠ .nonreal := by
                intro k e he
                unfold dictGet at he
                split at he <;> cases he
                rintro ⟨⟩
              cases hA : dictGet w.dynResults left with
              | error e => exact ⟨_, rfl, dg _ _ hA⟩
              | ok x =>
                cases hB : dictGet w.dynResults (0 : ℝ) with
                | error e => exact ⟨_, rfl, dg _ _ hB⟩
                | ok y =>
                  simp only [bind, Except.bind]
                  cases hC : pyDiv (x - y) (left - (0 : ℝ)) with
                  | error e =>
                    refine ⟨_, rfl, ?_⟩
                    unfold pyDiv at hC
                    split at hC <;> cases hC
                    rintro ⟨⟩
                  | ok z => exact ⟨_, rfl, by rintro ⟨⟩⟩
            obtain ⟨e, he, hne⟩ := this
            rw [he] at h
            cases h
            exact .inr (.inr ⟨b, e, rfl, not_lt.mp hb, rfl, hne⟩)

theorem WebForm.Loads.moved {f : WebForm ℝ} {s t : Slope ℝ} (h : f.Loads id s) {o : ℝ}
    (m : Moved o s t) : f.Loads (fun _ => o) t := by
  have hu : t.udls.map (fun p => (p.load.magnitude, p.load.offset, p.load.length, p.load.dynamic)) =
      (s.udls.map fun p => (p.load.magnitude, p.load.offset, p.load.length, p.load.dynamic)).map
        fun e => (e.1, if e.2.2.2 then o else e.2.1, e.2.2) := by
    have := congrArg (List.map fun u : Udl ℝ => (u.magnitude, u.offset, u.length, u.dynamic)) m.1
    simp only [List.map_map] at this ⊢
    refine this.trans (List.map_congr_left fun p _ => ?_)
    simp only [Function.comp, Udl.movedTo]
    split_ifs <;> simp_all
  have hl : t.lls.map (fun p => (p.load.magnitude, p.load.offset, p.load.dynamic)) =
      (s.lls.map fun p => (p.load.magnitude, p.load.offset, p.load.dynamic)).map
        fun e => (e.1, if e.2.2 then o else e.2.1, e.2.2) := by
    have := congrArg (List.map fun u : LineLoad ℝ => (u.magnitude, u.offset, u.dynamic)) m.2
    simp only [List.map_map] at this ⊢
    refine this.trans (List.map_congr_left fun p _ => ?_)
    simp only [Function.comp, LineLoad.movedTo]
    split_ifs <;> simp_all
  constructor
  · rw [hu, h.udls]
    simp
  · rw [hl, h.lls]
    simp

/-- What the analysis of the web form is left with, before a second analysis. -/
theorem web_dynamic {f : WebForm ℝ} {p t : Slope ℝ} {c : ℝ} {r : Except PyErr (Option ℕ)} (rp : Reachable p)
    (g : f.Ground p) (l : f.Loads id p) (tot : p.extH = totH p p.height p.length)
    (h : p.analyseDynamic c true = (t, r)) :
    Reachable t ∧ f.Ground t ∧
      ((r = .error .typeError ∧ t = { p with dynResults := [] } ∧ f.Loads id t) ∨
       (f.Loads (fun _ => 0) t ∧ ((∃ e, r = .error e) ∨
        (r = .ok (some 0) ∧ t.analyseSlope none = (t, .ok ()) ∧
          ∃ v, t.getMinFos = .ok (some v) ∧ c < v))) ∨
       (∃ left, GreatestOffset p left ∧ f.Loads (fun _ => left) t ∧ ((∃ e, r = .error e) ∨
        (r = .ok (some 1) ∧ t.analyseSlope none = (t, .ok ()) ∧
          ∃ v, t.getMinFos = .ok (some v) ∧ v < c)))) := by
  have rt : Reachable t := by
    have := rp.call (.analyseDynamic p c true)
    rwa [h] at this
  have T0 : Tall p.topY ({ p with dynResults := [] } : Slope ℝ) := ⟨rp.wfs.dyn _, tot, rfl⟩
  have one : ∀ {u : Slope ℝ} {x}, ({ p with dynResults := [] } : Slope ℝ).tryOffset 0 = (u, x) →
      f.Ground u ∧ f.Loads (fun _ => 0) u ∧ Tall p.topY u ∧ Moved 0 p u ∧ SameGround p u := by
    intro u x e
    have T := T0.tryOffset 0
    have P := tryOffset_planes T0.1 g.planes 0
    obtain ⟨k1, k2, _⟩ := tryOffset_spec T0.1 0
    rw [e] at T P k1 k2
    have k1 : SameGround p u := ((SameGround.refl p).dyn []).trans k1
    exact ⟨g.keep k1 T.2.2 P, l.moved k2, T, k2, k1⟩
  have two : ∀ {u w : Slope ℝ} {x y} {left : ℝ}, ({ p with dynResults := [] } : Slope ℝ).tryOffset 0 = (u, x) →
      u.tryOffset left = (w, y) → f.Ground w ∧ f.Loads (fun _ => left) w := by
    intro u w x y left e e2
    obtain ⟨a1, a2, a3, a4, a5⟩ := one e
    have T := a3.tryOffset left
    have P := tryOffset_planes a3.1 a1.planes left
    obtain ⟨k1, k2, _⟩ := tryOffset_spec a3.1 left
    rw [e2] at T P k1 k2
    exact ⟨g.keep (a5.trans k1) T.2.2 P, l.moved (a4.trans k2)⟩
  refine ⟨rt, ?_⟩
  rcases analyseDynamic_decimal h with ⟨rfl, rfl⟩ | ⟨e, h1, rfl⟩ | ⟨a, h1, h2, rfl⟩ |
    ⟨left, u, a, hg, h1, h2, ⟨e, h3, rfl⟩ | ⟨b, h3, h4, rfl⟩ | ⟨b, e, h3, h4, rfl, -⟩⟩
  · exact ⟨g.keep ((SameGround.refl p).dyn []) rfl g.planes, .inl ⟨rfl, rfl, l.udls, l.lls⟩⟩
  · obtain ⟨k1, k2, _⟩ := one h1
    exact ⟨k1, .inr (.inl ⟨k2, .inl ⟨e, rfl⟩⟩)⟩
  · obtain ⟨k1, k2, _⟩ := one h1
    obtain ⟨m1, m2⟩ := tryOffset_settled T0.1 h1
    exact ⟨k1, .inr (.inl ⟨k2, .inr ⟨rfl, m1, a, m2, h2⟩⟩)⟩
  · obtain ⟨k1, k2⟩ := two h1 h3
    exact ⟨k1, .inr (.inr ⟨left, hg, k2, .inl ⟨e, rfl⟩⟩)⟩
  · obtain ⟨k1, k2⟩ := two h1 h3
    obtain ⟨m1, m2⟩ := tryOffset_settled (one h1).2.2.1.1 h3
    exact ⟨k1, .inr (.inr ⟨left, hg, k2, .inr ⟨rfl, m1, b, m2, h4⟩⟩)⟩
  · obtain ⟨k1, k2⟩ := two h1 h3
    exact ⟨k1, .inr (.inr ⟨left, hg, k2, .inl ⟨e, rfl⟩⟩)⟩

/-- C69, full statement: the slope of a dynamic analysis of the web form has the dynamic loads at the
smallest offset that gives the critical factor of safety. Proved: the slope has the geometry, options,
materials and water entered, its results are those of an analysis of it, and the loads are those
entered, the dynamic ones either all at the crest or all at the greatest offset (`p` is the slope before
the analysis) or where they were entered. The offset the analysis is meant to find, between these, is
never shown: `C69_never_found`. -/
theorem C69_web_dynamic_partial (isColor : String → Bool) (f : WebForm ℝ) (hv : f.Valid)
    (hn : f.normal = false) {s : Slope ℝ} (h : f.createSlope isColor = .ok s) :
    ∃ p, f.prepare isColor = .ok p ∧ Reachable s ∧ f.Ground s ∧
      ((f.Loads (fun _ => 0) s ∧ s.analyseSlope none = (s, .ok ()) ∧
          ∃ v, s.getMinFos = .ok (some v) ∧ f.critical < v) ∨
       (∃ left, GreatestOffset p left ∧ f.Loads (fun _ => left) s ∧ s.analyseSlope none = (s, .ok ()) ∧
          ∃ v, s.getMinFos = .ok (some v) ∧ v < f.critical) ∨
       (s.analyseSlope (some 5) = (s, .ok ()) ∧ (f.Loads id s ∨ f.Loads (fun _ => 0) s ∨
          ∃ left, GreatestOffset p left ∧ f.Loads (fun _ => left) s))) := by
  unfold WebForm.createSlope at h
  cases hp : f.prepare isColor with
  | error e => rw [hp] at h; cases h
  | ok p =>
  refine ⟨p, rfl, ?_⟩
  rw [hp] at h
  simp only [bind, Except.bind, Slope.webAnalyse, hn, Bool.false_eq_true, if_false] at h
  obtain ⟨r, g, l, lim, tot⟩ := prepare_spec hv hp
  cases hd : p.analyseDynamic f.critical true with
  | mk t x =>
  rw [hd] at h
  obtain ⟨rt, gt, hc⟩ := web_dynamic r g l tot hd
  have again : ∀ {γ : ℝ → ℝ}, f.Loads γ t → (t.analyseSlope (some 5)).get = .ok s →
      Reachable s ∧ f.Ground s ∧ f.Loads γ s ∧ s.analyseSlope (some 5) = (s, .ok ()) := by
    intro γ l h
    rw [Out.get_ok] at h
    have r' := rt.call (.analyseSlope t (some 5))
    have ht := C25_analysing_twice t (some 5) (some 5)
    obtain ⟨k1, _, ks, k2⟩ := analyseSlope_planes gt.planes (some 5)
    obtain ⟨g1, g2, g3, _⟩ := analyseSlope_ground t (some 5)
    rw [h] at r' ht k1 k2 g1 g2 g3
    simp only at g2 g3 k2
    refine ⟨r', gt.keep g1 (by rw [k2]) k1, ?_, ht⟩
    exact ⟨by rw [g2]; exact l.udls, by rw [g3]; exact l.lls⟩
  have h5 : (@OfNat.ofNat ℝ 5 (Lit.natLit 5)) = 5 := lit_real 5
  rw [h5] at h
  have err : ∀ {e}, x = .error e → (t.analyseSlope (some 5)).get = .ok s := by
    rintro e rfl
    split at h
    · rename_i h'; cases h'
    · cases h
    · rename_i h'; cases h'; exact h
  rcases hc with ⟨h1, -, h3⟩ | ⟨h1, ⟨e, h2⟩ | ⟨h2, h3, h4⟩⟩ | ⟨left, hg, h1, ⟨e, h2⟩ | ⟨h2, h3, h4⟩⟩
  · obtain ⟨k1, k2, k3, k4⟩ := again h3 (err h1)
    exact ⟨k1, k2, .inr (.inr ⟨k4, .inl k3⟩)⟩
  · obtain ⟨k1, k2, k3, k4⟩ := again h1 (err h2)
    exact ⟨k1, k2, .inr (.inr ⟨k4, .inr (.inl k3)⟩)⟩
  · subst h2
    cases h
    exact ⟨rt, gt, .inl ⟨h1, h3, h4⟩⟩
  · obtain ⟨k1, k2, k3, k4⟩ := again h1 (err h2)
    exact ⟨k1, k2, .inr (.inr ⟨k4, .inr (.inr ⟨left, hg, k3⟩)⟩)⟩
  · subst h2
    cases h
    exact ⟨rt, gt, .inr (.inl ⟨left, hg, h1, h3, h4⟩)⟩

end PySlope
