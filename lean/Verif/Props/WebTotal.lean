import Verif.Props.Web
import Verif.Props.Total

/-! # C71: which web forms are answered -/

namespace PySlope

theorem foldlM_total {α β : Type} {g : β → α → Except PyErr β} (I : List α → β → Prop) (whole : List α)
    (step : ∀ d a r b, d ++ a :: r = whole → I d b → ∃ b', g b a = .ok b' ∧ I (d ++ [a]) b') (l : List α) :
    ∀ d b, d ++ l = whole → I d b → ∃ b', l.foldlM g b = .ok b' ∧ I whole b' := by
  induction l with
  | nil =>
    intro d b e h
    rw [List.append_nil] at e
    subst e
    exact ⟨b, rfl, h⟩
  | cons a l ih =>
    intro d b e h
    obtain ⟨b', e1, h1⟩ := step d a l b e h
    obtain ⟨c, e2, h2⟩ := ih (d ++ [a]) b' (by simpa using e) h1
    refine ⟨c, ?_, h2⟩
    rw [List.foldlM_cons, e1]
    exact e2

/-- An exception of a loop comes from one of its turns. -/
theorem foldlM_error {α β : Type} {g : β → α → Except PyErr β} (I : List α → β → Prop) {P : PyErr → Prop}
    (step : ∀ d a b b', I d b → g b a = .ok b' → I (d ++ [a]) b')
    (bad : ∀ d a b x, I d b → g b a = .error x → P x) (l : List α) :
    ∀ d b x, I d b → l.foldlM g b = .error x → P x := by
  induction l with
  | nil => intro d b x h e; cases e
  | cons a l ih =>
    intro d b x h e
    rw [List.foldlM_cons] at e
    cases hg : g b a with
    | error y => rw [hg] at e; cases e; exact bad d a b _ h hg
    | ok c =>
      rw [hg] at e
      exact ih (d ++ [a]) c x (step d a b c h hg) e

theorem webLl_total {f : WebForm ℝ} (isColor : String → Bool) {done : List (Option (WebMat ℝ))}
    {s : Slope ℝ} (h : Stage f done s) (e : Option (WebLl ℝ)) : ∃ t, s.webLl isColor e = .ok t := by
  unfold Slope.webLl
  simp only [bind, Except.bind]
  rw [(C02_signs_do_not_matter _ _ _).2.2.2.2.2.1]
  simp only
  obtain ⟨t, e1, _⟩ := setLls_spec h.reach.wfs [some _]
  exact ⟨t, by rw [Out.get_ok]; exact e1⟩

theorem webUdl_total {f : WebForm ℝ} (isColor : String → Bool) {done : List (Option (WebMat ℝ))}
    {s : Slope ℝ} (h : Stage f done s) (e : Option (WebUdl ℝ)) : ∃ t, s.webUdl isColor e = .ok t := by
  unfold Slope.webUdl
  simp only [bind, Except.bind]
  rw [(C02_signs_do_not_matter _ _ _).2.1]
  simp only
  obtain ⟨t, e1, _⟩ := setUdls_spec h.reach.wfs [some { magnitude := |(e.getD .default).magnitude|, offset := |(e.getD .default).offset|, length := if (e.getD .default).length = 0 then none else some |(e.getD .default).length|, color := if isColor (e.getD .default).color then (e.getD .default).color else "red", dynamic := (e.getD .default).dynamic }] (by
    intro v hv; simp at hv; rw [hv]
    intro l hl
    simp only at hl
    split at hl
    · cases hl
    · rename_i hz; cases hl; exact abs_pos.mpr hz)
  exact ⟨t, by rw [Out.get_ok]; exact e1⟩

/-- A material form is taken if and only if the library takes its values and its depth is new. -/
theorem webMaterial_total {f : WebForm ℝ} (isColor : String → Bool) {done : List (Option (WebMat ℝ))}
    {s : Slope ℝ} (h : Stage f done s) (e : Option (WebMat ℝ)) :
    (1 ≤ (e.getD blankMaterial).unitWeight ∧ (e.getD blankMaterial).unitWeight ≤ 50 ∧
        0 ≤ (e.getD blankMaterial).frictionAngle ∧
        |(e.getD blankMaterial).depth| ∉ s.materials.map (fun l => l.mat.depth) →
      ∃ t, s.webMaterial isColor e = .ok t) ∧
    (∀ x, s.webMaterial isColor e = .error x → x = .valueError) ∧
    (∀ t, s.webMaterial isColor e = .ok t → 1 ≤ (e.getD blankMaterial).unitWeight ∧
      (e.getD blankMaterial).unitWeight ≤ 50 ∧ 0 ≤ (e.getD blankMaterial).frictionAngle) := by
  unfold Slope.webMaterial
  simp only [bind, Except.bind]
  rw [show (WebMat.default : WebMat ℝ) = blankMaterial from rfl]
  generalize e.getD blankMaterial = e
  obtain ⟨c1, c2, -⟩ := C01_material isColor (.num e.unitWeight) (.num e.frictionAngle)
    (.num e.cohesion) (.num e.depth) (.str e.name) (.str e.color)
  by_cases hA : 1 ≤ e.unitWeight ∧ e.unitWeight ≤ 50 ∧ 0 ≤ e.frictionAngle
  · rw [c1 _ _ _ _ _ _ ⟨rfl, hA.1, hA.2.1, rfl, hA.2.2, rfl, rfl⟩ rfl rfl]
    simp only
    set m : Material ℝ := { unitWeight := e.unitWeight, frictionAngle := e.frictionAngle, cohesion := |e.cohesion|, depth := |e.depth|, tanPhi := Real.tan (e.frictionAngle * (Real.pi / 180)), name := e.name, userColor := if isColor e.color && e.color != "" then some e.color else none } with hm
    have hne : s.allMats [m] ≠ [] := by
      intro hn
      have : m ∈ s.allMats [m] := mem_allMats.mpr (.inl (by simp))
      rw [hn] at this; cases this
    obtain ⟨d, hd⟩ : ∃ d, ((s.allMats [m]).map Material.depth).getLast? = some d := by
      cases hq : ((s.allMats [m]).map Material.depth).getLast? with
      | none => simp at hq; exact absurd hq hne
      | some d => exact ⟨d, rfl⟩
    have e1 := setMaterials_eq h.reach.wf.geo [m] d hd
    change s.setMaterials [some m] = _ at e1
    rw [e1]
    refine ⟨?_, ?_, fun _ _ => hA⟩
    · rintro ⟨-, -, -, hnew⟩
      have hp : (s.allMats [m]).Perm ([m] ++ s.materials.map Layer.mat) := sortByKey_perm _ _
      have hn : ((s.allMats [m]).map Material.depth).Nodup := by
        rw [(hp.map Material.depth).nodup_iff, List.map_append, List.map_map]
        refine List.nodup_append.mpr ⟨by simp, ?_, ?_⟩
        · exact (List.pairwise_map.mpr h.reach.wf.mats).imp ne_of_lt
        · intro a ha b hb
          simp only [List.map_cons, List.map_nil, List.mem_singleton] at ha
          subst ha
          rintro rfl
          exact hnew hb
      rw [if_pos hn]
      exact ⟨_, rfl⟩
    · intro x hx
      split at hx
      · cases hx
      · cases hx; rfl
  · rw [c2 (by
      rintro ⟨u, f, c', d', a1, a2, a3, a4, a5, -⟩
      simp only [PyVal.asNum, Option.some.injEq] at a1 a4
      subst a1; subst a4
      exact hA ⟨a2, a3, a5⟩)]
    exact ⟨fun hx => absurd ⟨hx.1, hx.2.1, hx.2.2.1⟩ hA, fun x hx => by cases hx; rfl, fun t ht => by cases ht⟩

theorem newSlope_total (f : WebForm ℝ) :
    (0 ≤ f.height → (f.byLength = true → 0 ≤ f.length) →
      (f.byLength = false → 0 < f.angle ∧ f.angle ≤ 90) → ∃ s, f.newSlope = .ok s) ∧
    (∀ s, f.newSlope = .ok s → 0 ≤ f.height ∧ (f.byLength = true → 0 ≤ f.length) ∧
      (f.byLength = false → 0 < f.angle ∧ f.angle ≤ 90)) ∧
    (∀ x, f.newSlope = .error x → x = .valueError) := by
  have h30 : (@OfNat.ofNat ℝ 30 (Lit.natLit 30)) = 30 := lit_real 30
  unfold WebForm.newSlope
  rw [h30]
  have key : ∀ v a l, (∀ s, Slope.new v a l = .ok s → AcceptedBoundary v a l) ∧
      (AcceptedBoundary v a l → ∃ s, Slope.new v a l = .ok s) := by
    intro v a l
    rw [new_eq]
    constructor
    · intro s e
      cases eb : boundaryInputs v a l with
      | error x => rw [eb] at e; cases e
      | ok HL => exact (boundaryInputs_iff v a l).mp ⟨_, eb⟩
    · intro hA
      obtain ⟨⟨H, L⟩, e⟩ := (boundaryInputs_iff v a l).mpr hA
      rw [e]
      exact ⟨_, rfl⟩
  have bad : ∀ (h a : ℝ) (l : PyVal ℝ) x, (l = .none ∨ ∃ L, l = .num L) →
      Slope.new (.num h) (.num a) l = .error x → x = .valueError := by
    intro h a l x _ e
    rw [new_eq] at e
    by_cases hA : AcceptedBoundary (.num h) (.num a) l
    · rw [boundaryInputs_accepted hA] at e; cases e
    · obtain ⟨y, e1, e2⟩ := boundaryInputs_rejected hA
      rw [e1] at e
      cases e
      exact e2 (by intro h; cases h)
  cases f.byLength
  · simp only [Bool.false_eq_true, if_false]
    refine ⟨fun h1 _ h2 => (key _ _ _).2 ?_, fun s hs => ?_, fun x hx => bad _ _ _ _ (.inl rfl) hx⟩
    · exact ⟨⟨_, rfl, h1⟩, .inr ⟨_, rfl, h2 trivial⟩, .inl trivial, by rintro - ⟨⟩⟩
    · obtain ⟨⟨H, a1, a2⟩, a3, -⟩ := (key _ _ _).1 s hs
      simp only [PyVal.asNum, Option.some.injEq] at a1
      subst a1
      rcases a3 with a3 | ⟨A, a3, a4⟩
      · cases a3
      · simp only [PyVal.asNum, Option.some.injEq] at a3
        subst a3
        exact ⟨a2, by rintro ⟨⟩, fun _ => a4⟩
  · simp only [if_true]
    refine ⟨fun h1 h2 _ => (key _ _ _).2 ?_, fun s hs => ?_, fun x hx => bad _ _ _ _ (.inr ⟨_, rfl⟩) hx⟩
    · exact ⟨⟨_, rfl, h1⟩, .inr ⟨_, rfl, by norm_num, by norm_num⟩, .inr ⟨_, rfl, h2 trivial⟩, by rintro - ⟨⟩⟩
    · obtain ⟨⟨H, a1, a2⟩, -, a3, -⟩ := (key _ _ _).1 s hs
      simp only [PyVal.asNum, Option.some.injEq] at a1
      subst a1
      rcases a3 with a3 | ⟨A, a3, a4⟩
      · cases a3
      · simp only [PyVal.asNum, Option.some.injEq] at a3
        subst a3
        exact ⟨a2, fun _ => a4, by rintro ⟨⟩⟩

theorem webWater_total {f : WebForm ℝ} {s : Slope ℝ} :
    ((f.considerWater = true → 0 ≤ f.waterDepth) → ∃ t, s.webWater f = .ok t) ∧
    (∀ t, s.webWater f = .ok t → f.considerWater = true → 0 ≤ f.waterDepth) ∧
    (∀ x, s.webWater f = .error x → x = .valueError) := by
  unfold Slope.webWater
  cases f.considerWater
  · exact ⟨fun _ => ⟨_, rfl⟩, by rintro t - ⟨⟩, by rintro x ⟨⟩⟩
  · simp only [if_true, true_implies]
    by_cases hd : 0 ≤ f.waterDepth
    · obtain ⟨e, -⟩ := C19_water_level_partial.1 s (.num f.waterDepth) f.waterDepth rfl hd
      have : s.setWaterTable (.num f.waterDepth) = ((s.setWaterTable (.num f.waterDepth)).1, .ok ()) :=
        Prod.ext rfl e
      rw [this]
      exact ⟨fun _ => ⟨_, rfl⟩, fun _ _ => hd, fun x hx => by cases hx⟩
    · rw [C19_water_level_partial.2.2.1 s (.num f.waterDepth) (by intro h; cases h)
          (by intro d hd'; cases hd'; exact not_le.mp hd)]
      refine ⟨fun h => absurd h hd, ?_, ?_⟩
      · intro t h; cases h
      · intro x h; cases h; rfl

theorem webLimits_error {f : WebForm ℝ} {s : Slope ℝ} (r : Reachable s) {x} (h : s.webLimits f = .error x) :
    x = .valueError := by
  have key : ∀ a b c d, (s.setAnalysisLimits a b c d).get = .error x →
      (s.setAnalysisLimits a b c d).2 = .error x := by
    intro a b c d h
    cases e : s.setAnalysisLimits a b c d with
    | mk t y =>
      rw [e] at h
      cases y with
      | error y => cases h; rfl
      | ok y => cases h
  unfold Slope.webLimits at h
  split at h
  · split at h
    · have h := key _ _ _ _ h
      obtain ⟨-, -, c1, c2⟩ := C22_limits_ordered s r
      by_cases hb : (f.leftX < 0 ∨ f.rightX < 0 ∨ f.leftXRight < 0 ∨ f.rightXLeft < 0 ∨
          min f.leftXRight s.topX ≤ f.leftX ∨ min f.rightX s.extL ≤ max f.rightXLeft s.topX)
      · rw [c2 _ _ _ _ hb] at h
        cases h; rfl
      · push Not at hb
        rw [c1 _ _ _ _ hb.1 hb.2.1 hb.2.2.1 hb.2.2.2.1 hb.2.2.2.2.1 hb.2.2.2.2.2] at h
        cases h
    · have h := key _ _ _ _ h
      have w5 := r.wf
      have nn : ¬ s.lim3 < 0 := not_lt.mpr (by linarith [w5.l1, w5.l12, w5.l2, w5.l3])
      simp only [Slope.setAnalysisLimits, assertPositiveNumber, assertStrictlyPositiveNumber,
        PyCmp.ltb, PyVal.get!, bind, Except.bind, pure, Except.pure, lit_zero, decide_eq_true_eq,
        pyMax_real, pyMin_real, nn, if_false] at h
      by_cases h1 : f.leftX < 0
      · rw [if_pos h1] at h
        cases h; rfl
      · rw [if_neg h1] at h
        simp only at h
        split at h
        · cases h
        · rename_i he
          split at he
          · cases he; cases h; rfl
          · cases he
  · cases h

/-- The slope is built from a sensible form, and only from one; otherwise `ValueError` is raised. -/
theorem prepare_total (isColor : String → Bool) (f : WebForm ℝ) (hv : f.Valid) :
    (f.considerLimits = false → f.Sensible → ∃ p, f.prepare isColor = .ok p) ∧
    (∀ p, f.prepare isColor = .ok p → f.Sensible) ∧
    (∀ x, f.prepare isColor = .error x → x = .valueError) := by
  obtain ⟨n1, n2, n3⟩ := newSlope_total f
  have depths : ∀ {d s}, Stage f d s → (s.materials.map fun l => l.mat.depth).Perm
      ((d.map fun e => e.getD blankMaterial).map fun e => |e.depth|) := by
    intro d s h
    have := h.materials.map fun e : ℝ × ℝ × ℝ × ℝ => e.2.2.2
    rw [show (WebMat.default : WebMat ℝ) = blankMaterial from rfl] at this
    simpa [List.map_map, Function.comp_def] using this
  unfold WebForm.prepare
  refine ⟨?_, ?_, ?_⟩
  · intro hl hs
    obtain ⟨s0, h0⟩ := n1 hs.height hs.byLength hs.byAngle
    obtain ⟨s1, h1, a1, a2, a3⟩ := Stage.new hv h0
    obtain ⟨s2, h2, b1, b2, b3⟩ := foldlM_total (g := Slope.webMaterial isColor)
      (fun d t => Stage f d t ∧ t.udls = [] ∧ t.lls = []) f.materials
      (by
        rintro d a r b e ⟨i1, i2, i3⟩
        have hm := hs.materials (a.getD blankMaterial) (by rw [← e]; simp)
        obtain ⟨t, ht⟩ := (webMaterial_total isColor i1 a).1 ⟨hm.1, hm.2.1, hm.2.2, by
          rw [(depths i1).mem_iff]
          have := hs.depths
          rw [← e, List.map_append, List.map_append, List.nodup_append] at this
          intro hm
          exact this.2.2 _ hm _ (by simp) rfl⟩
        exact ⟨t, ht, i1.material i2 i3 ht⟩) f.materials [] s1 rfl ⟨a1, a2, a3⟩
    obtain ⟨s3, h3, c1⟩ := foldlM_total (g := Slope.webLl isColor)
      (fun _ t => Stage f f.materials t) f.lls
      (by
        intro d a r b e i1
        obtain ⟨t, ht⟩ := webLl_total isColor i1 a
        exact ⟨t, ht, (i1.ll ht).1⟩) f.lls [] s2 rfl b1
    obtain ⟨s4, h4, d1⟩ := foldlM_total (g := Slope.webUdl isColor)
      (fun _ t => Stage f f.materials t) f.udls
      (by
        intro d a r b e i1
        obtain ⟨t, ht⟩ := webUdl_total isColor i1 a
        exact ⟨t, ht, (i1.udl ht).1⟩) f.udls [] s3 rfl c1
    obtain ⟨s5, h5⟩ := (webWater_total (s := s4)).1 hs.water
    refine ⟨s5, ?_⟩
    rw [h0]
    simp only [bind, Except.bind]
    rw [h1]
    simp only
    rw [h2]
    simp only
    rw [h3]
    simp only
    rw [h4]
    simp only
    rw [h5]
    simp only
    unfold Slope.webLimits
    rw [hl]
    rfl
  all_goals
    intro y h
    cases h0 : f.newSlope with
    | error e => rw [h0] at h; first | (cases h; done) | (cases h; exact n3 _ h0)
    | ok s0 => ?_
    rw [h0] at h
    simp only [bind, Except.bind] at h
    obtain ⟨s1, h1, a1, a2, a3⟩ := Stage.new hv h0
    rw [h1] at h
    simp only at h
    have stepM := fun (d : List (Option (WebMat ℝ))) (x : Option (WebMat ℝ)) (y y' : Slope ℝ)
      (i : Stage f d y ∧ y.udls = [] ∧ y.lls = []) (e : y.webMaterial isColor x = .ok y') =>
        i.1.material i.2.1 i.2.2 e
    cases h2 : f.materials.foldlM (Slope.webMaterial isColor) s1 with
    | error e =>
      rw [h2] at h
      first
        | (cases h; done)
        | (cases h
           exact foldlM_error _ (P := fun x => x = .valueError) stepM
             (fun d a b x i e => (webMaterial_total isColor i.1 a).2.1 x e) f.materials [] s1 _ ⟨a1, a2, a3⟩ h2)
    | ok s2 => ?_
    rw [h2] at h
    simp only at h
    have b1 := (foldlM_ok _ stepM f.materials [] _ _ ⟨a1, a2, a3⟩ h2).1
    rw [List.nil_append] at b1
    cases h3 : f.lls.foldlM (Slope.webLl isColor) s2 with
    | error e =>
      exfalso
      exact foldlM_error (fun _ t => Stage f f.materials t) (P := fun _ => False)
        (fun d a b b' i e => (i.ll e).1)
        (fun d a b x i e => by
          obtain ⟨t, ht⟩ := webLl_total isColor i a
          rw [ht] at e; cases e) f.lls [] s2 _ b1 h3
    | ok s3 => ?_
    rw [h3] at h
    simp only at h
    have c1 := foldlM_ok (fun _ t => Stage f f.materials t) (fun d a b b' i e => (i.ll e).1) f.lls [] _ _ b1 h3
    cases h4 : f.udls.foldlM (Slope.webUdl isColor) s3 with
    | error e =>
      exfalso
      exact foldlM_error (fun _ t => Stage f f.materials t) (P := fun _ => False)
        (fun d a b b' i e => (i.udl e).1)
        (fun d a b x i e => by
          obtain ⟨t, ht⟩ := webUdl_total isColor i a
          rw [ht] at e; cases e) f.udls [] s3 _ c1 h4
    | ok s4 => ?_
    rw [h4] at h
    simp only at h
    have d1 := foldlM_ok (fun _ t => Stage f f.materials t) (fun d a b b' i e => (i.udl e).1) f.udls [] _ _ c1 h4
    cases h5 : s4.webWater f with
    | error e => rw [h5] at h; first | (cases h; done) | (cases h; exact webWater_total.2.2 _ h5)
    | ok s5 => ?_
    rw [h5] at h
    simp only at h
  · obtain ⟨m1, m2, m3⟩ := n2 _ h0
    refine ⟨m1, m2, m3, ?_, ?_, webWater_total.2.1 _ h5⟩
    · have := foldlM_ok (fun d t => (Stage f d t ∧ t.udls = [] ∧ t.lls = []) ∧
          ∀ e ∈ d.map fun e => e.getD blankMaterial, 1 ≤ e.unitWeight ∧ e.unitWeight ≤ 50 ∧ 0 ≤ e.frictionAngle)
        (fun d a b b' i e => ⟨stepM d a b b' i.1 e, by
          intro x hx
          rw [List.map_append, List.mem_append] at hx
          rcases hx with hx | hx
          · exact i.2 x hx
          · simp only [List.map_cons, List.map_nil, List.mem_singleton] at hx
            rw [hx]
            exact (webMaterial_total isColor i.1.1 a).2.2 b' e⟩)
        f.materials [] _ _ ⟨⟨a1, a2, a3⟩, by simp⟩ h2
      rw [List.nil_append] at this
      exact this.2
    · rw [← (depths d1).nodup_iff]
      exact (List.pairwise_map.mpr d1.reach.wf.mats).imp ne_of_lt
  · have r5 : Reachable s5 := by
      unfold Slope.webWater at h5
      split at h5
      · rw [Out.get_ok] at h5
        have := d1.reach.call (.setWaterTable s4 (.num f.waterDepth))
        rwa [h5] at this
      · cases h5; exact d1.reach
    exact webLimits_error r5 h

theorem prepare_unlimited (isColor : String → Bool) (f : WebForm ℝ) :
    f.prepare isColor = (f.unlimited.prepare isColor).bind fun p => p.webLimits f := by
  unfold WebForm.prepare
  change _ = Except.bind (do
    let s ← f.newSlope
    let s ← (s.updateAnalysisOptions (some f.slices) (some f.iterations) none none none).get
    let s ← f.materials.foldlM (Slope.webMaterial isColor) s
    let s ← f.lls.foldlM (Slope.webLl isColor) s
    let s ← f.udls.foldlM (Slope.webUdl isColor) s
    let s ← s.webWater f
    .ok s) _
  simp only [bind, Except.bind]
  cases f.newSlope with
  | error e => rfl
  | ok s0 =>
  simp only
  cases (s0.updateAnalysisOptions (some f.slices) (some f.iterations) none none none).get with
  | error e => rfl
  | ok s1 =>
  simp only
  cases f.materials.foldlM (Slope.webMaterial isColor) s1 with
  | error e => rfl
  | ok s2 =>
  simp only
  cases f.lls.foldlM (Slope.webLl isColor) s2 with
  | error e => rfl
  | ok s3 =>
  simp only
  cases f.udls.foldlM (Slope.webUdl isColor) s3 with
  | error e => rfl
  | ok s4 =>
  simp only
  cases s4.webWater f with
  | error e => rfl
  | ok s5 => rfl

/-- The limits of a form are taken if and only if they fit; otherwise `ValueError` is raised. -/
theorem webLimits_total {f : WebForm ℝ} {s : Slope ℝ} (r : Reachable s) (hd : DefaultLimits s)
    (hc : f.considerLimits = true) :
    (f.LimitsFit s → ∃ t, s.webLimits f = .ok t) ∧
    (¬ f.LimitsFit s → s.webLimits f = .error .valueError) := by
  have w := r.wf
  have h0 : 0 < s.topX := by linarith [w.l1, w.l12, w.l2]
  have h1 : s.topX < s.extL := by linarith [w.l3, w.l34, w.l4]
  obtain ⟨-, -, c1, c2⟩ := C22_limits_ordered s r
  unfold Slope.webLimits WebForm.LimitsFit
  rw [hc]
  simp only [if_true]
  cases hi : f.considerInternal
  · simp only [Bool.false_eq_true, if_false, false_implies, and_true]
    have nn : ¬ s.lim3 < 0 := by rw [hd.2.2.1]; linarith
    simp only [Slope.setAnalysisLimits, assertPositiveNumber, assertStrictlyPositiveNumber,
      PyCmp.ltb, PyVal.get!, bind, Except.bind, pure, Except.pure, lit_zero, decide_eq_true_eq,
      pyMax_real, pyMin_real, nn, if_false]
    rw [hd.2.1, hd.2.2.1]
    constructor
    · rintro ⟨a1, a2, a3⟩
      rw [if_neg (not_lt.mpr a1)]
      simp only
      rw [if_neg (by
        rw [min_self, max_self, max_eq_left a1]
        push Not
        exact ⟨a2, lt_min a3 h1⟩)]
      exact ⟨_, rfl⟩
    · intro hn
      by_cases a1 : f.leftX < 0
      · rw [if_pos a1]; rfl
      · rw [if_neg a1]
        simp only
        rw [if_pos (by
          rw [min_self, max_self, max_eq_left (not_lt.mp a1)]
          by_contra hx
          push Not at hx
          exact hn ⟨not_lt.mp a1, hx.1, (lt_min_iff.mp hx.2).1⟩)]
        rfl
  · simp only [if_true, true_implies]
    constructor
    · rintro ⟨a1, a2, a3, a4, a5, a6, a7⟩
      rw [c1 _ _ _ _ a1 (by linarith) (by linarith) a4 (lt_min a5 a2)
        (max_lt (lt_min a6 a7) (lt_min a3 h1))]
      exact ⟨_, rfl⟩
    · intro hn
      rw [c2]
      · rfl
      · by_contra hb
        push Not at hb
        obtain ⟨b1, b2, b3, b4, b5, b6⟩ := hb
        rw [lt_min_iff] at b5
        rw [max_lt_iff, lt_min_iff, lt_min_iff] at b6
        exact hn ⟨b1, b5.2, b6.2.1, b4, b5.1, b6.1.1, b6.1.2⟩

theorem WebForm.unlimited_valid {f : WebForm ℝ} (h : f.Valid) : f.unlimited.Valid := by
  obtain ⟨a, b, c⟩ := h
  exact ⟨a, b, c⟩

theorem WebForm.unlimited_sensible {f : WebForm ℝ} (h : f.Sensible) : f.unlimited.Sensible := by
  obtain ⟨a, b, c, d, e, g⟩ := h
  exact ⟨a, b, c, d, e, g⟩

/-- From a sensible form the slope without limits is built; the limits are then taken if and only if
they fit it. -/
theorem prepare_limits (isColor : String → Bool) (f : WebForm ℝ) (hv : f.Valid) (hs : f.Sensible) :
    ∃ q, f.unlimited.prepare isColor = .ok q ∧
      ((f.considerLimits = true → f.LimitsFit q) → ∃ p, f.prepare isColor = .ok p) ∧
      (f.considerLimits = true → ¬ f.LimitsFit q → f.prepare isColor = .error .valueError) := by
  obtain ⟨q, hq⟩ := (prepare_total isColor f.unlimited (WebForm.unlimited_valid hv)).1 rfl
    (WebForm.unlimited_sensible hs)
  obtain ⟨r, -, -, lim, -⟩ := prepare_spec (WebForm.unlimited_valid hv) hq
  refine ⟨q, hq, ?_, ?_⟩
  · intro hf
    rw [prepare_unlimited, hq]
    change ∃ p, q.webLimits f = .ok p
    by_cases hc : f.considerLimits = true
    · exact (webLimits_total r lim hc).1 (hf hc)
    · unfold Slope.webLimits
      rw [if_neg hc]
      exact ⟨_, rfl⟩
  · intro hc hn
    rw [prepare_unlimited, hq]
    exact (webLimits_total r lim hc).2 hn

/-- The number of loads entered that are not 0. -/
noncomputable def WebForm.loadCount (f : WebForm ℝ) : ℕ := f.udlsEntered.length + f.llsEntered.length

/-- A slope with what a form describes, its dynamic loads moved left of the crest's edge: its analysis
ends. -/
theorem loads_end {f : WebForm ℝ} {γ : ℝ → ℝ} (hγ : ∀ x, 0 ≤ x → 0 ≤ γ x) {p : Slope ℝ} (r : Reachable p)
    (g : f.Ground p) (l : f.Loads γ p) (hs : f.Sensible)
    (hn : f.loadCount + 1 ≠ topPointsFor f.iterations.toNat) (m : Option ℝ) :
    ((p.analyseSlope m).2 = .ok () ∨ (p.analyseSlope m).2 = .error .nonreal) ∧
    ((∀ e ∈ f.materials.map fun e => e.getD blankMaterial, e.frictionAngle = 0 ∧ e.cohesion ≠ 0) →
      (p.analyseSlope m).2 = .ok ()) := by
  have w := r.wfs
  have hu : p.udls.length = f.udlsEntered.length := by
    have := congrArg List.length l.udls
    simpa using this
  have hl : p.lls.length = f.llsEntered.length := by
    have := congrArg List.length l.lls
    simpa using this
  have ou : ∀ u ∈ p.udls, 0 ≤ u.load.offset := by
    intro u hu
    have : (u.load.magnitude, u.load.offset, u.load.length, u.load.dynamic) ∈
      f.udlsEntered.map fun e => (e.1, if e.2.2.2 then γ e.2.1 else e.2.1, e.2.2) := by
      rw [← l.udls]; exact List.mem_map_of_mem hu
    obtain ⟨e, he, e2⟩ := List.mem_map.mp this
    unfold WebForm.udlsEntered at he
    obtain ⟨x, -, rfl⟩ := List.mem_map.mp he
    simp only [Prod.mk.injEq] at e2
    rw [← e2.2.1]
    split
    · exact hγ _ (abs_nonneg _)
    · exact abs_nonneg _
  have ol : ∀ u ∈ p.lls, 0 ≤ u.load.offset := by
    intro u hu
    have : (u.load.magnitude, u.load.offset, u.load.dynamic) ∈
      f.llsEntered.map fun e => (e.1, if e.2.2 then γ e.2.1 else e.2.1, e.2.2) := by
      rw [← l.lls]; exact List.mem_map_of_mem hu
    obtain ⟨e, he, e2⟩ := List.mem_map.mp this
    unfold WebForm.llsEntered at he
    obtain ⟨x, -, rfl⟩ := List.mem_map.mp he
    simp only [Prod.mk.injEq] at e2
    rw [← e2.2.1]
    split
    · exact hγ _ (abs_nonneg _)
    · exact abs_nonneg _
  have hX : 0 ≤ p.topX := by have := r.wf; linarith [this.l1, this.l12, this.l2]
  obtain ⟨c1, c2⟩ := C70_analysis_ends p r m (by rw [g.planes]; intro q hq; cases hq)
    (by
      intro z hz
      have := g.water
      rw [hz] at this
      split at this
      · rename_i hc
        cases this
        have h1 := hs.water hc
        have h2 : 0 ≤ p.topY := by
          have := r.wf.geo
          rw [this.topY]; linarith [this.extH3, this.hgt]
        exact max_le h2 (by linarith)
      · cases this)
    (fun _ => ⟨by
        intro u hu
        have := ou u hu
        rw [w.1.udl u hu]
        unfold placeUdl
        simp only
        split
        rotate_left
        · simp [hX]
        · rename_i n _
          have hn0 := (w.2.udl u.load (List.mem_map_of_mem hu)).2 n (by assumption)
          simp only [pyMax_real, lit_zero]
          split_ifs
          · exact hX
          · exact max_le hX (by linarith), by
        intro u hu
        have := ol u hu
        rw [w.1.ll u hu]
        simp [placeLl, hX, this], by
        rw [hu, hl, g.iterations]; exact hn⟩)
  refine ⟨c1, fun hm => c2 ?_⟩
  intro x hx
  have : (x.mat.unitWeight, x.mat.frictionAngle, x.mat.cohesion, x.mat.depth) ∈
      ((f.materials.map fun e => e.getD blankMaterial).map fun e =>
      (e.unitWeight, e.frictionAngle, |e.cohesion|, |e.depth|)) := by
    rw [← g.materials.mem_iff]; exact List.mem_map.mpr ⟨x, hx, rfl⟩
  obtain ⟨e, he, e2⟩ := List.mem_map.mp this
  obtain ⟨k1, k2⟩ := hm e he
  simp only [Prod.mk.injEq] at e2
  rw [← e2.2.1, ← e2.2.2.1]
  exact ⟨k1, abs_pos.mpr k2⟩

theorem prepare_ends (isColor : String → Bool) (f : WebForm ℝ) (hv : f.Valid) {p : Slope ℝ}
    (hp : f.prepare isColor = .ok p) (hn : f.loadCount + 1 ≠ topPointsFor f.iterations.toNat) (m : Option ℝ) :
    ((p.analyseSlope m).2 = .ok () ∨ (p.analyseSlope m).2 = .error .nonreal) ∧
    ((∀ e ∈ f.materials.map fun e => e.getD blankMaterial, e.frictionAngle = 0 ∧ e.cohesion ≠ 0) →
      (p.analyseSlope m).2 = .ok ()) := by
  obtain ⟨r, g, l, -, -⟩ := prepare_spec hv hp
  exact loads_end (γ := id) (fun _ h => h) r g l ((prepare_total isColor f hv).2.1 p hp) hn m

theorem tryOffset_nonreal {s t : Slope ℝ} (hw : WFS s) {o : ℝ} (e : s.tryOffset o = (t, .error .nonreal)) :
    (t.analyseSlope none).2 = .error .nonreal := by
  obtain ⟨a, e1, _⟩ := setDynamicOffset_spec hw o
  unfold Slope.tryOffset at e
  rw [e1, andThen_done] at e
  have tw := C25_analysing_twice a none none
  cases h : a.analyseSlope none with
  | mk b x =>
    rw [h] at e tw
    cases x with
    | error x =>
      cases e
      rw [tw]
    | ok x =>
      rw [andThen_done] at e
      split at e
      · rename_i x hx
        unfold Slope.getMinFos at hx
        split at hx
        · cases hx; cases e
        · split at hx
          · cases hx; cases e
          · cases hx
      · cases e
      · cases e

/-- A dynamic analysis of a form that leaves the real numbers does so in an analysis of what it leaves. -/
theorem dynamic_nonreal {s t : Slope ℝ} (hw : WFS s) {c : ℝ}
    (h : s.analyseDynamic c true = (t, .error .nonreal)) : (t.analyseSlope none).2 = .error .nonreal := by
  rcases analyseDynamic_decimal h with ⟨_, h1⟩ | ⟨e, h1, h2⟩ | ⟨a, h1, h2, h3⟩ |
    ⟨left, u, a, hg, h1, h2, ⟨e, h3, h4⟩ | ⟨b, h3, h4, h5⟩ | ⟨b, e, h3, h4, h5, h6⟩⟩
  · cases h1
  · cases h2
    exact tryOffset_nonreal (hw.dyn []) h1
  · cases h3
  · cases h4
    obtain ⟨-, -, k3, _⟩ := tryOffset_spec (hw.dyn []) (0 : ℝ)
    rw [h1] at k3
    exact tryOffset_nonreal k3 h3
  · cases h5
  · cases h5
    exact absurd rfl h6

/-- C71, full statement: every form that passes the checks of the page is answered.
Proved: it is answered, or ends in arithmetic that has no value over the reals, if and only if it is
sensible and its limits, if it has any, fit the slope it describes without them; otherwise `ValueError`
is raised. In clay, with no friction, it is answered. The number of loads is not the one of the entry
points less 1 (`C29`), and for a dynamic analysis the face is at least 1 cm long. -/
theorem C71_web_answers_partial (isColor : String → Bool) (f : WebForm ℝ) (hv : f.Valid) :
    (¬ f.Sensible → f.createSlope isColor = .error .valueError) ∧
    (f.Sensible → ∃ q, f.unlimited.prepare isColor = .ok q ∧
      (f.considerLimits = true → ¬ f.LimitsFit q → f.createSlope isColor = .error .valueError) ∧
      ((f.considerLimits = true → f.LimitsFit q) → (f.normal = true ∨ 0.01 ≤ f.faceLength) →
        f.loadCount + 1 ≠ topPointsFor f.iterations.toNat →
        ((∃ s, f.createSlope isColor = .ok s) ∨ f.createSlope isColor = .error .nonreal) ∧
        ((∀ e ∈ f.materials.map fun e => e.getD blankMaterial, e.frictionAngle = 0 ∧ e.cohesion ≠ 0) →
          ∃ s, f.createSlope isColor = .ok s))) := by
  obtain ⟨-, t2, t3⟩ := prepare_total isColor f hv
  unfold WebForm.createSlope
  constructor
  · intro hs
    cases hp : f.prepare isColor with
    | ok p => exact absurd (t2 p hp) hs
    | error x => rw [t3 x hp]; rfl
  · intro hs
    obtain ⟨q, hq, l1, l2⟩ := prepare_limits isColor f hv hs
    refine ⟨q, hq, fun hc hn => by rw [l2 hc hn]; rfl, ?_⟩
    intro hl hface hc
    obtain ⟨p, hp⟩ := l1 hl
    have ends : ∀ {u : Slope ℝ} {c : Prop},
        ((u.analyseSlope (some 5)).2 = .ok () ∨ (u.analyseSlope (some 5)).2 = .error .nonreal) ∧
          (c → (u.analyseSlope (some 5)).2 = .ok ()) →
        ((∃ s, (u.analyseSlope (some 5)).get = .ok s) ∨ (u.analyseSlope (some 5)).get = .error .nonreal) ∧
          (c → ∃ s, (u.analyseSlope (some 5)).get = .ok s) := by
      rintro u c ⟨c1, c2⟩
      have ok : (u.analyseSlope (some 5)).2 = .ok () → ∃ s, (u.analyseSlope (some 5)).get = .ok s := by
        intro h
        refine ⟨(u.analyseSlope (some 5)).1, ?_⟩
        rw [Out.get_ok]
        exact Prod.ext rfl h
      refine ⟨?_, fun h => ok (c2 h)⟩
      rcases c1 with h | h
      · exact .inl (ok h)
      · right
        have : u.analyseSlope (some 5) = ((u.analyseSlope (some 5)).1, .error .nonreal) := Prod.ext rfl h
        rw [this]
        rfl
    rw [hp]
    simp only [bind, Except.bind]
    unfold Slope.webAnalyse
    rw [show (@OfNat.ofNat ℝ 5 (Lit.natLit 5)) = 5 from lit_real 5]
    by_cases hn : f.normal = true
    · rw [if_pos hn]
      exact ends (prepare_ends isColor f hv hp hc (some 5))
    · rw [if_neg hn]
      have hface := hface.resolve_left hn
      obtain ⟨r, g, l, -, tot⟩ := prepare_spec hv hp
      cases hd : p.analyseDynamic f.critical true with
      | mk t x =>
      obtain ⟨rt, gt, hx⟩ := web_dynamic r g l tot hd
      have hloads : ∃ γ : ℝ → ℝ, (∀ x, 0 ≤ x → 0 ≤ γ x) ∧ f.Loads γ t := by
        rcases hx with ⟨-, -, h⟩ | ⟨h, -⟩ | ⟨left, hg, h, -⟩
        · exact ⟨id, fun _ h => h, h⟩
        · exact ⟨_, fun _ _ => le_refl 0, h⟩
        · refine ⟨_, fun _ _ => ?_, h⟩
          have := hg.2.1
          rw [g.length] at this
          norm_num at *
          linarith
      obtain ⟨γ, hγ, hl⟩ := hloads
      cases x with
      | ok x => exact ⟨.inl ⟨_, rfl⟩, fun _ => ⟨_, rfl⟩⟩
      | error x =>
        have key := ends (loads_end hγ rt gt hl hs hc (some 5))
        by_cases hx : x = .nonreal
        · subst hx
          refine ⟨.inr rfl, fun hm => ?_⟩
          have := (loads_end hγ rt gt hl hs hc none).2 hm
          rw [dynamic_nonreal r.wfs hd] at this
          cases this
        · cases x <;> first | exact absurd rfl hx | exact key

/-- A form: a slope 3 m high and 3 m long in clay, with a load over the whole crest. -/
noncomputable def exForm (normal : Bool) : WebForm ℝ :=
  { byLength := true, height := 3, angle := 45, length := 3, slices := 25, iterations := 2000
    materials := [some { unitWeight := 20, frictionAngle := 0, cohesion := 5, depth := 2, name := "clay", color := "" }]
    lls := [none], udls := [some { magnitude := 20, offset := 0, length := 0, color := "red", dynamic := true }]
    considerWater := true, waterDepth := 1, considerLimits := false, considerInternal := false
    leftX := 0, rightX := 8, leftXRight := 4, rightXLeft := 6, normal := normal, critical := 1.5 }

theorem exForm_valid (b : Bool) : (exForm b).Valid := by
  constructor <;> norm_num [exForm]

theorem exForm_sensible (b : Bool) : (exForm b).Sensible := by
  constructor <;> norm_num [exForm]

theorem exForm_count (b : Bool) : (exForm b).loadCount = 1 := by
  simp [WebForm.loadCount, WebForm.udlsEntered, WebForm.llsEntered, exForm, blankLl]

/-- A case of C68 and C71: this form is answered. -/
theorem exForm_answered (isColor : String → Bool) : ∃ s, (exForm true).createSlope isColor = .ok s := by
  obtain ⟨q, -, -, h⟩ := (C71_web_answers_partial isColor (exForm true) (exForm_valid _)).2 (exForm_sensible _)
  refine (h (by rintro ⟨⟩) (.inl rfl) ?_).2 ?_
  · rw [exForm_count]
    have : topPointsFor (exForm true).iterations.toNat = 20 := by
      unfold topPointsFor
      exact (Nat.eq_sqrt.mpr ⟨by decide, by decide⟩).symm
    rw [this]
    decide
  · simp [exForm]

example : ∃ s, (exForm true).createSlope (fun _ => true) = .ok s ∧ s.udls.length = 1 ∧
    s.waterRL = some (s.topY - 1) ∧ s.materials.length = 1 := by
  obtain ⟨s, hs⟩ := exForm_answered fun _ => true
  obtain ⟨r, g, l, -, -⟩ := C68_web_normal _ _ (exForm_valid _) rfl hs
  refine ⟨s, hs, ?_, ?_, ?_⟩
  · have := congrArg List.length l.udls
    simpa [WebForm.udlsEntered, exForm] using this
  · have := g.water
    rw [if_pos (show (exForm true).considerWater = true from rfl)] at this
    rw [this]
    have h := r.wf.geo
    have h1 : s.height = 3 := g.height
    have h2 := h.extH3
    rw [← h.topY, h1] at h2
    congr 1
    change max 0 (s.topY - 1) = _
    rw [max_eq_right]
    linarith
  · have := g.materials.length_eq
    simpa [exForm] using this

/-- C71 fails for a form the page accepts: two material forms left as they are have the same depth. -/
theorem C71_default_materials : ∃ f : WebForm ℝ, f.Valid ∧ f.materials = [none, none] ∧
    ∀ isColor, f.createSlope isColor = .error .valueError := by
  refine ⟨{ exForm true with materials := [none, none] }, ?_, rfl, ?_⟩
  · constructor <;> norm_num [exForm]
  · intro isColor
    refine (C71_web_answers_partial isColor _ ?_).1 ?_
    · constructor <;> norm_num [exForm]
    · intro h
      have := h.depths
      simp at this

/-! ## C69: the offset is never found -/

/-- When the analysis is given a number and finds an offset, then with the decimal of the form it
raises, having moved the loads to the greatest offset. -/
theorem decimal_stops {s : Slope ℝ} (hw : WFS s) {c : ℝ} {t} (h : s.analyseDynamic c false = (t, .ok none)) :
    ∃ u left, s.analyseDynamic c true = (u, .error .typeError) ∧ GreatestOffset s left ∧ Moved left s u := by
  unfold Slope.analyseDynamic at h ⊢
  simp only at h ⊢
  obtain ⟨hm1, hm2⟩ := maxOffset_spec s.topX s.udls s.length
  cases hm : maxOffset s.topX s.udls s.length with
  | error e => rw [hm] at h; cases h
  | ok left' =>
    rw [hm] at h
    simp only at h ⊢
    obtain ⟨h1, h2, h3⟩ := hm1 left' hm
    cases ht : (Slope.tryOffset { s with dynResults := [] } (@OfNat.ofNat ℝ 0 (Lit.natLit 0))) with
    | mk u v =>
    rw [ht] at h
    cases v with
    | error e => cases h
    | ok f =>
      simp only [andThen_done] at h ⊢
      split at h
      · cases h
      · rename_i hc
        rw [if_neg hc]
        generalize hl : left' - 0.01 = left at h ⊢
        cases ht2 : u.tryOffset left with
        | mk w v =>
        rw [ht2] at h
        cases v with
        | error e => cases h
        | ok g =>
          simp only [andThen_done] at h ⊢
          split at h
          · cases h
          · rename_i hc2
            rw [if_neg hc2]
            obtain ⟨t', x, h5, h6⟩ := andThen_ok h
            rw [dynLoop_decimal h5]
            refine ⟨w, left, rfl, ?_, ?_⟩
            · have : left + 0.01 = left' := by rw [← hl]; ring
              unfold GreatestOffset
              rw [this]
              exact ⟨h1, h2, h3⟩
            · obtain ⟨-, k2, k3, _⟩ := tryOffset_spec (hw.dyn []) (@OfNat.ofNat ℝ 0 (Lit.natLit 0))
              rw [ht] at k2 k3
              obtain ⟨-, k4, -⟩ := tryOffset_spec k3 left
              simp only at k4
              rw [ht2] at k4
              exact Moved.trans k2 k4

/-- C69 does not hold: whenever a dynamic analysis would find an offset between the crest and the
greatest one, the page shows the loads at the greatest offset instead. -/
theorem C69_never_found (isColor : String → Bool) (f : WebForm ℝ) (hv : f.Valid) (hn : f.normal = false)
    {p t s : Slope ℝ} (hp : f.prepare isColor = .ok p)
    (h : p.analyseDynamic f.critical false = (t, .ok none)) (hs : f.createSlope isColor = .ok s) :
    ∃ left, GreatestOffset p left ∧ f.Loads (fun _ => left) s := by
  obtain ⟨r, g, l, lim, tot⟩ := prepare_spec hv hp
  obtain ⟨u, left, hu, hg, hm⟩ := decimal_stops r.wfs h
  refine ⟨left, hg, ?_⟩
  unfold WebForm.createSlope at hs
  rw [hp] at hs
  simp only [bind, Except.bind, Slope.webAnalyse, hn, Bool.false_eq_true, if_false, hu] at hs
  rw [Out.get_ok] at hs
  obtain ⟨g1, g2, g3, _⟩ := analyseSlope_ground u (some (@OfNat.ofNat ℝ 5 (Lit.natLit 5)))
  rw [hs] at g2 g3
  simp only at g2 g3
  have := l.moved hm
  exact ⟨by rw [g2]; exact this.udls, by rw [g3]; exact this.lls⟩

/-- C69 does not hold: with a dynamic load over the whole crest (length 0 in the form) the page shows
what a normal analysis shows, and says nothing. -/
theorem C69_continuous (isColor : String → Bool) (f : WebForm ℝ) (hv : f.Valid)
    (hd : ∃ e ∈ f.udlsEntered, e.2.2.1 = none ∧ e.2.2.2 = true) (s : Slope ℝ) :
    ({ f with normal := false } : WebForm ℝ).createSlope isColor = .ok s →
    ∃ s', ({ f with normal := true } : WebForm ℝ).createSlope isColor = .ok s' ∧
      s = { s' with dynResults := [] } := by
  intro h
  have ep : ∀ b, ({ f with normal := b } : WebForm ℝ).prepare isColor = f.prepare isColor := fun b => rfl
  unfold WebForm.createSlope at h ⊢
  rw [ep] at h ⊢
  cases hp : f.prepare isColor with
  | error e => rw [hp] at h; cases h
  | ok p =>
  rw [hp] at h
  obtain ⟨r, g, l, -, -⟩ := prepare_spec hv hp
  have hc : ∃ q ∈ p.udls, q.load.dynamic = true ∧ q.load.length = none := by
    obtain ⟨e, he, e1, e2⟩ := hd
    have : (e.1, (if e.2.2.2 then id e.2.1 else e.2.1), e.2.2) ∈
        p.udls.map fun p => (p.load.magnitude, p.load.offset, p.load.length, p.load.dynamic) := by
      rw [l.udls]; exact List.mem_map.mpr ⟨e, he, rfl⟩
    obtain ⟨q, hq, hq2⟩ := List.mem_map.mp this
    simp only [Prod.ext_iff] at hq2
    exact ⟨q, hq, hq2.2.2.2.trans e2, hq2.2.2.1.trans e1⟩
  simp only [bind, Except.bind, Slope.webAnalyse, Bool.false_eq_true, if_false, if_true,
    C50_continuous_raises p _ true hc] at h ⊢
  rw [Out.get_ok] at h
  have := analyseSlope_dyn h p.dynResults
  refine ⟨_, Out.get_ok.mpr this, ?_⟩
  have k := (analyseSlope_ground ({ p with dynResults := [] } : Slope ℝ) (some (@OfNat.ofNat ℝ 5 (Lit.natLit 5)))).2.2.2.1
  rw [h] at k
  simp only at k
  rw [← k]

/-- A case of C69: a dynamic analysis of the form above is answered, with the answer of a normal one. -/
example : ∃ s s', (exForm false).createSlope (fun _ => true) = .ok s ∧
    (exForm true).createSlope (fun _ => true) = .ok s' ∧ s.search = s'.search ∧
    (exForm false).Loads id s := by
  have hd : ∃ e ∈ (exForm true).udlsEntered, e.2.2.1 = none ∧ e.2.2.2 = true := by
    simp [WebForm.udlsEntered, exForm]
  obtain ⟨s', hs'⟩ := exForm_answered fun _ => true
  have hs := hs'
  unfold WebForm.createSlope at hs
  cases hp : (exForm true).prepare fun _ => true with
  | error e => rw [hp] at hs; cases hs
  | ok p =>
  rw [hp] at hs
  have hn : (exForm true).normal = true := rfl
  simp only [bind, Except.bind, Slope.webAnalyse, hn, if_true] at hs
  rw [Out.get_ok] at hs
  obtain ⟨r, g, l, -, -⟩ := prepare_spec (exForm_valid true) hp
  have hc : ∃ q ∈ p.udls, q.load.dynamic = true ∧ q.load.length = none := by
    obtain ⟨e, he, e1, e2⟩ := hd
    have : (e.1, (if e.2.2.2 then id e.2.1 else e.2.1), e.2.2) ∈
        p.udls.map fun p => (p.load.magnitude, p.load.offset, p.load.length, p.load.dynamic) := by
      rw [l.udls]; exact List.mem_map.mpr ⟨e, he, rfl⟩
    obtain ⟨q, hq, hq2⟩ := List.mem_map.mp this
    simp only [Prod.ext_iff] at hq2
    exact ⟨q, hq, hq2.2.2.2.trans e2, hq2.2.2.1.trans e1⟩
  have h1 : (exForm false).createSlope (fun _ => true) = .ok { s' with dynResults := [] } := by
    unfold WebForm.createSlope
    rw [show (exForm false).prepare (fun _ => true) = (exForm true).prepare fun _ => true from rfl, hp]
    have hn : (exForm false).normal = false := rfl
    simp only [bind, Except.bind, Slope.webAnalyse, hn, Bool.false_eq_true, if_false,
      C50_continuous_raises p _ true hc]
    rw [Out.get_ok]
    exact analyseSlope_dyn hs []
  refine ⟨_, s', h1, hs', rfl, ?_⟩
  have := (C68_web_normal _ _ (exForm_valid true) rfl hs').2.2.1
  exact ⟨this.udls, this.lls⟩

end PySlope
