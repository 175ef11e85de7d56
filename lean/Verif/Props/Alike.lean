import Verif.Spec.Alike
import Verif.Props.FosLaws

/-! # Property C83: only the ground and the loads count, not how they were entered -/

namespace PySlope

theorem mapM_congr_mem {α β ε : Type} {f g : α → Except ε β} (l : List α) (h : ∀ a ∈ l, f a = g a) :
    l.mapM f = l.mapM g := by
  induction l with
  | nil => rfl
  | cons a l ih =>
    rw [List.mapM_cons, List.mapM_cons, h a (by simp), ih fun b hb => h b (List.mem_cons_of_mem _ hb)]

theorem bind_congr_ok {α β ε : Type} {x : Except ε α} {f g : α → Except ε β}
    (h : ∀ a, x = .ok a → f a = g a) : (x >>= f) = (x >>= g) := by
  cases x with
  | error e => rfl
  | ok a => exact h a rfl

theorem soil_weight (s : Slope ℝ) (y : ℝ) :
    unitWeightAt s.materials y = ((soilAt s y).map fun q => q.1).getD 0 := by
  unfold unitWeightAt soilAt
  cases layerAt s.materials y <;> rfl

theorem soil_strength {s : Slope ℝ} (r : Reachable s) (y : ℝ) :
    s.rowStrength y = (soilAt s y).map fun q => (q.2.1, Real.tan (q.2.2 * (Real.pi / 180))) := by
  obtain ⟨h1, h2⟩ := C39_strength_at_the_base s r y
  by_cases hm : s.materials = []
  · rw [h1 hm]
    unfold soilAt layerAt
    rw [hm]
    rfl
  · obtain ⟨pre, l, post, _, _, _, e, e', _⟩ := h2 hm
    rw [e]
    unfold soilAt
    rw [e']
    rfl

namespace Alike
variable {s t : Slope ℝ} (h : Alike s t)
include h

theorem rowStrength (rs : Reachable s) (rt : Reachable t) (y : ℝ) : t.rowStrength y = s.rowStrength y := by
  rw [soil_strength rs, soil_strength rt, h.soil]

theorem rowWeight (rs : Reachable s) (rt : Reachable t) {cx cy rad xl xr : ℝ} {rows : List (Row ℝ)}
    (e : s.sliceRows cx cy rad xl xr = .ok rows) (w : ℝ) (q : Row ℝ) (hq : q ∈ rows) :
    t.rowWeight w q = s.rowWeight w q := by
  have e' : t.sliceRows cx cy rad xl xr = .ok rows := by rw [h.sliceRows, e]
  rw [rowWeight_eq, rowWeight_eq, (C38_weight_of_the_soil s rs e q hq w).2,
    (C38_weight_of_the_soil t rt e' q hq w).2]
  have hu : (fun y => unitWeightAt t.materials y) = fun y => unitWeightAt s.materials y := by
    funext y
    rw [soil_weight, soil_weight, h.soil]
  have hl := h.load (q.x - w / 2) (q.x + w / 2)
  unfold loadOn at hl
  rw [hu, add_assoc, add_assoc, hl]

theorem waterX : t.waterX = s.waterX := by
  unfold Slope.waterX Slope.getExternalX
  rw [h.waterRL, h.gradient, h.topX, h.topY, h.botX, h.botY, h.extL, h.extH]

theorem waterHead (x : Option (ℝ × ℝ)) (q : Row ℝ) : t.waterHead x q = s.waterHead x q := by
  unfold Slope.waterHead
  rw [h.waterH, h.botX]

theorem sliceForces (rs : Reachable s) (rt : Reachable t) {cx cy rad xl xr : ℝ} {rows : List (Row ℝ)}
    (e : s.sliceRows cx cy rad xl xr = .ok rows) (w : ℝ) : t.sliceForces w rows = s.sliceForces w rows := by
  unfold Slope.sliceForces
  rw [h.waterX]
  cases s.waterX with
  | error e => rfl
  | ok water =>
    simp only [bind, Except.bind]
    apply mapM_congr_mem
    intro q hq
    rw [h.rowStrength rs rt, h.rowWeight rs rt e w q hq, h.waterHead]

theorem ordinaryEnds (cx cy r : ℝ) (l rt : Option (ℝ × ℝ)) :
    t.ordinaryEnds cx cy r l rt = s.ordinaryEnds cx cy r l rt := by
  unfold Slope.ordinaryEnds
  rw [h.circleExternalIntersection]

theorem ordinary (rs : Reachable s) (rt : Reachable t) (cx cy r : ℝ) (a b : Option (ℝ × ℝ)) :
    t.ordinary cx cy r a b = s.ordinary cx cy r a b := by
  unfold Slope.ordinary
  rw [h.ordinaryEnds]
  simp only [h.sliceRows, h.slices]
  split
  · rfl
  · refine bind_congr_ok fun q _ => ?_
    split
    · rfl
    · exact bind_congr_ok fun rows e => by rw [h.sliceForces rs rt e]

theorem bishop (rs : Reachable s) (rt : Reachable t) (cx cy r : ℝ) (a b : Option (ℝ × ℝ)) :
    t.bishop cx cy r a b = s.bishop cx cy r a b := by
  unfold Slope.bishop
  simp only [h.sliceRows, h.slices, h.bishopEnds, h.tolerance, h.maxIterations, h.ordinary rs rt]
  exact bind_congr_ok fun q _ => bind_congr_ok fun F _ => bind_congr_ok fun rows e => by
    rw [h.sliceForces rs rt e]

end Alike

/-- The same value for every circle and, unless there are individual planes, the same search. -/
theorem analyse_alike {s t : Slope ℝ} (h1 : s.individual = [] → t.entryExitPlanes = s.entryExitPlanes)
    (h2 : t.individual = s.individual) (h3 : ∀ cx cy r, t.bishop cx cy r none none =
      s.bishop cx cy r none none) (m : Option ℝ) :
    (t.analyseSlope m).2 = (s.analyseSlope m).2 ∧
    ((s.analyseSlope m).2 = .ok () → (t.analyseSlope m).1.search = (s.analyseSlope m).1.search) := by
  by_cases hi : s.individual = []
  · exact analyse_congr (h1 hi) h2 h3 m
  · have hf : ∀ ps, t.fillFos ps = s.fillFos ps := by
      intro ps
      induction ps with
      | nil => rfl
      | cons p ps ih =>
        unfold Slope.fillFos
        rw [h3, ih]
    unfold Slope.analyseSlope
    rw [h2]
    simp only [hf]
    cases e : s.individual with
    | nil => exact absurd e hi
    | cons p ps => simp only; split <;> simp

/-- C83: two slopes with the same geometry, options and water, the same soil at every level and the same
load on every stretch of the ground have the same factor of safety of either method on every circle; an
analysis of circles added one by one does the same for both, and so does an automatic search if the
loads begin at the same places. -/
theorem C83_alike (s t : Slope ℝ) (rs : Reachable s) (rt : Reachable t) (h : Alike s t) :
    (∀ cx cy r a b, t.ordinary cx cy r a b = s.ordinary cx cy r a b) ∧
    (∀ cx cy r a b, t.bishop cx cy r a b = s.bishop cx cy r a b) ∧
    ∀ m : Option ℝ,
      (s.individual ≠ [] ∨ (t.udls.map PUdl.left = s.udls.map PUdl.left ∧
        t.lls.map PLl.coord = s.lls.map PLl.coord)) →
      (t.analyseSlope m).2 = (s.analyseSlope m).2 ∧
      ((s.analyseSlope m).2 = .ok () →
        (t.analyseSlope m).1.search = (s.analyseSlope m).1.search ∧
        (t.analyseSlope m).1.getMinFos = (s.analyseSlope m).1.getMinFos) := by
  refine ⟨fun cx cy r a b => h.ordinary rs rt cx cy r a b, fun cx cy r a b => h.bishop rs rt cx cy r a b, ?_⟩
  intro m hp
  obtain ⟨h1, h2⟩ := analyse_alike (s := s) (t := t) (fun hi => by
    rcases hp with hp | hp
    · exact absurd hi hp
    · exact h.entryExitPlanes hp.1 hp.2) h.individual (fun cx cy r => h.bishop rs rt cx cy r none none) m
  refine ⟨h1, fun ho => ⟨h2 ho, ?_⟩⟩
  unfold Slope.getMinFos
  rw [h2 ho]

/-! ## Splitting a layer -/

/-- The material at level `y` under a crest at level `H`. -/
noncomputable def matAt (H : ℝ) (ms : List (Material ℝ)) (y : ℝ) : Option (Material ℝ) :=
  (ms.find? fun m => decide (H - m.depth < y)).or ms.getLast?

theorem layerAt_mat {H : ℝ} {ls : List (Layer ℝ)} (h : ∀ l ∈ ls, l.rl = H - l.mat.depth) (y : ℝ) :
    (layerAt ls y).map Layer.mat = matAt H (ls.map Layer.mat) y := by
  unfold layerAt matAt
  rw [Option.map_or, List.find?_map, List.getLast?_map]
  congr 2
  apply List.find?_congr
  intro l hl
  simp [h l hl]

theorem soilAt_mat {H : ℝ} {s : Slope ℝ} (h : ∀ l ∈ s.materials, l.rl = H - l.mat.depth) (y : ℝ) :
    soilAt s y = (matAt H (s.materials.map Layer.mat) y).map fun m => (m.unitWeight, m.cohesion, m.frictionAngle) := by
  rw [← layerAt_mat h]
  unfold soilAt
  rw [Option.map_map]
  rfl

theorem matAt_split (H : ℝ) (pre post : List (Material ℝ)) (m l : Material ℝ) (h1 : m.unitWeight = l.unitWeight)
    (h2 : m.cohesion = l.cohesion) (h3 : m.frictionAngle = l.frictionAngle) (h4 : m.depth < l.depth) (y : ℝ) :
    (matAt H (pre ++ m :: l :: post) y).map (fun m => (m.unitWeight, m.cohesion, m.frictionAngle)) =
      (matAt H (pre ++ l :: post) y).map fun m => (m.unitWeight, m.cohesion, m.frictionAngle) := by
  unfold matAt
  rw [List.find?_append, List.find?_append, List.getLast?_append, List.getLast?_append,
    List.getLast?_cons_cons]
  cases pre.find? fun m => decide (H - m.depth < y) with
  | some a => rfl
  | none =>
    by_cases hm : H - m.depth < y
    · have hl : H - l.depth < y := by linarith
      simp [List.find?_cons, hm, hl, h1, h2, h3]
    · simp [List.find?_cons, hm]

theorem pairwise_split {ls : List (Layer ℝ)} (hs : ls.Pairwise (fun a b => a.mat.depth < b.mat.depth))
    {l : Layer ℝ} (hl : l ∈ ls) {d : ℝ} (h1 : d < l.mat.depth)
    (h2 : ∀ a ∈ ls, a.mat.depth < d ∨ l.mat.depth ≤ a.mat.depth) :
    ∃ pre post, ls = pre ++ l :: post ∧ ∀ a ∈ pre, a.mat.depth < d := by
  obtain ⟨pre, post, rfl⟩ := List.append_of_mem hl
  refine ⟨pre, post, rfl, fun a ha => ?_⟩
  rcases h2 a (by simp [ha]) with h | h
  · exact h
  · exact absurd h (not_le.mpr ((List.pairwise_append.mp hs).2.2 a ha l (by simp)))

/-- C83 for materials: `set_materials` with one more material of the same unit weight, cohesion and
friction angle as the layer `l` it comes to lie in (no other layer ends between) is accepted and changes
neither the factor of safety of any circle nor what an analysis does. The levels of the layers must agree
with the crest, as they do after `set_materials`. -/
theorem C83_split_layer (s : Slope ℝ) (r : Reachable s) (hl : LevelsAgree s) (m : Material ℝ)
    (hc : Material.Constructed m) (l : Layer ℝ) (hm : l ∈ s.materials)
    (h1 : m.unitWeight = l.mat.unitWeight) (h2 : m.cohesion = l.mat.cohesion)
    (h3 : m.frictionAngle = l.mat.frictionAngle) (h4 : m.depth < l.mat.depth)
    (h5 : ∀ a ∈ s.materials, a.mat.depth < m.depth ∨ l.mat.depth ≤ a.mat.depth) :
    let t := (s.setMaterials [some m]).1
    (s.setMaterials [some m]).2 = .ok () ∧ t.materials.length = s.materials.length + 1 ∧
    (∀ cx cy rad a b, t.ordinary cx cy rad a b = s.ordinary cx cy rad a b) ∧
    (∀ cx cy rad a b, t.bishop cx cy rad a b = s.bishop cx cy rad a b) ∧
    ∀ x : Option ℝ, (t.analyseSlope x).2 = (s.analyseSlope x).2 ∧
      ((s.analyseSlope x).2 = .ok () →
        (t.analyseSlope x).1.search = (s.analyseSlope x).1.search ∧
        (t.analyseSlope x).1.getMinFos = (s.analyseSlope x).1.getMinFos) := by
  have g := r.wf.geo
  have hs := r.wf.mats
  obtain ⟨pre, post, hmat, hpre⟩ := pairwise_split hs hm h4 h5
  have hsort : (pre.map Layer.mat ++ m :: l.mat :: post.map Layer.mat).Pairwise (fun a b => a.depth < b.depth) := by
    have hs' : (pre.map Layer.mat ++ l.mat :: post.map Layer.mat).Pairwise (fun a b => a.depth < b.depth) := by
      have := hs
      rw [hmat] at this
      have h' : ((pre ++ l :: post).map Layer.mat).Pairwise (fun a b => a.depth < b.depth) :=
        List.pairwise_map.mpr this
      simpa using h'
    rw [List.pairwise_append] at hs' ⊢
    obtain ⟨a1, a2, a3⟩ := hs'
    refine ⟨a1, List.pairwise_cons.mpr ⟨?_, a2⟩, ?_⟩
    · intro q hq
      rcases List.mem_cons.mp hq with rfl | hq
      · exact h4
      · exact h4.trans ((List.pairwise_cons.mp a2).1 q hq)
    · intro a ha b hb
      rcases List.mem_cons.mp hb with rfl | hb
      · obtain ⟨a', ha', rfl⟩ := List.mem_map.mp ha
        exact hpre a' ha'
      · exact a3 a ha b hb
  have hall : s.allMats [m] = pre.map Layer.mat ++ m :: l.mat :: post.map Layer.mat := by
    have hp : (s.allMats [m]).Perm (pre.map Layer.mat ++ m :: l.mat :: post.map Layer.mat) := by
      refine (sortByKey_perm _ _).trans ?_
      rw [hmat]
      simpa using (List.perm_middle (a := m) (l₁ := pre.map Layer.mat) (l₂ := l.mat :: post.map Layer.mat)).symm
    refine List.Perm.eq_of_pairwise (le := fun a b : Material ℝ => a.depth ≤ b.depth) ?_
      (sortByKey_sorted _ _) (hsort.imp le_of_lt) hp
    intro a b ha hb x y
    have hn : ((pre.map Layer.mat ++ m :: l.mat :: post.map Layer.mat).map Material.depth).Nodup :=
      List.pairwise_map.mpr (hsort.imp ne_of_lt)
    exact List.inj_on_of_nodup_map hn (hp.mem_iff.mp ha) hb (le_antisymm x y)
  obtain ⟨d, hd⟩ : ∃ d, ((s.allMats [m]).map Material.depth).getLast? = some d := by
    rw [hall]
    exact Option.isSome_iff_exists.mp (by simp)
  have hdle : ¬ s.extH < d := by
    have hmem := List.mem_of_getLast? hd
    rw [hall] at hmem
    have hle : ∀ a ∈ s.materials, a.mat.depth ≤ s.extH := fun a ha => by
      have := (hl a ha).2
      rwa [g.topY] at this
    obtain ⟨q, hq, rfl⟩ := List.mem_map.mp hmem
    rw [not_lt]
    rcases List.mem_append.mp hq with hq | hq
    · obtain ⟨a, ha, rfl⟩ := List.mem_map.mp hq
      exact hle a (by rw [hmat]; simp [ha])
    · rcases List.mem_cons.mp hq with rfl | hq
      · exact h4.le.trans (hle l hm)
      · have : q ∈ (l :: post).map Layer.mat := by simpa using hq
        obtain ⟨a, ha, rfl⟩ := List.mem_map.mp this
        exact hle a (by rw [hmat]; exact List.mem_append_right _ ha)
  have e := setMaterials_eq g [m] d hd
  rw [s.deepen_neg hdle, if_pos (by
    rw [hall]
    exact List.pairwise_map.mpr (hsort.imp ne_of_lt)), hall] at e
  change s.setMaterials [some m] = _ at e
  intro t
  have ht : t = ({ s with materials := mkLayers s.extH 0 (pre.map Layer.mat ++ m :: l.mat :: post.map Layer.mat) } :
      Slope ℝ).resetResults := congrArg Prod.fst e
  have rt : Reachable t := r.call (.setMaterials s [some m] (by
    intro m' hm'
    simp at hm'
    rw [hm']
    exact hc))
  have halike : Alike s t := by
    refine ⟨by rw [ht]; constructor <;> rfl, ?_, ?_⟩
    · intro y
      rw [soilAt_mat (H := s.extH) (fun a ha => by
        rw [ht] at ha
        exact (mkLayers_rl _ _ _ a ha).1), soilAt_mat (H := s.extH) (s := s) (fun a ha => by
        have := (hl a ha).1
        rwa [g.topY] at this)]
      have hmt : t.materials.map Layer.mat = pre.map Layer.mat ++ m :: l.mat :: post.map Layer.mat := by
        rw [ht]
        exact mkLayers_mats _ _ _
      rw [hmt, hmat, List.map_append, List.map_cons]
      exact matAt_split _ _ _ _ _ h1 h2 h3 h4 y
    · intro a b
      rw [ht]
      rfl
  obtain ⟨a1, a2, a3⟩ := C83_alike s t r rt halike
  refine ⟨congrArg Prod.snd e, ?_, a1, a2, fun x => a3 x (.inr ?_)⟩
  · have := congrArg List.length (mkLayers_mats s.extH 0 (pre.map Layer.mat ++ m :: l.mat :: post.map Layer.mat))
    rw [List.length_map] at this
    rw [ht, hmat]
    change (mkLayers s.extH 0 _).length = _
    rw [this]
    simp
    omega
  · rw [ht]
    exact ⟨rfl, rfl⟩

/-! ## Splitting a load -/

/-- The frame of a slope once its model is long enough for `L`. -/
noncomputable def Slope.lengthen (s : Slope ℝ) (L : ℝ) : Slope ℝ :=
  if s.minExtL < L then ({ s with minExtL := L } : Slope ℝ).withGeo s.height s.length else s

theorem SameFrame.refl (s : Slope ℝ) : SameFrame s s := by constructor <;> rfl

theorem SameFrame.trans {a b c : Slope ℝ} (h : SameFrame a b) (h' : SameFrame b c) : SameFrame a c := by
  obtain ⟨a1, a2, a3, a4, a5, a6, a7, a8, a9, a10, a11, a12, a13, a14, a15, a16, a17, a18, a19, a20, a21⟩ := h
  obtain ⟨b1, b2, b3, b4, b5, b6, b7, b8, b9, b10, b11, b12, b13, b14, b15, b16, b17, b18, b19, b20, b21⟩ := h'
  constructor <;> simp only [*]

theorem SameFrame.symm {a b : Slope ℝ} (h : SameFrame a b) : SameFrame b a := by
  obtain ⟨a1, a2, a3, a4, a5, a6, a7, a8, a9, a10, a11, a12, a13, a14, a15, a16, a17, a18, a19, a20, a21⟩ := h
  constructor <;> simp only [*]

/-- What lengthening looks at. -/
structure SameSize (s t : Slope ℝ) : Prop extends SameFrame s t where
  minL : t.minExtL = s.minExtL
  minH : t.minExtH = s.minExtH

theorem SameSize.lengthen {s t : Slope ℝ} (h : SameSize s t) (L : ℝ) :
    SameSize (s.lengthen L) (t.lengthen L) := by
  unfold Slope.lengthen
  rw [h.minL]
  split
  · have hf := h.toSameFrame
    obtain ⟨a1, a2, a3, a4, a5, a6, a7, a8, a9, a10, a11, a12, a13, a14, a15, a16, a17, a18, a19, a20, a21⟩ := hf
    refine ⟨?_, rfl, h.minH⟩
    constructor <;> simp only [Slope.withGeo, totL, totH, h.minH, a1, a2, a14, a15, a16, a17, a18, a19, a20, a21]
  · exact h

theorem addUdl_size {s : Slope ℝ} (h : WFS s) (u : Udl ℝ) (hm : 0 < u.magnitude) :
    ∃ t, s.addUdl (some u) = (t, .ok ()) ∧ SameSize (s.lengthen u.minLength) t := by
  refine ⟨_, addUdl_eq h.2 h.1.geo u hm, ?_⟩
  unfold Slope.lengthen
  split
  · exact ⟨by constructor <;> rfl, rfl, rfl⟩
  · exact ⟨by constructor <;> rfl, rfl, rfl⟩

theorem lengthen_twice (s : Slope ℝ) {a b : ℝ} (h : a ≤ b) :
    SameSize (s.lengthen b) ((s.lengthen a).lengthen b) := by
  unfold Slope.lengthen
  by_cases h1 : s.minExtL < a
  · have h2 : s.minExtL < b := h1.trans_le h
    rw [if_pos h1, if_pos h2]
    split
    · exact ⟨by constructor <;> rfl, rfl, rfl⟩
    · rename_i h3
      have : a = b := le_antisymm h (not_lt.mp h3)
      subst this
      exact ⟨by constructor <;> rfl, rfl, rfl⟩
  · rw [if_neg h1]
    exact ⟨SameFrame.refl _, rfl, rfl⟩

theorem SameSize.trans {a b c : Slope ℝ} (h : SameSize a b) (h' : SameSize b c) : SameSize a c :=
  ⟨h.toSameFrame.trans h'.toSameFrame, h'.minL.trans h.minL, h'.minH.trans h.minH⟩

theorem addUdl_mats {s : Slope ℝ} (h : WFS s) (u : Udl ℝ) (hm : 0 < u.magnitude) :
    (s.addUdl (some u)).1.materials = s.materials := by
  rw [addUdl_eq h.2 h.1.geo u hm]
  dsimp only
  split <;> rfl

/-- The frame and the materials after `set_udls` of one load and of two. -/
theorem setUdls_one {s : Slope ℝ} (h : WFS s) (u : Udl ℝ) (hm : 0 < u.magnitude) :
    SameSize (s.lengthen u.minLength) (s.setUdls [some u]).1 ∧
      (s.setUdls [some u]).1.materials = s.materials := by
  obtain ⟨t, e, hs⟩ := addUdl_size h u hm
  have hmat := addUdl_mats h u hm
  rw [e] at hmat
  have e5 : s.setUdls [some u] = (({ t.updateUdlCoordinates with
      udlMax := maxMagnitude t.updateUdlCoordinates.udls t.updateUdlCoordinates.udlMax } :
      Slope ℝ).resetResults, .ok ()) := by
    unfold Slope.setUdls
    simp only [Slope.forEach, e, Out.andThen]
  rw [e5]
  exact ⟨hs.trans ⟨by constructor <;> rfl, rfl, rfl⟩, hmat⟩

theorem setUdls_two {s : Slope ℝ} (h : WFS s) (u v : Udl ℝ) (hu : 0 < u.magnitude) (hv : 0 < v.magnitude)
    (hl : ∀ l, u.length = some l → 0 < l) :
    SameSize ((s.lengthen u.minLength).lengthen v.minLength) (s.setUdls [some u, some v]).1 ∧
      (s.setUdls [some u, some v]).1.materials = s.materials := by
  obtain ⟨t, e, hs⟩ := addUdl_size h u hu
  have hmat := addUdl_mats h u hu
  have w := h.1.addUdl (some u)
  have sn := h.2.addUdl h.1.geo (some u) (fun w e => by cases e; exact hl)
  rw [e] at hmat w sn
  obtain ⟨t', e', hs'⟩ := addUdl_size ⟨w, sn⟩ v hv
  have hmat' := addUdl_mats ⟨w, sn⟩ v hv
  rw [e'] at hmat'
  have e5 : s.setUdls [some u, some v] = (({ t'.updateUdlCoordinates with
      udlMax := maxMagnitude t'.updateUdlCoordinates.udls t'.updateUdlCoordinates.udlMax } :
      Slope ℝ).resetResults, .ok ()) := by
    unfold Slope.setUdls
    simp only [Slope.forEach, e, e', Out.andThen]
  rw [e5]
  exact ⟨((hs.lengthen _).trans hs').trans ⟨by constructor <;> rfl, rfl, rfl⟩, hmat'.trans hmat⟩

theorem udls_placed {s : Slope ℝ} (w : WF s) : s.udls = (s.udls.map PUdl.load).map (placeUdl s.topX) := by
  rw [List.map_map]
  conv_lhs => rw [← List.map_id s.udls]
  exact List.map_congr_left fun p hp => w.udl p hp

theorem lls_placed {s : Slope ℝ} (w : WF s) : s.lls = (s.lls.map PLl.load).map (placeLl s.topX) := by
  rw [List.map_map]
  conv_lhs => rw [← List.map_id s.lls]
  exact List.map_congr_left fun p hp => w.ll p hp

/-- Two loads that need no longer a model than one and press on the ground as it does. -/
theorem split_alike {s : Slope ℝ} (h : WFS s) (u v w : Udl ℝ) (hu : 0 < u.magnitude) (hv : 0 < v.magnitude)
    (hw : 0 < w.magnitude) (lu : ∀ l, u.length = some l → 0 < l) (lv : ∀ l, v.length = some l → 0 < l)
    (lw : ∀ l, w.length = some l → 0 < l) (h1 : v.minLength ≤ w.minLength) (h2 : w.minLength = u.minLength)
    (hp : ∀ x a b, common a b (placeUdl x u).left (placeUdl x u).right * u.magnitude =
      common a b (placeUdl x v).left (placeUdl x v).right * v.magnitude +
        common a b (placeUdl x w).left (placeUdl x w).right * w.magnitude) :
    Alike (s.setUdls [some u]).1 (s.setUdls [some v, some w]).1 := by
  obtain ⟨a1, am⟩ := setUdls_one h u hu
  obtain ⟨b1, bm⟩ := setUdls_two h v w hv hw lv
  have hf : SameFrame (s.setUdls [some u]).1 (s.setUdls [some v, some w]).1 := by
    refine a1.toSameFrame.symm.trans (SameFrame.trans ?_ b1.toSameFrame)
    rw [← h2]
    exact (lengthen_twice s h1).toSameFrame
  refine ⟨hf, fun y => ?_, fun a b => ?_⟩
  · unfold soilAt
    rw [am, bm]
  · obtain ⟨A, ea, wa, ua, la, _⟩ := setUdls_spec h [some u] (by
      intro x hx
      simp only [List.mem_singleton, Option.some.injEq] at hx
      subst hx
      exact lu)
    obtain ⟨B, eb, wb, ub, lb, _⟩ := setUdls_spec h [some v, some w] (by
      intro x hx
      simp only [List.mem_cons, List.not_mem_nil, or_false, Option.some.injEq] at hx
      rcases hx with rfl | rfl
      · exact lv
      · exact lw)
    have ht := hf.topX
    rw [ea, eb] at ht ⊢
    dsimp only at ht ⊢
    unfold loadOn
    rw [udls_placed wa.1, udls_placed wb.1, lls_placed wa.1, lls_placed wb.1, ua, ub, la, lb, ht]
    simp only [List.filterMap_cons, List.filterMap_nil, id, List.filter_cons, List.filter_nil, hu, hv, hw,
      decide_true, if_true, List.map_append, List.map_cons, List.map_nil, List.sum_append, List.sum_cons,
      List.sum_nil, List.map_map, Function.comp_def]
    have := hp A.topX a b
    have m : ∀ x : Udl ℝ, (placeUdl A.topX x).load = x := fun _ => rfl
    simp only [m]
    linarith

theorem common_clamp {a b x z : ℝ} (h : a ≤ b) (h' : x ≤ z) :
    common a b x z = max a (min b z) - max a (min b x) := by
  unfold common
  rcases le_total b z with h1 | h1
  · rw [min_eq_left h1, max_eq_right h]
    rcases le_total b x with h2 | h2
    · rw [min_eq_left h2, max_eq_right (h.trans h2), max_eq_right h, max_eq_right (by linarith)]
      ring
    · rw [min_eq_right h2, max_eq_left (by linarith [max_le h h2])]
  · rw [min_eq_right h1, min_eq_right (h'.trans h1)]
    rcases le_total a z with h2 | h2
    · rw [max_eq_right h2, max_eq_left (by linarith [max_le h2 h'])]
    · rw [max_eq_left h2, max_eq_left (h'.trans h2), max_eq_right (by linarith)]
      ring

theorem common_none {a b x z : ℝ} (h : b ≤ a ∨ z ≤ x) : common a b x z = 0 := by
  unfold common
  apply max_eq_right
  rcases h with h | h
  · linarith [min_le_left b z, le_max_left a x]
  · linarith [min_le_right b z, le_max_right a x]

theorem common_split {a b x y z : ℝ} (h : x ≤ y) (h' : y ≤ z) :
    common a b x z = common a b x y + common a b y z := by
  rcases le_total a b with h1 | h1
  · rw [common_clamp h1 (h.trans h'), common_clamp h1 h, common_clamp h1 h']
    ring
  · rw [common_none (.inl h1), common_none (.inl h1), common_none (.inl h1), add_zero]

theorem placeUdl_left {x l : ℝ} {u : Udl ℝ} (h : u.length = some l) (h0 : 0 < l) :
    (placeUdl x u).left = max 0 (x - u.offset - l) := by
  simp only [placeUdl, h, pyEq_real, lit_zero, h0.ne', decide_false, pyMax_real]
  rfl

/-- What follows from a split that leaves the slopes alike. -/
theorem alike_split {s : Slope ℝ} (r : Reachable s) {u v w : Udl ℝ} (cu : Udl.Constructed u)
    (cv : Udl.Constructed v) (cw : Udl.Constructed w) (hu : 0 < u.magnitude) (hv : 0 < v.magnitude)
    (hw : 0 < w.magnitude) (h : Alike (s.setUdls [some u]).1 (s.setUdls [some v, some w]).1) :
    let one := (s.setUdls [some u]).1
    let two := (s.setUdls [some v, some w]).1
    two.udls.length = one.udls.length + 1 ∧
    (∀ cx cy rad a b, two.ordinary cx cy rad a b = one.ordinary cx cy rad a b) ∧
    (∀ cx cy rad a b, two.bishop cx cy rad a b = one.bishop cx cy rad a b) ∧
    (s.individual ≠ [] → ∀ x : Option ℝ, (two.analyseSlope x).2 = (one.analyseSlope x).2 ∧
      ((one.analyseSlope x).2 = .ok () →
        (two.analyseSlope x).1.search = (one.analyseSlope x).1.search ∧
        (two.analyseSlope x).1.getMinFos = (one.analyseSlope x).1.getMinFos)) := by
  intro one two
  have c1 : ∀ x, some x ∈ [some u] → Udl.Constructed x := by
    intro x hx
    simp only [List.mem_singleton, Option.some.injEq] at hx
    exact hx ▸ cu
  have c2 : ∀ x, some x ∈ [some v, some w] → Udl.Constructed x := by
    intro x hx
    simp only [List.mem_cons, List.not_mem_nil, or_false, Option.some.injEq] at hx
    rcases hx with rfl | rfl
    · exact cv
    · exact cw
  have r1 : Reachable one := r.call (.setUdls s _ c1)
  have r2 : Reachable two := r.call (.setUdls s _ c2)
  obtain ⟨o, b, an⟩ := C83_alike one two r1 r2 h
  refine ⟨?_, o, b, fun hi x => an x (.inl ?_)⟩
  · obtain ⟨A, ea, _, ua, _⟩ := setUdls_spec r.wfs [some u] (fun x hx => (c1 x hx).facts.2.2)
    obtain ⟨B, eb, _, ub, _⟩ := setUdls_spec r.wfs [some v, some w] (fun x hx => (c2 x hx).facts.2.2)
    have l1 := congrArg List.length ua
    have l2 := congrArg List.length ub
    have e1 : one = A := congrArg Prod.fst ea
    have e2 : two = B := congrArg Prod.fst eb
    simp only [List.filterMap_cons, List.filterMap_nil, id, List.filter_cons, List.filter_nil, hu, hv, hw,
      decide_true, if_true, List.length_append, List.length_map, List.length_cons, List.length_nil] at l1 l2
    rw [e1, e2]
    omega
  · have hs : one.individual = s.individual := by
      rw [(setUdls_one r.wfs u hu).1.toSameFrame.individual]
      unfold Slope.lengthen
      split <;> rfl
    rw [hs]
    exact hi

/-- C83: applying a uniform load as two loads one on top of the other, over the same stretch of ground and
adding up to its pressure, changes no factor of safety of a circle and no analysis of circles added one by
one. -/
theorem C83_split_pressure (s : Slope ℝ) (r : Reachable s) (u v w : Udl ℝ) (cu : Udl.Constructed u)
    (cv : Udl.Constructed v) (cw : Udl.Constructed w) (hv : 0 < v.magnitude) (hw : 0 < w.magnitude)
    (hm : u.magnitude = v.magnitude + w.magnitude) (ov : v.offset = u.offset) (ow : w.offset = u.offset)
    (lv : v.length = u.length) (lw : w.length = u.length) :
    let one := (s.setUdls [some u]).1
    let two := (s.setUdls [some v, some w]).1
    two.udls.length = one.udls.length + 1 ∧
    (∀ cx cy rad a b, two.ordinary cx cy rad a b = one.ordinary cx cy rad a b) ∧
    (∀ cx cy rad a b, two.bishop cx cy rad a b = one.bishop cx cy rad a b) ∧
    (s.individual ≠ [] → ∀ x : Option ℝ, (two.analyseSlope x).2 = (one.analyseSlope x).2 ∧
      ((one.analyseSlope x).2 = .ok () →
        (two.analyseSlope x).1.search = (one.analyseSlope x).1.search ∧
        (two.analyseSlope x).1.getMinFos = (one.analyseSlope x).1.getMinFos)) := by
  have hu : 0 < u.magnitude := by linarith
  have m1 : v.minLength = u.minLength := by unfold Udl.minLength; rw [ov, lv]
  have m2 : w.minLength = u.minLength := by unfold Udl.minLength; rw [ow, lw]
  refine alike_split r cu cv cw hu hv hw (split_alike r.wfs u v w hu hv hw cu.facts.2.2 cv.facts.2.2
    cw.facts.2.2 (by rw [m1, m2]) m2 fun x a b => ?_)
  have p : ∀ z : Udl ℝ, z.offset = u.offset → z.length = u.length →
      (placeUdl x z).left = (placeUdl x u).left ∧ (placeUdl x z).right = (placeUdl x u).right := by
    intro z h1 h2
    unfold placeUdl
    rw [h1, h2]
    exact ⟨rfl, rfl⟩
  rw [(p v ov lv).1, (p v ov lv).2, (p w ow lw).1, (p w ow lw).2, hm]
  ring

/-- C83: cutting a uniform load of finite length in two, side by side, changes no factor of safety of a
circle and no analysis of circles added one by one. -/
theorem C83_split_length (s : Slope ℝ) (r : Reachable s) (u v w : Udl ℝ) (cu : Udl.Constructed u)
    (cv : Udl.Constructed v) (cw : Udl.Constructed w) (hu : 0 < u.magnitude)
    (mv : v.magnitude = u.magnitude) (mw : w.magnitude = u.magnitude) (a b : ℝ)
    (lv : v.length = some a) (lw : w.length = some b) (lu : u.length = some (a + b))
    (ov : v.offset = u.offset) (ow : w.offset = u.offset + a) :
    let one := (s.setUdls [some u]).1
    let two := (s.setUdls [some v, some w]).1
    two.udls.length = one.udls.length + 1 ∧
    (∀ cx cy rad a b, two.ordinary cx cy rad a b = one.ordinary cx cy rad a b) ∧
    (∀ cx cy rad a b, two.bishop cx cy rad a b = one.bishop cx cy rad a b) ∧
    (s.individual ≠ [] → ∀ x : Option ℝ, (two.analyseSlope x).2 = (one.analyseSlope x).2 ∧
      ((one.analyseSlope x).2 = .ok () →
        (two.analyseSlope x).1.search = (one.analyseSlope x).1.search ∧
        (two.analyseSlope x).1.getMinFos = (one.analyseSlope x).1.getMinFos)) := by
  have ha := cv.facts.2.2 a lv
  have hb := cw.facts.2.2 b lw
  have hv : 0 < v.magnitude := mv ▸ hu
  have hw : 0 < w.magnitude := mw ▸ hu
  have m0 : u.minLength = (u.offset + (a + b)) * 2.5 := minLength_some lu (by linarith)
  have m1 : v.minLength = (u.offset + a) * 2.5 := by rw [minLength_some lv ha, ov]
  have m2 : w.minLength = (u.offset + a + b) * 2.5 := by rw [minLength_some lw hb, ow]
  refine alike_split r cu cv cw hu hv hw (split_alike r.wfs u v w hu hv hw cu.facts.2.2 cv.facts.2.2
    cw.facts.2.2 (by rw [m1, m2]; norm_num; linarith) (by rw [m0, m2]; ring) fun x c d => ?_)
  rw [placeUdl_left lu (by linarith), placeUdl_left lv ha, placeUdl_left lw hb, mv, mw, ← add_mul]
  congr 1
  change common c d (max 0 (x - u.offset - (a + b))) (x - u.offset) =
    common c d (max 0 (x - v.offset - a)) (x - v.offset) +
      common c d (max 0 (x - w.offset - b)) (x - w.offset)
  rw [ov, ow, show x - (u.offset + a) - b = x - u.offset - (a + b) by ring,
    show x - (u.offset + a) = x - u.offset - a by ring]
  rcases le_total 0 (x - u.offset - a) with h | h
  · rw [max_eq_right h, common_split (y := x - u.offset - a) (max_le h (by linarith)) (by linarith), add_comm]
  · rw [max_eq_left h, max_eq_left (by linarith : x - u.offset - (a + b) ≤ 0), common_none (z := x - u.offset - a)
      (.inr h), add_zero]

/-! ## Cases -/

/-- `exFric 30 5` down to one metre. -/
noncomputable def exShallow : Material ℝ := { exFric 30 5 with depth := 1 }

theorem exShallow_constructed : Material.Constructed exShallow := by
  refine ⟨fun _ => false, .num 20, .num 30, .num 5, .num 1, .str "", .str "", ?_⟩
  rw [(C01_material (fun _ => false) (.num 20) (.num 30) (.num 5) (.num 1) (.str "") (.str "")).1
    20 30 5 1 "" "" ⟨rfl, by norm_num, by norm_num, rfl, by norm_num, rfl, rfl⟩ rfl rfl]
  simp [exShallow, exFric]

/-- A case of `C83_split_layer`: two metres of soil entered as one metre on top of another; the circle of
the example has a value. -/
example : Reachable (exOf (exFric 30 5)) ∧ LevelsAgree (exOf (exFric 30 5)) ∧ Material.Constructed exShallow ∧
    (∃ l ∈ (exOf (exFric 30 5)).materials, l.mat = exFric 30 5) ∧
    (∃ F, ((exOf (exFric 30 5)).setMaterials [some exShallow]).1.ordinary 9 (35 / 3) (17 / 3) (some (4, 9))
      (some (9, 6)) = .ok F) := by
  have g := exFric_ground 30 5 (by norm_num)
  have hd : (exFric 30 5).depth ≤ 9 := by simp [exFric]; norm_num
  have hl : LevelsAgree (exOf (exFric 30 5)) := by
    have := setMaterials_levels exSlope_reachable.wf [some (exFric 30 5)]
    rw [exOf_eq hd] at this
    exact this rfl
  refine ⟨g.reach, hl, exShallow_constructed, ⟨_, List.mem_singleton.mpr rfl, rfl⟩, ?_⟩
  have h := C83_split_layer (exOf (exFric 30 5)) g.reach hl exShallow exShallow_constructed
    (mkLayer exSlope.extH 0 (exFric 30 5)) (List.mem_singleton.mpr rfl) rfl rfl rfl
    (by change (1 : ℝ) < 2; norm_num) (by
      intro a ha
      obtain rfl : a = _ := List.mem_singleton.mp ha
      exact .inr le_rfl)
  exact ⟨_, (h.2.2.1 _ _ _ _ _).trans (g.ordinary (by norm_num [exFric]) rfl)⟩

/-- `Udl(magnitude=m, offset=o, length=l)`. -/
noncomputable def exLoad (m o l : ℝ) : Udl ℝ :=
  { magnitude := m, offset := o, length := some l, color := "red", dynamic := false }

theorem exLoad_constructed {m o l : ℝ} (hm : 0 < m) (ho : 0 ≤ o) (hl : 0 < l) :
    Udl.Constructed (exLoad m o l) := by
  refine ⟨fun _ => true, .num m, .num o, .num l, "red", false, ?_⟩
  rw [(C02_signs_do_not_matter _ _ _).2.1]
  simp [exLoad, abs_of_pos hm, abs_of_nonneg ho, abs_of_pos hl, hl.ne']

/-- A case of `C83_split_pressure` and `C83_split_length`: 20 kPa over two metres as 15 and 5 kPa, and as two
stretches of one metre, on a slope with a circle added. -/
example : (∃ s : Slope ℝ, Reachable s ∧ s.individual ≠ []) ∧ Udl.Constructed (exLoad 20 1 2) ∧
    Udl.Constructed (exLoad 15 1 2) ∧ Udl.Constructed (exLoad 5 1 2) ∧ Udl.Constructed (exLoad 20 1 1) ∧
    Udl.Constructed (exLoad 20 2 1) ∧
    (exLoad 20 1 2).magnitude = (exLoad 15 1 2).magnitude + (exLoad 5 1 2).magnitude ∧
    (exLoad 20 1 2).length = some (1 + 1) ∧ (exLoad 20 2 1).offset = (exLoad 20 1 2).offset + 1 := by
  refine ⟨⟨exReady, exReady_reachable, List.cons_ne_nil _ _⟩,
    exLoad_constructed (by norm_num) (by norm_num) (by norm_num),
    exLoad_constructed (by norm_num) (by norm_num) (by norm_num),
    exLoad_constructed (by norm_num) (by norm_num) (by norm_num),
    exLoad_constructed (by norm_num) (by norm_num) (by norm_num),
    exLoad_constructed (by norm_num) (by norm_num) (by norm_num), by norm_num [exLoad], by norm_num [exLoad],
    by norm_num [exLoad]⟩

end PySlope
