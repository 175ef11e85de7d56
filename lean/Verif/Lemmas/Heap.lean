import Verif.Lemmas.HeapInv
import Verif.Lemmas.Sane
import Verif.Lemmas.StableCalls
import Verif.Lemmas.Dynamic
import Verif.Props.Materials

/-! # The heap model refines the value model -/

namespace PySlope

/-! ## Writing into the heap -/

namespace Heap
variable {K : Type} [PyNum K]

theorem placeUdls_other (x : K) (rs : List Nat) (h : Heap K) :
    (h.placeUdls x rs).ll = h.ll ∧ (h.placeUdls x rs).mat = h.mat := by
  induction rs generalizing h with
  | nil => exact ⟨rfl, rfl⟩
  | cons r rs ih => exact ih _

theorem placeLls_other (x : K) (rs : List Nat) (h : Heap K) :
    (h.placeLls x rs).udl = h.udl ∧ (h.placeLls x rs).mat = h.mat := by
  induction rs generalizing h with
  | nil => exact ⟨rfl, rfl⟩
  | cons r rs ih => exact ih _

theorem writeLayers_other (x : K) (i : Nat) (rs : List Nat) (h : Heap K) :
    (h.writeLayers x i rs).udl = h.udl ∧ (h.writeLayers x i rs).ll = h.ll := by
  induction rs generalizing h i with
  | nil => exact ⟨rfl, rfl⟩
  | cons r rs ih => exact ih _ _

theorem placeUdls_udl (x : K) (rs : List Nat) (h : Heap K) (q : Nat) :
    (h.placeUdls x rs).udl q = if q ∈ rs then placeUdl x (h.udl q).load else h.udl q := by
  induction rs generalizing h with
  | nil => simp [placeUdls]
  | cons r rs ih =>
    rw [placeUdls, ih]
    by_cases e : q = r
    · subst e; simp [setUdl, placeUdl]
    · simp [setUdl, e]

theorem placeLls_ll (x : K) (rs : List Nat) (h : Heap K) (q : Nat) :
    (h.placeLls x rs).ll q = if q ∈ rs then placeLl x (h.ll q).load else h.ll q := by
  induction rs generalizing h with
  | nil => simp [placeLls]
  | cons r rs ih =>
    rw [placeLls, ih]
    by_cases e : q = r
    · subst e; simp [setLl, placeLl]
    · simp [setLl, e]

theorem placeUdls_map (x : K) (rs : List Nat) (h : Heap K) :
    rs.map (h.placeUdls x rs).udl = (rs.map h.udl).map (fun p => placeUdl x p.load) := by
  rw [List.map_map]
  exact List.map_congr_left (fun q hq => by rw [placeUdls_udl, if_pos hq]; rfl)

theorem placeLls_map (x : K) (rs : List Nat) (h : Heap K) :
    rs.map (h.placeLls x rs).ll = (rs.map h.ll).map (fun p => placeLl x p.load) := by
  rw [List.map_map]
  exact List.map_congr_left (fun q hq => by rw [placeLls_ll, if_pos hq]; rfl)

theorem writeLayers_notMem (x : K) (i : Nat) (rs : List Nat) (h : Heap K) (q : Nat) (hq : q ∉ rs) :
    (h.writeLayers x i rs).mat q = h.mat q := by
  induction rs generalizing h i with
  | nil => rfl
  | cons r rs ih =>
    rw [writeLayers, ih _ _ (fun h => hq (by simp [h]))]
    simp only [setMat]
    rw [if_neg (fun h => hq (by simp [h]))]

theorem writeLayers_mat (x : K) (i : Nat) (rs : List Nat) (h : Heap K) (q : Nat) :
    ((h.writeLayers x i rs).mat q).mat = (h.mat q).mat := by
  induction rs generalizing h i with
  | nil => rfl
  | cons r rs ih =>
    rw [writeLayers, ih]
    simp only [setMat]
    split
    · rename_i e; rw [e]; rfl
    · rfl

theorem writeLayers_map (x : K) (i : Nat) (rs : List Nat) (h : Heap K) (hn : rs.Nodup) :
    rs.map (h.writeLayers x i rs).mat = mkLayers x i (rs.map fun r => (h.mat r).mat) := by
  induction rs generalizing h i with
  | nil => rfl
  | cons r rs ih =>
    obtain ⟨h1, h2⟩ := List.nodup_cons.mp hn
    rw [List.map_cons, List.map_cons, mkLayers, writeLayers, ih _ _ h2, writeLayers_notMem _ _ _ _ _ h1]
    congr 1
    · simp [setMat]
    · congr 1
      refine List.map_congr_left (fun q hq => ?_)
      have : q ≠ r := fun e => h1 (e ▸ hq)
      simp [setMat, this]

theorem moveUdl_other (h : Heap K) (r : Nat) (o : K) :
    (h.moveUdl r o).ll = h.ll ∧ (h.moveUdl r o).mat = h.mat := by
  unfold moveUdl; split <;> exact ⟨rfl, rfl⟩

theorem moveLl_other (h : Heap K) (r : Nat) (o : K) :
    (h.moveLl r o).udl = h.udl ∧ (h.moveLl r o).mat = h.mat := by
  unfold moveLl; split <;> exact ⟨rfl, rfl⟩

end Heap

/-! ## Lists of references and lists of values -/

theorem removeFirst_map {α β : Type} (f : α → β) (p : β → Bool) (l : List α) :
    (removeFirst (fun a => p (f a)) l).map f = removeFirst p (l.map f) := by
  induction l with
  | nil => rfl
  | cons a l ih =>
    simp only [removeFirst, List.map_cons]
    split
    · rfl
    · rw [List.map_cons, ih]

theorem removeLoop_map {α β : Type} (f : α → β) (t : β → Bool) (eq : β → β → Bool) (n i : Nat)
    (l : List α) :
    (removeLoop (fun a => t (f a)) (fun a b => eq (f a) (f b)) n i l).map f =
      removeLoop t eq n i (l.map f) := by
  induction n generalizing i l with
  | zero => rfl
  | succ n ih =>
    simp only [removeLoop, List.getElem?_map]
    cases l[i]? with
    | none => rfl
    | some c =>
      simp only [Option.map_some]
      split
      · rw [ih, removeFirst_map f (eq (f c))]
      · rw [ih]

theorem sortByKey_map {α β : Type} (f : α → β) (k : β → ℝ) (l : List α) :
    (sortByKey (fun a => k (f a)) l).map f = sortByKey k (l.map f) := by
  unfold sortByKey pySort
  rw [List.map_mergeSort]
  intro a _ b _
  rfl

/-! ## The relation between the two models -/

/-- The heap call leaves the slope seeing what the value call leaves, with the same outcome. -/
def Sim {α : Type} (o : HOut ℝ α) (v : Out ℝ α) : Prop := o.1.view = v.1 ∧ o.2 = v.2

theorem Sim.andThen {α β : Type} {o : HOut ℝ α} {v : Out ℝ α} {f : HS ℝ → α → HOut ℝ β}
    {g : Slope ℝ → α → Out ℝ β} (h : Sim o v)
    (hf : ∀ a, v.2 = .ok a → Sim (f o.1 a) (g v.1 a)) : Sim (o.andThen f) (v.andThen g) := by
  obtain ⟨s, r⟩ := o
  obtain ⟨t, r'⟩ := v
  obtain ⟨h1, h2⟩ := h
  simp only at h1 h2
  subst h2
  cases r with
  | ok a => exact hf a rfl
  | error e => exact ⟨h1, rfl⟩

theorem Sim.own {α : Type} {f : Slope ℝ → Out ℝ α} {s : HS ℝ}
    (h : (f s.view).1.udls = s.view.udls ∧ (f s.view).1.lls = s.view.lls ∧
      (f s.view).1.materials = s.view.materials) : Sim (s.own f) (f s.view) := by
  refine ⟨?_, rfl⟩
  obtain ⟨h1, h2, h3⟩ := h
  have e : (s.own f).1.view =
      { (f s.view).1 with udls := s.view.udls, lls := s.view.lls, materials := s.view.materials } := rfl
  rw [e, ← h1, ← h2, ← h3]

theorem Sim.applyBoundary (s : HS ℝ) (h l : ℝ) (hl : 0 < l) :
    Sim (s.applyBoundary h l) (s.view.applyBoundary h l) := by
  have e := applyBoundary_eq s.view h l hl
  unfold HS.applyBoundary
  rw [e]
  refine ⟨?_, rfl⟩
  obtain ⟨a1, a2⟩ := Heap.placeLls_other (K := ℝ) (s.view.withGeo h l).topX s.obj.ls
    (s.heap.placeUdls (s.view.withGeo h l).topX s.obj.us)
  obtain ⟨b1, b2⟩ := Heap.placeUdls_other (K := ℝ) (s.view.withGeo h l).topX s.obj.us s.heap
  change ({ s.view.withGeo h l with udls := s.obj.us.map _, lls := s.obj.ls.map _,
                                    materials := s.obj.ms.map _ } : Slope ℝ) = _
  have c1 : (s.view.withGeo h l).udls =
      (s.obj.us.map s.heap.udl).map (fun p => placeUdl (s.view.withGeo h l).topX p.load) := rfl
  have c2 : (s.view.withGeo h l).lls =
      (s.obj.ls.map s.heap.ll).map (fun p => placeLl (s.view.withGeo h l).topX p.load) := rfl
  have c3 : (s.view.withGeo h l).materials = s.obj.ms.map s.heap.mat := rfl
  rw [a1, a2, b2, Heap.placeUdls_map, Heap.placeLls_map, b1, ← c1, ← c2, ← c3]

theorem Sim.setExternalBoundary (s : HS ℝ) (h a l : PyVal ℝ) :
    Sim (s.setExternalBoundary h a l) (s.view.setExternalBoundary h a l) := by
  unfold HS.setExternalBoundary Slope.setExternalBoundary
  cases e : boundaryInputs h a l with
  | error x => exact ⟨rfl, rfl⟩
  | ok p =>
    obtain ⟨H, L⟩ := p
    have := (boundaryInputs_ok e).2
    exact Sim.applyBoundary s H L (by norm_num at this ⊢; linarith)

theorem HOut.done {K α β : Type} (s : HS K) (a : α) (f : HS K → α → HOut K β) :
    HOut.andThen (s, .ok a) f = f s a := rfl

theorem HOut.fail {K α β : Type} (s : HS K) (e : PyErr) (f : HS K → α → HOut K β) :
    HOut.andThen (s, .error e) f = (s, .error e) := rfl

theorem Out.done {K α β : Type} (s : Slope K) (a : α) (f : Slope K → α → Out K β) :
    Out.andThen (s, .ok a) f = f s a := rfl

theorem Out.fail {K α β : Type} (s : Slope K) (e : PyErr) (f : Slope K → α → Out K β) :
    Out.andThen (s, .error e) f = (s, .error e) := rfl

theorem Sim.rebuild (s : HS ℝ) (a b c) : Sim
    ((s.setExternalBoundary a b c).andThen fun s _ => (s.resetResults, .ok ()))
    ((s.view.setExternalBoundary a b c).andThen fun s _ => (s.resetResults, .ok ())) := by
  have h1 := Sim.setExternalBoundary s a b c
  refine Sim.andThen h1 (fun _ _ => ⟨?_, rfl⟩)
  exact congrArg Slope.resetResults h1.1

theorem Sim.updateBoundaryOptions (s : HS ℝ) (l h : PyVal ℝ) :
    Sim (s.updateBoundaryOptions l h) (s.view.updateBoundaryOptions l h) := by
  obtain ⟨heap, core, us, ls, ms⟩ := s
  unfold HS.updateBoundaryOptions Slope.updateBoundaryOptions HS.view Obj.view
  cases core with | mk mH mL eb =>
  cases eb <;>
  by_cases h1 : h.truthy <;> by_cases h3 : l.truthy <;>
  cases h2 : assertStrictlyPositiveNumber (@OfNat.ofNat ℝ 0 (Lit.natLit 0)) h <;>
  cases h4 : assertStrictlyPositiveNumber (@OfNat.ofNat ℝ 0 (Lit.natLit 0)) l <;>
  simp only [h1, h3, if_true, if_false, Bool.false_eq_true, HOut.done, HOut.fail, Out.done, Out.fail] <;>
  first
    | exact ⟨rfl, rfl⟩
    | exact Sim.rebuild _ _ _ _

/-! ## Loads -/

/-- The objects are those of `h0` up to the coordinates, levels and colours. -/
def Loads (h0 : Heap ℝ) (s : HS ℝ) : Prop :=
  (∀ q, (s.heap.udl q).load = (h0.udl q).load) ∧ (∀ q, (s.heap.ll q).load = (h0.ll q).load) ∧
    ∀ q, (s.heap.mat q).mat = (h0.mat q).mat

theorem loads_stable (h0 : Heap ℝ) : HStable (Loads h0) where
  core _ _ h := h
  placeUdls s x h := by
    obtain ⟨h1, h2⟩ := Heap.placeUdls_other x s.obj.us s.heap
    refine ⟨fun q => ?_, fun q => by rw [h1]; exact h.2.1 q, fun q => by rw [h2]; exact h.2.2 q⟩
    change ((s.heap.placeUdls x s.obj.us).udl q).load = _
    rw [Heap.placeUdls_udl]
    split
    · exact h.1 q
    · exact h.1 q
  placeLls s x h := by
    obtain ⟨h1, h2⟩ := Heap.placeLls_other x s.obj.ls s.heap
    refine ⟨fun q => by rw [h1]; exact h.1 q, fun q => ?_, fun q => by rw [h2]; exact h.2.2 q⟩
    change ((s.heap.placeLls x s.obj.ls).ll q).load = _
    rw [Heap.placeLls_ll]
    split
    · exact h.2.1 q
    · exact h.2.1 q

/-- The slope sees `v`, but for the coordinates of its uniform loads. -/
def LikeU (s : HS ℝ) (v : Slope ℝ) : Prop :=
  s.view = { v with udls := s.view.udls } ∧ s.view.udls.map PUdl.load = v.udls.map PUdl.load

/-- The slope sees `v`, but for the coordinates of its line loads. -/
def LikeL (s : HS ℝ) (v : Slope ℝ) : Prop :=
  s.view = { v with lls := s.view.lls } ∧ s.view.lls.map PLl.load = v.lls.map PLl.load

theorem withGeo_udls {a b : Slope ℝ} (h : a = { b with udls := a.udls })
    (hl : a.udls.map PUdl.load = b.udls.map PUdl.load) (m x y : ℝ) :
    ({ a with minExtL := m } : Slope ℝ).withGeo x y = ({ b with minExtL := m } : Slope ℝ).withGeo x y := by
  have e : ∀ d : ℝ, a.udls.map (fun p => placeUdl d p.load) = b.udls.map (fun p => placeUdl d p.load) := by
    intro d
    have := congrArg (List.map (placeUdl d)) hl
    simpa [Function.comp_def] using this
  generalize a.udls = l at h e
  subst h
  unfold Slope.withGeo
  simp only
  rw [e]
  rfl

theorem withGeo_lls {a b : Slope ℝ} (h : a = { b with lls := a.lls })
    (hl : a.lls.map PLl.load = b.lls.map PLl.load) (m x y : ℝ) :
    ({ a with minExtL := m } : Slope ℝ).withGeo x y = ({ b with minExtL := m } : Slope ℝ).withGeo x y := by
  have e : ∀ d : ℝ, a.lls.map (fun p => placeLl d p.load) = b.lls.map (fun p => placeLl d p.load) := by
    intro d
    have := congrArg (List.map (placeLl d)) hl
    simpa [Function.comp_def] using this
  generalize a.lls = l at h e
  subst h
  unfold Slope.withGeo
  simp only
  rw [e]
  rfl

theorem Geo.same {s t : Slope ℝ} (g : Geo s) (h : t.extBoundary = s.extBoundary ∧ t.height = s.height ∧
    t.length = s.length ∧ t.gradient = s.gradient ∧ t.topX = s.topX ∧ t.topY = s.topY ∧
    t.botX = s.botX ∧ t.botY = s.botY ∧ t.extL = s.extL ∧ t.extH = s.extH) : Geo t := by
  obtain ⟨h1, h2, h3, h4, h5, h6, h7, h8, h9, h10⟩ := h
  obtain ⟨a1, a2, a3, a4, a5, a6, a7, a8, a9, a10, a11, a12⟩ := g
  constructor <;> simp only [h1, h2, h3, h4, h5, h6, h7, h8, h9, h10] <;> assumption

theorem Geo.withGeo' {s : Slope ℝ} (g : Geo s) (t : Slope ℝ) : Geo (t.withGeo s.height s.length) := by
  have hL4 : 4 * s.height ≤ totL t s.height s.length := le_max_right _ _
  have hH3 : 3 * s.height ≤ totH t s.height s.length := (le_max_left _ _).trans (le_max_left _ _)
  have hH5 : 5 * s.length / 2 ≤ totH t s.height s.length := le_max_right _ _
  exact ⟨rfl, g.hgt, g.len, rfl, rfl, rfl, rfl, rfl, totL_ge _ _ _, hL4, hH3, hH5⟩

theorem LikeU.add {s : HS ℝ} {v : Slope ℝ} (h : LikeU s v) (g : Geo v) (m : 0 < v.minExtL)
    (r : Option Nat) :
    let o := s.addUdl r
    let w := v.addUdl (r.map fun q => (s.heap.udl q).load)
    LikeU o.1 w.1 ∧ o.2 = .ok () ∧ w.2 = .ok () ∧ Geo w.1 ∧ 0 < w.1.minExtL := by
  cases r with
  | none => exact ⟨h, rfl, rfl, g, m⟩
  | some q =>
    simp only [Option.map_some]
    unfold HS.addUdl Slope.addUdl
    simp only
    have em : s.obj.core.minExtL = v.minExtL := by
      have := congrArg Slope.minExtL h.1
      exact this
    generalize hu : (s.heap.udl q).load = u
    split
    · set s1 : HS ℝ := { s with obj := { s.obj with us := s.obj.us ++ [q] } } with hs1
      set v1 : Slope ℝ := { v with udls := v.udls ++ [placeUdl v.topX u] } with hv1
      have h1 : LikeU s1 v1 := by
        have e1 : s1.view = { s.view with udls := s.view.udls ++ [s.heap.udl q] } := by
          unfold HS.view Obj.view; simp [hs1]
        refine ⟨?_, ?_⟩
        · rw [e1]
          simp only
          rw [h.1]
        · rw [e1]
          simp only [List.map_append, h.2, hv1, List.map_cons, List.map_nil, hu]
          rfl
      have g1 : Geo v1 := g.same ⟨rfl, rfl, rfl, rfl, rfl, rfl, rfl, rfl, rfl, rfl⟩
      have gs : Geo s1.view := by rw [h1.1]; exact g1.same ⟨rfl, rfl, rfl, rfl, rfl, rfl, rfl, rfl, rfl, rfl⟩
      by_cases hc : v.minExtL < u.minLength
      · rw [if_pos (by rw [em]; exact hc), if_pos hc]
        have hp := m.trans hc
        obtain ⟨b1, b2⟩ := Sim.updateBoundaryOptions s1 (.num u.minLength) .none
        rw [updateBoundaryOptions_L gs _ hp] at b1 b2
        rw [updateBoundaryOptions_L g1 _ hp]
        have ev : (s1.updateBoundaryOptions (.num u.minLength) .none).1.view =
            ({ v1 with minExtL := u.minLength } : Slope ℝ).withGeo v1.height v1.length := by
          rw [b1]
          have : s1.view.height = v1.height ∧ s1.view.length = v1.length := by rw [h1.1]; exact ⟨rfl, rfl⟩
          rw [this.1, this.2]
          exact withGeo_udls h1.1 h1.2 _ _ _
        refine ⟨⟨?_, ?_⟩, b2, rfl, g1.withGeo' _, hp⟩
        · rw [ev]
        · rw [ev]
      · rw [if_neg (by rw [em]; exact hc), if_neg hc]
        exact ⟨h1, rfl, rfl, g1, m⟩
    · exact ⟨h, rfl, rfl, g, m⟩

theorem LikeL.add {s : HS ℝ} {v : Slope ℝ} (h : LikeL s v) (g : Geo v) (m : 0 < v.minExtL)
    (r : Option Nat) :
    let o := s.addLl r
    let w := v.addLl (r.map fun q => (s.heap.ll q).load)
    LikeL o.1 w.1 ∧ o.2 = .ok () ∧ w.2 = .ok () ∧ Geo w.1 ∧ 0 < w.1.minExtL := by
  cases r with
  | none => exact ⟨h, rfl, rfl, g, m⟩
  | some q =>
    simp only [Option.map_some]
    unfold HS.addLl Slope.addLl
    simp only
    have em : s.obj.core.minExtL = v.minExtL := by
      have := congrArg Slope.minExtL h.1
      exact this
    generalize hu : (s.heap.ll q).load = u
    split
    · set s1 : HS ℝ := { s with obj := { s.obj with ls := s.obj.ls ++ [q] } } with hs1
      set v1 : Slope ℝ := { v with lls := v.lls ++ [placeLl v.topX u] } with hv1
      have h1 : LikeL s1 v1 := by
        have e1 : s1.view = { s.view with lls := s.view.lls ++ [s.heap.ll q] } := by
          unfold HS.view Obj.view; simp [hs1]
        refine ⟨?_, ?_⟩
        · rw [e1]
          simp only
          rw [h.1]
        · rw [e1]
          simp only [List.map_append, h.2, hv1, List.map_cons, List.map_nil, hu]
          rfl
      have g1 : Geo v1 := g.same ⟨rfl, rfl, rfl, rfl, rfl, rfl, rfl, rfl, rfl, rfl⟩
      have gs : Geo s1.view := by rw [h1.1]; exact g1.same ⟨rfl, rfl, rfl, rfl, rfl, rfl, rfl, rfl, rfl, rfl⟩
      by_cases hc : v.minExtL < (u.offset * 3)
      · rw [if_pos (by rw [em]; exact hc), if_pos hc]
        have hp := m.trans hc
        obtain ⟨b1, b2⟩ := Sim.updateBoundaryOptions s1 (.num (u.offset * 3)) .none
        rw [updateBoundaryOptions_L gs _ hp] at b1 b2
        rw [updateBoundaryOptions_L g1 _ hp]
        have ev : (s1.updateBoundaryOptions (.num (u.offset * 3)) .none).1.view =
            ({ v1 with minExtL := (u.offset * 3) } : Slope ℝ).withGeo v1.height v1.length := by
          rw [b1]
          have : s1.view.height = v1.height ∧ s1.view.length = v1.length := by rw [h1.1]; exact ⟨rfl, rfl⟩
          rw [this.1, this.2]
          exact withGeo_lls h1.1 h1.2 _ _ _
        refine ⟨⟨?_, ?_⟩, b2, rfl, g1.withGeo' _, hp⟩
        · rw [ev]
        · rw [ev]
      · rw [if_neg (by rw [em]; exact hc), if_neg hc]
        exact ⟨h1, rfl, rfl, g1, m⟩
    · exact ⟨h, rfl, rfl, g, m⟩

theorem LikeU.addAll (rs : List (Option Nat)) {s : HS ℝ} {v : Slope ℝ} (h : LikeU s v) (g : Geo v)
    (m : 0 < v.minExtL) :
    let o := HS.forEach HS.addUdl rs s
    let w := Slope.forEach Slope.addUdl (rs.map fun r => r.map fun q => (s.heap.udl q).load) v
    LikeU o.1 w.1 ∧ o.2 = .ok () ∧ w.2 = .ok () ∧ Geo w.1 ∧ 0 < w.1.minExtL := by
  induction rs generalizing s v with
  | nil => exact ⟨h, rfl, rfl, g, m⟩
  | cons r rs ih =>
    obtain ⟨h1, h2, h3, h4, h5⟩ := h.add g m r
    have hl := ((loads_stable s.heap).addUdl (s := s) ⟨fun _ => rfl, fun _ => rfl, fun _ => rfl⟩ r
      (fun _ _ _ h => h)).1
    simp only [HS.forEach, Slope.forEach, List.map_cons]
    generalize hv : v.addUdl (r.map fun q => (s.heap.udl q).load) = w at *
    generalize ho : s.addUdl r = o at *
    obtain ⟨o1, o2⟩ := o
    obtain ⟨w1, w2⟩ := w
    simp only at h1 h2 h3 h4 h5 hl
    subst h2 h3
    rw [HOut.done, Out.done]
    simp only [← hl]
    exact ih h1 h4 h5

theorem Sim.setUdls {s : HS ℝ} (g : Geo s.view) (m : 0 < s.view.minExtL) (rs : List (Option Nat)) :
    Sim (s.setUdls rs) (s.view.setUdls (rs.map fun r => r.map fun q => (s.heap.udl q).load)) := by
  have h0 : LikeU s s.view := ⟨rfl, rfl⟩
  obtain ⟨h1, h2, h3, -, -⟩ := h0.addAll rs g m
  unfold HS.setUdls Slope.setUdls
  generalize Slope.forEach Slope.addUdl _ s.view = w at *
  generalize HS.forEach HS.addUdl rs s = o at *
  obtain ⟨t, o2⟩ := o
  obtain ⟨w, w2⟩ := w
  simp only at h1 h2 h3
  subst h2 h3
  rw [HOut.done, Out.done]
  refine ⟨?_, rfl⟩
  obtain ⟨h1, h2⟩ := h1
  obtain ⟨p1, p2⟩ := Heap.placeUdls_other t.obj.core.topX t.obj.us t.heap
  have ex : t.obj.core.topX = w.topX := by
    have := congrArg Slope.topX h1
    exact this
  have eu : t.obj.us.map (t.heap.placeUdls t.obj.core.topX t.obj.us).udl =
      w.udls.map (fun p => placeUdl w.topX p.load) := by
    rw [Heap.placeUdls_map, ex]
    have := congrArg (List.map (placeUdl w.topX)) h2
    rw [List.map_map, List.map_map] at this
    exact this
  have em : t.obj.core.udlMax = w.udlMax := by
    have := congrArg Slope.udlMax h1
    exact this
  have e1 : ∀ (l : List (PUdl ℝ)) (x : UdlMax ℝ),
      ({ t.view with udls := l, udlMax := x, search := [] } : Slope ℝ) =
        { w with udls := l, udlMax := x, search := [] } := by
    intro l x; rw [h1]
  change ({ t.obj.core with
    udls := t.obj.us.map (t.heap.placeUdls t.obj.core.topX t.obj.us).udl,
    lls := t.obj.ls.map (t.heap.placeUdls t.obj.core.topX t.obj.us).ll,
    materials := t.obj.ms.map (t.heap.placeUdls t.obj.core.topX t.obj.us).mat,
    udlMax := maxMagnitude (t.obj.us.map (t.heap.placeUdls t.obj.core.topX t.obj.us).udl) t.obj.core.udlMax,
    search := [] } : Slope ℝ) = _
  rw [p1, p2, eu, em]
  exact e1 _ _

theorem LikeL.addAll (rs : List (Option Nat)) {s : HS ℝ} {v : Slope ℝ} (h : LikeL s v) (g : Geo v)
    (m : 0 < v.minExtL) :
    let o := HS.forEach HS.addLl rs s
    let w := Slope.forEach Slope.addLl (rs.map fun r => r.map fun q => (s.heap.ll q).load) v
    LikeL o.1 w.1 ∧ o.2 = .ok () ∧ w.2 = .ok () ∧ Geo w.1 ∧ 0 < w.1.minExtL := by
  induction rs generalizing s v with
  | nil => exact ⟨h, rfl, rfl, g, m⟩
  | cons r rs ih =>
    obtain ⟨h1, h2, h3, h4, h5⟩ := h.add g m r
    have hl := ((loads_stable s.heap).addLl (s := s) ⟨fun _ => rfl, fun _ => rfl, fun _ => rfl⟩ r
      (fun _ _ _ h => h)).2.1
    simp only [HS.forEach, Slope.forEach, List.map_cons]
    generalize hv : v.addLl (r.map fun q => (s.heap.ll q).load) = w at *
    generalize ho : s.addLl r = o at *
    obtain ⟨o1, o2⟩ := o
    obtain ⟨w1, w2⟩ := w
    simp only at h1 h2 h3 h4 h5 hl
    subst h2 h3
    rw [HOut.done, Out.done]
    simp only [← hl]
    exact ih h1 h4 h5

theorem Sim.setLls {s : HS ℝ} (g : Geo s.view) (m : 0 < s.view.minExtL) (rs : List (Option Nat)) :
    Sim (s.setLls rs) (s.view.setLls (rs.map fun r => r.map fun q => (s.heap.ll q).load)) := by
  have h0 : LikeL s s.view := ⟨rfl, rfl⟩
  obtain ⟨h1, h2, h3, -, -⟩ := h0.addAll rs g m
  unfold HS.setLls Slope.setLls
  generalize Slope.forEach Slope.addLl _ s.view = w at *
  generalize HS.forEach HS.addLl rs s = o at *
  obtain ⟨t, o2⟩ := o
  obtain ⟨w, w2⟩ := w
  simp only at h1 h2 h3
  subst h2 h3
  rw [HOut.done, Out.done]
  refine ⟨?_, rfl⟩
  obtain ⟨h1, h2⟩ := h1
  obtain ⟨p1, p2⟩ := Heap.placeLls_other t.obj.core.topX t.obj.ls t.heap
  have ex : t.obj.core.topX = w.topX := by
    have := congrArg Slope.topX h1
    exact this
  have eu : t.obj.ls.map (t.heap.placeLls t.obj.core.topX t.obj.ls).ll =
      w.lls.map (fun p => placeLl w.topX p.load) := by
    rw [Heap.placeLls_map, ex]
    have := congrArg (List.map (placeLl w.topX)) h2
    rw [List.map_map, List.map_map] at this
    exact this
  have e1 : ∀ (l : List (PLl ℝ)),
      ({ t.view with lls := l, search := [] } : Slope ℝ) = { w with lls := l, search := [] } := by
    intro l; rw [h1]
  change ({ t.obj.core with
    udls := t.obj.us.map (t.heap.placeLls t.obj.core.topX t.obj.ls).udl,
    lls := t.obj.ls.map (t.heap.placeLls t.obj.core.topX t.obj.ls).ll,
    materials := t.obj.ms.map (t.heap.placeLls t.obj.core.topX t.obj.ls).mat,
    search := [] } : Slope ℝ) = _
  rw [p1, p2, eu]
  exact e1 _

end PySlope
