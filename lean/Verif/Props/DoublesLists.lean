import Verif.Spec.DoublesLists
import Verif.Props.IeeeForm
import Verif.Props.Materials
import Verif.Props.Loads

/-! # Materials and loads in double precision (C113) -/

namespace PySlope
open Lit

variable {A : Machine}

theorem setSizeNum_full_any {K : Type} [PyNum K] (he : ∀ a b : K, pyEq a b = true ↔ a = b) {l : List K}
    (h : l.Nodup) : setSizeNum l = l.length := by
  have go : ∀ (l acc : List K), l.Nodup → (∀ x ∈ l, x ∉ acc) →
      (l.foldl (fun acc p => if acc.any (fun q => pyEq p q) then acc else acc ++ [p]) acc).length =
        acc.length + l.length := by
    intro l
    induction l with
    | nil => intro acc _ _; rfl
    | cons x l ih =>
      intro acc hn ha
      rw [List.nodup_cons] at hn
      have : (acc.any fun q => pyEq x q) = false := by
        rw [Bool.eq_false_iff]
        intro h
        obtain ⟨q, hq, e⟩ := List.any_eq_true.mp h
        rw [he] at e
        exact ha x (by simp) (e ▸ hq)
      simp only [List.foldl_cons, this, Bool.false_eq_true, if_false]
      rw [ih (acc ++ [x]) hn.2]
      · simp only [List.length_append, List.length_cons, List.length_nil]; omega
      · intro y hy h
        rcases List.mem_append.mp h with h | h
        · exact ha y (List.mem_cons_of_mem _ hy) h
        · rw [List.mem_singleton.mp h] at hy; exact hn.1 hy
  have := go l [] h (by simp)
  simpa [setSizeNum] using this

/-- The materials after adding `ms`. -/
noncomputable def Slope.allMats64 (s : Slope (F64 A)) (ms : List (Material (F64 A))) : List (Material (F64 A)) :=
  sortByKey Material.depth (ms ++ s.materials.map Layer.mat)

/-- The object once its model is deep enough for `d`. -/
noncomputable def Slope.deepen64 (s : Slope (F64 A)) (d : F64 A) : Slope (F64 A) :=
  open Classical in
  if s.extH < d then ({ s with minExtH := d } : Slope (F64 A)).withForm s.height s.length else s

theorem Slope.deepen64_pos {s : Slope (F64 A)} {d : F64 A} (h : s.extH < d) :
    s.deepen64 d = ({ s with minExtH := d } : Slope (F64 A)).withForm s.height s.length := by
  unfold Slope.deepen64; rw [if_pos h]

theorem Slope.deepen64_neg {s : Slope (F64 A)} {d : F64 A} (h : ¬ s.extH < d) : s.deepen64 d = s := by
  unfold Slope.deepen64; rw [if_neg h]

theorem Slope.deepen64_materials (s : Slope (F64 A)) (d : F64 A) : (s.deepen64 d).materials = s.materials := by
  unfold Slope.deepen64; split <;> rfl

theorem DWF.extHpos {s : Slope (F64 A)} (w : DWF s) : 0 ≤ s.extH.val := by
  have g := w.ground
  linarith [g.down.1, g.down.2.1, g.down.2.2]

theorem updateBoundaryOptions_H64 {s : Slope (F64 A)} (w : DWF s) (d : F64 A) (hd : 0 < d.val) :
    s.updateBoundaryOptions .none (.num d) =
      (({ s with minExtH := d } : Slope (F64 A)).withForm s.height s.length, .ok ()) := by
  have e0 : pyEq d 0 = false := by rw [F64.pyEq_iff, F64.val_zero]; simpa using hd.ne'
  have p0 : ¬ d < (0 : F64 A) := by rw [F64.lt_iff, F64.val_zero]; linarith
  have v30 : (30 : F64 A).val = 30 := by rw [F64.val_small 30 (by norm_num)]; norm_num
  have hb := boundaryInputs_num (h := s.height) (a := 30) (l := s.length) w.hgt
    (by rw [v30]; norm_num) w.lenPos.le
  have hmax : pyMax s.length (0.001 : F64 A) = s.length := by
    apply F64.ext
    rw [F64.val_pyMax]
    exact max_eq_left w.len
  rw [hmax] at hb
  have hs : assertStrictlyPositiveNumber (0 : F64 A) (.num d) = .ok () := by
    simp [assertStrictlyPositiveNumber, PyCmp.ltb, p0]
  simp only [Slope.updateBoundaryOptions, PyVal.truthy, e0, Bool.not_false, if_true, hs, PyVal.get!,
    andThen_any, Bool.false_eq_true, if_false, w.bnd, Slope.setExternalBoundary, hb]
  rw [applyBoundary_form _ _ _ w.lenPos, andThen_any]
  rfl

theorem setMaterials_eq64 {s : Slope (F64 A)} (w : DWF s) (ms : List (Material (F64 A))) (d : F64 A)
    (hd : ((s.allMats64 ms).map Material.depth).getLast? = some d) :
    s.setMaterials (ms.map some) =
      open Classical in
      if ((s.allMats64 ms).map Material.depth).Nodup then
        (({ s.deepen64 d with materials := mkLayers (s.deepen64 d).extH 0 (s.allMats64 ms) } :
          Slope (F64 A)).resetResults, .ok ())
      else (s.deepen64 d, .error .valueError) := by
  classical
  unfold Slope.setMaterials
  rw [if_neg (by simp), filterMap_some]
  simp only
  rw [show (List.map Material.depth (sortByKey Material.depth
    (ms ++ s.materials.map Layer.mat))).getLast? = some d from hd]
  simp only
  have e : (if s.extH < d then s.updateBoundaryOptions .none (.num d) else (s, .ok ())) =
      (s.deepen64 d, .ok ()) := by
    unfold Slope.deepen64
    split
    · rename_i h
      exact updateBoundaryOptions_H64 w d (lt_of_le_of_lt w.extHpos ((F64.lt_iff _ _).mp h))
    · rfl
  rw [e]
  simp only [Out.andThen]
  have key : setSizeNum ((s.allMats64 ms).map Material.depth) < ((s.allMats64 ms).map Material.depth).length ↔
      ¬ ((s.allMats64 ms).map Material.depth).Nodup :=
    ⟨fun h hn => absurd (setSizeNum_full_any F64.pyEq_eq hn) h.ne,
      fun h => by_contra fun hh => h (setSizeNum_nodup_any F64.pyEq_eq hh)⟩
  change (if setSizeNum ((s.allMats64 ms).map Material.depth) < ((s.allMats64 ms).map Material.depth).length
    then _ else _) = _
  by_cases h : ((s.allMats64 ms).map Material.depth).Nodup
  · rw [if_neg (fun hh => key.mp hh h), if_pos h]; rfl
  · rw [if_pos (key.mpr h), if_neg h]

theorem sorted_eq_of_perm64 {l l' : List (F64 A)} (h : l.Perm l') (a : l.Pairwise (fun x y => x.val ≤ y.val))
    (b : l'.Pairwise (fun x y => x.val ≤ y.val)) : l = l' :=
  List.Perm.eq_of_pairwise (fun _ _ _ _ h1 h2 => F64.ext (le_antisymm h1 h2)) a b h

theorem depths_sorted64 (l : List (Material (F64 A))) :
    ((sortByKey Material.depth l).map Material.depth).Pairwise (fun x y => x.val ≤ y.val) :=
  List.pairwise_map.mpr (F64.sorted _ _)

theorem sort_perm64 {l l' : List (Material (F64 A))} (h : l.Perm l') :
    (sortByKey Material.depth l).map Material.depth =
      (sortByKey Material.depth l').map Material.depth ∧
    (((sortByKey Material.depth l).map Material.depth).Nodup →
      sortByKey Material.depth l = sortByKey Material.depth l') := by
  have p : (sortByKey Material.depth l).Perm (sortByKey Material.depth l') :=
    (sortByKey_perm _ _).trans (h.trans (sortByKey_perm _ _).symm)
  refine ⟨sorted_eq_of_perm64 (p.map _) (depths_sorted64 _) (depths_sorted64 _), fun hn => ?_⟩
  have inj : ∀ a ∈ sortByKey Material.depth l, ∀ b ∈ sortByKey Material.depth l,
      a.depth = b.depth → a = b := fun a ha b hb e => List.inj_on_of_nodup_map hn ha hb e
  refine List.Perm.eq_of_pairwise (le := fun a b : Material (F64 A) => a.depth.val ≤ b.depth.val) ?_
    (F64.sorted _ _) (F64.sorted _ _) p
  intro a b ha hb h1 h2
  exact inj a ha b (p.mem_iff.mpr hb) (F64.ext (le_antisymm h1 h2))

theorem getLast_sorted64 {l : List (F64 A)} (h : l.Pairwise (fun x y => x.val ≤ y.val)) {d : F64 A}
    (hd : l.getLast? = some d) : d ∈ l ∧ ∀ x ∈ l, x.val ≤ d.val := by
  obtain ⟨l', rfl⟩ : ∃ l', l = l' ++ [d] := by
    obtain ⟨ys, e⟩ := List.getLast?_eq_some_iff.mp hd
    exact ⟨ys, e⟩
  refine ⟨by simp, fun x hx => ?_⟩
  rcases List.mem_append.mp hx with hx | hx
  · exact (List.pairwise_append.mp h).2.2 x hx d (by simp)
  · rw [List.mem_singleton.mp hx]

theorem mem_allMats64 {s : Slope (F64 A)} {ms : List (Material (F64 A))} {m : Material (F64 A)} :
    m ∈ s.allMats64 ms ↔ m ∈ ms ∨ m ∈ s.materials.map Layer.mat := by
  rw [Slope.allMats64, (sortByKey_perm _ _).mem_iff, List.mem_append]

theorem allMats64_last {s : Slope (F64 A)} {ms : List (Material (F64 A))} (h : ms ≠ [] ∨ s.materials ≠ []) :
    ∃ d, ((s.allMats64 ms).map Material.depth).getLast? = some d := by
  cases hd : ((s.allMats64 ms).map Material.depth).getLast? with
  | some d => exact ⟨d, rfl⟩
  | none =>
    exfalso
    have h0 := List.map_eq_nil_iff.mp (List.getLast?_eq_none_iff.mp hd)
    have h1 := (sortByKey_perm Material.depth (ms ++ s.materials.map Layer.mat)).length_eq
    rw [show sortByKey Material.depth (ms ++ s.materials.map Layer.mat) = [] from h0] at h1
    simp at h1
    rcases h with h | h
    · exact h (List.length_eq_zero_iff.mp (by omega))
    · exact h (List.length_eq_zero_iff.mp (by omega))

theorem allMats64_depths (s : Slope (F64 A)) (ms : List (Material (F64 A))) :
    ((s.allMats64 ms).map Material.depth).Perm
      (ms.map Material.depth ++ s.materials.map (fun l => l.mat.depth)) := by
  have := (sortByKey_perm Material.depth (ms ++ s.materials.map Layer.mat)).map Material.depth
  rw [List.map_append, List.map_map] at this
  exact this

theorem setMaterials_none64 {s : Slope (F64 A)} {ms : List (Option (Material (F64 A)))} (h : none ∈ ms) :
    s.setMaterials ms = (s, .error .valueError) := by
  unfold Slope.setMaterials
  rw [if_pos]
  simpa using h

theorem setMaterials_empty64 {s : Slope (F64 A)} (h : s.materials = []) :
    s.setMaterials [] = (s, .error .indexError) := by
  simp [Slope.setMaterials, h, sortByKey, pySort]

theorem DWF.deepen64_eq {s : Slope (F64 A)} (w : DWF s) {d : F64 A} (h : s.extH < d) :
    (s.deepen64 d).extH = d := by
  rw [Slope.deepen64_pos h]
  have h := (F64.lt_iff _ _).mp h
  apply F64.ext
  change (pyMax (pyMax (3 * s.height) d) (5 * s.length / 2)).val = d.val
  rw [F64.val_pyMax, F64.val_pyMax]
  have := w.extH3; have := w.extH5
  rw [max_eq_right (a := (3 * s.height).val) (by linarith), max_eq_left (by linarith)]

theorem DWF.deepen64 {s : Slope (F64 A)} (w : DWF s) (d : F64 A) : DWF (s.deepen64 d) := by
  by_cases h : s.extH < d
  · rw [Slope.deepen64_pos h]
    exact DWF.withForm w.hgt w.len w.minL (w.extHpos.trans ((F64.lt_iff _ _).mp h).le) w.mats
  · rw [Slope.deepen64_neg h]; exact w

/-- Deepening twice is deepening once. -/
theorem deepen_deepen64 {s : Slope (F64 A)} (w : DWF s) (d e : F64 A) (h : d.val ≤ e.val) :
    ((s.deepen64 d).deepen64 e) = s.deepen64 e := by
  by_cases h1 : s.extH < d
  · have h2 := w.deepen64_eq h1
    have h3 : s.extH < e := (F64.lt_iff _ _).mpr (lt_of_lt_of_le ((F64.lt_iff _ _).mp h1) h)
    have e1 := Slope.deepen64_pos h3
    have e2 := Slope.deepen64_pos h1
    rcases h.lt_or_eq with h4 | h4
    · rw [Slope.deepen64_pos (s := s.deepen64 d) (by rw [h2]; exact (F64.lt_iff _ _).mpr h4), e1, e2]
      simp only [Slope.withForm, List.map_map, Function.comp_def, placeUdl, placeLl]
    · have := F64.ext h4
      subst this
      rw [Slope.deepen64_neg (s := s.deepen64 d) (by rw [h2, F64.lt_iff]; exact lt_irrefl _)]
  · rw [Slope.deepen64_neg h1]

/-- C113: in double precision `set_materials` with the arguments in any order has the same effect and outcome. -/
theorem C113_order_irrelevant (s : Slope (F64 A)) (r : Reachable s) (ms ms' : List (Option (Material (F64 A))))
    (p : ms.Perm ms') : s.setMaterials ms = s.setMaterials ms' := by
  have w := r.form
  by_cases h : none ∈ ms
  · rw [setMaterials_none64 h, setMaterials_none64 (p.mem_iff.mp h)]
  · obtain ⟨a, rfl⟩ := some_list h
    obtain ⟨b, rfl⟩ := some_list (fun hh => h (p.mem_iff.mpr hh))
    have p' : a.Perm b := by
      have := p.filterMap id
      rwa [filterMap_some, filterMap_some] at this
    obtain ⟨e1, e2⟩ := sort_perm64 (p'.append_right (s.materials.map Layer.mat))
    by_cases h0 : a = [] ∧ s.materials = []
    · obtain ⟨rfl, _⟩ := h0
      have : b = [] := p'.nil_eq.symm
      subst this; rfl
    · obtain ⟨d, hd⟩ := allMats64_last (s := s) (ms := a) (by
        by_contra hh
        push Not at hh
        exact h0 hh)
      have hd' : ((s.allMats64 b).map Material.depth).getLast? = some d := by
        unfold Slope.allMats64 at hd ⊢; rw [← e1]; exact hd
      rw [setMaterials_eq64 w a d hd, setMaterials_eq64 w b d hd']
      change ((s.allMats64 a).map Material.depth) = ((s.allMats64 b).map Material.depth) at e1
      by_cases hn : ((s.allMats64 a).map Material.depth).Nodup
      · rw [if_pos hn, if_pos (e1 ▸ hn), show s.allMats64 a = s.allMats64 b from e2 hn]
      · rw [if_neg hn, if_neg (e1 ▸ hn)]

/-- C113: in double precision adding two lists of materials in one call or in two has the same outcome, when the
first part is accepted on its own, and leaves the same object, to the last bit. -/
theorem C113_batch_is_incremental (s : Slope (F64 A)) (r : Reachable s) (a b : List (Material (F64 A)))
    (ha : (s.setMaterials (a.map some)).2 = .ok ()) :
    (s.setMaterials ((a ++ b).map some)).2 =
      ((s.setMaterials (a.map some)).1.setMaterials (b.map some)).2 ∧
    ((s.setMaterials ((a ++ b).map some)).2 = .ok () →
      s.setMaterials ((a ++ b).map some) =
        (s.setMaterials (a.map some)).1.setMaterials (b.map some)) := by
  have w := r.form
  have hne : a ≠ [] ∨ s.materials ≠ [] := by
    by_contra hh
    push Not at hh
    obtain ⟨rfl, h0⟩ := hh
    rw [List.map_nil, setMaterials_empty64 h0] at ha
    cases ha
  obtain ⟨d, hd⟩ := allMats64_last hne
  have e := setMaterials_eq64 w a d hd
  have hn : ((s.allMats64 a).map Material.depth).Nodup := by
    by_contra hn
    rw [if_neg hn] at e
    rw [e] at ha; cases ha
  rw [if_pos hn] at e
  set t : Slope (F64 A) := ({ s.deepen64 d with materials := mkLayers (s.deepen64 d).extH 0 (s.allMats64 a) } :
          Slope (F64 A)).resetResults with ht
  have wt : DWF t := ((w.deepen64 d).withMats _ (mkLayers_form _ _ hn)).reset
  rw [e]
  have tm : t.materials.map Layer.mat = s.allMats64 a := mkLayers_mats_any _ _ _
  have perm : ((a ++ b) ++ s.materials.map Layer.mat).Perm (b ++ t.materials.map Layer.mat) := by
    rw [tm]
    refine ((List.perm_append_comm (l₁ := a)).append_right _).trans ?_
    rw [List.append_assoc]
    exact (sortByKey_perm _ _).symm.append_left b
  obtain ⟨e1, e2⟩ := sort_perm64 perm
  change (s.allMats64 (a ++ b)).map Material.depth = (t.allMats64 b).map Material.depth at e1
  change ((s.allMats64 (a ++ b)).map Material.depth).Nodup → s.allMats64 (a ++ b) = t.allMats64 b at e2
  have hdm := getLast_sorted64 (depths_sorted64 _) hd
  obtain ⟨d', hd'⟩ := allMats64_last (s := s) (ms := a ++ b) (by
    rcases hne with h | h
    · exact .inl (by simp [h])
    · exact .inr h)
  have hdm' := getLast_sorted64 (depths_sorted64 _) hd'
  have hle : d.val ≤ d'.val := by
    apply hdm'.2
    obtain ⟨m, hm, rfl⟩ := List.mem_map.mp hdm.1
    refine List.mem_map.mpr ⟨m, ?_, rfl⟩
    change m ∈ s.allMats64 (a ++ b)
    rw [mem_allMats64]
    rcases mem_allMats64.mp hm with h | h
    · exact .inl (List.mem_append_left _ h)
    · exact .inr h
  have q1 := setMaterials_eq64 w (a ++ b) d' hd'
  have q2 := setMaterials_eq64 wt b d' (e1 ▸ hd')
  by_cases hnn : ((s.allMats64 (a ++ b)).map Material.depth).Nodup
  · rw [if_pos hnn] at q1
    rw [if_pos (e1 ▸ hnn)] at q2
    rw [q1, q2]
    refine ⟨rfl, fun _ => ?_⟩
    have e3 := e2 hnn
    have e4 : ({ t.deepen64 d' with materials := mkLayers (t.deepen64 d').extH 0 (t.allMats64 b) } :
        Slope (F64 A)).resetResults =
        (({ ((s.deepen64 d).deepen64 d') with materials :=
          (mkLayers ((s.deepen64 d).deepen64 d').extH 0 (t.allMats64 b)) } : Slope (F64 A))).resetResults := by
      by_cases hh : (s.deepen64 d).extH < d'
      · rw [Slope.deepen64_pos hh, Slope.deepen64_pos (s := t) hh]; rfl
      · rw [Slope.deepen64_neg hh, Slope.deepen64_neg (s := t) hh]; rfl
    rw [e4, deepen_deepen64 w d d' hle, e3]
  · rw [if_neg hnn] at q1
    rw [if_neg (e1 ▸ hnn)] at q2
    rw [q1, q2]
    exact ⟨rfl, fun h => by cases h⟩

/-- C113: when a depth is given twice, or is already used, `set_materials` raises `ValueError` and the materials
are unchanged. Otherwise, with at least one material, it returns, and the slope holds those given and those it
held, each once, from the shallowest to the deepest. Two doubles are the same depth only if they are equal. -/
theorem C113_distinct_depths (s : Slope (F64 A)) (r : Reachable s) (ms : List (Material (F64 A)))
    (some_material : ms ≠ [] ∨ s.materials ≠ []) :
    ((ms.map Material.depth ++ s.materials.map (fun l => l.mat.depth)).Nodup →
      (s.setMaterials (ms.map some)).2 = .ok () ∧
      ((s.setMaterials (ms.map some)).1.materials.map Layer.mat).Perm (ms ++ s.materials.map Layer.mat) ∧
      ((s.setMaterials (ms.map some)).1.materials.map (fun l => l.mat.depth.val)).Pairwise (· < ·)) ∧
    (¬ (ms.map Material.depth ++ s.materials.map (fun l => l.mat.depth)).Nodup →
      (s.setMaterials (ms.map some)).2 = .error .valueError ∧
      (s.setMaterials (ms.map some)).1.materials = s.materials) := by
  have w := r.form
  have hp := allMats64_depths s ms
  obtain ⟨d, hd⟩ := allMats64_last some_material
  rw [← hp.nodup_iff, setMaterials_eq64 w ms d hd]
  refine ⟨fun hn => ?_, fun hn => ?_⟩
  · rw [if_pos hn]
    refine ⟨rfl, ?_, ?_⟩
    · change ((mkLayers _ 0 (s.allMats64 ms)).map Layer.mat).Perm _
      rw [mkLayers_mats_any]; exact sortByKey_perm _ _
    · exact List.pairwise_map.mpr (mkLayers_form _ _ hn)
  · rw [if_neg hn]
    exact ⟨rfl, s.deepen64_materials d⟩

theorem remove_at64 {L : List (Layer (F64 A))} (hs : L.Pairwise (fun a b => a.mat.depth.val < b.mat.depth.val))
    {x : Layer (F64 A)} (hx : L.find? (fun l => pyEq l.mat.depth x.mat.depth) = some x) :
    removeFirst (x.eq ·) L = open Classical in L.filter (fun l => l.mat.depth ≠ x.mat.depth) := by
  classical
  have self : ∀ a : F64 A, pyEq a a = true := fun a => (F64.pyEq_eq a a).mpr rfl
  have other : ∀ a b : F64 A, a ≠ b → pyEq a b = false := fun a b h => by
    rw [Bool.eq_false_iff]; exact fun hh => h ((F64.pyEq_eq a b).mp hh)
  induction L with
  | nil => cases hx
  | cons y L ih =>
    rw [List.pairwise_cons] at hs
    by_cases h : y.mat.depth = x.mat.depth
    · rw [List.find?_cons_of_pos (by rw [h]; exact self _)] at hx
      cases hx
      simp only [removeFirst]
      rw [if_pos (by simp [Layer.eq, self]), List.filter_cons_of_neg (by simp)]
      symm
      rw [List.filter_eq_self]
      intro a ha
      simp only [decide_eq_true_eq]
      intro e
      have := hs.1 a ha
      rw [e] at this
      exact lt_irrefl _ this
    · rw [List.find?_cons_of_neg (by rw [other _ _ h]; simp)] at hx
      simp only [removeFirst]
      rw [if_neg (by simp [Layer.eq, other _ _ (Ne.symm h)]), List.filter_cons_of_pos (by simpa using h)]
      congr 1
      exact ih hs.2 hx

open Classical in
/-- C113: in double precision `remove_material` takes away exactly the material of the given depth, whether it is
given by the depth or by a material of that depth, as long as the depth is not 0; `remove_all` takes all. -/
theorem C113_remove_material (s : Slope (F64 A)) (r : Reachable s) (d : F64 A) (h0 : d.val ≠ 0) :
    (s.removeMaterial none (some d) false).2 = .ok () ∧
    (s.removeMaterial none (some d) false).1.materials = s.materials.filter (fun l => l.mat.depth ≠ d) ∧
    (∀ m : Material (F64 A), m.depth = d → ∀ d', s.removeMaterial (some m) d' false =
      s.removeMaterial none (some d) false) ∧
    ∀ m d', (s.removeMaterial m d' true).1.materials = [] := by
  refine ⟨rfl, ?_, ?_, fun _ _ => rfl⟩
  · have z : pyEq d (0 : F64 A) = false := by rw [F64.pyEq_iff, F64.val_zero]; simpa using h0
    simp only [Slope.removeMaterial, Slope.resetResults, z, Bool.false_eq_true, if_false]
    cases hf : s.materials.find? (fun l => pyEq l.mat.depth d) with
    | none =>
      symm
      rw [List.filter_eq_self]
      intro l hl
      have := List.find?_eq_none.mp hf l hl
      rw [F64.pyEq_eq] at this
      simpa using this
    | some x =>
      have hx : x.mat.depth = d := (F64.pyEq_eq _ _).mp (by simpa using List.find?_some hf)
      subst hx
      exact remove_at64 r.form.mats hf
  · rintro m rfl d'
    rfl

theorem optEq64 (a b : Option (F64 A)) : optEq a b = true ↔ a = b := by
  rcases a with _ | a <;> rcases b with _ | b <;> simp [optEq, F64.pyEq_eq]

theorem udl_matches64 (a u : Udl (F64 A)) : a.matches u = true ↔ a.SameAs u := by
  simp [Udl.matches, Udl.SameAs, optEq64, F64.pyEq_eq, and_assoc]

theorem ll_matches64 (a u : LineLoad (F64 A)) : a.matches u = true ↔ a.SameAs u := by
  simp [LineLoad.matches, LineLoad.SameAs, F64.pyEq_eq]

theorem udl_eq_matches64 {u : Udl (F64 A)} (a b : PUdl (F64 A)) (h : a.load.matches u = true)
    (e : a.load.eq b.load = true) : b.load.matches u = true := by
  rw [udl_matches64] at h ⊢
  simp only [Udl.eq, Bool.and_eq_true, F64.pyEq_eq, optEq64] at e
  obtain ⟨⟨⟨⟨e1, e2⟩, e3⟩, _⟩, _⟩ := e
  exact ⟨e2 ▸ h.1, e1 ▸ h.2.1, e3 ▸ h.2.2⟩

theorem ll_eq_matches64 {u : LineLoad (F64 A)} (a b : PLl (F64 A)) (h : a.load.matches u = true)
    (e : a.load.eq b.load = true) : b.load.matches u = true := by
  rw [ll_matches64] at h ⊢
  simp only [LineLoad.eq, Bool.and_eq_true, F64.pyEq_eq] at e
  obtain ⟨⟨⟨e1, e2⟩, _⟩, _⟩ := e
  exact ⟨e2 ▸ h.1, e1 ▸ h.2⟩

theorem udl_eq_refl64 (a : PUdl (F64 A)) : a.load.eq a.load = true := by
  simp [Udl.eq, optEq64, F64.pyEq_eq]

theorem ll_eq_refl64 (a : PLl (F64 A)) : a.load.eq a.load = true := by
  simp [LineLoad.eq, F64.pyEq_eq]

theorem removeUdls_udls64 (s : Slope (F64 A)) (us : List (Udl (F64 A))) :
    (s.removeUdls us false).1.udls = us.foldl (fun l u =>
      removeLoop (fun (c : PUdl (F64 A)) => c.load.matches u) (fun a b => a.load.eq b.load)
        l.length 0 l) s.udls := by
  unfold Slope.removeUdls Slope.resetResults
  simp only [Bool.false_eq_true, if_false]
  split <;> rfl

open Classical in
/-- C113: in double precision `remove_udls` and `remove_lls` keep every load that matches none of those given, in
order, and with one load given they remove every load that matches it, unless two neighbours match it (then one
may stay, see `C16_neighbours_stay`). Loads match when their numbers are equal to the last bit. -/
theorem C113_remove_loads (s : Slope (F64 A)) :
    (∀ us : List (Udl (F64 A)), ∀ keep : PUdl (F64 A) → Prop, (∀ p, keep p → ∀ u ∈ us, ¬ p.load.SameAs u) →
      (s.removeUdls us false).1.udls.filter (fun p => decide (keep p)) =
        s.udls.filter (fun p => decide (keep p))) ∧
    (∀ u : Udl (F64 A), s.udls.IsChain (fun a b => ¬ (a.load.SameAs u ∧ b.load.SameAs u)) →
      (s.removeUdls [u] false).1.udls = s.udls.filter (fun p => decide (¬ p.load.SameAs u))) ∧
    (∀ us : List (LineLoad (F64 A)), ∀ keep : PLl (F64 A) → Prop, (∀ p, keep p → ∀ u ∈ us, ¬ p.load.SameAs u) →
      (s.removeLls us false).1.lls.filter (fun p => decide (keep p)) =
        s.lls.filter (fun p => decide (keep p))) ∧
    ∀ u : LineLoad (F64 A), s.lls.IsChain (fun a b => ¬ (a.load.SameAs u ∧ b.load.SameAs u)) →
      (s.removeLls [u] false).1.lls = s.lls.filter (fun p => decide (¬ p.load.SameAs u)) := by
  refine ⟨?_, ?_, ?_, ?_⟩
  · intro us keep hk
    rw [removeUdls_udls64]
    refine foldl_remove_filter _ _ _ (fun l u hu => ?_) _
    refine filter_of_filter ?_ (removeLoop_filter _ _ (udl_eq_matches64 (u := u)) _ _ _)
    intro p hp
    have := hk p (by simpa using hp) u hu
    rw [← udl_matches64] at this
    simpa using this
  · intro u hc
    rw [removeUdls_udls64]
    have := removeLoop_exact (fun (c : PUdl (F64 A)) => c.load.matches u) (fun a b => a.load.eq b.load)
      udl_eq_refl64 (udl_eq_matches64 (u := u)) s.udls.length [] s.udls (le_refl _) (by simp)
      (by simpa only [udl_matches64] using hc)
    simp only [List.foldl_cons, List.foldl_nil]
    simp only [List.length_nil, List.nil_append] at this
    rw [this]
    apply List.filter_congr
    intro p _
    rw [Bool.eq_iff_iff]
    simp [← udl_matches64]
  · intro us keep hk
    change (us.foldl (fun acc u =>
      removeLoop (fun (c : PLl (F64 A)) => c.load.matches u) (fun a b => a.load.eq b.load)
        acc.length 0 acc) s.lls).filter _ = _
    refine foldl_remove_filter _ _ _ (fun l u hu => ?_) _
    refine filter_of_filter ?_ (removeLoop_filter _ _ (ll_eq_matches64 (u := u)) _ _ _)
    intro p hp
    have := hk p (by simpa using hp) u hu
    rw [← ll_matches64] at this
    simpa using this
  · intro u hc
    have := removeLoop_exact (fun (c : PLl (F64 A)) => c.load.matches u) (fun a b => a.load.eq b.load)
      ll_eq_refl64 (ll_eq_matches64 (u := u)) s.lls.length [] s.lls (le_refl _) (by simp)
      (by simpa only [ll_matches64] using hc)
    simp only [List.length_nil, List.nil_append] at this
    change removeLoop (fun (c : PLl (F64 A)) => c.load.matches u) (fun a b => a.load.eq b.load)
        s.lls.length 0 s.lls = _
    rw [this]
    apply List.filter_congr
    intro p _
    rw [Bool.eq_iff_iff]
    simp [← ll_matches64]

/-- A case: `Slope(height=1, length=2.73)` with materials to 2 m and 5 m, given in either order, together or one by
one; and without the second after `remove_material(depth=5)`. -/
example (A : Machine) (m : F64 A → Material (F64 A)) (hm : ∀ d, (m d).depth = d) : ∃ s : Slope (F64 A),
    Slope.new (.num (F64.mk 1)) (.num (F64.mk 30)) (.num (F64.mk 2.73)) = .ok s ∧
    (s.setMaterials [some (m 2), some (m 5)]).2 = .ok () ∧
    s.setMaterials [some (m 2), some (m 5)] = s.setMaterials [some (m 5), some (m 2)] ∧
    s.setMaterials [some (m 2), some (m 5)] = (s.setMaterials [some (m 2)]).1.setMaterials [some (m 5)] ∧
    ((∀ d, Material.Constructed (m d)) → ∀ l ∈ ((s.setMaterials [some (m 2), some (m 5)]).1.removeMaterial none
      (some 5) false).1.materials, l.mat = m 2) := by
  obtain ⟨s, h, _, _, _, _, hs, _⟩ := exDouble A.rounds
  have r : Reachable s := .init h
  have v2 : (2 : F64 A).val = 2 := by rw [F64.val_small 2 (by norm_num)]; norm_num
  have v5 : (5 : F64 A).val = 5 := by rw [F64.val_small 5 (by norm_num)]; norm_num
  have ne : (2 : F64 A) ≠ 5 := fun e => by
    have := congrArg F64.val e; rw [v2, v5] at this; norm_num at this
  have h2 := ((C113_distinct_depths s r [m 2] (by simp)).1 (by simp [hs])).1
  have h25 := ((C113_distinct_depths s r [m 2, m 5] (by simp)).1 (by simp [hs, hm, ne])).1
  refine ⟨s, h, h25, C113_order_irrelevant s r _ _ (List.Perm.swap _ _ _),
    (C113_batch_is_incremental s r [m 2] [m 5] h2).2 h25, fun hc l hl => ?_⟩
  have hp := ((C113_distinct_depths s r [m 2, m 5] (by simp)).1 (by simp [hs, hm, ne])).2.1
  rw [(C113_remove_material _ (r.call (.setMaterials _ _ (by
    intro x hx
    simp only [List.mem_cons, Option.some.injEq, List.not_mem_nil, or_false] at hx
    rcases hx with rfl | rfl <;> exact hc _))) 5 (by rw [v5]; norm_num)).2.1] at hl
  obtain ⟨hl, hd⟩ := List.mem_filter.mp hl
  have := hp.mem_iff.mp (List.mem_map_of_mem (f := Layer.mat) hl)
  rw [hs] at this
  simp only [List.map_nil, List.append_nil, List.mem_cons, List.not_mem_nil, or_false] at this
  rcases this with h | h
  · exact h
  · rw [h, hm] at hd
    simp at hd

/-- The loads, without where they are placed. -/
def LoadsAre (U : List (Udl (F64 A))) (L : List (LineLoad (F64 A))) (t : Slope (F64 A)) : Prop :=
  t.udls.map PUdl.load = U ∧ t.lls.map PLl.load = L

theorem LoadsAre.updateBoundaryOptions {U : List (Udl (F64 A))} {L} {s : Slope (F64 A)} (w : LoadsAre U L s)
    (l h : PyVal (F64 A)) : LoadsAre U L (s.updateBoundaryOptions l h).1 := by
  unfold Slope.updateBoundaryOptions
  refine andThen_inv _ _ ?_ (fun t _ w => andThen_inv _ _ ?_ (fun t _ w => andThen_inv _ _ ?_ (fun _ _ w => w)))
  · split
    · split <;> exact w
    · exact w
  · split
    · split <;> exact w
    · exact w
  · split
    · unfold Slope.setExternalBoundary
      split
      · exact w
      · rename_i H L e
        rw [applyBoundary_form _ _ _ (lt_of_lt_of_le F64.tiny_pos (boundaryInputs_form e).2)]
        simpa [Slope.withForm, LoadsAre, Function.comp_def, placeUdl, placeLl] using w
    · exact w

theorem LoadsAre.addUdl {U : List (Udl (F64 A))} {L} {s : Slope (F64 A)} (w : LoadsAre U L s)
    (u : UdlArg (F64 A)) :
    LoadsAre (U ++ (u.toList.filter fun u => decide (0 < u.magnitude))) L (s.addUdl u).1 := by
  rcases u with _ | u
  · simpa [Slope.addUdl] using w
  · unfold Slope.addUdl
    simp only
    by_cases h : 0 < u.magnitude
    · rw [if_pos h]
      have w' : LoadsAre (U ++ ((some u).toList.filter fun u => decide (0 < u.magnitude))) L
          ({ s with udls := s.udls ++ [placeUdl s.topX u] } : Slope (F64 A)) := by
        refine ⟨?_, w.2⟩
        simp only [List.map_append, w.1, Option.toList_some, List.map_cons, List.map_nil]
        rw [List.filter_cons_of_pos (by simpa using h)]
        rfl
      split
      · exact w'.updateBoundaryOptions _ _
      · exact w'
    · rw [if_neg h]
      simp only [Option.toList_some]
      rw [List.filter_cons_of_neg (by simpa using h)]
      simpa using w

theorem LoadsAre.addLl {U : List (Udl (F64 A))} {L} {s : Slope (F64 A)} (w : LoadsAre U L s)
    (u : Option (LineLoad (F64 A))) :
    LoadsAre U (L ++ (u.toList.filter fun u => decide (0 < u.magnitude))) (s.addLl u).1 := by
  rcases u with _ | u
  · simpa [Slope.addLl] using w
  · unfold Slope.addLl
    simp only
    by_cases h : 0 < u.magnitude
    · rw [if_pos h]
      have w' : LoadsAre U (L ++ ((some u).toList.filter fun u => decide (0 < u.magnitude)))
          ({ s with lls := s.lls ++ [placeLl s.topX u] } : Slope (F64 A)) := by
        refine ⟨w.1, ?_⟩
        simp only [List.map_append, w.2, Option.toList_some, List.map_cons, List.map_nil]
        rw [List.filter_cons_of_pos (by simpa using h)]
        rfl
      split
      · exact w'.updateBoundaryOptions _ _
      · exact w'
    · rw [if_neg h]
      simp only [Option.toList_some]
      rw [List.filter_cons_of_neg (by simpa using h)]
      simpa using w

theorem forEach_loads {α β : Type} (f : Slope (F64 A) → Option α → Out (F64 A) Unit) (p : α → Bool)
    (get : Slope (F64 A) → List α) (other : Slope (F64 A) → List β)
    (hg : ∀ s a, DWF s → Good (f s a))
    (hf : ∀ s a, get (f s a).1 = get s ++ a.toList.filter p ∧ other (f s a).1 = other s)
    (l : List (Option α)) (s : Slope (F64 A)) (w : DWF s) :
    get (Slope.forEach f l s).1 = get s ++ (l.filterMap id).filter p ∧ other (Slope.forEach f l s).1 = other s := by
  induction l generalizing s with
  | nil => simp [Slope.forEach]
  | cons a l ih =>
    obtain ⟨w', x, e⟩ := hg s a w
    obtain ⟨h1, h2⟩ := hf s a
    simp only [Slope.forEach]
    generalize f s a = o at w' e h1 h2 ⊢
    obtain ⟨t, y⟩ := o
    simp only at e w' h1 h2
    subst e
    obtain ⟨k1, k2⟩ := ih t w'
    change get (Slope.forEach f l t).1 = _ ∧ other (Slope.forEach f l t).1 = _
    rw [k1, k2, h1, h2]
    refine ⟨?_, rfl⟩
    rw [List.append_assoc, ← List.filter_append]
    cases a <;> simp

/-- C113: in double precision `set_udls` returns, keeps the loads there were, adds those given whose magnitude is
not 0, in order, ignores what is not a load, leaves the line loads alone, and records the greatest magnitude. -/
theorem C113_loads_added (s : Slope (F64 A)) (r : Reachable s) (us : List (UdlArg (F64 A))) :
    (s.setUdls us).2 = .ok () ∧
    (s.setUdls us).1.udls.map PUdl.load =
      s.udls.map PUdl.load ++ (us.filterMap id).filter (fun u => decide (0 < u.magnitude)) ∧
    (s.setUdls us).1.lls.map PLl.load = s.lls.map PLl.load ∧
    ((s.setUdls us).1.udls ≠ [] → ∃ x, (s.setUdls us).1.udlMax = .num x ∧
      (∃ p ∈ (s.setUdls us).1.udls, p.load.magnitude = x) ∧
      ∀ p ∈ (s.setUdls us).1.udls, p.load.magnitude.val ≤ x.val) := by
  have hok := (C89_returns s r).2.2.1 us
  obtain ⟨h1, h2⟩ := forEach_loads Slope.addUdl (fun u => decide (0 < u.magnitude))
    (fun t => t.udls.map PUdl.load) (fun t => t.lls.map PLl.load) (fun _ a w => Good.addUdl w a)
    (fun s a => LoadsAre.addUdl (U := s.udls.map PUdl.load) ⟨rfl, rfl⟩ a) us s r.form
  obtain ⟨_, x, e⟩ := Good.forEach Slope.addUdl (fun _ a w => Good.addUdl w a) us s r.form
  refine ⟨hok, ?_⟩
  unfold Slope.setUdls
  generalize Slope.forEach Slope.addUdl us s = o at e h1 h2 ⊢
  obtain ⟨t, y⟩ := o
  simp only at e h1 h2
  subst e
  have key : ∀ (l : List (PUdl (F64 A))) (m : F64 A),
      m.val ≤ (l.foldl (fun m v => pyMax m v.load.magnitude) m).val ∧
      (∀ p ∈ l, p.load.magnitude.val ≤ (l.foldl (fun m v => pyMax m v.load.magnitude) m).val) ∧
      (l.foldl (fun m v => pyMax m v.load.magnitude) m = m ∨
        ∃ p ∈ l, p.load.magnitude = l.foldl (fun m v => pyMax m v.load.magnitude) m) := by
    intro l
    induction l with
    | nil => intro m; simp
    | cons a l ih =>
      intro m
      simp only [List.foldl_cons]
      obtain ⟨h1, h2, h3⟩ := ih (pyMax m a.load.magnitude)
      rw [F64.val_pyMax] at h1
      refine ⟨(le_max_left _ _).trans h1, ?_, ?_⟩
      · intro p hp
        rcases List.mem_cons.mp hp with rfl | hp
        · exact (le_max_right _ _).trans h1
        · exact h2 p hp
      · rcases h3 with h3 | ⟨p, hp, h3⟩
        · have hh : pyMax m a.load.magnitude = m ∨ pyMax m a.load.magnitude = a.load.magnitude := by
            unfold pyMax; split
            · exact .inr rfl
            · exact .inl rfl
          rcases hh with hh | hh
          · left; rw [h3, hh]
          · right; exact ⟨a, by simp, by rw [h3, hh]⟩
        · right; exact ⟨p, List.mem_cons_of_mem _ hp, h3⟩
  refine ⟨?_, h2, ?_⟩
  · rw [← h1]
    simp [Out.andThen, Slope.updateUdlCoordinates, Slope.resetResults, placeUdl, Function.comp_def]
  · simp only [Out.andThen, Slope.resetResults]
    generalize t.updateUdlCoordinates.udls = l
    intro hne
    cases l with
    | nil => exact absurd rfl hne
    | cons a l =>
      obtain ⟨h1, h2, h3⟩ := key l a.load.magnitude
      refine ⟨_, rfl, ?_, ?_⟩
      · rcases h3 with h3 | ⟨p, hp, h3⟩
        · exact ⟨a, by simp, h3.symm⟩
        · exact ⟨p, List.mem_cons_of_mem _ hp, h3⟩
      · intro p hp
        rcases List.mem_cons.mp hp with rfl | hp
        · exact h1
        · exact h2 p hp

/-- C113: the same for `set_lls`. -/
theorem C113_line_loads_added (s : Slope (F64 A)) (r : Reachable s) (ls : List (Option (LineLoad (F64 A)))) :
    (s.setLls ls).2 = .ok () ∧
    (s.setLls ls).1.lls.map PLl.load =
      s.lls.map PLl.load ++ (ls.filterMap id).filter (fun u => decide (0 < u.magnitude)) ∧
    (s.setLls ls).1.udls.map PUdl.load = s.udls.map PUdl.load := by
  have hok := (C89_returns s r).2.2.2.1 ls
  obtain ⟨h1, h2⟩ := forEach_loads Slope.addLl (fun u => decide (0 < u.magnitude))
    (fun t => t.lls.map PLl.load) (fun t => t.udls.map PUdl.load) (fun _ a w => Good.addLl w a)
    (fun s a => (LoadsAre.addLl (L := s.lls.map PLl.load) ⟨rfl, rfl⟩ a).symm) ls s r.form
  obtain ⟨_, x, e⟩ := Good.forEach Slope.addLl (fun _ a w => Good.addLl w a) ls s r.form
  refine ⟨hok, ?_⟩
  unfold Slope.setLls
  generalize Slope.forEach Slope.addLl ls s = o at e h1 h2 ⊢
  obtain ⟨t, y⟩ := o
  simp only at e h1 h2
  subst e
  refine ⟨?_, h2⟩
  rw [← h1]
  simp [Out.andThen, Slope.updateLlCoordinates, Slope.resetResults, placeLl, Function.comp_def]

/-- A case of `C113_loads_added` and `C113_remove_loads`: a slope with one load, for which the hypothesis on
neighbours holds; removing the load leaves none. -/
example (A : Machine) : ∃ t : Slope (F64 A), Reachable t ∧ t.udls.map PUdl.load = [exUdl64 A] ∧
    (t.removeUdls [exUdl64 A] false).1.udls = [] := by
  classical
  obtain ⟨s, h, _, hu, _⟩ := exDouble A.rounds
  have hr : Reachable (s.setUdls [some (exUdl64 A)]).1 :=
    .call (.init h) (.setUdls _ _ (by
      intro u hu
      simp only [List.mem_singleton, Option.some.injEq] at hu
      rw [hu]; exact exUdl64_constructed A))
  have hm : (0 : F64 A) < (exUdl64 A).magnitude := by
    rw [F64.lt_iff, F64.val_zero]
    have h1 := (F64.rnd_coarse (A := A) (x := 20) (by norm_num)).1
    have h2 : ¬ (F64.mk 20 : F64 A) < 0 := by
      rw [F64.lt_iff, F64.val_zero, F64.val_mk]; norm_num at h1 ⊢; linarith
    simp only [exUdl64, pyAbs, if_neg h2, F64.val_mk]
    norm_num at h1; linarith
  have e := (C113_loads_added s (.init h) [some (exUdl64 A)]).2.1
  rw [hu] at e
  simp only [List.map_nil, List.nil_append, List.filterMap_cons, id, List.filterMap_nil] at e
  rw [List.filter_cons_of_pos (by simpa using hm), List.filter_nil] at e
  refine ⟨_, hr, e, ?_⟩
  generalize (s.setUdls [some (exUdl64 A)]).1 = t at e
  rcases hl : t.udls with _ | ⟨a, _ | ⟨b, l⟩⟩
  · rw [hl] at e; cases e
  · rw [hl] at e
    simp only [List.map_cons, List.map_nil, List.cons.injEq, and_true] at e
    rw [(C113_remove_loads t).2.1 _ (by rw [hl]; simp), hl, List.filter_cons_of_neg, List.filter_nil]
    rw [e]
    simp [Udl.SameAs]
  · rw [hl] at e; simp at e

end PySlope
