import Verif.Spec.Args
import Verif.Spec.Example
import Verif.Lemmas.Stable
import Mathlib.Logic.Relation

/-! # C01, C09-C14: materials -/

namespace PySlope

/-! ## C01 -/

/-- The documented arguments of `Material`. -/
def MaterialArgs (uw phi c d : PyVal ℝ) (u f c' d' : ℝ) : Prop :=
  uw.asNum = some u ∧ 1 ≤ u ∧ u ≤ 50 ∧ phi.asNum = some f ∧ 0 ≤ f ∧
  c.asPlain = some c' ∧ d.asPlain = some d'

/-- A string argument: a string, or `None` for the empty string. -/
def PyStr.given : PyStr → Option String
  | .str s => some s
  | .none => some ""
  | .other => Option.none

theorem uw_eq (x : ℝ) : (assertRange (.num x) (@OfNat.ofNat ℝ 1 (Lit.natLit 1))
      (@OfNat.ofNat ℝ 50 (Lit.natLit 50)) false false =
    if 1 ≤ x ∧ x ≤ 50 then .ok () else .error .valueError) ∧
    (assertRange (.numSub x) (@OfNat.ofNat ℝ 1 (Lit.natLit 1))
      (@OfNat.ofNat ℝ 50 (Lit.natLit 50)) false false =
    if 1 ≤ x ∧ x ≤ 50 then .ok () else .error .valueError) := by
  have h50 : ((@OfNat.ofNat ℝ 50 (Lit.natLit 50)) < x) ↔ 50 < x := Iff.rfl
  simp only [assertRange, PyCmp.ltb, PyCmp.eqb, lit_one, decide_eq_true_eq, pyEq_real,
    Bool.false_and, Bool.false_eq_true, if_false, h50, and_self]
  by_cases h1 : x < 1
  · rw [if_pos h1, if_neg (by rintro ⟨a, _⟩; linarith)]
  · rw [if_neg h1]
    by_cases h2 : 50 < x
    · rw [if_pos h2, if_neg (by rintro ⟨_, a⟩; linarith)]
    · rw [if_neg h2, if_pos ⟨not_lt.mp h1, not_lt.mp h2⟩]

theorem pos_eq (x : ℝ) : (assertPositiveNumber (@OfNat.ofNat ℝ 0 (Lit.natLit 0)) (.num x) =
    if 0 ≤ x then .ok () else .error .valueError) ∧
    (assertPositiveNumber (@OfNat.ofNat ℝ 0 (Lit.natLit 0)) (.numSub x) =
    if 0 ≤ x then .ok () else .error .valueError) := by
  simp only [assertPositiveNumber, PyCmp.ltb, lit_zero, decide_eq_true_eq]
  by_cases h : 0 ≤ x
  · simp [h, not_lt.mpr h]
  · simp [h, not_le.mp h]

/-- C01: `Material(uw, phi, c, d, name, color)` succeeds exactly on the documented arguments, the
object has the normalised values, and otherwise the exception is `ValueError` for a wrong number
and `AssertionError` for a wrong name or colour. -/
theorem C01_material (isColor : String → Bool) (uw phi c d : PyVal ℝ) (name color : PyStr) :
    (∀ u f c' d' n col, MaterialArgs uw phi c d u f c' d' → name.given = some n →
      color.given = some col →
      Material.new isColor uw phi c d name color = .ok
        { unitWeight := u, frictionAngle := f, cohesion := |c'|, depth := |d'|,
          tanPhi := Real.tan (f * (Real.pi / 180)), name := n,
          userColor := if isColor col && col != "" then some col else none }) ∧
    ((¬ ∃ u f c' d', MaterialArgs uw phi c d u f c' d') →
      Material.new isColor uw phi c d name color = .error .valueError) ∧
    ((∃ u f c' d', MaterialArgs uw phi c d u f c' d') →
      (name.given = none ∨ color.given = none) →
      Material.new isColor uw phi c d name color = .error .assertionError) := by
  refine ⟨?_, ?_, ?_⟩
  · rintro u f c' d' n col ⟨h1, h2, h3, h4, h5, h6, h7⟩ hn hc
    rcases uw with x | x | _ | _ <;> simp [PyVal.asNum] at h1 <;>
      rcases phi with y | y | _ | _ <;> simp [PyVal.asNum] at h4 <;>
      rcases c with z | z | _ | _ <;> simp [PyVal.asPlain] at h6 <;>
      rcases d with w | w | _ | _ <;> simp [PyVal.asPlain] at h7 <;>
      subst h1 <;> subst h4 <;> subst h6 <;> subst h7 <;>
      simp only [Material.new, (uw_eq _).1, (uw_eq _).2, (pos_eq _).1, (pos_eq _).2, h2, h3, h5,
        and_self, if_true, bind, Except.bind, pure, Except.pure, assertNumber] <;>
      rcases name with s | _ | _ <;> simp [PyStr.given] at hn <;>
      rcases color with s' | _ | _ <;> simp [PyStr.given] at hc <;>
      subst hn <;> subst hc <;> simp [strArg, PyVal.get!] <;> rfl
  · intro hno
    rcases uw with x | x | _ | _ <;> rcases phi with y | y | _ | _ <;>
      rcases c with z | z | _ | _ <;> rcases d with w | w | _ | _ <;>
      simp only [MaterialArgs, PyVal.asNum, PyVal.asPlain, Option.some.injEq, reduceCtorEq,
        false_and, and_false, exists_false, not_false_iff, exists_eq_left', exists_eq',
        exists_and_left, exists_and_right, and_true, exists_eq_right'] at hno <;>
      simp only [Material.new, (uw_eq _).1, (uw_eq _).2, (pos_eq _).1, (pos_eq _).2, bind,
        Except.bind, pure, Except.pure, assertNumber] <;>
      (try by_cases c1 : 1 ≤ x ∧ x ≤ 50) <;> (try by_cases c2 : 0 ≤ y) <;>
      (try simp only [c1, if_true, if_false, and_self]) <;>
      (try simp only [c2, if_true, if_false]) <;>
      first
        | rfl
        | (exfalso; apply hno; exact ⟨c1.1, c1.2, c2⟩)
        | (simp_all [assertRange, assertPositiveNumber])
  · rintro ⟨u, f, c', d', h1, h2, h3, h4, h5, h6, h7⟩ hn
    rcases uw with x | x | _ | _ <;> simp [PyVal.asNum] at h1 <;>
      rcases phi with y | y | _ | _ <;> simp [PyVal.asNum] at h4 <;>
      rcases c with z | z | _ | _ <;> simp [PyVal.asPlain] at h6 <;>
      rcases d with w | w | _ | _ <;> simp [PyVal.asPlain] at h7 <;>
      subst h1 <;> subst h4 <;> subst h6 <;> subst h7 <;>
      simp only [Material.new, (uw_eq _).1, (uw_eq _).2, (pos_eq _).1, (pos_eq _).2, h2, h3, h5,
        and_self, if_true, bind, Except.bind, pure, Except.pure, assertNumber] <;>
      rcases name with s | _ | _ <;> rcases color with s' | _ | _ <;>
      simp [PyStr.given] at hn <;> simp [strArg]

/-- Arguments meeting C01: `Material(20, 35, -5, -2)` has cohesion 5 and depth 2. -/
example : ∃ m : Material ℝ, Material.new (fun _ => false) (.num 20) (.num 35) (.num (-5))
    (.num (-2)) .none .none = .ok m ∧ m.cohesion = 5 ∧ m.depth = 2 := by
  refine ⟨_, (C01_material _ _ _ _ _ _ _).1 20 35 (-5) (-2) "" ""
    ⟨rfl, by norm_num, by norm_num, rfl, by norm_num, rfl, rfl⟩ rfl rfl, ?_, ?_⟩ <;> norm_num

/-- A constructed material, for the examples: unit weight 20, no friction, cohesion 5. -/
noncomputable def exMat (depth : ℝ) : Material ℝ :=
  { unitWeight := 20, frictionAngle := 0, cohesion := 5, depth := |depth|
    tanPhi := Real.tan (0 * (Real.pi / 180)), name := "", userColor := none }

theorem exMat_constructed (depth : ℝ) : Material.Constructed (exMat depth) := by
  refine ⟨fun _ => false, .num 20, .num 0, .num 5, .num depth, .none, .none, ?_⟩
  rw [(C01_material _ _ _ _ _ _ _).1 20 0 5 depth "" ""
    ⟨rfl, by norm_num, by norm_num, rfl, by norm_num, rfl, rfl⟩ rfl rfl]
  simp [exMat]

/-! ## C09 -/

/-- C09: after any history of calls, returning or raising, the materials are strictly increasing
in depth. -/
theorem C09_materials_sorted (s : Slope ℝ) (r : Reachable s) :
    (s.materials.map (fun l => l.mat.depth)).Pairwise (· < ·) :=
  List.pairwise_map.mpr r.wf.mats

/-! ## What `set_materials` does -/

/-- The materials after adding `ms`. -/
noncomputable def Slope.allMats (s : Slope ℝ) (ms : List (Material ℝ)) : List (Material ℝ) :=
  sortByKey Material.depth (ms ++ s.materials.map Layer.mat)

/-- The object once its model is deep enough for `d`. -/
noncomputable def Slope.deepen (s : Slope ℝ) (d : ℝ) : Slope ℝ :=
  if s.extH < d then ({ s with minExtH := d } : Slope ℝ).withGeo s.height s.length else s

theorem Slope.deepen_pos {s : Slope ℝ} {d : ℝ} (h : s.extH < d) :
    s.deepen d = ({ s with minExtH := d } : Slope ℝ).withGeo s.height s.length := by
  unfold Slope.deepen; rw [if_pos h]

theorem Slope.deepen_neg {s : Slope ℝ} {d : ℝ} (h : ¬ s.extH < d) : s.deepen d = s := by
  unfold Slope.deepen; rw [if_neg h]

theorem Slope.deepen_materials (s : Slope ℝ) (d : ℝ) : (s.deepen d).materials = s.materials := by
  unfold Slope.deepen; split <;> rfl

theorem Geo.extHpos {s : Slope ℝ} (g : Geo s) : 0 < s.extH := by
  have := g.extH5; have := g.lenPos; linarith

theorem filterMap_some {α : Type} (l : List α) : (l.map some).filterMap id = l := by
  induction l with
  | nil => rfl
  | cons a l ih => simp

theorem setMaterials_eq {s : Slope ℝ} (g : Geo s) (ms : List (Material ℝ)) (d : ℝ)
    (hd : ((s.allMats ms).map Material.depth).getLast? = some d) :
    s.setMaterials (ms.map some) =
      if ((s.allMats ms).map Material.depth).Nodup then
        (({ s.deepen d with materials := mkLayers (s.deepen d).extH 0 (s.allMats ms) } :
          Slope ℝ).resetResults, .ok ())
      else (s.deepen d, .error .valueError) := by
  unfold Slope.setMaterials
  rw [if_neg (by simp), filterMap_some]
  simp only
  rw [show (List.map Material.depth (sortByKey Material.depth
    (ms ++ s.materials.map Layer.mat))).getLast? = some d from hd]
  simp only
  have e : (if s.extH < d then s.updateBoundaryOptions .none (.num d) else (s, .ok ())) =
      (s.deepen d, .ok ()) := by
    unfold Slope.deepen
    split
    · rename_i h
      exact updateBoundaryOptions_H g d (g.extHpos.trans h)
    · rfl
  rw [e]
  simp only [Out.andThen, setSizeNum_lt_iff]
  change (if ¬ ((s.allMats ms).map Material.depth).Nodup then _ else _) = _
  by_cases h : ((s.allMats ms).map Material.depth).Nodup
  · rw [if_neg (not_not.mpr h), if_pos h]; rfl
  · rw [if_pos h, if_neg h]

theorem setMaterials_none {s : Slope ℝ} {ms : List (Option (Material ℝ))} (h : none ∈ ms) :
    s.setMaterials ms = (s, .error .valueError) := by
  unfold Slope.setMaterials
  rw [if_pos]
  simpa using h

theorem some_list {α : Type} {l : List (Option α)} (h : none ∉ l) : ∃ m : List α, l = m.map some := by
  induction l with
  | nil => exact ⟨[], rfl⟩
  | cons a l ih =>
    obtain ⟨m, rfl⟩ := ih (fun hh => h (List.mem_cons_of_mem _ hh))
    cases a with
    | none => exact absurd (List.mem_cons_self) h
    | some a => exact ⟨a :: m, rfl⟩

theorem setMaterials_empty {s : Slope ℝ} (h : s.materials = []) :
    s.setMaterials [] = (s, .error .indexError) := by
  simp [Slope.setMaterials, h, sortByKey, pySort]

theorem sorted_eq_of_perm {l l' : List ℝ} (h : l.Perm l') (a : l.Pairwise (· ≤ ·))
    (b : l'.Pairwise (· ≤ ·)) : l = l' :=
  List.Perm.eq_of_pairwise (fun _ _ _ _ h1 h2 => le_antisymm h1 h2) a b h

theorem depths_sorted (l : List (Material ℝ)) :
    ((sortByKey Material.depth l).map Material.depth).Pairwise (· ≤ ·) :=
  List.pairwise_map.mpr (sortByKey_sorted _ _)

/-- Two sorted arrangements of the same materials have the same depths, and are the same when the
depths are distinct. -/
theorem sort_perm {l l' : List (Material ℝ)} (h : l.Perm l') :
    (sortByKey Material.depth l).map Material.depth =
      (sortByKey Material.depth l').map Material.depth ∧
    (((sortByKey Material.depth l).map Material.depth).Nodup →
      sortByKey Material.depth l = sortByKey Material.depth l') := by
  have p : (sortByKey Material.depth l).Perm (sortByKey Material.depth l') :=
    (sortByKey_perm _ _).trans (h.trans (sortByKey_perm _ _).symm)
  refine ⟨sorted_eq_of_perm (p.map _) (depths_sorted _) (depths_sorted _), fun hn => ?_⟩
  have inj : ∀ a ∈ sortByKey Material.depth l, ∀ b ∈ sortByKey Material.depth l,
      a.depth = b.depth → a = b := fun a ha b hb e => List.inj_on_of_nodup_map hn ha hb e
  refine List.Perm.eq_of_pairwise (le := fun a b : Material ℝ => a.depth ≤ b.depth) ?_
    (sortByKey_sorted _ _) (sortByKey_sorted _ _) p
  intro a b ha hb h1 h2
  exact inj a ha b (p.mem_iff.mpr hb) (le_antisymm h1 h2)

/-! ## C10 -/

/-- C10: `set_materials` with the arguments in any order has the same effect and outcome. -/
theorem C10_order_irrelevant (s : Slope ℝ) (r : Reachable s) (ms ms' : List (Option (Material ℝ)))
    (p : ms.Perm ms') : s.setMaterials ms = s.setMaterials ms' := by
  have g := r.wf.geo
  by_cases h : none ∈ ms
  · rw [setMaterials_none h, setMaterials_none (p.mem_iff.mp h)]
  · obtain ⟨a, rfl⟩ := some_list h
    obtain ⟨b, rfl⟩ := some_list (fun hh => h (p.mem_iff.mpr hh))
    have p' : a.Perm b := by
      have := p.filterMap id
      rwa [filterMap_some, filterMap_some] at this
    have hp : (a ++ s.materials.map Layer.mat).Perm (b ++ s.materials.map Layer.mat) :=
      p'.append_right _
    obtain ⟨e1, e2⟩ := sort_perm hp
    cases hd : ((s.allMats a).map Material.depth).getLast? with
    | none =>
      have : a = [] ∧ s.materials = [] := by
        have := (List.getLast?_eq_none_iff.mp hd)
        have h0 : s.allMats a = [] := List.map_eq_nil_iff.mp this
        have h1 := (sortByKey_perm Material.depth (a ++ s.materials.map Layer.mat))
        change (s.allMats a).Perm _ at h1
        rw [h0] at h1
        have := h1.nil_eq
        simp at this
        exact this
      obtain ⟨rfl, _⟩ := this
      have : b = [] := p'.nil_eq.symm
      subst this; rfl
    | some d =>
      have hd' : ((s.allMats b).map Material.depth).getLast? = some d := by
        unfold Slope.allMats at hd ⊢; rw [← e1]; exact hd
      rw [setMaterials_eq g a d hd, setMaterials_eq g b d hd']
      change ((s.allMats a).map Material.depth) = ((s.allMats b).map Material.depth) at e1
      by_cases hn : ((s.allMats a).map Material.depth).Nodup
      · rw [if_pos hn, if_pos (e1 ▸ hn)]
        have e3 : s.allMats a = s.allMats b := e2 hn
        rw [e3]
      · rw [if_neg hn, if_neg (e1 ▸ hn)]

example : [some (exMat 2), some (exMat 5)].Perm [some (exMat 5), some (exMat 2)] :=
  List.Perm.swap _ _ _

/-! ## C11 -/

/-- The materials of the object after a successful `set_materials`. -/
theorem setMaterials_ok {s : Slope ℝ} (g : Geo s) (a : List (Material ℝ))
    (h : (s.setMaterials (a.map some)).2 = .ok ()) :
    ∃ d, ((s.allMats a).map Material.depth).getLast? = some d ∧
      ((s.allMats a).map Material.depth).Nodup ∧
      s.setMaterials (a.map some) =
        (({ s.deepen d with materials := mkLayers (s.deepen d).extH 0 (s.allMats a) } :
          Slope ℝ).resetResults, .ok ()) := by
  cases hd : ((s.allMats a).map Material.depth).getLast? with
  | none =>
    exfalso
    unfold Slope.setMaterials at h
    rw [if_neg (by simp), filterMap_some] at h
    simp only at h
    rw [show (List.map Material.depth (sortByKey Material.depth
      (a ++ s.materials.map Layer.mat))).getLast? = none from hd] at h
    cases h
  | some d =>
    have e := setMaterials_eq g a d hd
    by_cases hn : ((s.allMats a).map Material.depth).Nodup
    · rw [if_pos hn] at e
      exact ⟨d, rfl, hn, e⟩
    · rw [if_neg hn] at e
      rw [e] at h; cases h

theorem getLast_sorted {l : List ℝ} (h : l.Pairwise (· ≤ ·)) {d : ℝ} (hd : l.getLast? = some d) :
    d ∈ l ∧ ∀ x ∈ l, x ≤ d := by
  obtain ⟨l', rfl⟩ : ∃ l', l = l' ++ [d] := by
    obtain ⟨ys, e⟩ := List.getLast?_eq_some_iff.mp hd
    exact ⟨ys, e⟩
  refine ⟨by simp, fun x hx => ?_⟩
  rcases List.mem_append.mp hx with hx | hx
  · exact (List.pairwise_append.mp h).2.2 x hx d (by simp)
  · rw [List.mem_singleton.mp hx]

theorem mem_allMats {s : Slope ℝ} {ms : List (Material ℝ)} {m : Material ℝ} :
    m ∈ s.allMats ms ↔ m ∈ ms ∨ m ∈ s.materials.map Layer.mat := by
  rw [Slope.allMats, (sortByKey_perm _ _).mem_iff, List.mem_append]

theorem Geo.deepen_eq {s : Slope ℝ} (g : Geo s) {d : ℝ} (h : s.extH < d) :
    (s.deepen d).extH = d := by
  unfold Slope.deepen
  rw [if_pos h]
  change max (max (3 * s.height) d) (5 * s.length / 2) = d
  have := g.extH3; have := g.extH5
  rw [max_eq_right (a := 3 * s.height) (by linarith), max_eq_left (by linarith)]

theorem Geo.deepen {s : Slope ℝ} (g : Geo s) (d : ℝ) : Geo (s.deepen d) := by
  unfold Slope.deepen
  split
  · have hL := totL_ge ({ s with minExtH := d } : Slope ℝ) s.height s.length
    exact ⟨rfl, g.hgt, g.len, rfl, rfl, rfl, rfl, rfl, hL, le_max_right _ _,
      (le_max_left _ _).trans (le_max_left _ _), le_max_right _ _⟩
  · exact g

theorem deepen_ge {s : Slope ℝ} (g : Geo s) (d : ℝ) : d ≤ (s.deepen d).extH := by
  by_cases h : s.extH < d
  · rw [g.deepen_eq h]
  · unfold Slope.deepen; rw [if_neg h]; exact not_lt.mp h

theorem setMaterials_materials_irrel (s : Slope ℝ) (ms : List (Layer ℝ)) (d : ℝ) :
    ({ s with materials := ms } : Slope ℝ).deepen d = { s.deepen d with materials := ms } := by
  unfold Slope.deepen
  simp only
  split <;> rfl

/-- Deepening twice is deepening once. -/
theorem deepen_deepen {s : Slope ℝ} (g : Geo s) (d e : ℝ) (h : d ≤ e) :
    ((s.deepen d).deepen e) = s.deepen e := by
  by_cases h1 : s.extH < d
  · have h2 := g.deepen_eq h1
    have h3 : s.extH < e := lt_of_lt_of_le h1 h
    have e1 := Slope.deepen_pos h3
    have e2 := Slope.deepen_pos h1
    rcases h.lt_or_eq with h4 | h4
    · rw [Slope.deepen_pos (s := s.deepen d) (by rw [h2]; exact h4), e1, e2]
      simp only [Slope.withGeo, totH, totL, List.map_map, Function.comp_def, placeUdl, placeLl]
    · subst h4
      rw [Slope.deepen_neg (s := s.deepen d) (by rw [h2]; exact lt_irrefl _)]
  · rw [Slope.deepen_neg h1]

/-- C11: adding two lists of materials in one call or in two has the same effect, when the first
part is accepted on its own; and the outcome of the last call is the same in any case. -/
theorem C11_batch_is_incremental (s : Slope ℝ) (r : Reachable s) (a b : List (Material ℝ))
    (ha : (s.setMaterials (a.map some)).2 = .ok ()) :
    (s.setMaterials ((a ++ b).map some)).2 =
      ((s.setMaterials (a.map some)).1.setMaterials (b.map some)).2 ∧
    ((s.setMaterials ((a ++ b).map some)).2 = .ok () →
      s.setMaterials ((a ++ b).map some) =
        (s.setMaterials (a.map some)).1.setMaterials (b.map some)) := by
  have g := r.wf.geo
  obtain ⟨d, hd, hn, e⟩ := setMaterials_ok g a ha
  set t : Slope ℝ := ({ s.deepen d with materials := mkLayers (s.deepen d).extH 0 (s.allMats a) } :
          Slope ℝ).resetResults with ht
  rw [e]
  have gt : Geo t := by
    obtain ⟨a1, a2, a3, a4, a5, a6, a7, a8, a9, a10, a11, a12⟩ := g.deepen d
    exact ⟨a1, a2, a3, a4, a5, a6, a7, a8, a9, a10, a11, a12⟩
  have tm : t.materials.map Layer.mat = s.allMats a := mkLayers_mats _ _ _
  have perm : ((a ++ b) ++ s.materials.map Layer.mat).Perm (b ++ t.materials.map Layer.mat) := by
    rw [tm]
    refine ((List.perm_append_comm (l₁ := a)).append_right _).trans ?_
    rw [List.append_assoc]
    exact (sortByKey_perm _ _).symm.append_left b
  obtain ⟨e1, e2⟩ := sort_perm perm
  change (s.allMats (a ++ b)).map Material.depth = (t.allMats b).map Material.depth at e1
  change ((s.allMats (a ++ b)).map Material.depth).Nodup → s.allMats (a ++ b) = t.allMats b at e2
  have hdm := getLast_sorted (depths_sorted _) hd
  obtain ⟨d', hd'⟩ : ∃ d', ((s.allMats (a ++ b)).map Material.depth).getLast? = some d' := by
    cases h : ((s.allMats (a ++ b)).map Material.depth).getLast? with
    | some d' => exact ⟨d', rfl⟩
    | none =>
      exfalso
      have h0 := List.map_eq_nil_iff.mp (List.getLast?_eq_none_iff.mp h)
      obtain ⟨m, hm, _⟩ := List.mem_map.mp hdm.1
      have : m ∈ s.allMats (a ++ b) := by
        rw [mem_allMats]
        rcases mem_allMats.mp hm with h | h
        · exact .inl (List.mem_append_left _ h)
        · exact .inr h
      rw [h0] at this; cases this
  have hdm' := getLast_sorted (depths_sorted _) hd'
  have hle : d ≤ d' := by
    apply hdm'.2
    obtain ⟨m, hm, rfl⟩ := List.mem_map.mp hdm.1
    refine List.mem_map.mpr ⟨m, ?_, rfl⟩
    change m ∈ s.allMats (a ++ b)
    rw [mem_allMats]
    rcases mem_allMats.mp hm with h | h
    · exact .inl (List.mem_append_left _ h)
    · exact .inr h
  have q1 := setMaterials_eq g (a ++ b) d' hd'
  have q2 := setMaterials_eq gt b d' (e1 ▸ hd')
  by_cases hnn : ((s.allMats (a ++ b)).map Material.depth).Nodup
  · rw [if_pos hnn] at q1
    rw [if_pos (e1 ▸ hnn)] at q2
    rw [q1, q2]
    refine ⟨rfl, fun _ => ?_⟩
    have e3 := e2 hnn
    have e4 : ({ t.deepen d' with materials := mkLayers (t.deepen d').extH 0 (t.allMats b) } :
        Slope ℝ).resetResults =
        (({ ((s.deepen d).deepen d') with materials :=
          (mkLayers ((s.deepen d).deepen d').extH 0 (t.allMats b)) } : Slope ℝ)).resetResults := by
      by_cases hh : (s.deepen d).extH < d'
      · rw [Slope.deepen_pos hh, Slope.deepen_pos (s := t) hh]; rfl
      · rw [Slope.deepen_neg hh, Slope.deepen_neg (s := t) hh]; rfl
    rw [e4, deepen_deepen g d d' hle, e3]
  · rw [if_neg hnn] at q1
    rw [if_neg (e1 ▸ hnn)] at q2
    rw [q1, q2]
    exact ⟨rfl, fun h => by cases h⟩

/-- One material on an empty slope. -/
theorem setMaterials_one {s : Slope ℝ} (g : Geo s) (h : s.materials = []) (m : Material ℝ) :
    s.setMaterials [some m] =
      (({ s.deepen m.depth with materials := [mkLayer (s.deepen m.depth).extH 0 m] } :
          Slope ℝ).resetResults, .ok ()) := by
  have e : s.allMats [m] = [m] := by
    simp [Slope.allMats, h, sortByKey, pySort]
  have := setMaterials_eq g [m] m.depth (by rw [e]; rfl)
  rw [e, if_pos (by simp)] at this
  exact this

example : (exSlope.setMaterials ([exMat 2].map some)).2 = .ok () := by
  rw [List.map_singleton, setMaterials_one exSlope_reachable.wf.geo rfl]

/-! ## C12 -/

/-- C12: when a depth is given twice, or is already used, `set_materials` raises `ValueError` and
the materials are unchanged. -/
theorem C12_duplicate_refused (s : Slope ℝ) (r : Reachable s) (ms : List (Material ℝ))
    (dup : ¬ (ms.map Material.depth ++ s.materials.map (fun l => l.mat.depth)).Nodup) :
    (s.setMaterials (ms.map some)).2 = .error .valueError ∧
    (s.setMaterials (ms.map some)).1.materials = s.materials := by
  have g := r.wf.geo
  have hp : ((s.allMats ms).map Material.depth).Perm
      (ms.map Material.depth ++ s.materials.map (fun l => l.mat.depth)) := by
    have := (sortByKey_perm Material.depth (ms ++ s.materials.map Layer.mat)).map Material.depth
    rw [List.map_append, List.map_map] at this
    exact this
  have hn : ¬ ((s.allMats ms).map Material.depth).Nodup := fun h => dup (hp.nodup_iff.mp h)
  cases hd : ((s.allMats ms).map Material.depth).getLast? with
  | none =>
    rw [List.getLast?_eq_none_iff] at hd
    rw [hd] at hn
    simp at hn
  | some d =>
    rw [setMaterials_eq g ms d hd, if_neg hn]
    exact ⟨rfl, s.deepen_materials d⟩

/-- **C12.** When no two depths are equal the call is accepted, and the materials the slope then
holds are the ones given and the ones it held, each once, from the shallowest to the deepest. -/
theorem C12_accepted_otherwise (s : Slope ℝ) (r : Reachable s) (ms : List (Material ℝ))
    (some_material : ms ≠ [] ∨ s.materials ≠ [])
    (distinct : (ms.map Material.depth ++ s.materials.map (fun l => l.mat.depth)).Nodup) :
    (s.setMaterials (ms.map some)).2 = .ok () ∧
    ((s.setMaterials (ms.map some)).1.materials.map Layer.mat).Perm
      (ms ++ s.materials.map Layer.mat) ∧
    ((s.setMaterials (ms.map some)).1.materials.map (fun l => l.mat.depth)).Pairwise (· < ·) := by
  have g := r.wf.geo
  have hm := sortByKey_perm Material.depth (ms ++ s.materials.map Layer.mat)
  have hp : ((s.allMats ms).map Material.depth).Perm
      (ms.map Material.depth ++ s.materials.map (fun l => l.mat.depth)) := by
    have := hm.map Material.depth
    rw [List.map_append, List.map_map] at this
    exact this
  have hn : ((s.allMats ms).map Material.depth).Nodup := hp.nodup_iff.mpr distinct
  have lay : ∀ (h : ℝ) (l : List (Material ℝ)) (i : ℕ), (mkLayers h i l).map Layer.mat = l := by
    intro h l
    induction l with
    | nil => intro i; rfl
    | cons a l ih => intro i; simp only [mkLayers, List.map_cons, ih]; rfl
  cases hd : ((s.allMats ms).map Material.depth).getLast? with
  | none =>
    rw [List.getLast?_eq_none_iff, List.map_eq_nil_iff] at hd
    have := hm.length_eq
    rw [show sortByKey Material.depth (ms ++ s.materials.map Layer.mat) = [] from hd] at this
    simp at this
    rcases some_material with h | h
    · exact absurd (List.length_eq_zero_iff.mp (by omega)) h
    · exact absurd (List.length_eq_zero_iff.mp (by omega)) h
  | some d =>
    rw [setMaterials_eq g ms d hd, if_pos hn]
    refine ⟨rfl, ?_, ?_⟩
    · change ((mkLayers _ 0 (s.allMats ms)).map Layer.mat).Perm _
      rw [lay]; exact hm
    · change ((mkLayers _ 0 (s.allMats ms)).map (Material.depth ∘ Layer.mat)).Pairwise (· < ·)
      rw [← List.map_map, lay]
      have h1 := depths_sorted (ms ++ s.materials.map Layer.mat)
      exact (h1.and hn).imp fun h => lt_of_le_of_ne h.1 h.2

/-- Two materials at different depths meet the hypotheses of the last theorem. -/
example : ([exMat 2, exMat 3] ≠ [] ∨ exSlope.materials ≠ []) ∧
    (([exMat 2, exMat 3].map Material.depth) ++
      exSlope.materials.map (fun l => l.mat.depth)).Nodup := by
  refine ⟨.inl (by simp), ?_⟩
  have : exSlope.materials = [] := rfl
  rw [this]
  simp [exMat]

/-- Two materials at the same depth meet the hypothesis of C12. -/
example : ¬ (([exMat 2, exMat 2].map Material.depth) ++
    exSlope.materials.map (fun l => l.mat.depth)).Nodup := by simp

/-- Side finding: a refused call may still enlarge the model. -/
theorem C12_refused_still_enlarges :
    ∃ (s : Slope ℝ) (ms : List (Option (Material ℝ))), Reachable s ∧
      (∀ m, some m ∈ ms → Material.Constructed m) ∧
      (s.setMaterials ms).2 = .error .valueError ∧ (s.setMaterials ms).1.extH ≠ s.extH := by
  refine ⟨exSlope, [exMat 20, exMat 20].map some, exSlope_reachable, ?_, ?_, ?_⟩
  · intro m hm; simp at hm; subst hm; exact exMat_constructed _
  · exact (C12_duplicate_refused exSlope exSlope_reachable _ (by simp)).1
  · have hp := sortByKey_perm Material.depth [exMat 20, exMat 20]
    have e : exSlope.allMats [exMat 20, exMat 20] = [exMat 20, exMat 20] := by
      have : exSlope.allMats [exMat 20, exMat 20] = sortByKey Material.depth
        [exMat 20, exMat 20] := by simp [Slope.allMats]
      rw [this]
      exact (List.perm_replicate (n := 2) (a := exMat 20)).mp hp
    have h20 : (exMat 20).depth = 20 := by simp [exMat]
    rw [setMaterials_eq exSlope_reachable.wf.geo _ 20 (by rw [e]; simp [h20]), e,
      if_neg (by simp)]
    change (exSlope.deepen 20).extH ≠ _
    rw [exSlope_reachable.wf.geo.deepen_eq (by simp; norm_num)]
    simp

/-! ## C13 -/

theorem mkLayers_depth (H : ℝ) (i : Nat) (ms : List (Material ℝ)) :
    (mkLayers H i ms).map (fun l => l.mat.depth) = ms.map Material.depth := by
  have := congrArg (List.map Material.depth) (mkLayers_mats H i ms)
  rwa [List.map_map] at this

/-- Removing the layer at a depth from layers with distinct depths. -/
theorem remove_at {L : List (Layer ℝ)} (hs : L.Pairwise (fun a b => a.mat.depth < b.mat.depth))
    {x : Layer ℝ} (hx : L.find? (fun l => pyEq l.mat.depth x.mat.depth) = some x) :
    removeFirst (x.eq ·) L = L.filter (fun l => l.mat.depth ≠ x.mat.depth) := by
  induction L with
  | nil => cases hx
  | cons y L ih =>
    rw [List.pairwise_cons] at hs
    by_cases h : y.mat.depth = x.mat.depth
    · simp [h] at hx
      subst hx
      simp only [removeFirst]
      rw [if_pos (by simp [Layer.eq]), List.filter_cons_of_neg (by simp)]
      symm
      rw [List.filter_eq_self]
      intro a ha
      simpa using (hs.1 a ha).ne'
    · simp [h] at hx
      simp only [removeFirst]
      rw [if_neg (by simp [Layer.eq]; intro _ _ _ hh; exact absurd hh.symm h),
        List.filter_cons_of_pos (by simpa using h)]
      congr 1
      exact ih hs.2 (by simpa using hx)

/-- C13 (partial): adding a material at a new depth and removing it, by the material or by its
depth, leaves the materials from before. Missing: a material at depth 0 is never removed
(`C13_depth_zero_stays`). -/
theorem C13_remove_undoes_add_partial (s : Slope ℝ) (r : Reachable s) (m : Material ℝ)
    (h0 : m.depth ≠ 0) (hnew : ∀ l ∈ s.materials, l.mat.depth ≠ m.depth) :
    (s.setMaterials [some m]).2 = .ok () ∧
    ((s.setMaterials [some m]).1.removeMaterial (some m) none false).1.materials.map Layer.mat =
      s.materials.map Layer.mat ∧
    ((s.setMaterials [some m]).1.removeMaterial none (some m.depth) false).1.materials.map
      Layer.mat = s.materials.map Layer.mat := by
  have g := r.wf.geo
  have hp : (s.allMats [m]).Perm ([m] ++ s.materials.map Layer.mat) := sortByKey_perm _ _
  have hn : ((s.allMats [m]).map Material.depth).Nodup := by
    rw [(hp.map Material.depth).nodup_iff, List.map_append, List.map_map]
    refine List.nodup_append.mpr ⟨by simp, ?_, ?_⟩
    · exact (List.pairwise_map.mpr r.wf.mats).imp ne_of_lt
    · intro a ha b hb
      simp at ha hb
      obtain ⟨l, hl, rfl⟩ := hb
      subst ha
      exact (hnew l hl).symm
  have hmem : m ∈ s.allMats [m] := mem_allMats.mpr (.inl (by simp))
  obtain ⟨d, hd⟩ : ∃ d, ((s.allMats [m]).map Material.depth).getLast? = some d := by
    cases h : ((s.allMats [m]).map Material.depth).getLast? with
    | some d => exact ⟨d, rfl⟩
    | none =>
      have h0 := List.map_eq_nil_iff.mp (List.getLast?_eq_none_iff.mp h)
      rw [h0] at hmem; cases hmem
  have e := setMaterials_eq g [m] d hd
  rw [if_pos hn] at e
  change s.setMaterials [some m] = _ at e
  set L := mkLayers (s.deepen d).extH 0 (s.allMats [m]) with hL
  have hstrict : L.Pairwise (fun a b => a.mat.depth < b.mat.depth) := mkLayers_strict _ _ hn
  have hLm : L.map Layer.mat = s.allMats [m] := mkLayers_mats _ _ _
  have hfind : ∃ x, L.find? (fun l => pyEq l.mat.depth m.depth) = some x ∧
      x.mat.depth = m.depth := by
    obtain ⟨y, hy, hym⟩ := List.mem_map.mp (hLm ▸ hmem)
    cases hf : L.find? (fun l => pyEq l.mat.depth m.depth) with
    | none =>
      have := List.find?_eq_none.mp hf y hy
      simp [hym] at this
    | some x =>
      exact ⟨x, rfl, by simpa using List.find?_some hf⟩
  obtain ⟨x, hx, hxd⟩ := hfind
  have hrem : removeFirst (x.eq ·) L = L.filter (fun l => l.mat.depth ≠ x.mat.depth) :=
    remove_at hstrict (by rw [hxd]; exact hx)
  have hfin : (removeFirst (x.eq ·) L).map Layer.mat = s.materials.map Layer.mat := by
    rw [hrem, hxd]
    have h1 : (L.filter (fun l => l.mat.depth ≠ m.depth)).map Layer.mat =
        (s.allMats [m]).filter (fun a => a.depth ≠ m.depth) := by
      rw [← hLm, List.filter_map]; rfl
    rw [h1]
    have h2 := hp.filter (fun a => a.depth ≠ m.depth)
    have h3 : ([m] ++ s.materials.map Layer.mat).filter (fun a => a.depth ≠ m.depth) =
        s.materials.map Layer.mat := by
      rw [List.singleton_append, List.filter_cons_of_neg (by simp), List.filter_eq_self]
      intro a ha
      obtain ⟨l, hl, rfl⟩ := List.mem_map.mp ha
      simpa using hnew l hl
    rw [h3] at h2
    refine List.Perm.eq_of_pairwise (le := fun a b : Material ℝ => a.depth < b.depth) ?_ ?_ ?_ h2
    · intro a b _ _ h1 h2; exact absurd h2 (not_lt.mpr h1.le)
    · have := List.pairwise_map.mp ((List.pairwise_map (f := Layer.mat)
        (R := fun a b : Material ℝ => a.depth < b.depth)).mpr hstrict |> fun h => by
          rw [hLm] at h; exact (List.pairwise_map (f := id)
            (R := fun a b : Material ℝ => a.depth < b.depth)).mpr h)
      exact List.Pairwise.filter _ this
    · exact List.pairwise_map.mpr r.wf.mats
  rw [e]
  refine ⟨rfl, ?_, ?_⟩
  · simp only [Slope.removeMaterial, Slope.resetResults]
    rw [hx]
    simp only
    rw [if_neg (by simp), if_neg (by simpa using h0)]
    exact hfin
  · simp only [Slope.removeMaterial, Slope.resetResults]
    rw [hx]
    simp only
    rw [if_neg (by simp), if_neg (by simpa using h0)]
    exact hfin

/-- A material meeting the hypotheses of C13. -/
example : (exMat 2).depth ≠ 0 ∧ ∀ l ∈ exSlope.materials, l.mat.depth ≠ (exMat 2).depth := by
  simp [exMat]

/-- C13 is violated at depth 0: the material cannot be removed, not even with the call that
removes that material or that depth. -/
theorem C13_depth_zero_stays :
    ∃ (s : Slope ℝ) (m : Material ℝ), Reachable s ∧ Material.Constructed m ∧
      (s.setMaterials [some m]).2 = .ok () ∧ s.materials = [] ∧
      ((s.setMaterials [some m]).1.removeMaterial (some m) none false).1.materials ≠ [] ∧
      ((s.setMaterials [some m]).1.removeMaterial none (some 0) false).1.materials ≠ [] := by
  refine ⟨exSlope, exMat 0, exSlope_reachable, exMat_constructed 0, ?_, rfl, ?_, ?_⟩ <;>
    rw [setMaterials_one exSlope_reachable.wf.geo rfl]
  · simp [Slope.removeMaterial, Slope.resetResults, exMat]
  · simp [Slope.removeMaterial, Slope.resetResults]

/-! ## C14 -/

/-- Every layer bottom is at crest level minus the depth of the layer, and inside the model. -/
def LevelsAgree (s : Slope ℝ) : Prop :=
  ∀ l ∈ s.materials, l.rl = s.topY - l.mat.depth ∧ l.mat.depth ≤ s.topY

theorem mkLayers_rl (H : ℝ) (i : Nat) (ms : List (Material ℝ)) :
    ∀ l ∈ mkLayers H i ms, l.rl = H - l.mat.depth ∧ l.mat ∈ ms := by
  induction ms generalizing i with
  | nil => intro l hl; cases hl
  | cons m ms ih =>
    intro l hl
    rcases List.mem_cons.mp hl with rfl | hl
    · exact ⟨rfl, by simp [mkLayer]⟩
    · obtain ⟨h1, h2⟩ := ih (i + 1) l hl
      exact ⟨h1, List.mem_cons_of_mem _ h2⟩

theorem setMaterials_levels {s : Slope ℝ} (w : WF s) (ms : List (Option (Material ℝ)))
    (h : (s.setMaterials ms).2 = .ok ()) : LevelsAgree (s.setMaterials ms).1 := by
  by_cases hn : none ∈ ms
  · rw [setMaterials_none hn] at h; cases h
  · obtain ⟨a, rfl⟩ := some_list hn
    obtain ⟨d, hd, _, e⟩ := setMaterials_ok w.geo a h
    rw [e]
    have g := w.geo.deepen d
    intro l hl
    obtain ⟨h1, h2⟩ := mkLayers_rl _ _ _ l hl
    have h3 := (getLast_sorted (depths_sorted _) hd).2 _ (List.mem_map_of_mem h2)
    have h4 := deepen_ge w.geo d
    have h5 : (s.deepen d).topY = (s.deepen d).extH := g.topY
    constructor
    · change l.rl = (s.deepen d).topY - _
      rw [h1, h5]
    · change _ ≤ (s.deepen d).topY
      rw [h5]; exact h3.trans h4

theorem setMaterials_error {s : Slope ℝ} (w : WF s) (ms : List (Option (Material ℝ)))
    (h : (s.setMaterials ms).2 ≠ .ok ()) : (s.setMaterials ms).1.materials = s.materials := by
  by_cases hn : none ∈ ms
  · rw [setMaterials_none hn]
  · obtain ⟨a, rfl⟩ := some_list hn
    cases hd : ((s.allMats a).map Material.depth).getLast? with
    | none =>
      unfold Slope.setMaterials
      rw [if_neg (by simp), filterMap_some]
      simp only
      rw [show (List.map Material.depth (sortByKey Material.depth
        (a ++ s.materials.map Layer.mat))).getLast? = none from hd]
    | some d =>
      have e := setMaterials_eq w.geo a d hd
      by_cases hnn : ((s.allMats a).map Material.depth).Nodup
      · rw [if_pos hnn] at e; rw [e] at h; exact absurd rfl h
      · rw [if_neg hnn] at e; rw [e]; exact s.deepen_materials d

/-- What a call does to the layers. -/
theorem call_materials {s t : Slope ℝ} (w : WF s) (c : Call s t) :
    t.materials.Sublist s.materials ∨ LevelsAgree t := by
  have S := stable_materials s.materials
  have key : t.materials = s.materials → t.materials.Sublist s.materials ∨ LevelsAgree t :=
    fun h => .inl (h ▸ List.Sublist.refl _)
  cases c with
  | setExternalBoundary h a l => exact key (S.setExternalBoundary rfl _ _ _)
  | setWaterTable d => exact key (by unfold Slope.setWaterTable; split <;> [rfl; (split <;> rfl)])
  | removeWaterTable => exact key rfl
  | setUdls us _ => exact key (S.setUdls rfl _)
  | removeUdls us all => exact key (S.removeUdls rfl _ _)
  | setLls ls _ => exact key (S.setLls rfl _)
  | removeLls ls all => exact key (S.removeLls rfl _ _)
  | setMaterials ms _ =>
    by_cases h : (s.setMaterials ms).2 = .ok ()
    · exact .inr (setMaterials_levels w ms h)
    · exact key (setMaterials_error w ms h)
  | removeMaterial m d all =>
    left
    unfold Slope.removeMaterial Slope.resetResults
    cases all
    · simp only [Bool.false_eq_true, if_false]
      split
      · exact List.Sublist.refl _
      · split
        · exact List.Sublist.refl _
        · split
          · exact List.Sublist.refl _
          · exact removeFirst_sublist _ _
    · simp
  | updateWaterAnalysisOptions a h =>
    exact key (by unfold Slope.updateWaterAnalysisOptions; split <;> [rfl; (split <;> rfl)])
  | updateAnalysisOptions a b c d e =>
    refine key ?_
    unfold Slope.updateAnalysisOptions Slope.resetResults
    rcases a with _ | n <;> rcases b with _ | m <;> rcases c with _ | _ <;>
      rcases d with _ | _ <;> rcases e with _ | _ <;> simp only <;> (repeat' split) <;> rfl
  | updateBoundaryOptions l h => exact key (S.updateBoundaryOptions rfl _ _)
  | removeAnalysisLimits =>
    refine key ?_
    rw [removeAnalysisLimits_eq]
    · have := w.l1; have := w.l12; have := w.l2; linarith
    · have := w.l3; have := w.l34; have := w.l4; linarith
  | setAnalysisLimits a b c d =>
    refine key ?_
    unfold Slope.setAnalysisLimits
    simp only
    split
    · rename_i s' e
      simp only [bind, Except.bind] at e
      repeat' split at e
      all_goals first | (cases e; done) | skip
      all_goals (simp only [pure, Except.pure, throw, throwThe, MonadExceptOf.throw] at e)
      all_goals first
        | (cases e; rfl)
        | skip
    · rfl
  | addSingleEntryExitPlane l r n => exact key (S.singleEntryExit rfl _ _ _)
  | addSingleCircularPlane x y r => exact key (S.singleCircular rfl _ _ _)
  | removeIndividualPlanes => exact key rfl
  | analyseSlope m => exact key (S.analyseSlope rfl _)
  | analyseDynamic c d => exact key (S.analyseDynamic rfl _ _)

/-- C14 (partial): once the layer levels agree with the crest (in particular on a new slope), they
agree after any history of calls that leaves the crest level alone; and they agree after every
successful `set_materials` whatever came before. Missing: a call that changes the crest level
leaves the layers where they were (`C14_levels_stale`). -/
theorem C14_levels_agree_partial :
    (∀ s t : Slope ℝ, Reachable s → LevelsAgree s →
      Relation.ReflTransGen (fun a b => Call a b ∧ b.topY = a.topY) s t → LevelsAgree t) ∧
    (∀ h a l (s : Slope ℝ), Slope.new h a l = .ok s → LevelsAgree s) ∧
    (∀ (s : Slope ℝ) ms, Reachable s → (s.setMaterials ms).2 = .ok () →
      LevelsAgree (s.setMaterials ms).1) := by
  refine ⟨?_, ?_, fun s ms r h => setMaterials_levels r.wf ms h⟩
  · intro s t r h hist
    have : Reachable t ∧ LevelsAgree t := by
      induction hist with
      | refl => exact ⟨r, h⟩
      | tail _ c ih =>
        obtain ⟨r', h'⟩ := ih
        refine ⟨r'.call c.1, ?_⟩
        rcases call_materials r'.wf c.1 with hs | hs
        · intro l hl
          rw [c.2]; exact h' l (hs.subset hl)
        · exact hs
    exact this.2
  · intro h a l s e
    rw [new_eq] at e
    split at e
    · cases e
    · cases e
      intro x hx; cases hx

/-- C14 is violated: after `set_materials` and then a new boundary with another height, a layer
bottom is not at crest level minus its depth. -/
theorem C14_levels_stale :
    ∃ s : Slope ℝ, Reachable s ∧ ¬ LevelsAgree s := by
  refine ⟨((exSlope.setMaterials [some (exMat 2)]).1.setExternalBoundary (.num 6) (.num 30)
    (.num 3)).1, (exSlope_reachable.call (.setMaterials _ _ ?_)).call
      (.setExternalBoundary _ _ _ _), ?_⟩
  · intro m hm; simp at hm; subst hm; exact exMat_constructed _
  · rw [setMaterials_one exSlope_reachable.wf.geo rfl, setExternalBoundary_len _ _ _ (by norm_num)
      (by norm_num) (by norm_num)]
    intro h
    have h2 := (h _ (List.mem_singleton.mpr rfl)).1
    have e : exSlope.deepen (exMat 2).depth = exSlope := by
      unfold Slope.deepen; rw [if_neg]; simp [exMat]; norm_num
    rw [e] at h2
    change exSlope.extH - (exMat 2).depth = max (max (3 * 6) 6) (5 * (max 3 0.001) / 2) -
      (exMat 2).depth at h2
    simp at h2
    norm_num at h2

end PySlope
