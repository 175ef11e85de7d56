import Verif.Props.AnyArith

/-! # The shape of a slope in double precision is kept by every call -/

namespace PySlope
open Lit

namespace F64
variable {A : Machine}

theorem ext {a b : F64 A} (h : a.val = b.val) : a = b := Subtype.ext h

theorem rnd_val (a : F64 A) : A.rnd a.val = a.val := A.rounds.exact a.2

theorem val_small (n : ℕ) (h : n < 2 ^ 53) : (@OfNat.ofNat (F64 A) n (Lit.natLit n)).val = n := by
  rw [val_lit]; exact A.rounds.exact_nat n h

@[simp] theorem val_zero : (@OfNat.ofNat (F64 A) 0 (Lit.natLit 0)).val = 0 := by
  rw [val_small 0 (by norm_num)]; norm_num

theorem pyEq_eq (a b : F64 A) : pyEq a b = true ↔ a = b := by
  rw [pyEq_iff, decide_eq_true_iff]; exact ⟨ext, fun h => by rw [h]⟩

/-- Rounding is below the machine's precision. -/
theorem rnd_bounds {x : ℝ} (h : 0 ≤ x) : x - x / 2 ^ 53 ≤ A.rnd x ∧ A.rnd x ≤ x + x / 2 ^ 53 := by
  have := A.rounds.error x
  rw [abs_of_nonneg h, abs_le] at this
  constructor <;> linarith [this.1, this.2]

theorem rnd_coarse {x : ℝ} (h : 0 ≤ x) : 0.99 * x ≤ A.rnd x ∧ A.rnd x ≤ 1.01 * x := by
  obtain ⟨h1, h2⟩ := rnd_bounds (A := A) h
  have h3 : x / 2 ^ 53 ≤ x * 0.01 := by
    rw [div_eq_mul_inv]; exact mul_le_mul_of_nonneg_left (by norm_num) h
  constructor <;> nlinarith

theorem rnd_nonneg {x : ℝ} (h : 0 ≤ x) : 0 ≤ A.rnd x := by
  have := (rnd_coarse (A := A) h).1
  nlinarith

/-- A machine number below a real number stays below its rounding. -/
theorem le_rnd (a : F64 A) {x : ℝ} (h : a.val ≤ x) : a.val ≤ A.rnd x := by
  rw [← rnd_val a]; exact A.rounds.mono h

theorem rnd_le (a : F64 A) {x : ℝ} (h : x ≤ a.val) : A.rnd x ≤ a.val := by
  rw [← rnd_val a]; exact A.rounds.mono h

/-- The crest and the toe as the machine computes them. -/
theorem crest_toe (T l : F64 A) (hl : 0 < l.val) (h5 : (5 * l).val ≤ T.val) :
    0 < ((T - l) / 2).val ∧ ((T - l) / 2).val < T.val ∧
    ((T - l) / 2).val ≤ ((T - l) / 2 + l).val ∧ ((T - l) / 2 + l).val < T.val ∧
    |((T - l) / 2 + l).val - ((T - l) / 2).val - l.val| ≤ T.val / 2 ^ 53 ∧
    |((T - l) / 2 + l).val + ((T - l) / 2).val - T.val| ≤ T.val / 2 ^ 50 := by
  have e5 : (5 * l).val = A.rnd (5 * l.val) := by
    rw [val_mul, val_small 5 (by norm_num)]; norm_num
  have e2 : ((T - l) / 2).val = A.rnd (A.rnd (T.val - l.val) / 2) := by
    rw [val_div, val_sub, val_small 2 (by norm_num)]; norm_num
  rw [e5] at h5
  have b5 := (rnd_coarse (A := A) (x := 5 * l.val) (by linarith)).1
  have hT : 4.9 * l.val ≤ T.val := by norm_num at b5 ⊢; linarith
  have hTl : 0 < T.val - l.val := by norm_num at hT; linarith
  obtain ⟨d1, d2⟩ := rnd_coarse (A := A) hTl.le
  obtain ⟨d1', d2'⟩ := rnd_bounds (A := A) hTl.le
  generalize hD : A.rnd (T.val - l.val) = D at *
  have hD0 : 0 < D := by norm_num at d1; linarith
  obtain ⟨x1, x2⟩ := rnd_coarse (A := A) (x := D / 2) (by linarith)
  obtain ⟨x1', x2'⟩ := rnd_bounds (A := A) (x := D / 2) (by linarith)
  rw [val_add, e2]
  generalize hX : A.rnd (D / 2) = X at *
  have hX0 : 0 < X := by norm_num at x1; linarith
  obtain ⟨y1, y2⟩ := rnd_coarse (A := A) (x := X + l.val) (by linarith)
  obtain ⟨y1', y2'⟩ := rnd_bounds (A := A) (x := X + l.val) (by linarith)
  have hXT : X + l.val ≤ 0.9 * T.val := by norm_num at *; linarith
  have hT0 : 0 < T.val := by norm_num at hT; linarith
  refine ⟨hX0, by norm_num at *; linarith, ?_, by norm_num at *; linarith, ?_, ?_⟩
  · have := le_rnd ((T - l) / 2) (x := X + l.val) (by rw [e2]; linarith)
    rwa [e2] at this
  · generalize A.rnd (X + l.val) = Y at *
    have q : (X + l.val) / 2 ^ 53 ≤ T.val / 2 ^ 53 :=
      div_le_div_of_nonneg_right (by norm_num at hXT ⊢; linarith) (by positivity)
    rw [abs_le]; constructor <;> linarith
  · generalize A.rnd (X + l.val) = Y at *
    rw [abs_le]; constructor <;> (norm_num at *; linarith)

end F64


/-! ## Sorting -/

section Sorting
variable {K : Type} [PyNum K]

theorem setSizeNum_go_any (he : ∀ a b : K, pyEq a b = true ↔ a = b) (l acc : List K) :
    let r := l.foldl (fun acc p => if acc.any (fun q => pyEq p q) then acc else acc ++ [p]) acc
    r.length ≤ acc.length + l.length ∧
      (r.length = acc.length + l.length → l.Nodup ∧ ∀ x ∈ l, x ∉ acc) := by
  induction l generalizing acc with
  | nil => simp
  | cons x l ih =>
    simp only [List.foldl_cons]
    by_cases hx : x ∈ acc
    · have : (acc.any fun q => pyEq x q) = true := by
        rw [List.any_eq_true]; exact ⟨x, hx, (he x x).mpr rfl⟩
      simp only [this, if_true]
      obtain ⟨h2, _⟩ := ih acc
      refine ⟨by simp only [List.length_cons]; omega, ?_⟩
      intro h; simp only [List.length_cons] at h; omega
    · have : (acc.any fun q => pyEq x q) = false := by
        rw [Bool.eq_false_iff]
        intro h
        obtain ⟨q, hq, e⟩ := List.any_eq_true.mp h
        rw [he] at e
        exact hx (e ▸ hq)
      simp only [this, Bool.false_eq_true, if_false]
      obtain ⟨h2, h3⟩ := ih (acc ++ [x])
      simp only [List.length_append, List.length_cons, List.length_nil] at h2 h3 ⊢
      refine ⟨by omega, fun h => ?_⟩
      obtain ⟨n, d⟩ := h3 (by omega)
      refine ⟨List.nodup_cons.mpr ⟨fun h => d x h (by simp), n⟩, ?_⟩
      intro y hy
      rcases List.mem_cons.mp hy with rfl | hy
      · exact hx
      · exact fun h => d y hy (by simp [h])

theorem setSizeNum_nodup_any (he : ∀ a b : K, pyEq a b = true ↔ a = b) {l : List K}
    (h : ¬ setSizeNum l < l.length) : l.Nodup := by
  obtain ⟨h2, h3⟩ := setSizeNum_go_any he l []
  simp only [List.length_nil, Nat.zero_add] at h2 h3
  change ¬ List.length (List.foldl _ [] l) < l.length at h
  exact (h3 (by omega)).1

theorem mkLayers_mats_any (H : K) (i : Nat) (ms : List (Material K)) :
    (mkLayers H i ms).map Layer.mat = ms := by
  induction ms generalizing i with
  | nil => rfl
  | cons m ms ih => simp [mkLayers, mkLayer, ih]

end Sorting

theorem F64.sorted {A : Machine} {α : Type} (k : α → F64 A) (l : List α) :
    (sortByKey k l).Pairwise (fun a b => (k a).val ≤ (k b).val) := by
  have h := List.pairwise_mergeSort (le := fun a b => !(decide (k b < k a)))
    (by intro a b c; simp [F64.lt_iff]; intro h1 h2; exact h1.trans h2)
    (by intro a b; simp [F64.lt_iff]; exact le_total _ _) l
  refine h.imp ?_
  intro a b hab; simpa [F64.lt_iff] using hab

/-! ## The invariant -/

/-- The shape of a slope in double precision. -/
structure DWF {A : Machine} (s : Slope (F64 A)) : Prop where
  bnd : s.extBoundary = some [(0, 0), (0, s.topY), (s.topX, s.topY), (s.botX, s.botY),
    (s.extL, s.botY), (s.extL, 0), (0, 0)]
  hgt : 0 ≤ s.height.val
  len : A.rnd 0.001 ≤ s.length.val
  topX : s.topX = (s.extL - s.length) / 2
  topY : s.topY = s.extH
  botX : s.botX = s.topX + s.length
  botY : s.botY = s.extH - s.height
  extL5 : (5 * s.length).val ≤ s.extL.val
  extH3 : (3 * s.height).val ≤ s.extH.val
  extH5 : (5 * s.length / 2).val ≤ s.extH.val
  minL : 0 ≤ s.minExtL.val
  minH : 0 ≤ s.minExtH.val
  l1 : 0 ≤ s.lim1.val
  l12 : s.lim1.val < s.lim2.val
  l2 : s.lim2.val ≤ s.topX.val
  l3 : s.topX.val ≤ s.lim3.val
  l34 : s.lim3.val < s.lim4.val
  l4 : s.lim4.val ≤ s.extL.val
  udl : ∀ p ∈ s.udls, p = placeUdl s.topX p.load
  ll : ∀ p ∈ s.lls, p = placeLl s.topX p.load
  mats : s.materials.Pairwise (fun a b => a.mat.depth.val < b.mat.depth.val)

section Calls
variable {A : Machine}

/-- The parts of a state the invariant reads. -/
def SameForm (s t : Slope (F64 A)) : Prop :=
  t.extBoundary = s.extBoundary ∧ t.height = s.height ∧ t.length = s.length ∧
  t.topX = s.topX ∧ t.topY = s.topY ∧ t.botX = s.botX ∧
  t.botY = s.botY ∧ t.extL = s.extL ∧ t.extH = s.extH ∧ t.lim1 = s.lim1 ∧ t.lim2 = s.lim2 ∧
  t.lim3 = s.lim3 ∧ t.lim4 = s.lim4 ∧ t.minExtL = s.minExtL ∧ t.minExtH = s.minExtH ∧
  t.udls = s.udls ∧ t.lls = s.lls ∧ t.materials = s.materials

theorem DWF.congr {s t : Slope (F64 A)} (w : DWF s) (h : SameForm s t) : DWF t := by
  obtain ⟨h1, h2, h3, h4, h5, h6, h7, h8, h9, h10, h11, h12, h13, h14, h15, h16, h17, h18⟩ := h
  obtain ⟨a1, a2, a3, a4, a5, a6, a7, a8, a9, a10, a11, a12, b1, b2, b3, b4, b5, b6, b7, b8, b9⟩ := w
  refine ⟨?_, ?_, ?_, ?_, ?_, ?_, ?_, ?_, ?_, ?_, ?_, ?_, ?_, ?_, ?_, ?_, ?_, ?_, ?_, ?_, ?_⟩ <;>
    simp only [h1, h2, h3, h4, h5, h6, h7, h8, h9, h10, h11, h12, h13, h14, h15,
      h16, h17, h18] <;> assumption

theorem DWF.search {s : Slope (F64 A)} (w : DWF s) (ps) : DWF { s with search := ps } :=
  w.congr (by simp [SameForm])

theorem DWF.reset {s : Slope (F64 A)} (w : DWF s) : DWF s.resetResults := w.search []

theorem F64.tiny_pos : 0 < A.rnd 0.001 := by
  have := (F64.rnd_coarse (A := A) (x := 0.001) (by norm_num)).1
  norm_num at this ⊢; linarith

theorem DWF.lenPos {s : Slope (F64 A)} (w : DWF s) : 0 < s.length.val :=
  lt_of_lt_of_le F64.tiny_pos w.len

/-- The state `set_external_boundary` leaves. -/
noncomputable def Slope.withForm (s : Slope (F64 A)) (h l : F64 A) : Slope (F64 A) :=
  let totH := pyMax (pyMax (3 * h) s.minExtH) (5 * l / 2)
  let totL := pyMax (pyMax (5 * l) s.minExtL) (4 * h)
  { s with
    extBoundary := some [(0, 0), (0, totH), ((totL - l) / 2, totH),
      ((totL - l) / 2 + l, totH - h), (totL, totH - h), (totL, 0), (0, 0)]
    length := l, height := h, gradient := h / l
    topX := (totL - l) / 2, topY := totH, botX := (totL - l) / 2 + l, botY := totH - h
    extL := totL, extH := totH
    udls := s.udls.map (fun p => placeUdl ((totL - l) / 2) p.load)
    lls := s.lls.map (fun p => placeLl ((totL - l) / 2) p.load)
    lim1 := 0, lim2 := (totL - l) / 2, lim3 := (totL - l) / 2, lim4 := totL
    search := [] }

theorem removeAnalysisLimits_form (s : Slope (F64 A)) (h1 : 0 < s.topX.val)
    (h2 : s.topX.val < s.extL.val) : s.removeAnalysisLimits = ({ s with
      lim1 := 0, lim2 := s.topX, lim3 := s.topX, lim4 := s.extL, search := [] }, .ok ()) := by
  apply removeAnalysisLimits_any <;> simp only [F64.lt_iff, F64.le_iff, F64.val_zero] <;> linarith

theorem applyBoundary_form (s : Slope (F64 A)) (h l : F64 A) (hl : 0 < l.val) :
    s.applyBoundary h l = (s.withForm h l, .ok ()) := by
  have h5 : (5 * l).val ≤ (pyMax (pyMax (5 * l) s.minExtL) (4 * h)).val := by
    rw [F64.val_pyMax, F64.val_pyMax]
    exact (le_max_left _ _).trans (le_max_left _ _)
  obtain ⟨c1, c2, _⟩ := F64.crest_toe _ l hl h5
  simp only [Slope.applyBoundary]
  rw [removeAnalysisLimits_form]
  · rfl
  · exact c1
  · exact c2

theorem DWF.withForm {s : Slope (F64 A)} {h l : F64 A} (hh : 0 ≤ h.val) (hl : A.rnd 0.001 ≤ l.val)
    (mL : 0 ≤ s.minExtL.val) (mH : 0 ≤ s.minExtH.val)
    (mats : s.materials.Pairwise (fun a b => a.mat.depth.val < b.mat.depth.val)) :
    DWF (s.withForm h l) := by
  have hp : 0 < l.val := lt_of_lt_of_le F64.tiny_pos hl
  have h5 : (5 * l).val ≤ (pyMax (pyMax (5 * l) s.minExtL) (4 * h)).val := by
    rw [F64.val_pyMax, F64.val_pyMax]
    exact (le_max_left _ _).trans (le_max_left _ _)
  have h3 : (3 * h).val ≤ (pyMax (pyMax (3 * h) s.minExtH) (5 * l / 2)).val := by
    rw [F64.val_pyMax, F64.val_pyMax]
    exact (le_max_left _ _).trans (le_max_left _ _)
  have h52 : (5 * l / 2).val ≤ (pyMax (pyMax (3 * h) s.minExtH) (5 * l / 2)).val := by
    rw [F64.val_pyMax]
    exact le_max_right _ _
  obtain ⟨c1, c2, _⟩ := F64.crest_toe _ l hp h5
  refine ⟨rfl, hh, hl, rfl, rfl, rfl, rfl, h5, h3, h52, mL, mH, F64.val_zero.ge, ?_, le_refl _,
    le_refl _, c2, le_refl _, ?_, ?_, mats⟩
  · simp only [Slope.withForm, F64.val_zero]; exact c1
  · intro p hp
    obtain ⟨q, _, rfl⟩ := List.mem_map.mp hp; rfl
  · intro p hp
    obtain ⟨q, _, rfl⟩ := List.mem_map.mp hp; rfl

theorem F64.ltb_iff (a b : F64 A) : PyCmp.ltb a b = decide (a.val < b.val) := rfl

theorem F64.strict_ok {v : PyVal (F64 A)}
    (e : assertStrictlyPositiveNumber (0 : F64 A) v = .ok ()) : 0 ≤ v.get!.val := by
  rcases v with x | x | _ | _ <;>
    simp [assertStrictlyPositiveNumber, F64.ltb_iff, PyVal.get!] at e ⊢ <;> exact e

theorem F64.pos_ok {v : PyVal (F64 A)}
    (e : assertPositiveNumber (0 : F64 A) v = .ok ()) : 0 ≤ v.get!.val := by
  rcases v with x | x | _ | _ <;>
    simp [assertPositiveNumber, F64.ltb_iff, PyVal.get!] at e ⊢ <;> exact e

theorem boundaryInputs_form {h a l : PyVal (F64 A)} {H L : F64 A}
    (e : boundaryInputs h a l = .ok (H, L)) : 0 ≤ H.val ∧ A.rnd 0.001 ≤ L.val := by
  have key : ∀ x : F64 A, A.rnd 0.001 ≤ (pyMax x 0.001).val := fun x => by
    rw [F64.val_pyMax]; exact le_max_right _ _
  rcases h with x | x | _ | _ <;> rcases a with y | y | _ | _ <;> rcases l with z | z | _ | _ <;>
    simp [boundaryInputs, assertStrictlyPositiveNumber, assertPositiveNumber, assertRange,
      F64.ltb_iff, PyCmp.eqb, bind, Except.bind, pure, Except.pure, PyVal.get!, PyVal.truthy,
      throw, throwThe, MonadExceptOf.throw] at e <;>
    (repeat' split at e) <;> simp_all <;> obtain ⟨rfl, rfl⟩ := e <;> simp_all

theorem DWF.setExternalBoundary {s : Slope (F64 A)} (w : DWF s) (h a l : PyVal (F64 A)) :
    DWF (s.setExternalBoundary h a l).1 := by
  unfold Slope.setExternalBoundary
  split
  · exact w
  · rename_i H L e
    obtain ⟨h1, h2⟩ := boundaryInputs_form e
    rw [applyBoundary_form _ _ _ (lt_of_lt_of_le F64.tiny_pos h2)]
    exact DWF.withForm h1 h2 w.minL w.minH w.mats

theorem DWF.setAnalysisLimits {s : Slope (F64 A)} (w : DWF s) (a b c d : PyVal (F64 A)) :
    DWF (s.setAnalysisLimits a b c d).1 := by
  unfold Slope.setAnalysisLimits
  simp only
  split
  · rename_i s' e
    apply DWF.reset
    simp only [bind, Except.bind] at e
    split at e
    · cases e
    · rename_i lx _
      split at e
      · cases e
      · rename_i lxr _
        split at e
        · cases e
        · rename_i rxl _
          split at e
          · cases e
          · rename_i rx _
            split at e
            · cases e
            · rename_i rx' hrx
              have hrx' : rx'.val ≤ s.extL.val := by
                revert hrx
                rcases rx with x | x | _ | _ <;>
                  simp [pure, Except.pure, throw, throwThe, MonadExceptOf.throw] <;>
                  intro h <;> rw [← h, F64.val_pyMin] <;> exact min_le_right _ _
              by_cases hc : pyMin lxr s.topX ≤ pyMax lx 0 ∨ rx' ≤ pyMax rxl.get! s.topX
              · rw [if_pos hc] at e
                cases e
              · rw [if_neg hc] at e
                cases e
                push Not at hc
                simp only [F64.le_iff, not_le] at hc
                refine ⟨w.bnd, w.hgt, w.len, w.topX, w.topY, w.botX, w.botY, w.extL5, w.extH3, w.extH5,
                  w.minL, w.minH, ?_, hc.1, ?_, ?_, hc.2, hrx', w.udl, w.ll, w.mats⟩
                · simp only [F64.val_pyMax, F64.val_zero]; exact le_max_right _ _
                · simp only [F64.val_pyMin]; exact min_le_right _ _
                · simp only [F64.val_pyMax]; exact le_max_right _ _
  · exact w

theorem DWF.removeAnalysisLimits {s : Slope (F64 A)} (w : DWF s) : DWF s.removeAnalysisLimits.1 :=
  andThen_inv _ _ (w.setAnalysisLimits _ _ _ _) (fun _ _ h => h.reset)

theorem DWF.withMinL {s : Slope (F64 A)} (w : DWF s) {x : F64 A} (h : 0 ≤ x.val) :
    DWF { s with minExtL := x } :=
  ⟨w.bnd, w.hgt, w.len, w.topX, w.topY, w.botX, w.botY, w.extL5, w.extH3, w.extH5, h, w.minH, w.l1, w.l12,
    w.l2, w.l3, w.l34, w.l4, w.udl, w.ll, w.mats⟩

theorem DWF.withMinH {s : Slope (F64 A)} (w : DWF s) {x : F64 A} (h : 0 ≤ x.val) :
    DWF { s with minExtH := x } :=
  ⟨w.bnd, w.hgt, w.len, w.topX, w.topY, w.botX, w.botY, w.extL5, w.extH3, w.extH5, w.minL, h, w.l1, w.l12,
    w.l2, w.l3, w.l34, w.l4, w.udl, w.ll, w.mats⟩

theorem DWF.updateBoundaryOptions {s : Slope (F64 A)} (w : DWF s) (l h : PyVal (F64 A)) :
    DWF (s.updateBoundaryOptions l h).1 := by
  unfold Slope.updateBoundaryOptions
  refine andThen_inv _ _ ?_ (fun s _ w => andThen_inv _ _ ?_ (fun s _ w => andThen_inv _ _ ?_
    (fun _ _ w => w.reset)))
  · split
    · split
      · exact w
      · rename_i e; exact w.withMinH (F64.strict_ok e)
    · exact w
  · split
    · split
      · exact w
      · rename_i e; exact w.withMinL (F64.strict_ok e)
    · exact w
  · split
    · exact w.setExternalBoundary _ _ _
    · exact w

/-- Loads of a state in the middle of `set_udls` are where they belong too. -/
theorem DWF.addUdl {s : Slope (F64 A)} (w : DWF s) (u : UdlArg (F64 A)) : DWF (s.addUdl u).1 := by
  rcases u with _ | u
  · exact w
  · unfold Slope.addUdl
    simp only
    split
    · have w' : DWF { s with udls := s.udls ++ [placeUdl s.topX u] } := by
        refine ⟨w.bnd, w.hgt, w.len, w.topX, w.topY, w.botX,
          w.botY, w.extL5, w.extH3, w.extH5, w.minL, w.minH, w.l1, w.l12, w.l2, w.l3, w.l34, w.l4, ?_, w.ll, w.mats⟩
        intro p hp
        rcases List.mem_append.mp hp with hp | hp
        · exact w.udl p hp
        · rw [List.mem_singleton.mp hp]; rfl
      split
      · exact w'.updateBoundaryOptions _ _
      · exact w'
    · exact w

theorem DWF.addLl {s : Slope (F64 A)} (w : DWF s) (u : Option (LineLoad (F64 A))) : DWF (s.addLl u).1 := by
  rcases u with _ | u
  · exact w
  · unfold Slope.addLl
    simp only
    split
    · have w' : DWF { s with lls := s.lls ++ [placeLl s.topX u] } := by
        refine ⟨w.bnd, w.hgt, w.len, w.topX, w.topY, w.botX,
          w.botY, w.extL5, w.extH3, w.extH5, w.minL, w.minH, w.l1, w.l12, w.l2, w.l3, w.l34, w.l4, w.udl, ?_, w.mats⟩
        intro p hp
        rcases List.mem_append.mp hp with hp | hp
        · exact w.ll p hp
        · rw [List.mem_singleton.mp hp]; rfl
      split
      · exact w'.updateBoundaryOptions _ _
      · exact w'
    · exact w

theorem map_place_udl_form {s : Slope (F64 A)} (w : DWF s) :
    s.udls.map (fun p => placeUdl s.topX p.load) = s.udls := by
  conv_rhs => rw [← List.map_id s.udls]
  exact List.map_congr_left (fun p hp => (w.udl p hp).symm)

theorem map_place_ll_form {s : Slope (F64 A)} (w : DWF s) :
    s.lls.map (fun p => placeLl s.topX p.load) = s.lls := by
  conv_rhs => rw [← List.map_id s.lls]
  exact List.map_congr_left (fun p hp => (w.ll p hp).symm)

theorem DWF.setUdls {s : Slope (F64 A)} (w : DWF s) (us : List (UdlArg (F64 A))) : DWF (s.setUdls us).1 :=
  andThen_inv _ _ (forEach_inv _ (fun _ a h => h.addUdl a) us s w) (fun s _ w => by
    apply DWF.reset
    refine w.congr ?_
    simp [SameForm, Slope.updateUdlCoordinates, map_place_udl_form w])

theorem DWF.setLls {s : Slope (F64 A)} (w : DWF s) (us : List (Option (LineLoad (F64 A)))) :
    DWF (s.setLls us).1 :=
  andThen_inv _ _ (forEach_inv _ (fun _ a h => h.addLl a) us s w) (fun s _ w => by
    apply DWF.reset
    refine w.congr ?_
    simp [SameForm, Slope.updateLlCoordinates, map_place_ll_form w])

theorem DWF.udlsSub {s t : Slope (F64 A)} (w : DWF s) (h : t.udls.Sublist s.udls)
    (e : SameForm s { t with udls := s.udls }) : DWF t := by
  have w' := w.congr e
  exact ⟨w'.bnd, w'.hgt, w'.len, w'.topX, w'.topY, w'.botX,
    w'.botY, w'.extL5, w'.extH3, w'.extH5, w'.minL, w'.minH, w'.l1, w'.l12, w'.l2, w'.l3, w'.l34, w'.l4,
    fun p hp => w'.udl p (h.subset hp), w'.ll, w'.mats⟩

theorem DWF.llsSub {s t : Slope (F64 A)} (w : DWF s) (h : t.lls.Sublist s.lls)
    (e : SameForm s { t with lls := s.lls }) : DWF t := by
  have w' := w.congr e
  exact ⟨w'.bnd, w'.hgt, w'.len, w'.topX, w'.topY, w'.botX,
    w'.botY, w'.extL5, w'.extH3, w'.extH5, w'.minL, w'.minH, w'.l1, w'.l12, w'.l2, w'.l3, w'.l34, w'.l4,
    w'.udl, fun p hp => w'.ll p (h.subset hp), w'.mats⟩

theorem DWF.removeUdls {s : Slope (F64 A)} (w : DWF s) (us : List (Udl (F64 A))) (all : Bool) :
    DWF (s.removeUdls us all).1 := by
  have hs := foldl_remove_sublist (fun (l : List (PUdl (F64 A))) (u : Udl (F64 A)) =>
    removeLoop (fun (c : PUdl (F64 A)) => c.load.matches u) (fun a b => a.load.eq b.load) l.length 0 l)
    (fun l b => removeLoop_sublist _ _ _ _ _) us s.udls
  unfold Slope.removeUdls
  apply DWF.reset
  cases all
  · simp only [Bool.false_eq_true, if_false]
    split
    · exact w.udlsSub hs (by simp [SameForm])
    · exact w.udlsSub hs (by simp [SameForm])
  · simp only [if_true]
    exact w.udlsSub (List.nil_sublist _) (by simp [SameForm])

theorem DWF.removeLls {s : Slope (F64 A)} (w : DWF s) (us : List (LineLoad (F64 A))) (all : Bool) :
    DWF (s.removeLls us all).1 := by
  have hs := foldl_remove_sublist (fun (l : List (PLl (F64 A))) (u : LineLoad (F64 A)) =>
    removeLoop (fun (c : PLl (F64 A)) => c.load.matches u) (fun a b => a.load.eq b.load) l.length 0 l)
    (fun l b => removeLoop_sublist _ _ _ _ _) us s.lls
  unfold Slope.removeLls
  apply DWF.reset
  cases all
  · simp only [Bool.false_eq_true, if_false]
    exact w.llsSub hs (by simp [SameForm])
  · simp only [if_true]
    exact w.llsSub (List.nil_sublist _) (by simp [SameForm])

theorem DWF.withMats {s : Slope (F64 A)} (w : DWF s) (ls : List (Layer (F64 A)))
    (h : ls.Pairwise (fun a b => a.mat.depth.val < b.mat.depth.val)) : DWF { s with materials := ls } :=
  ⟨w.bnd, w.hgt, w.len, w.topX, w.topY, w.botX,
          w.botY, w.extL5, w.extH3, w.extH5, w.minL, w.minH, w.l1, w.l12, w.l2, w.l3, w.l34, w.l4, w.udl, w.ll, h⟩

/-- Layers made from sorted materials with distinct depths are strictly sorted. -/
theorem mkLayers_form (H : F64 A) (l : List (Material (F64 A)))
    (hn : ((sortByKey Material.depth l).map Material.depth).Nodup) :
    (mkLayers H 0 (sortByKey Material.depth l)).Pairwise
      (fun a b => a.mat.depth.val < b.mat.depth.val) := by
  have h1 := F64.sorted Material.depth l
  have h2 := List.pairwise_map.mp hn
  have h3 : (sortByKey Material.depth l).Pairwise (fun a b => a.depth.val < b.depth.val) :=
    (h1.and h2).imp (fun ⟨a, b⟩ => lt_of_le_of_ne a (fun e => b (F64.ext e)))
  have h4 := mkLayers_mats_any H 0 (sortByKey Material.depth l)
  rw [← h4, List.pairwise_map] at h3
  exact h3

theorem DWF.setMaterials {s : Slope (F64 A)} (w : DWF s) (ms : List (Option (Material (F64 A)))) :
    DWF (s.setMaterials ms).1 := by
  unfold Slope.setMaterials
  split
  · exact w
  · simp only
    split
    · exact w
    · refine andThen_inv _ _ ?_ ?_
      · split
        · exact w.updateBoundaryOptions _ _
        · exact w
      · intro t _ wt
        split
        · exact wt
        · rename_i hlt
          exact (wt.withMats _ (mkLayers_form _ _
            (setSizeNum_nodup_any F64.pyEq_eq hlt))).reset

theorem DWF.removeMaterial {s : Slope (F64 A)} (w : DWF s) (m d all) :
    DWF (s.removeMaterial m d all).1 := by
  unfold Slope.removeMaterial
  apply DWF.reset
  apply w.withMats
  cases all
  · simp only [Bool.false_eq_true, if_false]
    split
    · exact w.mats
    · split
      · exact w.mats
      · split
        · exact w.mats
        · exact w.mats.sublist (removeFirst_sublist _ _)
  · simp

theorem DWF.updateWater {s : Slope (F64 A)} (w : DWF s) (auto h) :
    DWF (s.updateWaterAnalysisOptions auto h).1 := by
  unfold Slope.updateWaterAnalysisOptions
  split
  · exact (w.congr (by simp [SameForm])).reset
  · split
    · exact w
    · exact (w.congr (by simp [SameForm])).reset

theorem DWF.updateAnalysis {s : Slope (F64 A)} (w : DWF s) (a b c d e) :
    DWF (s.updateAnalysisOptions a b c d e).1 := by
  obtain ⟨n, i, f, t, m, _, _, h⟩ := updateAnalysisOptions_rest s a b c d e
  rw [h]
  exact w.congr (by simp [SameForm])

theorem DWF.water {s : Slope (F64 A)} (w : DWF s) (d) : DWF (s.setWaterTable d).1 := by
  unfold Slope.setWaterTable
  split
  · exact (w.congr (by simp [SameForm])).reset
  · split
    · exact w
    · exact (w.congr (by simp [SameForm])).reset

theorem DWF.analyseSlope {s : Slope (F64 A)} (w : DWF s) (m) : DWF (s.analyseSlope m).1 := by
  unfold Slope.analyseSlope
  split
  · simp only
    split <;> exact w.congr (by simp [SameForm])
  · split
    · exact w
    · simp only
      split <;> exact w.congr (by simp [SameForm])

theorem DWF.setDynamicOffset {s : Slope (F64 A)} (w : DWF s) (o : (F64 A)) : DWF (s.setDynamicOffset o).1 := by
  unfold Slope.setDynamicOffset
  exact andThen_inv _ _ (w.removeUdls _ _) (fun _ _ w => andThen_inv _ _ (w.removeLls _ _)
    (fun _ _ w => andThen_inv _ _ (forEach_inv _ (fun _ _ h => h.setUdls _) _ _ w)
      (fun _ _ w => forEach_inv _ (fun _ _ h => h.setLls _) _ _ w)))

theorem DWF.tryOffset {s : Slope (F64 A)} (w : DWF s) (o : (F64 A)) : DWF (s.tryOffset o).1 := by
  unfold Slope.tryOffset
  refine andThen_inv _ _ (w.setDynamicOffset o) (fun _ _ w => andThen_inv _ _ (w.analyseSlope _)
    (fun t _ w => ?_))
  split
  · exact w
  · exact w
  · exact w.congr (by simp [SameForm])

theorem DWF.dynLoop {s : Slope (F64 A)} (w : DWF s) (c : (F64 A)) (d : Bool) (n : Nat) (l r p : (F64 A)) :
    DWF (s.dynLoop c d n l r p).1 := by
  induction n generalizing s l r p with
  | zero => exact w
  | succ n ih =>
    unfold Slope.dynLoop
    simp only
    split
    · exact w
    · refine andThen_inv _ _ (w.tryOffset _) (fun t f wt => ?_)
      split
      · exact wt
      · split
        · exact ih wt _ _ _
        · exact ih wt _ _ _

theorem DWF.analyseDynamic {s : Slope (F64 A)} (w : DWF s) (c : (F64 A)) (d : Bool) :
    DWF (s.analyseDynamic c d).1 := by
  have w0 : DWF { s with dynResults := [] } := w.congr (by simp [SameForm])
  unfold Slope.analyseDynamic
  simp only
  split
  · exact w0
  · refine andThen_inv _ _ (w0.tryOffset _) (fun t f wt => ?_)
    split
    · exact wt
    · refine andThen_inv _ _ (wt.tryOffset _) (fun t f wt => ?_)
      split
      · exact wt
      · exact andThen_inv _ _ (wt.dynLoop _ _ _ _ _ _)
          (fun t _ wt => wt.congr (by simp [SameForm, Slope.sortDynResults]))

theorem DWF.call {s t : Slope (F64 A)} (w : DWF s) (c : Call s t) : DWF t := by
  cases c with
  | setExternalBoundary h a l => exact w.setExternalBoundary h a l
  | setWaterTable d => exact w.water d
  | removeWaterTable => exact (w.congr (by simp [SameForm])).reset
  | setUdls us _ => exact w.setUdls us
  | removeUdls us all => exact w.removeUdls us all
  | setLls ls _ => exact w.setLls ls
  | removeLls ls all => exact w.removeLls ls all
  | setMaterials ms _ => exact w.setMaterials ms
  | removeMaterial m d all => exact w.removeMaterial m d all
  | updateWaterAnalysisOptions a h => exact w.updateWater a h
  | updateAnalysisOptions a b c d e => exact w.updateAnalysis a b c d e
  | updateBoundaryOptions l h => exact w.updateBoundaryOptions l h
  | removeAnalysisLimits => exact w.removeAnalysisLimits
  | setAnalysisLimits a b c d => exact w.setAnalysisLimits a b c d
  | addSingleEntryExitPlane l r n =>
    unfold Slope.addSingleEntryExitPlane
    split
    · split
      · exact w
      · exact (w.congr (by simp [SameForm])).reset
    · exact w
  | addSingleCircularPlane x y r =>
    unfold Slope.addSingleCircularPlane
    split
    · exact w
    · split
      · exact w
      · split
        · exact (w.congr (by simp [SameForm])).reset
        · exact w
  | removeIndividualPlanes => exact (w.congr (by simp [SameForm])).reset
  | analyseSlope m => exact w.analyseSlope m
  | analyseDynamic c d => exact w.analyseDynamic c d


/-- The constructor leaves a slope in the right shape. -/
theorem DWF.of_new {h a l : PyVal (F64 A)} {s : Slope (F64 A)} (e : Slope.new h a l = .ok s) :
    DWF s := by
  have e0 : Slope.updateBoundaryOptions (Slope.blank : Slope (F64 A)) (.num 10) (.num 6) =
      ({ (Slope.blank : Slope (F64 A)) with minExtH := 6, minExtL := 10 }, .ok ()) := by
    have v10 : (10 : F64 A).val = 10 := F64.val_small 10 (by norm_num)
    have v6 : (6 : F64 A).val = 6 := F64.val_small 6 (by norm_num)
    have e10 : pyEq (10 : F64 A) 0 = false := by rw [F64.pyEq_iff, v10, F64.val_zero]; norm_num
    have e6 : pyEq (6 : F64 A) 0 = false := by rw [F64.pyEq_iff, v6, F64.val_zero]; norm_num
    have p10 : ¬ (10 : F64 A) < 0 := by rw [F64.lt_iff, v10, F64.val_zero]; norm_num
    have p6 : ¬ (6 : F64 A) < 0 := by rw [F64.lt_iff, v6, F64.val_zero]; norm_num
    simp [Slope.updateBoundaryOptions, PyVal.truthy, e10, e6, assertStrictlyPositiveNumber,
      PyCmp.ltb, p10, p6, Out.andThen, PyVal.get!, Slope.blank, Slope.resetResults]
  unfold Slope.new Slope.init at e
  rw [e0, andThen_any] at e
  simp only [Slope.setExternalBoundary] at e
  cases hb : boundaryInputs h a l with
  | error x => rw [hb] at e; simp [Out.andThen] at e
  | ok p =>
    obtain ⟨H, L⟩ := p
    obtain ⟨h1, h2⟩ := boundaryInputs_form hb
    rw [hb] at e
    simp only at e
    rw [applyBoundary_form _ _ _ (lt_of_lt_of_le F64.tiny_pos h2), andThen_any] at e
    have w : DWF ((({ (Slope.blank : Slope (F64 A)) with minExtH := 6, minExtL := 10 } :
        Slope (F64 A)).withForm H L)) :=
      DWF.withForm h1 h2 (by simp only [F64.val_small 10 (by norm_num)]; norm_num)
        (by simp only [F64.val_small 6 (by norm_num)]; norm_num) (by simp [Slope.blank])
    have w2 := andThen_inv (I := DWF) _ _ (w.updateAnalysis (some 25) (some 1000) (some 0) (some 0.005) (some 15))
      (fun (s : Slope (F64 A)) (_ : Unit) w => andThen_inv (I := DWF) _ _ (w.updateWater true (.num 1))
        (fun (s : Slope (F64 A)) (_ : Unit) w => w.removeAnalysisLimits))
    generalize Out.andThen (K := F64 A) _ _ = o at e w2
    obtain ⟨t, r⟩ := o
    cases r with
    | error x => simp at e
    | ok u => simp only [Except.ok.injEq] at e; rw [← e]; exact w2

theorem Reachable.form {s : Slope (F64 A)} (r : Reachable s) : DWF s := by
  induction r with
  | init e => exact DWF.of_new e
  | call _ c ih => exact ih.call c

end Calls

end PySlope
