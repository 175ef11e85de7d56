import Verif.Lemmas.Ieee
import Verif.Model.Analysis
import Verif.Props.Search

/-! # Properties of the search in double precision (C52) -/

namespace PySlope

namespace F64

variable {A : Machine}

theorem val_add (a b : F64 A) : (a + b).val = A.rnd (a.val + b.val) := rfl
theorem val_sub (a b : F64 A) : (a - b).val = A.rnd (a.val - b.val) := rfl
theorem val_mul (a b : F64 A) : (a * b).val = A.rnd (a.val * b.val) := rfl
theorem val_div (a b : F64 A) : (a / b).val = A.rnd (a.val / b.val) := rfl
theorem val_mk (x : ℝ) : (F64.mk x : F64 A).val = A.rnd x := rfl
theorem lt_iff (a b : F64 A) : a < b ↔ a.val < b.val := Iff.rfl
theorem le_iff (a b : F64 A) : a ≤ b ↔ a.val ≤ b.val := Iff.rfl
theorem val_cast (n : ℕ) : ((n : ℕ) : F64 A).val = A.rnd n := rfl
theorem val_lit (n : ℕ) : (@OfNat.ofNat (F64 A) n (Lit.natLit n)).val = A.rnd n := rfl
theorem val_pyMax (a b : F64 A) : (pyMax a b).val = max a.val b.val := by
  unfold pyMax
  split_ifs with h
  · rw [lt_iff] at h; exact (max_eq_right h.le).symm
  · rw [lt_iff, not_lt] at h; exact (max_eq_left h).symm
theorem val_pyMin (a b : F64 A) : (pyMin a b).val = min a.val b.val := by
  unfold pyMin
  split_ifs with h
  · rw [lt_iff] at h; exact (min_eq_right h.le).symm
  · rw [lt_iff, not_lt] at h; exact (min_eq_left h).symm
theorem pyEq_iff (a b : F64 A) : pyEq a b = decide (a.val = b.val) := by
  unfold pyEq
  rw [Bool.eq_iff_iff]
  simp only [Bool.and_eq_true, decide_eq_true_eq, le_iff]
  exact ⟨fun h => le_antisymm h.1 h.2, fun h => ⟨h.le, h.ge⟩⟩

end F64

section AnyNumbers

open Lit

variable {K : Type} [PyNum K]

theorem andThen_any {α β : Type} (s : Slope K) (a : α) (f : Slope K → α → Out K β) :
    Out.andThen (s, .ok a) f = f s a := rfl

theorem pyMin_self (a : K) : pyMin a a = a := by unfold pyMin; split_ifs <;> rfl
theorem pyMax_self (a : K) : pyMax a a = a := by unfold pyMax; split_ifs <;> rfl

theorem removeAnalysisLimits_any (s : Slope K) (h0 : ¬ (0 : K) < 0) (h1 : ¬ s.topX < 0)
    (h2 : ¬ s.extL < 0) (h3 : ¬ s.topX ≤ 0) (h4 : ¬ s.extL ≤ s.topX) :
    s.removeAnalysisLimits = ({ s with
      lim1 := 0, lim2 := s.topX, lim3 := s.topX, lim4 := s.extL, search := [] }, .ok ()) := by
  simp [Slope.removeAnalysisLimits, Slope.setAnalysisLimits, assertPositiveNumber,
    assertStrictlyPositiveNumber, PyCmp.ltb, h0, h1, h2, h3, h4, pyMin_self, pyMax_self,
    PyVal.get!, bind, Except.bind, pure, Except.pure, Out.andThen, Slope.resetResults]

/-- The constructor, for any numbers: what it leaves in the parts the search reads. -/
theorem new_any {h a l : PyVal K} {H L : K} (hb : boundaryInputs h a l = .ok (H, L))
    (e10 : pyEq (10 : K) 0 = false) (e6 : pyEq (6 : K) 0 = false)
    (p10 : ¬ (10 : K) < 0) (p6 : ¬ (6 : K) < 0)
    {T X : K} (hT : pyMax (pyMax (5 * L) 10) (4 * H) = T) (hX : (T - L) / 2 = X)
    (h0 : ¬ (0 : K) < 0) (h1 : ¬ X < 0) (h2 : ¬ T < 0) (h3 : ¬ X ≤ 0) (h4 : ¬ T ≤ X) :
    ∃ s : Slope K, Slope.new h a l = .ok s ∧ s.topX = X ∧ s.extL = T ∧ s.lim1 = 0 ∧
      s.lim2 = X ∧ s.lim3 = X ∧ s.lim4 = T ∧ s.individual = [] ∧ s.udls = [] ∧ s.lls = [] ∧
      s.materials = [] ∧ s.iterations = 1000 ∧
      s.extH = pyMax (pyMax (3 * H) 6) (5 * L / 2) := by
  subst hT hX
  have e0 : Slope.updateBoundaryOptions (Slope.blank : Slope K) (.num 10) (.num 6) =
      ({ (Slope.blank : Slope K) with minExtH := 6, minExtL := 10 }, .ok ()) := by
    simp [Slope.updateBoundaryOptions, PyVal.truthy, e10, e6, assertStrictlyPositiveNumber,
      PyCmp.ltb, p10, p6, Out.andThen, PyVal.get!, Slope.blank, Slope.resetResults]
  unfold Slope.new Slope.init
  rw [e0, andThen_any]
  simp only [Slope.setExternalBoundary, hb, Slope.applyBoundary]
  rw [removeAnalysisLimits_any _ h0 h1 h2 h3 h4, andThen_any, andThen_any]
  simp only [Slope.updateAnalysisOptions, Slope.updateWaterAnalysisOptions, andThen_any, if_true]
  rw [removeAnalysisLimits_any _ h0 h1 h2 h3 h4]
  exact ⟨_, rfl, rfl, rfl, rfl, rfl, rfl, rfl, rfl, rfl, rfl, rfl, rfl, rfl⟩

/-- A search that has an entry point, and an exit point outside the model, raises. -/
theorem planesFrom_raises (s : Slope K) (lc : K × K) (num : ℕ) :
    ∀ {rs : List (K × Option K)}, (∃ x, (x, none) ∈ rs) →
      ∃ e, s.planesFrom lc num rs = .error e
  | [], h => by obtain ⟨x, h⟩ := h; simp at h
  | (x, none) :: rs, _ => ⟨.typeError, rfl⟩
  | (x, some y) :: rs, h => by
    have h' : ∃ x, (x, none) ∈ rs := by
      obtain ⟨z, h⟩ := h
      simp at h
      exact ⟨z, h⟩
    obtain ⟨e, he⟩ := planesFrom_raises s lc num h'
    unfold Slope.planesFrom
    rw [he]
    cases hh : (if s.minFailureDist < distPoints lc (x, y)
      then s.generatePlanes lc (x, y) (num : Int) else pure []) with
    | error e' => exact ⟨e', rfl⟩
    | ok ps => exact ⟨e, rfl⟩

theorem analyse_raises {s : Slope K} (hi : s.individual = []) (hu : s.udls = [])
    (hl : s.lls = []) (hit : s.iterations = 1000) (h : ∃ x, (x, none) ∈ s.exitPoints)
    (m : Option K) : ∃ e, (s.analyseSlope m).2 = .error e := by
  have : ∃ e, s.entryExitPlanes = .error e := by
    have n14 : numPointsTop 1000 = 14 := by
      change Nat.sqrt (1000 / max 5 (1000 / 800)) = 14
      exact (Nat.eq_sqrt.mpr ⟨by norm_num, by norm_num⟩).symm
    have hp : s.entryPoints = .ok ((List.range 14).map fun k =>
        (s.lim1 + (((k : Nat) : K) / ofInt (14 - 1)) * (s.lim2 - s.lim1), s.topY)) := by
      simp [Slope.entryPoints, hu, hl, hit, n14, leftCoords, bind, Except.bind, pure,
        Except.pure]
    unfold Slope.entryExitPlanes
    rw [hp]
    simp only [bind, Except.bind]
    rw [show (14 : ℕ) = 13 + 1 from rfl, List.range_succ_eq_map]
    simp only [List.map_cons, Slope.planesAll]
    obtain ⟨e, he⟩ := planesFrom_raises s (s.lim1 + (((0 : Nat) : K) / ofInt (14 - 1)) *
      (s.lim2 - s.lim1), s.topY) (numCircles s.iterations.toNat) h
    exact ⟨e, by simp only [bind, Except.bind, he]⟩
  obtain ⟨e, he⟩ := this
  exact ⟨e, by unfold Slope.analyseSlope; rw [hi]; simp only [he]⟩

end AnyNumbers

namespace F64

variable {A : Machine}

open Lit

/-- `2.73` as a double. -/
theorem val_273 (r : RoundsToEven A.rnd) :
    A.rnd 2.73 = (6147413491360727 : ℤ) * (2 : ℝ) ^ (-51 : ℤ) :=
  r.near (by norm_num) (by norm_num) (by rw [abs_lt]; constructor <;> norm_num)

end F64

theorem numPointsBot_1000 : numPointsBot 1000 = 15 := by
  have n14 : numPointsTop 1000 = 14 := by
    change Nat.sqrt (1000 / max 5 (1000 / 800)) = 14
    exact (Nat.eq_sqrt.mpr ⟨by norm_num, by norm_num⟩).symm
  unfold numPointsBot
  rw [n14]
  simp [numCircles, botLoop]

section C52

open Lit

variable {A : Machine}

/-- The slope of height 1 and length 2.73 in double precision: `Slope(height=1, length=2.73)` is
accepted, and its last exit point lies to the right of the end of the model. -/
theorem exDouble (r : RoundsToEven A.rnd) :
    ∃ s : Slope (F64 A), Slope.new (.num (F64.mk 1)) (.num (F64.mk 30)) (.num (F64.mk 2.73)) = .ok s ∧
      s.individual = [] ∧ s.udls = [] ∧ s.lls = [] ∧ s.iterations = 1000 ∧ s.materials = [] ∧
      s.extH.val = A.rnd (A.rnd (5 * A.rnd 2.73) / 2) ∧
      (∃ x, (x, none) ∈ s.exitPoints) ∧
      s.lim1.val = 0 ∧ s.lim2 = s.topX ∧ s.lim3 = s.topX ∧
      s.topX.val = (6147413491360727 : ℤ) * (2 : ℝ) ^ (-50 : ℤ) ∧
      s.extL.val = (7684266864200909 : ℤ) * (2 : ℝ) ^ (-49 : ℤ) := by
  have nat : ∀ n : ℕ, n < 2 ^ 53 → A.rnd (n : ℝ) = n := r.exact_nat
  have l0 : (@OfNat.ofNat (F64 A) 0 (Lit.natLit 0)).val = 0 := by
    rw [F64.val_lit, nat _ (by norm_num)]; norm_num
  have l1 : A.rnd 1 = 1 := by simpa using nat 1 (by norm_num)
  have l30 : A.rnd 30 = 30 := by simpa using nat 30 (by norm_num)
  have l10 : (@OfNat.ofNat (F64 A) 10 (Lit.natLit 10)).val = 10 := by
    rw [F64.val_lit, nat _ (by norm_num)]; norm_num
  have l6 : (@OfNat.ofNat (F64 A) 6 (Lit.natLit 6)).val = 6 := by
    rw [F64.val_lit, nat _ (by norm_num)]; norm_num
  have l5 : (@OfNat.ofNat (F64 A) 5 (Lit.natLit 5)).val = 5 := by
    rw [F64.val_lit, nat _ (by norm_num)]; norm_num
  have l4 : (@OfNat.ofNat (F64 A) 4 (Lit.natLit 4)).val = 4 := by
    rw [F64.val_lit, nat _ (by norm_num)]; norm_num
  have l3 : (@OfNat.ofNat (F64 A) 3 (Lit.natLit 3)).val = 3 := by
    rw [F64.val_lit, nat _ (by norm_num)]; norm_num
  have l2 : (@OfNat.ofNat (F64 A) 2 (Lit.natLit 2)).val = 2 := by
    rw [F64.val_lit, nat _ (by norm_num)]; norm_num
  have l90 : (@OfNat.ofNat (F64 A) 90 (Lit.natLit 90)).val = 90 := by
    rw [F64.val_lit, nat _ (by norm_num)]; norm_num
  have l001 : A.rnd 0.001 ≤ 1 := by
    rw [← l1]; exact r.mono (by norm_num)
  have L := F64.val_273 r
  have a1 : (F64.mk 1 : F64 A).val = 1 := l1
  have a30 : (F64.mk 30 : F64 A).val = 30 := l30
  have aL : (F64.mk 2.73 : F64 A).val = (6147413491360727 : ℤ) * (2 : ℝ) ^ (-51 : ℤ) := L
  have hb : boundaryInputs (.num (F64.mk 1)) (.num (F64.mk 30)) (.num (F64.mk 2.73)) =
      .ok ((F64.mk 1 : F64 A), (F64.mk 2.73 : F64 A)) := by
    have c1 : ¬ ((F64.mk 1 : F64 A) < 0) := by rw [F64.lt_iff, a1, l0]; norm_num
    have c2 : ¬ ((F64.mk 30 : F64 A) < 0) := by rw [F64.lt_iff, a30, l0]; norm_num
    have c3 : ¬ ((90 : F64 A) < F64.mk 30) := by rw [F64.lt_iff, a30, l90]; norm_num
    have c4 : pyEq (F64.mk 30 : F64 A) 0 = false := by rw [F64.pyEq_iff, a30, l0]; norm_num
    have c5 : ¬ ((F64.mk 2.73 : F64 A) < 0) := by rw [F64.lt_iff, aL, l0]; norm_num
    have c6 : pyMax (F64.mk 2.73 : F64 A) 0.001 = F64.mk 2.73 := by
      unfold pyMax
      rw [if_neg]
      rw [F64.lt_iff, aL, not_lt]
      change A.rnd 0.001 ≤ _
      refine l001.trans ?_
      norm_num
    simp [boundaryInputs, assertStrictlyPositiveNumber, assertPositiveNumber, assertRange,
      PyCmp.ltb, PyCmp.eqb, bind, Except.bind, pure, Except.pure, PyVal.get!, c1, c2, c3, c4, c5,
      c6]
  -- the model length: 5 * 2.73, rounded
  have hT : (pyMax (pyMax (5 * (F64.mk 2.73 : F64 A)) 10) (4 * F64.mk 1)).val =
      (7684266864200909 : ℤ) * (2 : ℝ) ^ (-49 : ℤ) := by
    rw [F64.val_pyMax, F64.val_pyMax, F64.val_mul, F64.val_mul, l5, l4, l10, a1, aL]
    have e1 : A.rnd (5 * ((6147413491360727 : ℤ) * (2 : ℝ) ^ (-51 : ℤ))) =
        (7684266864200909 : ℤ) * (2 : ℝ) ^ (-49 : ℤ) :=
      r.near (by norm_num) (by norm_num) (by rw [abs_lt]; constructor <;> norm_num)
    have e2 : A.rnd (4 * 1) = 4 := by simpa using nat 4 (by norm_num)
    rw [e1, e2, max_eq_left, max_eq_left] <;> norm_num
  -- the crest
  have hX : ((pyMax (pyMax (5 * (F64.mk 2.73 : F64 A)) 10) (4 * F64.mk 1) - F64.mk 2.73) / 2).val =
      (6147413491360727 : ℤ) * (2 : ℝ) ^ (-50 : ℤ) := by
    rw [F64.val_div, F64.val_sub, hT, aL, l2]
    have e1 : A.rnd ((7684266864200909 : ℤ) * (2 : ℝ) ^ (-49 : ℤ) -
        (6147413491360727 : ℤ) * (2 : ℝ) ^ (-51 : ℤ)) =
        (6147413491360727 : ℤ) * (2 : ℝ) ^ (-49 : ℤ) :=
      r.near (by norm_num) (by norm_num) (by rw [abs_lt]; constructor <;> norm_num)
    rw [e1]
    exact r.near (by norm_num) (by norm_num) (by rw [abs_lt]; constructor <;> norm_num)
  obtain ⟨s, hs, t1, t2, t3, t4, t5, t6, t7, t8, t9, t10, t11, t12⟩ := new_any hb
    (by rw [F64.pyEq_iff, l10, l0]; norm_num) (by rw [F64.pyEq_iff, l6, l0]; norm_num)
    (by rw [F64.lt_iff, l10, l0]; norm_num) (by rw [F64.lt_iff, l6, l0]; norm_num)
    rfl rfl (by rw [F64.lt_iff, l0]; norm_num) (by rw [F64.lt_iff, hX, l0]; norm_num)
    (by rw [F64.lt_iff, hT, l0]; norm_num) (by rw [F64.le_iff, hX, l0]; norm_num)
    (by rw [F64.le_iff, hX, hT]; norm_num)
  refine ⟨s, hs, t7, t8, t9, t11, t10, ?_, ?_, by rw [t3, l0], by rw [t4, t1], by rw [t5, t1],
    by rw [t1, hX], by rw [t2, hT]⟩
  · rw [t12, F64.val_pyMax, F64.val_pyMax, F64.val_mul, F64.val_div, F64.val_mul, l3, l2, l5, l6, a1,
      aL]
    have e0 : A.rnd (3 * 1) = 3 := by simpa using nat 3 (by norm_num)
    have e1 : A.rnd (5 * ((6147413491360727 : ℤ) * (2 : ℝ) ^ (-51 : ℤ))) =
        (7684266864200909 : ℤ) * (2 : ℝ) ^ (-49 : ℤ) :=
      r.near (by norm_num) (by norm_num) (by rw [abs_lt]; constructor <;> norm_num)
    have e2 : A.rnd ((7684266864200909 : ℤ) * (2 : ℝ) ^ (-49 : ℤ) / 2) =
        (7684266864200909 : ℤ) * (2 : ℝ) ^ (-50 : ℤ) :=
      r.near (by norm_num) (by norm_num) (by rw [abs_lt]; constructor <;> norm_num)
    rw [e0, L, e1, e2, max_eq_right]
    norm_num
  · -- the last exit point
    have hT' : s.extL.val = (7684266864200909 : ℤ) * (2 : ℝ) ^ (-49 : ℤ) := by rw [t2, hT]
    have hX' : s.topX.val = (6147413491360727 : ℤ) * (2 : ℝ) ^ (-50 : ℤ) := by rw [t1, hX]
    have hx : (s.lim3 + (((14 + 1 : ℕ) : F64 A) / ((15 : ℕ) : F64 A)) * (s.lim4 - s.lim3)).val =
        (7684266864200910 : ℤ) * (2 : ℝ) ^ (-49 : ℤ) := by
      rw [F64.val_add, F64.val_mul, F64.val_div, F64.val_sub, F64.val_cast, t5, t6,
        hT, hX, nat _ (by norm_num)]
      have q : A.rnd (((14 + 1 : ℕ) : ℝ) / ((14 + 1 : ℕ) : ℝ)) = 1 := by
        rw [show ((14 + 1 : ℕ) : ℝ) / ((14 + 1 : ℕ) : ℝ) = 1 by norm_num, l1]
      have d : A.rnd ((7684266864200909 : ℤ) * (2 : ℝ) ^ (-49 : ℤ) -
          (6147413491360727 : ℤ) * (2 : ℝ) ^ (-50 : ℤ)) =
          (4610560118520546 : ℤ) * (2 : ℝ) ^ (-49 : ℤ) :=
        r.tie (by norm_num) (by norm_num) (by decide) (by
          rw [abs_of_nonpos] <;> norm_num)
      have d' : A.rnd ((4610560118520546 : ℤ) * (2 : ℝ) ^ (-49 : ℤ)) =
          (4610560118520546 : ℤ) * (2 : ℝ) ^ (-49 : ℤ) := r.exact_int (by norm_num)
      rw [q, d, one_mul, d']
      exact r.tie (by norm_num) (by norm_num) (by decide) (by
          rw [abs_of_nonpos] <;> norm_num)
    refine ⟨s.lim3 + (((14 + 1 : ℕ) : F64 A) / ((15 : ℕ) : F64 A)) * (s.lim4 - s.lim3), ?_⟩
    unfold Slope.exitPoints Slope.rightCoords
    rw [t11, show Int.toNat 1000 = 1000 from rfl, numPointsBot_1000, List.mem_map]
    refine ⟨14, by simp, ?_⟩
    refine Prod.ext rfl ?_
    change s.getExternalY _ = none
    unfold Slope.getExternalY
    rw [if_pos]
    right
    rw [F64.lt_iff, hT', hx]
    norm_num

/-- C52 does not hold: on any machine with IEEE arithmetic, whatever its mathematical library,
`Slope(height=1, length=2.73)` with one material of any depth down to 6 m is accepted, and
`analyse_slope()` on it raises. -/
theorem C52_violated (A : Machine) :
    ∃ s : Slope (F64 A),
      Slope.new (.num (F64.mk 1)) (.num (F64.mk 30)) (.num (F64.mk 2.73)) = .ok s ∧
      (∀ m, ∃ e, (s.analyseSlope m).2 = .error e) ∧
      ∀ mat : Material (F64 A), mat.depth.val ≤ 6 →
        (s.setMaterials [some mat]).2 = .ok () ∧
        ∀ m, ∃ e, ((s.setMaterials [some mat]).1.analyseSlope m).2 = .error e := by
  have r := A.rounds
  obtain ⟨s, hs, h1, h2, h3, h4, h5, h6, h7, _⟩ := exDouble r
  refine ⟨s, hs, analyse_raises h1 h2 h3 h4 h7, fun mat hm => ?_⟩
  have hdeep : ¬ s.extH < mat.depth := by
    rw [F64.lt_iff, h6, not_lt]
    refine hm.trans ?_
    have l6 : A.rnd 6 = 6 := by simpa using r.exact_nat 6 (by norm_num)
    rw [← l6]
    apply r.mono
    have l12 : A.rnd 12 = 12 := by simpa using r.exact_nat 12 (by norm_num)
    have : (12 : ℝ) ≤ A.rnd (5 * A.rnd 2.73) := by
      rw [← l12]
      apply r.mono
      rw [F64.val_273 r]
      norm_num
    linarith
  have e : s.setMaterials [some mat] =
      ({ s with materials := mkLayers s.extH 0 [mat], search := [] }, .ok ()) := by
    simp [Slope.setMaterials, h5, sortByKey, pySort, hdeep, setSizeNum, Out.andThen,
      Slope.resetResults]
  rw [e]
  exact ⟨rfl, analyse_raises (s := { s with materials := _, search := _ }) h1 h2 h3 h4 h7⟩

/-- The part of C52 that holds on such a machine: when the right limit is inside the model by at
least one part in `2^51` (the default limit is not: it is the end of the model), every exit point
has a ground level, so the search does not raise `TypeError`. Missing: the default limit. -/
theorem C52_margin_partial (s : Slope (F64 A)) (h0 : 0 ≤ s.lim3.val)
    (h1 : s.lim3.val ≤ s.lim4.val) (h2 : s.lim4.val * (1 + 1 / 2 ^ 51) ≤ s.extL.val) :
    ∀ p ∈ s.exitPoints, p.2 ≠ none := by
  have r := A.rounds
  intro p hp
  unfold Slope.exitPoints Slope.rightCoords at hp
  rw [List.mem_map] at hp
  obtain ⟨k, hk, rfl⟩ := hp
  rw [List.mem_range] at hk
  set n := numPointsBot s.iterations.toNat with hn
  have l0 : A.rnd 0 = 0 := by simpa using r.exact_nat 0 (by norm_num)
  have l1 : A.rnd 1 = 1 := by simpa using r.exact_nat 1 (by norm_num)
  have nn : ∀ {x : ℝ}, 0 ≤ x → 0 ≤ A.rnd x := fun h => by
    have := r.mono h; rwa [l0] at this
  have up : ∀ {x : ℝ}, 0 ≤ x → A.rnd x ≤ x * (1 + 1 / 2 ^ 53) := fun {x} h => by
    have := (abs_le.mp (r.error x)).1
    rw [abs_of_nonneg h] at this
    ring_nf at this ⊢
    linarith
  -- the quotient is between 0 and 1
  have c1 : (0 : ℝ) ≤ ((k + 1 : ℕ) : F64 A).val := nn (by positivity)
  have c2 : ((k + 1 : ℕ) : F64 A).val ≤ ((n : ℕ) : F64 A).val := r.mono (by exact_mod_cast hk)
  have q0 : (0 : ℝ) ≤ (((k + 1 : ℕ) : F64 A) / ((n : ℕ) : F64 A)).val :=
    nn (div_nonneg c1 (c1.trans c2))
  have q1 : (((k + 1 : ℕ) : F64 A) / ((n : ℕ) : F64 A)).val ≤ 1 := by
    rw [← l1]
    exact r.mono (div_le_one_of_le₀ c2 (c1.trans c2))
  -- the span
  have d0 : (0 : ℝ) ≤ (s.lim4 - s.lim3).val := nn (sub_nonneg.mpr h1)
  have d1 : (s.lim4 - s.lim3).val ≤ (s.lim4.val - s.lim3.val) * (1 + 1 / 2 ^ 53) :=
    up (sub_nonneg.mpr h1)
  have m0 := nn (mul_nonneg q0 d0)
  have m1 : A.rnd ((((k + 1 : ℕ) : F64 A) / ((n : ℕ) : F64 A)).val * (s.lim4 - s.lim3).val) ≤
      (s.lim4 - s.lim3).val := by
    rw [show (s.lim4 - s.lim3).val = A.rnd (s.lim4 - s.lim3).val from
      (r.exact (r.rep _)).symm]
    apply r.mono
    rw [show A.rnd (s.lim4 - s.lim3).val = (s.lim4 - s.lim3).val from r.exact (r.rep _)]
    nlinarith
  have x0 := nn (add_nonneg h0 m0)
  have x1 := up (add_nonneg h0 m0)
  have hlt : ¬ (s.lim3 + (((k + 1 : ℕ) : F64 A) / ((n : ℕ) : F64 A)) * (s.lim4 - s.lim3) < 0 ∨
      s.extL < s.lim3 + (((k + 1 : ℕ) : F64 A) / ((n : ℕ) : F64 A)) * (s.lim4 - s.lim3)) := by
    rw [F64.lt_iff, F64.lt_iff, F64.val_add, F64.val_mul, F64.val_lit]
    rw [show A.rnd ((0 : ℕ) : ℝ) = 0 by simpa using l0]
    rw [not_or, not_lt, not_lt]
    refine ⟨x0, x1.trans (le_trans ?_ h2)⟩
    have : s.lim3.val + A.rnd ((((k + 1 : ℕ) : F64 A) / ((n : ℕ) : F64 A)).val *
        (s.lim4 - s.lim3).val) ≤ s.lim4.val * (1 + 1 / 2 ^ 53) := by
      norm_num at *
      linarith
    have h4 : 0 ≤ s.lim4.val := h0.trans h1
    norm_num at *
    nlinarith
  simp only [Slope.getExternalY]
  rw [if_neg hlt]
  split_ifs <;> simp

/-- On the slope of `C52_violated`, `set_analysis_limits(right_x=13)` brings the limits inside. -/
example (A : Machine) :
    ∃ s t : Slope (F64 A),
      Slope.new (.num (F64.mk 1)) (.num (F64.mk 30)) (.num (F64.mk 2.73)) = .ok s ∧
      s.setAnalysisLimits .none (.num (F64.mk 13)) .none .none = (t, .ok ()) ∧
      0 ≤ t.lim3.val ∧ t.lim3.val ≤ t.lim4.val ∧ t.lim4.val * (1 + 1 / 2 ^ 51) ≤ t.extL.val := by
  have r := A.rounds
  obtain ⟨s, hs, _, _, _, _, _, _, _, h1, h2, h3, h4, h5⟩ := exDouble r
  have l0 : (@OfNat.ofNat (F64 A) 0 (Lit.natLit 0)).val = 0 := by
    rw [F64.val_lit, r.exact_nat _ (by norm_num)]; norm_num
  have l13 : (F64.mk 13 : F64 A).val = 13 := by
    rw [F64.val_mk]; simpa using r.exact_nat 13 (by norm_num)
  have c1 : ¬ s.topX < 0 := by rw [F64.lt_iff, l0, h4]; norm_num
  have c2 : pyMin (F64.mk 13) s.extL = F64.mk 13 := by
    unfold pyMin
    rw [if_neg]
    rw [F64.lt_iff, h5, l13]; norm_num
  have c3 : pyMax s.lim1 0 = s.lim1 := by
    unfold pyMax
    rw [if_neg]
    rw [F64.lt_iff, h1, l0]; norm_num
  have c4 : ¬ s.topX ≤ s.lim1 := by rw [F64.le_iff, h1, h4]; norm_num
  have c5 : ¬ F64.mk 13 ≤ s.topX := by rw [F64.le_iff, h4, l13]; norm_num
  refine ⟨s, _, hs, by
    simp [Slope.setAnalysisLimits, assertStrictlyPositiveNumber, PyCmp.ltb, h2, h3, c1, c2, c3,
      c4, c5, pyMin_self, pyMax_self, PyVal.get!, bind, Except.bind, pure, Except.pure]; rfl, ?_⟩
  simp only [Slope.resetResults, l13, h4, h5]
  norm_num

/-- The part of C52 that holds in exact arithmetic: without loads, on any slope and whatever was
done with it, the search generates its circles and does not raise. -/
theorem C52_exact_partial (s : Slope ℝ) (r : Reachable s) (hu : s.udls = []) (hl : s.lls = []) :
    ∃ ps, s.entryExitPlanes = .ok ps := by
  cases h : s.entryExitPlanes with
  | ok ps => exact ⟨ps, rfl⟩
  | error e =>
    exfalso
    have := ((C29_zero_division s r).2.2 (by simp [hu]) (by simp [hl]) e).mp h
    have hb := this.2
    rw [hu, hl] at hb
    simp only [List.length_nil] at hb
    have h5 := r.wf.it
    have : 10 ≤ topPointsFor s.iterations.toNat := by
      unfold topPointsFor
      rw [Nat.le_sqrt, Nat.le_div_iff_mul_le (by unfold circlesFor; omega)]
      unfold circlesFor
      omega
    omega

example : ∃ ps, exSlope.entryExitPlanes = .ok ps :=
  C52_exact_partial exSlope exSlope_reachable rfl rfl

/-- There are machines with IEEE arithmetic: for instance the one whose library rounds correctly. -/
noncomputable def exMachine : Machine where
  rnd := round53
  rounds := round53_roundsToEven
  sin x := ⟨round53 (Real.sin x.1), round53_roundsToEven.rep _⟩
  cos x := ⟨round53 (Real.cos x.1), round53_roundsToEven.rep _⟩
  tan x := ⟨round53 (Real.tan x.1), round53_roundsToEven.rep _⟩
  atan x := ⟨round53 (Real.arctan x.1), round53_roundsToEven.rep _⟩
  pi := ⟨round53 Real.pi, round53_roundsToEven.rep _⟩

end C52

end PySlope
