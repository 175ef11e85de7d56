import Verif.Spec.Ieee754
import Verif.Lemmas.Ieee
import Verif.Model.Analysis
import Verif.Lemmas.Slices

/-! # NaN goes through arithmetic, and no comparison with it holds -/

namespace PySlope
open Lit

namespace X64

variable {A : Machine}

theorem nan_add (a : X64 A) : nan + a = nan := by cases a <;> rfl
theorem add_nan (a : X64 A) : a + nan = nan := by cases a <;> rfl
theorem nan_sub (a : X64 A) : nan - a = nan := by cases a <;> rfl
theorem sub_nan (a : X64 A) : a - nan = nan := by cases a <;> rfl
theorem nan_mul (a : X64 A) : nan * a = nan := by cases a <;> rfl
theorem mul_nan (a : X64 A) : a * nan = nan := by cases a <;> rfl
theorem nan_div (a : X64 A) : nan / a = nan := by cases a <;> rfl
theorem div_nan (a : X64 A) : a / nan = nan := by cases a <;> rfl
theorem nan_lt (a : X64 A) : ¬ nan < a := by cases a <;> exact id
theorem lt_nan (a : X64 A) : ¬ a < nan := by cases a <;> exact id
theorem nan_le (a : X64 A) : ¬ nan ≤ a := by cases a <;> exact id
theorem le_nan (a : X64 A) : ¬ a ≤ nan := by cases a <;> exact id

@[simp] theorem pyEq_nan (a : X64 A) : pyEq nan a = false := by simp [pyEq, nan_le]
@[simp] theorem nan_pyEq (a : X64 A) : pyEq a nan = false := by simp [pyEq, le_nan]
@[simp] theorem ltb_nan (a : X64 A) : PyCmp.ltb nan a = false := by simp [PyCmp.ltb, nan_lt]
@[simp] theorem nan_ltb (a : X64 A) : PyCmp.ltb a nan = false := by simp [PyCmp.ltb, lt_nan]
@[simp] theorem pyAbs_nan : pyAbs (nan : X64 A) = nan := by simp [pyAbs, nan_lt]
@[simp] theorem pyMax_nan (a : X64 A) : pyMax a nan = a := by simp [pyMax, lt_nan]
@[simp] theorem pyMax_nan_left (a : X64 A) : pyMax nan a = nan := by simp [pyMax, nan_lt]
@[simp] theorem tan_nan : PyNum.tan (nan : X64 A) = nan := rfl
@[simp] theorem radians_nan : radians (nan : X64 A) = nan := by simp [radians, nan_mul]
@[simp] theorem truthy_nan : (PyVal.num (nan : X64 A)).truthy = true := by
  simp [PyVal.truthy]

/-- A sum with a NaN in it is NaN. -/
theorem foldl_nan (l : List (X64 A)) : l.foldl (· + ·) nan = nan := by
  induction l with
  | nil => rfl
  | cons a l ih => rw [List.foldl_cons, nan_add, ih]

theorem lsum_nan {l : List (X64 A)} (h : ∀ a ∈ l, a = nan) (ne : l ≠ []) : lsum l = nan := by
  cases l with
  | nil => exact absurd rfl ne
  | cons a l =>
    unfold lsum
    rw [List.foldl_cons, h a (by simp), add_nan, foldl_nan]

theorem zero_eq : ∃ z : F64 A, (0 : X64 A) = fin z ∧ z.val = 0 := by
  have e : A.rnd ((0 : ℕ) : ℝ) = 0 := by
    have := A.rounds.exact_nat 0 (by norm_num)
    simpa using this
  refine ⟨F64.mk ((0 : ℕ) : ℝ), ?_, e⟩
  show ofReal ((0 : ℕ) : ℝ) = _
  unfold ofReal
  rw [if_pos]
  rw [e]; norm_num

theorem zero_le_zero : (0 : X64 A) ≤ 0 := by
  obtain ⟨z, h, _⟩ := zero_eq (A := A)
  rw [h]
  exact le_refl z.val

end X64

variable {A : Machine}

/-- Every result of a successful loop comes from an element. -/
theorem mapM_mem_ok {α β ε : Type} {f : α → Except ε β} {l : List α} {r : List β}
    (h : l.mapM f = .ok r) : ∀ b ∈ r, ∃ a ∈ l, f a = .ok b := by
  induction l generalizing r with
  | nil => cases h; simp
  | cons a l ih =>
    rw [List.mapM_cons] at h
    cases ha : f a with
    | error e => rw [ha] at h; cases h
    | ok b =>
      rw [ha] at h
      cases hl : l.mapM f with
      | error e => rw [hl] at h; cases h
      | ok r' =>
        rw [hl] at h
        cases h
        intro c hc
        rcases List.mem_cons.mp hc with rfl | hc
        · exact ⟨a, by simp, ha⟩
        · obtain ⟨a', h1, h2⟩ := ih hl c hc
          exact ⟨a', List.mem_cons_of_mem _ h1, h2⟩

theorem strengthLoop_cohesion {P : X64 A → Prop} (yb : X64 A) (ms : List (Layer (X64 A)))
    (h : ∀ l ∈ ms, P l.mat.cohesion) (acc : X64 A × X64 A × Bool) (ha : P acc.1) :
    P (strengthLoop yb ms acc).1 := by
  induction ms generalizing acc with
  | nil => exact ha
  | cons m ms ih =>
    obtain ⟨c, t, b⟩ := acc
    unfold strengthLoop
    split
    · exact ih (fun l hl => h l (List.mem_cons_of_mem _ hl)) _ (h m (by simp))
    · exact ih (fun l hl => h l (List.mem_cons_of_mem _ hl)) _ ha

/-- If every layer has a cohesion that is NaN then so has every slice. -/
theorem sliceForces_cohesion_nan {s : Slope (X64 A)} (h : ∀ l ∈ s.materials, l.mat.cohesion = X64.nan)
    {w : X64 A} {rows fs} (e : s.sliceForces w rows = .ok fs) : ∀ f ∈ fs, f.c = X64.nan := by
  unfold Slope.sliceForces at e
  simp only [bind, Except.bind] at e
  split at e
  · cases e
  · rename_i water _
    intro f hf
    obtain ⟨q, _, hq⟩ := mapM_mem_ok e f hf
    unfold Slope.rowStrength at hq
    cases hl : s.materials.getLast? with
    | none => rw [hl] at hq; cases hq
    | some last =>
      rw [hl] at hq
      simp only [Except.ok.injEq] at hq
      rw [← hq]
      exact strengthLoop_cohesion (P := (· = X64.nan)) _ _ h _ (h _ (List.mem_of_getLast? hl))

theorem ordinaryTerm_nan (w : X64 A) {f : SliceForces (X64 A)} (h : f.c = X64.nan) :
    ordinaryTerm w f = X64.nan := by
  unfold ordinaryTerm
  simp only [h, X64.nan_mul, X64.nan_add]

theorem bishopTerm_nan (w F : X64 A) {f : SliceForces (X64 A)} (h : f.c = X64.nan) :
    bishopTerm w F f = X64.nan := by
  unfold bishopTerm
  simp only [h, X64.nan_mul, X64.nan_add, X64.nan_div]

theorem resisting_nan {fs : List (SliceForces (X64 A))} (g : SliceForces (X64 A) → X64 A)
    (hg : ∀ f ∈ fs, g f = X64.nan) (hd : ¬ drivingSum fs ≤ 0) : lsum (fs.map g) = X64.nan := by
  apply X64.lsum_nan
  · intro a ha
    obtain ⟨f, hf, rfl⟩ := List.mem_map.mp ha
    exact hg f hf
  · intro e
    apply hd
    rw [List.map_eq_nil_iff] at e
    rw [e]
    exact X64.zero_le_zero

/-- The ordinary method gives NaN. -/
theorem ordinary_cohesion_nan {s : Slope (X64 A)} (h : ∀ l ∈ s.materials, l.mat.cohesion = X64.nan)
    {cx cy r : X64 A} {left right} {F} (e : s.ordinary cx cy r left right = .ok F) : F = X64.nan := by
  unfold Slope.ordinary at e
  simp only [bind, Except.bind, throw, throwThe, MonadExceptOf.throw, pure, Except.pure] at e
  repeat' (split at e; try cases e)
  rename_i fs hfs hd
  simp only [Except.ok.injEq] at e
  rw [← e, resisting_nan (ordinaryTerm _)
    (fun f hf => ordinaryTerm_nan _ (sliceForces_cohesion_nan h hfs f hf)) hd, X64.nan_div]

theorem bishopLoop_cohesion_nan {w tol : X64 A} {fs : List (SliceForces (X64 A))}
    (h : ∀ f ∈ fs, f.c = X64.nan) (n : ℕ) {F} (e : bishopLoop w tol fs n X64.nan = .ok F) : F = X64.nan := by
  induction n with
  | zero => cases e; rfl
  | succ n ih =>
    unfold bishopLoop bishopStep at e
    simp only [X64.pyEq_nan, Bool.false_eq_true, if_false, bind, Except.bind, throw, throwThe,
      MonadExceptOf.throw, pure, Except.pure] at e
    by_cases h1 : (fs.any fun f => pyEq (bishopDenom X64.nan f) 0) = true
    · simp [h1] at e
    · by_cases hd : drivingSum fs ≤ 0
      · simp [h1, hd] at e
      · have e1 := resisting_nan (bishopTerm w X64.nan) (fun f hf => bishopTerm_nan w X64.nan (h f hf)) hd
        simp only [h1, e1, hd, X64.nan_lt, or_self, if_false, Bool.false_eq_true, X64.nan_div, X64.nan_sub,
          X64.pyAbs_nan] at e
        exact ih e

/-- Bishop's method gives NaN. -/
theorem bishop_cohesion_nan {s : Slope (X64 A)} (h : ∀ l ∈ s.materials, l.mat.cohesion = X64.nan)
    {cx cy r : X64 A} {left right} {F} (e : s.bishop cx cy r left right = .ok F) : F = X64.nan := by
  unfold Slope.bishop at e
  simp only [bind, Except.bind] at e
  split at e
  · cases e
  · split at e
    · cases e
    · rename_i F0 h0
      split at e
      · cases e
      · split at e
        · cases e
        · rename_i fs hfs
          rw [ordinary_cohesion_nan h h0] at e
          exact bishopLoop_cohesion_nan (sliceForces_cohesion_nan h hfs) _ e

end PySlope
