import Verif.Spec.NotANumber
import Verif.Props.Assessed

/-! # The analysis with "not a number" and the one without -/

namespace PySlope
open Lit

variable {K : Type} [PyNum K]

/-- A value of the model without NaN, read in the one with NaN. -/
def withNan : Calc K → Calc (Option K)
  | .ok x => .ok (some x)
  | .error .retNone => .error .retNone
  | .error (.raise .nonreal) => .ok none
  | .error (.raise e) => .error (.raise e)

theorem bishopLoopN_nan {w tol : K} {fs : List (SliceForces K)} (hd : ¬ drivingSum fs ≤ 0) (n : ℕ) :
    bishopLoopN w tol fs n none = .ok none := by
  induction n with
  | zero => rfl
  | succ n ih =>
    unfold bishopLoopN bishopStepN
    rw [if_neg hd]
    exact ih

theorem bishopLoopN_eq {w tol : K} {fs : List (SliceForces K)} (hd : ¬ drivingSum fs ≤ 0) (n : ℕ) (F : K) :
    bishopLoopN w tol fs n (some F) = withNan (bishopLoop w tol fs n F) := by
  induction n generalizing F with
  | zero => rfl
  | succ n ih =>
    unfold bishopLoopN bishopLoop bishopStepN bishopStep
    simp only [bind, Except.bind, throw, throwThe, MonadExceptOf.throw, pure, Except.pure]
    by_cases h0 : pyEq F 0 = true
    · rw [if_pos h0, if_pos h0, if_neg hd]
      by_cases h1 : (fs.any fun f => pyEq (f.sinA * f.tanPhi) 0) = true
      · rw [if_pos h1, if_pos h1]
        exact bishopLoopN_nan hd n
      · rw [if_neg h1, if_neg h1, if_neg hd]
        simp only [settled, decide_eq_true_eq]
        split
        · rfl
        · exact ih _
    · rw [if_neg h0, if_neg h0]
      by_cases h1 : (fs.any fun f => pyEq (bishopDenom F f) 0) = true
      · rw [if_pos h1, if_pos h1]; rfl
      · rw [if_neg h1, if_neg h1]
        by_cases h2 : drivingSum fs ≤ 0 ∨ lsum (fs.map (bishopTerm w F)) < 0
        · rw [if_pos h2, if_pos h2]; rfl
        · rw [if_neg h2, if_neg h2]
          simp only [settled, decide_eq_true_eq]
          split
          · rfl
          · exact ih _

/-- The driving sum is positive when the ordinary method gives a value. -/
theorem ordinary_drives {s : Slope K} {cx cy r F : K} {l rt : K × K} {rows fs}
    (h : s.ordinary cx cy r (some l) (some rt) = .ok F) (h1 : s.sliceRows cx cy r l.1 rt.1 = .ok rows)
    (h2 : s.sliceForces ((rt.1 - l.1) / ofInt s.slices) rows = .ok fs) : ¬ drivingSum fs ≤ 0 := by
  unfold Slope.ordinary at h
  simp only [Slope.ordinaryEnds, bind, Except.bind, throw, throwThe, MonadExceptOf.throw, pure,
    Except.pure, h1, h2] at h
  split_ifs at h with a b c
  exact c

/-- The value with NaN is the one without, unless that one is at a division of 0 by 0. -/
theorem bishopN_of (s : Slope K) (cx cy r : K) :
    (∀ x, s.bishop cx cy r none none = .ok x → s.bishopN cx cy r = .ok (some x)) ∧
    (∀ e, e ≠ .raise .nonreal → s.bishop cx cy r none none = .error e → s.bishopN cx cy r = .error e) ∧
    (∀ l rt F, s.bishopEnds cx cy r none none = .ok (l, rt) →
      s.ordinary cx cy r (some l) (some rt) = .ok F →
      (∃ rows fs, s.sliceRows cx cy r l.1 rt.1 = .ok rows ∧
        s.sliceForces ((rt.1 - l.1) / ofInt s.slices) rows = .ok fs) →
      s.bishopN cx cy r = withNan (s.bishop cx cy r none none)) ∧
    (s.bishop cx cy r none none = .error (.raise .nonreal) →
      s.bishopN cx cy r = .ok none ∨ s.bishopN cx cy r = .error (.raise .nonreal)) := by
  unfold Slope.bishop Slope.bishopN
  simp only [bind, Except.bind]
  cases he : s.bishopEnds cx cy r none none with
  | error x =>
    refine ⟨fun _ h => (by cases h), fun e _ h => (by cases h; rfl), fun _ _ _ h => (by cases h),
      fun h => .inr (by cases h; rfl)⟩
  | ok lr =>
    obtain ⟨l, rt⟩ := lr
    simp only
    cases ho : s.ordinary cx cy r (some l) (some rt) with
    | error x =>
      refine ⟨fun _ h => (by cases h), fun e _ h => (by cases h; rfl), ?_, fun h => .inr (by cases h; rfl)⟩
      intro l' rt' F h h'
      cases h
      rw [ho] at h'; cases h'
    | ok F0 =>
      simp only
      cases hr : s.sliceRows cx cy r l.1 rt.1 with
      | error x =>
        refine ⟨fun _ h => (by cases h), fun e _ h => (by cases h; rfl), ?_, fun h => .inr (by cases h; rfl)⟩
        rintro l' rt' F h h' ⟨rows, fs, h1, h2⟩
        cases h
        rw [hr] at h1; cases h1
      | ok rows =>
        simp only
        cases hf : s.sliceForces ((rt.1 - l.1) / ofInt s.slices) rows with
        | error x =>
          refine ⟨fun _ h => (by cases h), fun e _ h => (by cases h; rfl), ?_, fun h => .inr (by cases h; rfl)⟩
          rintro l' rt' F h h' ⟨rows', fs, h1, h2⟩
          cases h
          rw [hr] at h1; cases h1
          rw [hf] at h2; cases h2
        | ok fs =>
          simp only
          have hl := bishopLoopN_eq (w := (rt.1 - l.1) / ofInt s.slices) (tol := s.tolerance)
            (ordinary_drives ho hr hf) s.maxIterations.toNat F0
          refine ⟨fun x h => ?_, fun e hne h => ?_, fun _ _ _ _ _ _ => hl,
            fun h => .inl (by rw [hl, h]; rfl)⟩
          · rw [hl, h]; rfl
          · rw [hl, h]
            cases e with
            | retNone => rfl
            | raise e => cases e <;> first | rfl | exact absurd rfl hne

/-- The planes that get a value, number or NaN, when none raises. -/
theorem foundN_ok (s : Slope K) (ps : List (Plane K))
    (h : ∀ p ∈ ps, ∀ e, s.bishopN p.cx p.cy p.radius ≠ .error (.raise e)) :
    s.foundN ps = .ok (ps.filterMap fun p => match s.bishopN p.cx p.cy p.radius with
      | .ok v => some { plane := p, fos := v }
      | .error _ => none) := by
  induction ps with
  | nil => rfl
  | cons p ps ih =>
    unfold Slope.foundN
    rw [ih (fun q hq => h q (List.mem_cons_of_mem _ hq))]
    have hp := h p List.mem_cons_self
    rw [List.filterMap_cons]
    cases hb : s.bishopN p.cx p.cy p.radius with
    | ok v => rfl
    | error x =>
      cases x with
      | retNone => rfl
      | raise e => exact absurd hb (hp e)

theorem foundN_noRaise (s : Slope K) {ps : List (Plane K)} {l} (h : s.foundN ps = .ok l) :
    ∀ p ∈ ps, ∀ e, s.bishopN p.cx p.cy p.radius ≠ .error (.raise e) := by
  induction ps generalizing l with
  | nil => simp
  | cons p ps ih =>
    unfold Slope.foundN at h
    cases hb : s.bishopN p.cx p.cy p.radius with
    | ok v =>
      rw [hb] at h
      cases hr : s.foundN ps with
      | error x => rw [hr] at h; cases h
      | ok l' =>
        intro q hq e
        rcases List.mem_cons.mp hq with rfl | hq
        · rw [hb]; simp
        · exact ih hr q hq e
    | error x =>
      cases x with
      | retNone =>
        rw [hb] at h
        intro q hq e
        rcases List.mem_cons.mp hq with rfl | hq
        · rw [hb]; simp
        · exact ih h q hq e
      | raise x => rw [hb] at h; cases h

theorem foundN_error (s : Slope K) {ps : List (Plane K)} {e : PyErr} (h : s.foundN ps = .error e) :
    ∃ p ∈ ps, s.bishopN p.cx p.cy p.radius = .error (.raise e) := by
  induction ps with
  | nil => cases h
  | cons p ps ih =>
    unfold Slope.foundN at h
    cases hb : s.bishopN p.cx p.cy p.radius with
    | ok v =>
      rw [hb] at h
      cases hr : s.foundN ps with
      | ok l => rw [hr] at h; cases h
      | error x =>
        rw [hr] at h; cases h
        obtain ⟨q, hq, e'⟩ := ih hr
        exact ⟨q, List.mem_cons_of_mem _ hq, e'⟩
    | error x =>
      cases x with
      | retNone =>
        rw [hb] at h
        obtain ⟨q, hq, e'⟩ := ih h
        exact ⟨q, List.mem_cons_of_mem _ hq, e'⟩
      | raise x =>
        rw [hb] at h; cases h
        exact ⟨p, List.mem_cons_self, hb⟩

theorem runSort_listSort {α : Type} : ListSort (runSort (α := α)) := by
  refine ⟨fun lt l => ?_, fun lt l h => ?_, fun lt l key h => ?_⟩
  · unfold runSort
    split
    · exact List.Perm.refl _
    · exact List.mergeSort_perm _ _
  · unfold runSort; rw [if_pos h]
  · unfold runSort
    split
    · rename_i hc
      unfold pySort
      symm
      apply List.mergeSort_of_pairwise
      have hkey : l.IsChain (fun a b => key a ≤ key b) := by
        have h' : ∀ l', l' ⊆ l → l'.IsChain (fun a b => lt b a = false) → l'.IsChain (fun a b => key a ≤ key b) := by
          intro l'
          induction l' with
          | nil => intro _ _; exact .nil
          | cons a as ih =>
            intro hs hc
            cases as with
            | nil => exact .singleton a
            | cons b bs =>
              rw [List.isChain_cons_cons] at hc ⊢
              refine ⟨?_, ih (fun x hx => hs (List.mem_cons_of_mem _ hx)) hc.2⟩
              by_contra hn
              have := (h b (hs (by simp)) a (hs (by simp))).mpr (not_le.mp hn)
              rw [this] at hc
              exact absurd hc.1 (by simp)
        exact h' l (List.Subset.refl _) hc
      have hp : l.Pairwise (fun a b => key a ≤ key b) := by
        haveI : Trans (fun a b : α => key a ≤ key b) (fun a b => key a ≤ key b) (fun a b => key a ≤ key b) :=
          ⟨fun a b => le_trans a b⟩
        exact List.isChain_iff_pairwise.mp hkey
      refine hp.imp_of_mem ?_
      intro a b ha hb hab
      by_contra hn
      simp only [Bool.not_eq_true', Bool.not_eq_false] at hn
      exact absurd ((h b hb a ha).mp hn) (not_lt.mpr hab)
    · rfl

end PySlope
