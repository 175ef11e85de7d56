import Verif.Lemmas.NotANumber

/-! # C90: factors of safety that are not a number -/

namespace PySlope
open Finset

/-- Where the loop divides 0 by 0. -/
theorem bishopLoop_nonreal {n : ℕ} {q : ℕ → Slice} {w tol : ℝ} (hb : ∀ i, (q i).b = w) (m : ℕ) (F : ℝ)
    (h : bishopLoop w tol (listOf n q) m F = .error (.raise .nonreal)) :
    ∃ (k : ℕ) (f : ℕ → ℝ), k < m ∧ f 0 = F ∧ (∀ i < k, f (i + 1) = bishopRhs n q (f i)) ∧
      (∀ i < k, tol ≤ |f (i + 1) - f i|) ∧ f k = 0 ∧ ∃ i < n, (q i).sin * (q i).tan = 0 := by
  induction m generalizing F with
  | zero => cases h
  | succ m ih =>
    unfold bishopLoop at h
    cases hs : bishopStep w (listOf n q) F with
    | error x =>
      rw [hs] at h
      cases h
      unfold bishopStep at hs
      simp only [bind, Except.bind, throw, throwThe, MonadExceptOf.throw, pure, Except.pure, pyEq_real,
        lit_zero, decide_eq_true_eq] at hs
      split_ifs at hs with h0 h1 <;> cases hs
      refine ⟨0, fun _ => F, by omega, rfl, by simp, by simp, h0, ?_⟩
      rw [List.any_eq_true] at h1
      obtain ⟨f, hf, h2⟩ := h1
      unfold listOf at hf
      obtain ⟨i, hi, rfl⟩ := List.mem_map.mp hf
      refine ⟨i, List.mem_range.mp hi, ?_⟩
      simpa [Slice.forces] using h2
    | ok F' =>
      rw [hs] at h
      simp only [bind, Except.bind, pyAbs_real] at h
      split at h
      · cases h
      · rename_i hn
        obtain ⟨k, f, h1, h2, h3, h4, h5, h6⟩ := ih F' h
        obtain ⟨e1, _, _⟩ := bishopStep_ok hb hs
        refine ⟨k + 1, fun i => match i with | 0 => F | i + 1 => f i, by omega, rfl, ?_, ?_, h5, h6⟩
        · intro i hi
          cases i with
          | zero => simp only [h2, e1]
          | succ i => exact h3 i (by omega)
        · intro i hi
          cases i with
          | zero => simp only [h2]; exact not_lt.mp hn
          | succ i => exact h4 i (by omega)

/-- Over the real numbers the slices can be computed when the ordinary method gives a number. -/
theorem slices_computed {s : Slope ℝ} (rc : Reachable s) {cx cy r F : ℝ} {l rt : ℝ × ℝ}
    (ho : s.ordinary cx cy r (some l) (some rt) = .ok F) :
    ∃ rows fs, s.sliceRows cx cy r l.1 rt.1 = .ok rows ∧
      s.sliceForces ((rt.1 - l.1) / PySlope.ofInt s.slices) rows = .ok fs := by
  have hsl : 10 ≤ s.slices := rc.wf.sl.1
  obtain ⟨_, _, _, _, h5, h6, water, hw, _⟩ := ordinary_spec rc ho
  exact ⟨_, _, sliceRows_eq s (by omega) cx cy r l.1 rt.1 h6, sliceForces_eq h5 hw _ _⟩

/-- The value with NaN. -/
theorem bishopN_eq {s : Slope ℝ} (rc : Reachable s) (hw : ∀ z, s.waterRL = some z → z ≤ s.topY)
    {cx cy r : ℝ} (h0 : 0 ≤ cx ∧ 0 ≤ cy ∧ 0 ≤ r) :
    s.bishopN cx cy r = withNan (s.bishop cx cy r none none) := by
  obtain ⟨h1, h2, h3, _⟩ := bishopN_of s cx cy r
  cases hb : s.bishop cx cy r none none with
  | ok x => rw [h1 x hb]; rfl
  | error x =>
    by_cases hx : x = .raise .nonreal
    · subst hx
      cases he : s.bishopEnds cx cy r none none with
      | error x =>
        exfalso
        unfold Slope.bishop at hb
        rw [he] at hb
        cases hb
        obtain ⟨is, el, _⟩ := intersections rc.wf.geo cx cy r
        unfold Slope.bishopEnds at he
        rw [el] at he
        simp only at he
        rcases two_first rc.wf.geo el with h2 | ⟨a, b, rest, rfl, h2, hok⟩
        · rw [if_pos h2] at he; cases he
        · rw [if_neg h2] at he; cases he
      | ok lr =>
        obtain ⟨l, rt⟩ := lr
        cases ho : s.ordinary cx cy r (some l) (some rt) with
        | ok F =>
          rw [h3 l rt F he ho (slices_computed rc ho), hb]
        | error x =>
          have hb' := hb
          unfold Slope.bishop at hb'
          rw [he] at hb'
          simp only [bind, Except.bind] at hb'
          rw [ho] at hb'
          cases hb'
          exact (ordinary_raise rc hw h0 he ho).elim
    · rw [h2 x hx hb]
      cases x with
      | retNone => rfl
      | raise e => cases e <;> first | rfl | exact absurd rfl hx

/-- A circle whose value is NaN comes to the value 0 in Bishop's iteration. -/
theorem bishopN_nan {s : Slope ℝ} (rc : Reachable s) {cx cy r : ℝ} (h : s.bishopN cx cy r = .ok none) :
    ∃ l rt : ℝ × ℝ, FirstCrossings s cx cy r l rt ∧ ComesToZero s cx cy r l.1 rt.1 := by
  have hsl : 10 ≤ s.slices := rc.wf.sl.1
  cases he : s.bishopEnds cx cy r none none with
  | error x =>
    unfold Slope.bishopN at h
    rw [he] at h
    cases h
  | ok lr =>
    obtain ⟨l, rt⟩ := lr
    cases ho : s.ordinary cx cy r (some l) (some rt) with
    | error x =>
      unfold Slope.bishopN at h
      rw [he] at h
      simp only [bind, Except.bind] at h
      rw [ho] at h
      cases h
    | ok F =>
      refine ⟨l, rt, (bishopEnds_first rc.wf.geo he).2, ?_⟩
      rw [(bishopN_of s cx cy r).2.2.1 l rt F he ho (slices_computed rc ho)] at h
      have hb : s.bishop cx cy r none none = .error (.raise .nonreal) := by
        cases hb : s.bishop cx cy r none none with
        | ok x => rw [hb] at h; cases h
        | error x =>
          cases x with
          | retNone => rw [hb] at h; cases h
          | raise e => cases e <;> first | rfl | (rw [hb] at h; cases h)
      obtain ⟨_, _, _, _, _, _, water, hw, hf, _, hF⟩ := ordinary_spec rc ho
      rw [bishop_eq (by omega) he ho hw, hf] at hb
      obtain ⟨k, f, h1, h2, h3⟩ := bishopLoop_nonreal (w := s.width l.1 rt.1) (fun _ => rfl) _ _ hb
      exact ⟨k, f, h1, by rw [h2, hF], h3⟩

/-- The candidates of an analysis. -/
theorem analyseN_of {s : Slope ℝ} {ps : List (Plane ℝ)} (ha : Analysed s ps)
    (sort : (Found ℝ → Found ℝ → Bool) → List (Found ℝ) → List (Found ℝ)) (m : Option ℝ) :
    s.analyseN sort m = (s.foundN ps).map fun l =>
      (sort foundLt l).filter fun f => match m with
        | none => true
        | some M => decide (M = 0) || foundLe M f := by
  have key : s.analyseN sort m = match s.foundN ps with
      | .error e => .error e
      | .ok l => match m with
        | none => .ok (sort foundLt l)
        | some m => if m = 0 then .ok (sort foundLt l)
          else .ok ((sort foundLt l).filter (foundLe m)) := by
    unfold Slope.analyseN
    simp only [bind, Except.bind, pure, Except.pure]
    rcases ha with ⟨h1, rfl⟩ | ⟨h1, h2⟩
    · cases hi : s.individual with
      | nil => exact absurd hi h1
      | cons a as => simp only; cases s.foundN (a :: as) <;> cases m <;>
        simp only [pyEq_real, lit_zero, decide_eq_true_eq]
    · rw [h1]
      simp only
      rw [h2]
      simp only
      cases s.foundN ps <;> cases m <;>
        simp only [pyEq_real, lit_zero, decide_eq_true_eq]
  rw [key]
  cases s.foundN ps with
  | error e => rfl
  | ok l =>
    simp only [Except.map]
    cases m with
    | none => simp
    | some M =>
      by_cases hM : M = 0
      · simp [hM]
      · simp [hM]

/-- C90, no exception: the analysis ends, also where the arithmetic leaves the numbers, under the
conditions of C70. -/
theorem C90_ends (s : Slope ℝ) (r : Reachable s)
    (sort : (Found ℝ → Found ℝ → Bool) → List (Found ℝ) → List (Found ℝ)) (m : Option ℝ)
    (hc : ∀ p ∈ s.individual, 0 ≤ p.cx ∧ 0 ≤ p.cy ∧ 0 ≤ p.radius)
    (hw : ∀ z, s.waterRL = some z → z ≤ s.topY)
    (hn : s.individual = [] → (∀ u ∈ s.udls, u.left ≤ s.topX) ∧ (∀ l ∈ s.lls, l.coord ≤ s.topX) ∧
      s.udls.length + s.lls.length + 1 ≠ topPointsFor s.iterations.toNat) :
    ∃ res, s.analyseN sort m = .ok res := by
  have hA : ∃ ps, Analysed s ps := by
    by_cases hi : s.individual = []
    · cases he : s.entryExitPlanes with
      | ok ps => exact ⟨ps, .inr ⟨hi, he⟩⟩
      | error e =>
        obtain ⟨a, b, c⟩ := hn hi
        exact absurd (((C29_zero_division s r).2.2 a b e).mp he).2 c
    · exact ⟨_, .inl ⟨hi, rfl⟩⟩
  obtain ⟨ps, hA⟩ := hA
  have planes : ∀ p ∈ ps, 0 ≤ p.cx ∧ 0 ≤ p.cy ∧ 0 ≤ p.radius := by
    rcases hA with ⟨_, rfl⟩ | ⟨h1, h2⟩
    · exact hc
    · exact entryExitPlanes_centre r (hn h1).1 (hn h1).2.1 h2
  rw [analyseN_of hA, foundN_ok s ps]
  · exact ⟨_, rfl⟩
  · intro p hp e h
    rw [bishopN_eq r hw (planes p hp)] at h
    cases hb : s.bishop p.cx p.cy p.radius none none with
    | ok x => rw [hb] at h; cases h
    | error x =>
      cases x with
      | retNone => rw [hb] at h; cases h
      | raise e' =>
        rw [bishop_raise r hw (planes p hp) hb] at hb
        rw [hb] at h; cases h

/-- C90 (partial): if no circle analysed comes to the value 0 in Bishop's iteration, every factor of
safety reported is a number, the one of the circle; they are in increasing order, and the results are
those of the model without NaN, of which the other properties speak. Missing: a circle that comes to 0
is reported with NaN, and the order is lost (`C90_min_is_nan`, `C90_min_is_not_least`). -/
theorem C90_numbers_partial (s : Slope ℝ) (r : Reachable s)
    {sort : (Found ℝ → Found ℝ → Bool) → List (Found ℝ) → List (Found ℝ)} (hs : ListSort sort)
    (m : Option ℝ) {ps : List (Plane ℝ)} (ha : Analysed s ps)
    (hz : ∀ p ∈ ps, ∀ l rt, FirstCrossings s p.cx p.cy p.radius l rt →
      ¬ ComesToZero s p.cx p.cy p.radius l.1 rt.1)
    {res : List (Found ℝ)} (h : s.analyseN sort m = .ok res) :
    (∀ f ∈ res, f.plane ∈ ps ∧ ∃ F, f.fos = some F ∧
      s.bishop f.plane.cx f.plane.cy f.plane.radius none none = .ok F) ∧
    res.Pairwise (fun f g => ∀ x y, f.fos = some x → g.fos = some y → x ≤ y) ∧
    ∃ t, s.analyseSlope m = (t, .ok ()) ∧
      t.search = res.map (fun f => { f.plane with fos := some f.fos }) := by
  rw [analyseN_of ha] at h
  cases hf : s.foundN ps with
  | error e => rw [hf] at h; cases h
  | ok l =>
    rw [hf] at h
    have hN := foundN_noRaise s hf
    have hok : ∀ p ∈ ps, ∀ e, s.bishop p.cx p.cy p.radius none none ≠ .error (.raise e) := by
      intro p hp e he
      by_cases hx : e = .nonreal
      · subst hx
        rcases (bishopN_of s p.cx p.cy p.radius).2.2.2 he with h1 | h1
        · obtain ⟨a, b, h2, h3⟩ := bishopN_nan r h1
          exact hz p hp a b h2 h3
        · exact hN p hp _ h1
      · exact hN p hp e ((bishopN_of s p.cx p.cy p.radius).2.1 _ (by simpa using hx) he)
    have hl : l = (ps.filter fun p => (fosOf s p).isSome).map
        fun p => { plane := p, fos := fosOf s p } := by
      rw [foundN_ok s ps hN] at hf
      cases hf
      rw [← List.filterMap_eq_filter, ← List.filterMap_eq_map, List.filterMap_filterMap]
      apply List.filterMap_congr
      intro p hp
      cases hb : s.bishop p.cx p.cy p.radius none none with
      | ok x =>
        rw [(bishopN_of s p.cx p.cy p.radius).1 x hb]
        have := fosOf_some.mpr hb
        simp [this, Option.guard]
      | error x =>
        cases x with
        | retNone =>
          rw [(bishopN_of s p.cx p.cy p.radius).2.1 _ (by simp) hb]
          have : fosOf s p = none := by unfold fosOf; rw [hb]
          simp [this, Option.guard]
        | raise e => exact absurd hb (hok p hp e)
    have hlt : ∀ a ∈ l, ∀ b ∈ l, foundLt a b = true ↔ a.fos.getD 0 < b.fos.getD 0 := by
      intro a ha' b hb
      rw [hl] at ha' hb
      obtain ⟨p, hp, rfl⟩ := List.mem_map.mp ha'
      obtain ⟨q, hq, rfl⟩ := List.mem_map.mp hb
      obtain ⟨x, hx⟩ := Option.isSome_iff_exists.mp (List.mem_filter.mp hp).2
      obtain ⟨y, hy⟩ := Option.isSome_iff_exists.mp (List.mem_filter.mp hq).2
      simp [foundLt, hx, hy]
    have hmem : ∀ f ∈ l, f.plane ∈ ps ∧ ∃ F, f.fos = some F ∧
        s.bishop f.plane.cx f.plane.cy f.plane.radius none none = .ok F := by
      intro f hf'
      rw [hl] at hf'
      obtain ⟨p, hp, rfl⟩ := List.mem_map.mp hf'
      obtain ⟨x, hx⟩ := Option.isSome_iff_exists.mp (List.mem_filter.mp hp).2
      exact ⟨(List.mem_filter.mp hp).1, x, hx, fosOf_some.mp hx⟩
    have hres : res = (pySort foundLt l).filter fun f => match m with
        | none => true
        | some M => decide (M = 0) || foundLe M f := by
      simp only [Except.map] at h
      rw [hs.stable foundLt l (fun f => f.fos.getD 0) hlt] at h
      cases m <;> exact (Except.ok.inj h).symm
    have hin : ∀ f ∈ res, f ∈ l := by
      intro f hf'
      rw [hres] at hf'
      exact (List.mergeSort_perm l _).mem_iff.mp (List.mem_filter.mp hf').1
    refine ⟨fun f hf' => hmem f (hin f hf'), ?_, s.analysedTo m ps,
      analyseSlope_of ha (fun p hp e => hok p hp e) m, ?_⟩
    · have hp : pySort foundLt l = sortByKey (fun f => f.fos.getD 0) l := by
        unfold pySort sortByKey pySort
        apply mergeSort_congr
        intro a ha' b hb
        rw [Bool.eq_iff_iff, Bool.not_eq_true', Bool.not_eq_true', ← Bool.not_eq_true,
          ← Bool.not_eq_true, hlt b hb a ha', decide_eq_true_eq]
      rw [hres, hp]
      refine List.Pairwise.imp ?_ ((sortByKey_sorted (fun f : Found ℝ => f.fos.getD 0) l).filter _)
      intro f g hfg x y hx hy
      simpa [hx, hy] using hfg
    · have hG : (l.map fun f => { f.plane with fos := some f.fos }) =
          (ps.map (withFos s)).filter fun p => p.fosVal.isSome := by
        rw [hl, List.filter_map, List.map_map]
        rfl
      have hsort : ((pySort foundLt l).map fun f => { f.plane with fos := some f.fos }) =
          pySort fosLt ((ps.map (withFos s)).filter fun p => p.fosVal.isSome) := by
        rw [← hG]
        unfold pySort
        rw [List.map_mergeSort]
        intro a _ b _
        rfl
      show tidySearch m (ps.map (withFos s)) = _
      unfold tidySearch
      simp only
      rw [← hsort, hres]
      cases m with
      | none => simp
      | some M =>
        simp only [pyEq_real, lit_zero, decide_eq_true_eq]
        by_cases hM : M = 0
        · simp [hM]
        · rw [if_neg hM, List.filter_map]
          simp only [hM, decide_false, Bool.false_or]
          rfl

end PySlope
