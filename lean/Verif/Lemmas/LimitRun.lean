import Verif.Lemmas.LimitPlanes

/-! # Histories of calls in arithmetics whose rounding errors go to zero -/

namespace PySlope
open Filter Topology Lit

namespace Better
variable {K : ℕ → Type} [∀ n, PyNum (K n)] {val : ∀ n, K n → ℝ} {e : ℕ → ℝ} (B : Better val e)
include B

theorem val_num {v : ∀ n, PyVal (K n)} {a : ℝ} (c : ∀ n, CloseVal (e n) (val n) (.num a) (v n)) :
    ∃ x : ∀ n, K n, (∀ n, v n = .num (x n)) ∧ Lim val x a := by
  have : ∀ n, ∃ x, v n = .num x ∧ |val n x - a| ≤ e n := by
    intro n
    have := c n
    cases h : v n with
    | num x => rw [h] at this; exact ⟨x, rfl, this⟩
    | numSub x => rw [h] at this; exact this.elim
    | none => rw [h] at this; exact this.elim
    | other t => rw [h] at this; exact this.elim
  choose x h1 h2 using this
  exact ⟨x, h1, B.of_close h2⟩

theorem val_arg {v : ∀ n, PyVal (K n)} {w : PyVal ℝ} (c : ∀ n, CloseVal (e n) (val n) w (v n)) (h : Within (0 < ·) w) :
    LimArg val v w := by
  cases w with
  | num a =>
    obtain ⟨x, h1, h2⟩ := B.val_num c
    exact .inr ⟨x, a, rfl, h1, h2, h⟩
  | numSub a => exact (c 0).elim
  | other t => exact (c 0).elim
  | none =>
    refine .inl ⟨rfl, fun n => ?_⟩
    have := c n
    cases h : v n with
    | num x => rw [h] at this; exact this.elim
    | numSub x => rw [h] at this; exact this.elim
    | none => rfl
    | other t => rw [h] at this; exact this.elim

theorem setWaterTable {S : ∀ n, Slope (K n)} {s : Slope ℝ} (b : LimSlope val S s) {v : ∀ n, PyVal (K n)} {w : PyVal ℝ}
    (h : LimArg val v w) : Goes val (fun n => (S n).setWaterTable (v n)) (s.setWaterTable w) := by
  rcases h with ⟨rfl, h⟩ | ⟨x, a, rfl, h, hx, pa⟩
  · refine Goes.of (T := fun n => { S n with waterRL := none, waterDepth := none, search := [] })
      (s := { s with waterRL := none, waterDepth := none, search := [] }) ?_ (.of_forall fun n => by rw [h]; rfl) rfl
    exact { b with waterRL := .inl ⟨rfl, .of_forall fun n => rfl⟩ }
  · refine Goes.of (T := fun n => { S n with
        waterRL := some (PySlope.pyMax 0 ((S n).topY - x n)), waterDepth := some (x n), search := [] })
      (s := { s with waterRL := some (max 0 (s.topY - a)), waterDepth := some a, search := [] }) ?_ ?_ ?_
    · refine { b with waterRL := .inr ⟨_, _, rfl, .of_forall fun n => rfl, ?_⟩ }
      exact B.pyMax B.zero' (B.sub b.topY hx)
    · filter_upwards [B.not_lt hx B.zero' pa] with n hn
      rw [h]
      unfold Slope.setWaterTable assertPositiveNumber
      simp only [PyCmp.ltb, hn, decide_false, Bool.false_eq_true, if_false, PyVal.get!]
      rfl
    · unfold Slope.setWaterTable assertPositiveNumber
      simp only [PyCmp.ltb, pa.not_gt, decide_false, Bool.false_eq_true, if_false, PyVal.get!, pyMax_real, lit_zero]
      rfl

theorem removeLimits {S : ∀ n, Slope (K n)} {s : Slope ℝ} (b : LimSlope val S s) :
    Goes val (fun n => (S n).removeAnalysisLimits) s.removeAnalysisLimits := by
  refine Goes.of (T := fun n => { S n with lim1 := 0, lim2 := (S n).topX, lim3 := (S n).topX, lim4 := (S n).extL, search := [] })
    (s := { s with lim1 := 0, lim2 := s.topX, lim3 := s.topX, lim4 := s.extL, search := [] }) ?_ ?_
    (removeAnalysisLimits_eq s b.topPos b.topLt)
  · exact { b with lim1 := B.zero', lim2 := b.topX, lim3 := b.topX, lim4 := b.extL, limPos := b.topPos }
  · filter_upwards [B.not_lt b.topX B.zero' b.topPos, B.not_lt b.extL B.zero' (b.topPos.trans b.topLt),
      B.not_le b.topX B.zero' b.topPos, B.not_le b.extL b.topX b.topLt] with n a1 a2 a3 a4
    exact removeAnalysisLimits_any _ (B.irrefl n _) a1 a2 a3 a4

omit B in
theorem _root_.PySlope.setAnalysisLimits_of {K : Type} [PyNum K] {s : Slope K} {a b c d : PyVal K} (ha : a.Fine) (hb : b.Fine)
    (hc : c.Fine) (hd : d.Fine) (hbd : b = .none → d = .none) (h3 : ¬ s.lim3 < 0) :
    s.setAnalysisLimits a b c d =
      if PySlope.pyMin (c.numOr s.lim2) s.topX ≤ PySlope.pyMax (a.numOr s.lim1) 0 ∨
          PySlope.pyMin (b.numOr s.lim4) s.extL ≤ PySlope.pyMax (d.numOr s.lim3) s.topX then (s, .error .valueError)
      else ({ s with
        lim1 := PySlope.pyMax (a.numOr s.lim1) 0
        lim2 := PySlope.pyMin (c.numOr s.lim2) s.topX
        lim3 := PySlope.pyMax (d.numOr s.lim3) s.topX
        lim4 := PySlope.pyMin (b.numOr s.lim4) s.extL
        search := [] }, .ok ()) := by
  unfold Slope.setAnalysisLimits
  rcases ha with rfl | ⟨x, rfl, -, a2⟩ <;> rcases hb with rfl | ⟨y, rfl, -, b2⟩ <;> rcases hc with rfl | ⟨z, rfl, -, c2⟩ <;>
    rcases hd with rfl | ⟨w, rfl, -, d2⟩ <;>
    first
    | (have h := hbd rfl; cases h; done)
    | (simp only [assertPositiveNumber, assertStrictlyPositiveNumber, PyCmp.ltb, PyVal.get!, PyVal.numOr, Bind.bind, Except.bind,
        Pure.pure, Except.pure, decide_eq_true_eq, *, if_false]
       split_ifs with H
       · simp only [H, if_true]; rfl
       · simp only [H, if_false]; rfl)

theorem setAnalysisLimits {S : ∀ n, Slope (K n)} {s : Slope ℝ} (l : LimSlope val S s) {a b c d : ∀ n, PyVal (K n)}
    {a' b' c' d' : PyVal ℝ} (ha : LimArg val a a') (hb : LimArg val b b') (hc : LimArg val c c') (hd : LimArg val d d')
    (ok : (s.setAnalysisLimits a' b' c' d').2 = .ok ()) :
    Goes val (fun n => (S n).setAnalysisLimits (a n) (b n) (c n) (d n)) (s.setAnalysisLimits a' b' c' d') := by
  have hbd : b' = .none → d' = .none := by
    rintro rfl
    rcases hd with ⟨rfl, -⟩ | ⟨x, y, rfl, -⟩
    · rfl
    · exfalso
      rcases (B.fine ha).1 with rfl | ⟨x, rfl, -, a2⟩ <;> rcases (B.fine hc).1 with rfl | ⟨z, rfl, -, c2⟩ <;>
        simp only [Slope.setAnalysisLimits, assertPositiveNumber, assertStrictlyPositiveNumber, PyCmp.ltb, Bind.bind, Except.bind,
          Pure.pure, Except.pure, decide_eq_true_eq, if_false, reduceCtorEq, *] at ok
  have n3 : ¬ s.lim3 < @OfNat.ofNat ℝ 0 (Lit.natLit 0) := by rw [lit_zero]; exact l.limPos.not_gt
  rw [setAnalysisLimits_of (B.fine ha).1 (B.fine hb).1 (B.fine hc).1 (B.fine hd).1 hbd n3] at ok ⊢
  split_ifs at ok ⊢ with h
  push Not at h
  have l1 := B.pyMax (numOr ha l.lim1) B.zero'
  have l2 := B.pyMin (numOr hc l.lim2) l.topX
  have l3 := B.pyMax (numOr hd l.lim3) l.topX
  have l4 := B.pyMin (numOr hb l.lim4) l.extL
  rw [pyMin_real, pyMax_real, pyMin_real, pyMax_real, lit_zero] at h
  simp only [pyMin_real, pyMax_real, lit_zero]
  refine Goes.of (T := fun n => { S n with
      lim1 := PySlope.pyMax ((a n).numOr (S n).lim1) 0
      lim2 := PySlope.pyMin ((c n).numOr (S n).lim2) (S n).topX
      lim3 := PySlope.pyMax ((d n).numOr (S n).lim3) (S n).topX
      lim4 := PySlope.pyMin ((b n).numOr (S n).lim4) (S n).extL
      search := [] })
    (s := { s with
      lim1 := max (a'.numOr s.lim1) 0
      lim2 := min (c'.numOr s.lim2) s.topX
      lim3 := max (d'.numOr s.lim3) s.topX
      lim4 := min (b'.numOr s.lim4) s.extL
      search := [] })
    { l with lim1 := l1, lim2 := l2, lim3 := l3, lim4 := l4, limPos := lt_of_lt_of_le l.topPos (le_max_right _ _) } ?_ rfl
  have hbd' : ∀ n, b n = .none → d n = .none := by
    intro n e
    rcases hb with ⟨e1, h1⟩ | ⟨x, y, e1, h1, -⟩
    · rcases hd with ⟨-, h2⟩ | ⟨x, y, e2, -⟩
      · exact h2 n
      · rw [hbd e1] at e2; cases e2
    · rw [h1 n] at e; cases e
  filter_upwards [(B.fine ha).2, (B.fine hb).2, (B.fine hc).2, (B.fine hd).2, B.not_le l2 l1 h.1, B.not_le l4 l3 h.2,
    B.not_lt l.lim3 B.zero' l.limPos] with n f1 f2 f3 f4 f5 f6 f7
  rw [setAnalysisLimits_of f1 f2 f3 f4 (hbd' n) f7, if_neg (by rintro (h | h); exacts [f5 h, f6 h])]

theorem waterOptions {S : ∀ n, Slope (K n)} {s : Slope ℝ} (b : LimSlope val S s) {v : ∀ n, PyVal (K n)} {w : PyVal ℝ} :
    Goes val (fun n => (S n).updateWaterAnalysisOptions true (v n)) (s.updateWaterAnalysisOptions true w) := by
  refine Goes.of (T := fun n => { S n with waterH := PySlope.sq (PyNum.cos (PyNum.atan (S n).gradient)), search := [] })
    (s := { s with waterH := PySlope.sq (PyNum.cos (PyNum.atan s.gradient)), search := [] }) ?_ (.of_forall fun n => rfl) rfl
  refine { b with waterH := ?_ }
  exact B.mul (B.cos (B.atan b.gradient)) (B.cos (B.atan b.gradient))

theorem waterFactor {S : ∀ n, Slope (K n)} {s : Slope ℝ} (b : LimSlope val S s) {x : ∀ n, K n} {a : ℝ} (hx : Lim val x a) :
    Goes val (fun n => (S n).updateWaterAnalysisOptions false (.num (x n))) (s.updateWaterAnalysisOptions false (.num a)) := by
  refine Goes.of (T := fun n => { S n with waterH := if 1 < x n then 1 else if x n < 0 then 0 else x n, search := [] })
    (s := { s with waterH := if 1 < a then 1 else if a < 0 then 0 else a, search := [] }) ?_ (.of_forall fun n => rfl) ?_
  · refine { b with waterH := ?_ }
    have h1 : Lim val (fun n => (1 : K n)) 1 := by simpa using B.ofNat 1
    have e : (if 1 < a then 1 else if a < 0 then 0 else a) = min (max a 0) 1 := by
      split_ifs with h h'
      · rw [max_eq_left (by linarith), min_eq_right h.le]
      · rw [max_eq_right h'.le, min_eq_left zero_le_one]
      · rw [max_eq_left (by linarith), min_eq_left (by linarith)]
    rw [e]
    refine (Tendsto.min (Tendsto.max hx tendsto_const_nhds) h1).congr' ?_
    have ev : ∀ᶠ n in atTop, 0 < val n (1 : K n) := h1.eventually_const_lt zero_lt_one
    filter_upwards [ev] with n hn
    have z : val n (0 : K n) = 0 := B.val_zero n
    split_ifs with h h'
    · have := ((B.acc n).lt _ _).mp h
      rw [max_eq_left (by linarith), min_eq_right this.le]
    · have := ((B.acc n).lt _ _).mp h'
      rw [z] at this ⊢
      rw [max_eq_right this.le, min_eq_left hn.le]
    · have h1 := _root_.not_lt.mp fun c => h (((B.acc n).lt _ _).mpr c)
      have h2 := _root_.not_lt.mp fun c => h' (((B.acc n).lt _ _).mpr c)
      rw [z] at h2
      rw [max_eq_left h2, min_eq_left h1]
  · simp only [Slope.updateWaterAnalysisOptions, assertNumber, PyVal.get!, lit_zero, lit_one, Bool.false_eq_true, if_false]
    rfl

theorem opt_rel {f : ∀ n, Option (K n)} {f' : Option ℝ} (c : ∀ n, Option.Rel (fun x y => |val n y - x| ≤ e n) f' (f n)) :
    (f' = none ∧ ∀ n, f n = none) ∨ ∃ (x : ∀ n, K n) (a : ℝ), f' = some a ∧ (∀ n, f n = some (x n)) ∧ Lim val x a := by
  cases f' with
  | none =>
    refine .inl ⟨rfl, fun n => ?_⟩
    have := c n
    cases hz : f n with
    | none => rfl
    | some z => rw [hz] at this; cases this
  | some a =>
    have : ∀ n, ∃ z, f n = some z ∧ |val n z - a| ≤ e n := by
      intro n
      have := c n
      cases hz : f n with
      | none => rw [hz] at this; cases this
      | some z => rw [hz] at this; cases this with | some h => exact ⟨z, rfl, h⟩
    choose x h1 h2 using this
    exact .inr ⟨x, a, rfl, h1, B.of_close h2⟩

theorem options {S : ∀ n, Slope (K n)} {s : Slope ℝ} (b : LimSlope val S s) (n' i : Option Int) {f : ∀ n, Option (K n)}
    {f' : Option ℝ} (m : Option Int) {t : ∀ n, Option (K n)} {t' : Option ℝ}
    (h : (t' = none ∧ ∀ n, t n = none) ∨ ∃ (x : ∀ n, K n) (a : ℝ), t' = some a ∧ (∀ n, t n = some (x n)) ∧ Lim val x a)
    (h' : (f' = none ∧ ∀ n, f n = none) ∨ ∃ (x : ∀ n, K n) (a : ℝ), f' = some a ∧ (∀ n, f n = some (x n)) ∧ Lim val x a) :
    Goes val (fun n => (S n).updateAnalysisOptions n' i (f n) (t n) m) (s.updateAnalysisOptions n' i f' t' m) := by
  refine ⟨?_, .of_forall fun n => rfl, rfl⟩
  have key : ∀ {K : Type} [PyNum K] (s : Slope K) (f t : Option K), (s.updateAnalysisOptions n' i f t m).1 =
      { s with
        slices := (match n' with | some n => if n = 0 then s.slices else max (min 500 n) 10 | none => s.slices)
        iterations := (match i with | some n => if n = 0 then s.iterations else max (min n 100000) 500 | none => s.iterations)
        minFailureDist := (match f with | some d => PySlope.pyMin d (s.extL * 0.9) | none => s.minFailureDist)
        tolerance := (match t with | some t => t | none => s.tolerance)
        maxIterations := (match m with | some n => n | none => s.maxIterations)
        search := [] } := by
    intro K _ s f t
    unfold Slope.updateAnalysisOptions Slope.resetResults
    cases n' <;> cases i <;> cases f <;> cases t <;> cases m <;> simp only <;> split_ifs <;> rfl
  simp only [key]
  refine { b with slices := ?_, tolerance := ?_, maxIterations := ?_, iterations := ?_, minFailureDist := ?_ }
  · rcases h with ⟨rfl, h⟩ | ⟨x, a, rfl, h, hx⟩
    · exact b.tolerance.congr (.of_forall fun n => by rw [h])
    · exact hx.congr (.of_forall fun n => by rw [h])
  · filter_upwards [b.slices] with n hn
    simp only [hn]
  · filter_upwards [b.maxIterations] with n hn
    simp only [hn]
  · filter_upwards [b.iterations] with n hn
    simp only [hn]
  · rcases h' with ⟨rfl, h⟩ | ⟨x, a, rfl, h, hx⟩
    · exact b.minFailureDist.congr (.of_forall fun n => by rw [h])
    · have := B.pyMin hx (B.mul b.extL (B.sci 9 true 1))
      simp only [pyMin_real]
      exact this.congr (.of_forall fun n => by rw [h])

theorem circle {S : ∀ n, Slope (K n)} {s : Slope ℝ} (b : LimSlope val S s) (g : Geo s) {cx cy r : ∀ n, K n} {x y z : ℝ}
    (hx : Lim val cx x) (hy : Lim val cy y) (hr : Lim val r z) (nt : NoTiesEnds s x y z) :
    Goes val (fun n => (S n).addSingleCircularPlane (cx n) (cy n) (r n)) (s.addSingleCircularPlane x y z) := by
  obtain ⟨L, h1, h2, h3⟩ := B.crossings g b.topX b.topY b.botX b.botY b.extL nt hx hy hr
  obtain ⟨l, k1, k2, -⟩ := intersections g x y z
  rw [h2] at k1
  injection k1 with k1
  subst k1
  match L, h1, h2, h3, k2 with
  | [], _, h2, h3, _ =>
    refine Goes.of b (h3.mono fun n hn => ?_) ?_
    · unfold Slope.addSingleCircularPlane; rw [hn]; rfl
    · unfold Slope.addSingleCircularPlane; rw [h2]; rfl
  | [A], _, h2, h3, _ =>
    refine Goes.of b (h3.mono fun n hn => ?_) ?_
    · unfold Slope.addSingleCircularPlane; rw [hn]; rfl
    · unfold Slope.addSingleCircularPlane; rw [h2]; rfl
  | A :: A' :: M, h1, h2, h3, k2 =>
    have ne : A'.lim.1 ≠ A.lim.1 := by
      intro h
      have := (List.pairwise_cons.mp k2).1 A'.lim (by simp)
      rw [h] at this
      norm_num at this
    refine Goes.of (T := fun n => { S n with
        individual := (S n).individual ++ [{ lc := A.seq n, rc := A'.seq n, cx := cx n, cy := cy n, radius := r n, fos := none }]
        search := [] })
      (s := { s with
        individual := s.individual ++ [{ lc := A.lim, rc := A'.lim, cx := x, cy := y, radius := z, fos := none }]
        search := [] }) ?_ ?_ ?_
    · refine { b with individual := b.individual.append (.one ⟨hx, hy, hr⟩) }
    · filter_upwards [h3, B.not_eq (h1 A' (by simp)).fst (h1 A (by simp)).fst ne] with n k1 k2
      unfold Slope.addSingleCircularPlane
      rw [k1]
      have : 2 ≤ setSize ((A :: A' :: M).map fun q => q.seq n) := setSize_two k2
      simp only [if_neg (Nat.not_lt.mpr this)]
      rfl
    · unfold Slope.addSingleCircularPlane
      rw [h2]
      have : 2 ≤ setSize ((A :: A' :: M).map Pt.lim) := setSize_two (by rw [pyEq_real]; exact decide_eq_false ne)
      simp only [if_neg (Nat.not_lt.mpr this)]
      rfl

theorem tan (T : ∀ n, AccurateTan (e n) (val n)) {x : ∀ n, K n} {a : ℝ} (hx : Lim val x a) (ha : |a| < Real.pi / 2) :
    Lim val (fun n => PyNum.tan (x n)) (Real.tan a) := by
  have hc : Real.cos a ≠ 0 := (Real.cos_pos_of_mem_Ioo ⟨by linarith [neg_abs_le a], by linarith [le_abs_self a]⟩).ne'
  have ct : ContinuousAt Real.tan a := by
    have := (Real.continuous_sin.continuousAt (x := a)).div Real.continuous_cos.continuousAt hc
    have e : Real.tan = fun x => Real.sin x / Real.cos x := funext Real.tan_eq_sin_div_cos
    rw [e]
    exact this
  refine tendsto_near (ct.tendsto.comp hx) B.zero ?_
  exact ((Tendsto.abs hx).eventually (gt_mem_nhds ha)).mono fun n h => (T n).tan _ h

theorem radians (T : ∀ n, AccurateTan (e n) (val n)) {x : ∀ n, K n} {a : ℝ} (hx : Lim val x a) :
    Lim val (fun n => PySlope.radians (x n)) (PySlope.radians a) := by
  have hp : Lim val (fun n => (PyNum.pi : K n)) Real.pi := B.of_close fun n => (T n).pi
  exact B.mul hx (B.div hp (B.ofNat' 180) (by rw [lit_real]; norm_num))

omit B in
theorem _root_.PySlope.boundaryInputs_angle {K : Type} [PyNum K] {h a : K} (n1 : ¬ h < 0) (n2 : ¬ a < 0) (n3 : ¬ 90 < a)
    (n4 : pyEq a 0 = false) :
    boundaryInputs (.num h) (.num a) .none = .ok (h, PySlope.pyMax (h / PyNum.tan (PySlope.radians a)) 0.001) := by
  simp [boundaryInputs, assertStrictlyPositiveNumber, assertPositiveNumber, assertRange, PyVal.truthy,
    PyCmp.ltb, PyCmp.eqb, Bind.bind, Except.bind, Pure.pure, Except.pure, PyVal.get!, n1, n2, n3, n4]

theorem inputs (T : ∀ n, AccurateTan (e n) (val n)) {h a l : PyVal ℝ} (p : ProperBoundary h a l) {h' a' l' : ∀ n, PyVal (K n)}
    (ch : ∀ n, CloseVal (e n) (val n) h (h' n)) (ca : ∀ n, CloseVal (e n) (val n) a (a' n))
    (cl : ∀ n, CloseVal (e n) (val n) l (l' n)) :
    ∃ (H' L' : ∀ n, K n) (H L : ℝ), boundaryInputs h a l = .ok (H, L) ∧
      (∀ᶠ n in atTop, boundaryInputs (h' n) (a' n) (l' n) = .ok (H' n, L' n)) ∧ Lim val H' H ∧ Lim val L' L ∧ 0 < H ∧ 0 < L := by
  obtain ⟨⟨x, rfl, px⟩, ⟨y, rfl, py, py'⟩, hl⟩ := p
  obtain ⟨X, e1, hX⟩ := B.val_num ch
  obtain ⟨Y, e2, hY⟩ := B.val_num ca
  have h90 : Lim val (fun n => (90 : K n)) 90 := B.ofNat 90
  have r1 : ¬ x < (@OfNat.ofNat ℝ 0 (Lit.natLit 0)) := by rw [lit_zero]; exact px.not_gt
  have r2 : ¬ y < (@OfNat.ofNat ℝ 0 (Lit.natLit 0)) := by rw [lit_zero]; exact py.not_gt
  have r3 : ¬ (@OfNat.ofNat ℝ 90 (Lit.natLit 90)) < y := by rw [lit_real]; exact_mod_cast py'.not_gt
  have r4 : pyEq y (@OfNat.ofNat ℝ 0 (Lit.natLit 0)) = false := by rw [lit_zero, pyEq_real]; simpa using py.ne'
  rcases hl with rfl | ⟨z, rfl, pz⟩
  · have hn : ∀ n, l' n = .none := by
      rcases B.val_arg cl (by trivial) with ⟨-, h⟩ | ⟨_, _, h, -⟩
      · exact h
      · cases h
    have er : PySlope.radians y = y * (Real.pi / 180) := rfl
    have pi0 := Real.pi_pos
    have b1 : 0 < y * (Real.pi / 180) := by positivity
    have b2 : y * (Real.pi / 180) < Real.pi / 2 := by nlinarith
    have ht := B.tan T (B.radians T hY) (by rw [er, abs_of_pos b1]; exact b2)
    have pt : 0 < Real.tan (PySlope.radians y) := by rw [er]; exact Real.tan_pos_of_pos_of_lt_pi_div_two b1 b2
    refine ⟨X, _, x, _, boundaryInputs_angle r1 r2 r3 r4, ?_, hX, by
      rw [pyMax_real]; exact B.pyMax (B.div hX ht pt.ne') (B.sci 1 true 3), px, ?_⟩
    · filter_upwards [B.not_lt hX B.zero' px, B.not_lt hY B.zero' py, B.not_lt h90 hY py', B.not_eq hY B.zero' py.ne']
        with n a1 a2 a3 a4
      rw [e1, e2, hn]
      exact boundaryInputs_angle a1 a2 a3 a4
    · rw [pyMax_real]; exact lt_of_lt_of_le (div_pos px pt) (le_max_left _ _)
  · obtain ⟨Z, e3, hZ⟩ := B.val_num cl
    have r5 : ¬ z < (@OfNat.ofNat ℝ 0 (Lit.natLit 0)) := by rw [lit_zero]; exact pz.not_gt
    refine ⟨X, _, x, _, boundaryInputs_of r1 r2 r3 r4 r5, ?_, hX, by
      rw [pyMax_real]; exact B.pyMax hZ (B.sci 1 true 3), px, ?_⟩
    · filter_upwards [B.not_lt hX B.zero' px, B.not_lt hY B.zero' py, B.not_lt h90 hY py', B.not_eq hY B.zero' py.ne',
        B.not_lt hZ B.zero' pz] with n a1 a2 a3 a4 a5
      rw [e1, e2, e3]
      exact boundaryInputs_of a1 a2 a3 a4 a5
    · rw [pyMax_real]; exact lt_of_lt_of_le pz (le_max_left _ _)

/-- Every call. -/
theorem run (T : ∀ n, AccurateTan (e n) (val n)) {S : ∀ n, Slope (K n)} {s : Slope ℝ} (b : LimSlope val S s) (g : Geo s)
    {o : Op ℝ} {o' : ∀ n, Op (K n)} (c : ∀ n, CloseOp (e n) (val n) o (o' n)) (nt : NoTiesCall s o) (ok : (o.run s).2 = .ok ()) :
    Goes val (fun n => (o' n).run (S n)) (o.run s) := by
  cases o with
  | setExternalBoundary h a l =>
    choose h' a' l' e1 c1 c2 c3 using (show ∀ n, ∃ h' a' l', o' n = .setExternalBoundary h' a' l' ∧ CloseVal (e n) (val n) h h' ∧
        CloseVal (e n) (val n) a a' ∧ CloseVal (e n) (val n) l l' from fun n => by
      have := c n
      cases hh : o' n <;> rw [hh] at this <;> first | exact False.elim this | exact ⟨_, _, _, rfl, this⟩)
    obtain ⟨H', L', H, L, k1, k2, k3, k4, k5, k6⟩ := B.inputs T nt c1 c2 c3
    have er : (Op.setExternalBoundary h a l).run s = s.applyBoundary H L := by
      change s.setExternalBoundary h a l = _
      unfold Slope.setExternalBoundary
      rw [k1]
    rw [er]
    refine (B.applyBoundary b.toLimBase k3 k4 k5 k6).congr ?_
    filter_upwards [k2] with n hn
    rw [e1]
    change (S n).setExternalBoundary _ _ _ = _
    unfold Slope.setExternalBoundary
    rw [hn]
  | setWaterTable d =>
    choose d' e1 c1 using (show ∀ n, ∃ d', o' n = .setWaterTable d' ∧ CloseVal (e n) (val n) d d' from fun n => by
      have := c n
      cases hh : o' n <;> rw [hh] at this <;> first | exact False.elim this | exact ⟨_, rfl, this⟩)
    exact (B.setWaterTable b (B.val_arg c1 nt)).congr (.of_forall fun n => by rw [e1]; rfl)
  | removeWaterTable =>
    have e1 : ∀ n, o' n = .removeWaterTable := fun n => by
      have := c n
      cases hh : o' n <;> rw [hh] at this <;> first | exact False.elim this | rfl
    exact (B.setWaterTable b (v := fun n => .none) (w := .none) (.inl ⟨rfl, fun n => rfl⟩)).congr
      (.of_forall fun n => by rw [e1]; rfl)
  | setUdls us =>
    choose us' e1 c1 using (show ∀ n, ∃ us', o' n = .setUdls us' ∧ List.Forall₂ (Option.Rel (CloseUdl (e n) (val n))) us us'
        from fun n => by
      have := c n
      cases hh : o' n <;> rw [hh] at this <;> first | exact False.elim this | exact ⟨_, rfl, this⟩)
    exact (B.setUdls b c1 nt).congr (.of_forall fun n => by rw [e1]; rfl)
  | removeUdls us all =>
    choose us' all' e1 c1 c2 using (show ∀ n, ∃ us' all', o' n = .removeUdls us' all' ∧ all = true ∧ all' = true from fun n => by
      have := c n
      cases hh : o' n <;> rw [hh] at this <;> first | exact False.elim this | exact ⟨_, _, rfl, this⟩)
    refine Goes.of (T := fun n => { S n with udls := [], udlMax := .num 0, search := [] })
      (s := { s with udls := [], udlMax := .num 0, search := [] }) ?_ (.of_forall fun n => ?_) ?_
    · exact { b with udls := .nil }
    · rw [e1, c2]; rfl
    · rw [c1 0]
      change s.removeUdls us true = _
      unfold Slope.removeUdls
      simp only [if_true, lit_zero]
      rfl
  | setLls us =>
    choose us' e1 c1 using (show ∀ n, ∃ us', o' n = .setLls us' ∧ List.Forall₂ (Option.Rel (CloseLl (e n) (val n))) us us'
        from fun n => by
      have := c n
      cases hh : o' n <;> rw [hh] at this <;> first | exact False.elim this | exact ⟨_, rfl, this⟩)
    exact (B.setLls b c1 nt).congr (.of_forall fun n => by rw [e1]; rfl)
  | removeLls us all =>
    choose us' all' e1 c1 c2 using (show ∀ n, ∃ us' all', o' n = .removeLls us' all' ∧ all = true ∧ all' = true from fun n => by
      have := c n
      cases hh : o' n <;> rw [hh] at this <;> first | exact False.elim this | exact ⟨_, _, rfl, this⟩)
    refine Goes.of (T := fun n => { S n with lls := [], search := [] }) (s := { s with lls := [], search := [] }) ?_
      (.of_forall fun n => ?_) ?_
    · exact { b with lls := .nil }
    · rw [e1, c2]; rfl
    · rw [c1 0]; rfl
  | setMaterials ms =>
    choose ms' e1 c1 using (show ∀ n, ∃ ms', o' n = .setMaterials ms' ∧
        List.Forall₂ (Option.Rel (CloseMaterial (e n) (val n))) ms ms' from fun n => by
      have := c n
      cases hh : o' n <;> rw [hh] at this <;> first | exact False.elim this | exact ⟨_, rfl, this⟩)
    exact (B.setMaterials b c1 nt ok).congr (.of_forall fun n => by rw [e1]; rfl)
  | removeMaterial m d all =>
    choose m' d' all' e1 c1 c2 using (show ∀ n, ∃ m' d' all', o' n = .removeMaterial m' d' all' ∧ all = true ∧ all' = true
        from fun n => by
      have := c n
      cases hh : o' n <;> rw [hh] at this <;> first | exact False.elim this | exact ⟨_, _, _, rfl, this⟩)
    refine Goes.of (T := fun n => { S n with materials := [], search := [] }) (s := { s with materials := [], search := [] }) ?_
      (.of_forall fun n => ?_) ?_
    · exact { b with materials := .nil }
    · rw [e1, c2]; rfl
    · rw [c1 0]; rfl
  | updateWaterAnalysisOptions auto h =>
    choose auto' h' e1 c1 c2 using (show ∀ n, ∃ auto' h', o' n = .updateWaterAnalysisOptions auto' h' ∧ auto = auto' ∧
        (auto = false → CloseVal (e n) (val n) h h') from fun n => by
      have := c n
      cases hh : o' n <;> rw [hh] at this <;> first | exact False.elim this | exact ⟨_, _, rfl, this⟩)
    cases auto with
    | true => exact (B.waterOptions b (v := h') (w := h)).congr (.of_forall fun n => by rw [e1, ← c1]; rfl)
    | false =>
      cases h with
      | num x =>
        obtain ⟨X, e2, hX⟩ := B.val_num fun n => c2 n rfl
        exact (B.waterFactor b hX).congr (.of_forall fun n => by rw [e1, ← c1, e2]; rfl)
      | numSub x => exact (c2 0 rfl).elim
      | other x => exact (c2 0 rfl).elim
      | none => cases ok
  | updateAnalysisOptions n' i f t m =>
    choose n1 i1 f1 t1 m1 e1 c1 c2 c3 c4 c5 using (show ∀ n, ∃ n1 i1 f1 t1 m1, o' n = .updateAnalysisOptions n1 i1 f1 t1 m1 ∧
        n' = n1 ∧ i = i1 ∧ m = m1 ∧ Option.Rel (fun x y => |val n y - x| ≤ e n) f f1 ∧
          Option.Rel (fun x y => |val n y - x| ≤ e n) t t1 from fun n => by
      have := c n
      cases hh : o' n <;> rw [hh] at this <;> first | exact False.elim this | exact ⟨_, _, _, _, _, rfl, this⟩)
    exact (B.options b n' i (f := f1) (f' := f) m (t := t1) (t' := t) (B.opt_rel c5) (B.opt_rel c4)).congr (.of_forall fun n => by
      rw [e1, ← c1, ← c2, ← c3]; rfl)
  | updateBoundaryOptions l h =>
    choose l' h' e1 c1 c2 using (show ∀ n, ∃ l' h', o' n = .updateBoundaryOptions l' h' ∧ CloseVal (e n) (val n) l l' ∧
        CloseVal (e n) (val n) h h' from fun n => by
      have := c n
      cases hh : o' n <;> rw [hh] at this <;> first | exact False.elim this | exact ⟨_, _, rfl, this⟩)
    exact (B.updateBoundaryOptions b (B.val_arg c1 nt.1) (B.val_arg c2 nt.2)).congr (.of_forall fun n => by rw [e1]; rfl)
  | removeAnalysisLimits =>
    have e1 : ∀ n, o' n = .removeAnalysisLimits := fun n => by
      have := c n
      cases hh : o' n <;> rw [hh] at this <;> first | exact False.elim this | rfl
    exact (B.removeLimits b).congr (.of_forall fun n => by rw [e1]; rfl)
  | setAnalysisLimits a1 a2 a3 a4 =>
    choose b1 b2 b3 b4 e1 c1 c2 c3 c4 using (show ∀ n, ∃ b1 b2 b3 b4, o' n = .setAnalysisLimits b1 b2 b3 b4 ∧
        CloseVal (e n) (val n) a1 b1 ∧ CloseVal (e n) (val n) a2 b2 ∧ CloseVal (e n) (val n) a3 b3 ∧ CloseVal (e n) (val n) a4 b4
        from fun n => by
      have := c n
      cases hh : o' n <;> rw [hh] at this <;> first | exact False.elim this | exact ⟨_, _, _, _, rfl, this⟩)
    exact (B.setAnalysisLimits b (B.val_arg c1 nt.1) (B.val_arg c2 nt.2.1) (B.val_arg c3 nt.2.2.1) (B.val_arg c4 nt.2.2.2) ok).congr
      (.of_forall fun n => by rw [e1]; rfl)
  | addSingleEntryExitPlane l r m =>
    choose l' r' m' e1 c1 c2 c3 using (show ∀ n, ∃ l' r' m', o' n = .addSingleEntryExitPlane l' r' m' ∧ |val n l' - l| ≤ e n ∧
        |val n r' - r| ≤ e n ∧ m = m' from fun n => by
      have := c n
      cases hh : o' n <;> rw [hh] at this <;> first | exact False.elim this | exact ⟨_, _, _, rfl, this⟩)
    exact (B.entryExit g b (B.of_close c1) (B.of_close c2) m nt.1 nt.2.1 nt.2.2).congr (.of_forall fun n => by rw [e1, ← c3]; rfl)
  | addSingleCircularPlane x y r =>
    choose x' y' r' e1 c1 c2 c3 using (show ∀ n, ∃ x' y' r', o' n = .addSingleCircularPlane x' y' r' ∧ |val n x' - x| ≤ e n ∧
        |val n y' - y| ≤ e n ∧ |val n r' - r| ≤ e n from fun n => by
      have := c n
      cases hh : o' n <;> rw [hh] at this <;> first | exact False.elim this | exact ⟨_, _, _, rfl, this⟩)
    exact (B.circle b g (B.of_close c1) (B.of_close c2) (B.of_close c3) nt).congr (.of_forall fun n => by rw [e1]; rfl)
  | removeIndividualPlanes =>
    have e1 : ∀ n, o' n = .removeIndividualPlanes := fun n => by
      have := c n
      cases hh : o' n <;> rw [hh] at this <;> first | exact False.elim this | rfl
    refine Goes.of (T := fun n => { S n with individual := [], search := [] }) (s := { s with individual := [], search := [] }) ?_
      (.of_forall fun n => ?_) rfl
    · exact { b with individual := .nil }
    · rw [e1]; rfl
  | analyseSlope m => exact False.elim (by have := c 0; cases hh : o' 0 <;> rw [hh] at this <;> exact this)
  | analyseDynamic d f => exact False.elim (by have := c 0; cases hh : o' 0 <;> rw [hh] at this <;> exact this)

/-- Histories. -/
theorem runAll (T : ∀ n, AccurateTan (e n) (val n)) {os : List (Op ℝ)} : ∀ {os' : ∀ n, List (Op (K n))} {S : ∀ n, Slope (K n)}
    {s : Slope ℝ}, LimSlope val S s → Reachable s → (∀ o ∈ os, o.Valid) →
    (∀ n, List.Forall₂ (CloseOp (e n) (val n)) os (os' n)) → NoTiesRun os s →
    LimSlope val (fun n => PySlope.runAll (os' n) (S n)) (PySlope.runAll os s) ∧ Reachable (PySlope.runAll os s) ∧
      ∀ᶠ n in atTop, NoRaise (os' n) (S n) := by
  induction os with
  | nil =>
    intro os' S s b rs _ c _
    have : ∀ n, os' n = [] := fun n => List.forall₂_nil_left_iff.mp (c n)
    obtain rfl : os' = fun n => [] := funext this
    exact ⟨b, rs, .of_forall fun n => trivial⟩
  | cons o os ih =>
    intro os' S s b rs v c nt
    choose o' t hx hT e1 using fun n => List.forall₂_cons_left_iff.mp (c n)
    obtain rfl : os' = fun n => o' n :: t n := funext e1
    obtain ⟨n1, n2, n3⟩ := nt
    have G := B.run T b rs.wf.geo hx n1 n2
    have rs' : Reachable (o.run s).1 := .call rs (Op.call (v o List.mem_cons_self))
    obtain ⟨h1, h2, h3⟩ := ih G.1 rs' (fun o ho => v o (List.mem_cons_of_mem _ ho)) hT n3
    refine ⟨h1, h2, ?_⟩
    filter_upwards [G.2.1, h3] with n k1 k2
    exact ⟨k1, k2⟩

/-- The constructor. -/
theorem built (T : ∀ n, AccurateTan (e n) (val n)) {h a l : PyVal ℝ} (p : ProperBoundary h a l) {h' a' l' : ∀ n, PyVal (K n)}
    (ch : ∀ n, CloseVal (e n) (val n) h (h' n)) (ca : ∀ n, CloseVal (e n) (val n) a (a' n))
    (cl : ∀ n, CloseVal (e n) (val n) l (l' n)) :
    ∃ (S : ∀ n, Slope (K n)) (s : Slope ℝ), Slope.new h a l = .ok s ∧ (∀ᶠ n in atTop, Slope.new (h' n) (a' n) (l' n) = .ok (S n)) ∧
      LimSlope val S s := by
  obtain ⟨H', L', H, L, k1, k2, hh, hl, ph, pl⟩ := B.inputs T p ch ca cl
  have L3 := B.ofNat' 3
  have L5 := B.ofNat' 5
  have L4 := B.ofNat' 4
  have L2 := B.ofNat' 2
  have L6 := B.ofNat' 6
  have L10 := B.ofNat' 10
  have z2 : (@OfNat.ofNat ℝ 2 (Lit.natLit 2)) ≠ 0 := by rw [lit_real]; norm_num
  have p10 : 0 < (@OfNat.ofNat ℝ 10 (Lit.natLit 10)) := by rw [lit_real]; norm_num
  have p6 : 0 < (@OfNat.ofNat ℝ 6 (Lit.natLit 6)) := by rw [lit_real]; norm_num
  have eH : Lim val (fun n => (Slope.built (H' n) (L' n)).extH) (Slope.built H L).extH := by
    have := B.pyMax (B.pyMax (B.mul L3 hh) L6) (B.div (B.mul L5 hl) L2 z2)
    rw [← pyMax_real, ← pyMax_real] at this
    exact this
  have eL : Lim val (fun n => (Slope.built (H' n) (L' n)).extL) (Slope.built H L).extL := by
    have := B.pyMax (B.pyMax (B.mul L5 hl) L10) (B.mul L4 hh)
    rw [← pyMax_real, ← pyMax_real] at this
    exact this
  have tX : Lim val (fun n => (Slope.built (H' n) (L' n)).topX) (Slope.built H L).topX := B.div (B.sub eL hl) L2 z2
  have ge : 5 * L ≤ (Slope.built H L).extL := by
    change _ ≤ PySlope.pyMax (PySlope.pyMax _ _) _
    rw [pyMax_real, pyMax_real]
    exact (le_max_left _ _).trans (le_max_left _ _)
  have et : (Slope.built H L).topX = ((Slope.built H L).extL - L) / 2 := by
    change _ / (@OfNat.ofNat ℝ 2 (Lit.natLit 2)) = _
    rw [lit_real]; rfl
  have q1 : 0 < (Slope.built H L).topX := by rw [et]; linarith
  have q2 : (Slope.built H L).topX < (Slope.built H L).extL := by rw [et]; linarith
  have q3 : 0 < (Slope.built H L).extL := q1.trans q2
  have q4 : 0 < (Slope.built H L).extH := by
    change _ < PySlope.pyMax (PySlope.pyMax _ _) _
    rw [pyMax_real, pyMax_real]
    exact lt_of_lt_of_le (p6.trans_le (le_max_right _ _)) (le_max_left _ _)
  refine ⟨fun n => Slope.built (H' n) (L' n), Slope.built H L, ?_, ?_, ?_⟩
  · refine new_built k1 ?_ ?_ ?_ ?_ rfl rfl ?_ ?_ ?_ ?_ ?_
    · rw [lit_zero, pyEq_real]; exact decide_eq_false p10.ne'
    · rw [lit_zero, pyEq_real]; exact decide_eq_false p6.ne'
    · rw [lit_zero]; exact p10.not_gt
    · rw [lit_zero]; exact p6.not_gt
    · exact lt_irrefl _
    · rw [lit_zero]; exact q1.not_gt
    · rw [lit_zero]; exact q3.not_gt
    · rw [lit_zero]; exact q1.not_ge
    · exact q2.not_ge
  · filter_upwards [k2, B.not_eq L10 B.zero' p10.ne', B.not_eq L6 B.zero' p6.ne', B.not_lt L10 B.zero' p10, B.not_lt L6 B.zero' p6,
      B.not_lt tX B.zero' q1, B.not_lt eL B.zero' q3, B.not_le tX B.zero' q1, B.not_le eL tX q2] with n a0 a1 a2 a3 a4 a5 a6 a7 a8
    exact new_built a0 a1 a2 a3 a4 rfl rfl (B.irrefl n _) a5 a6 a7 a8
  · exact {
      minExtH := L6, minExtL := L10, minPos := p10
      materials := .nil, udls := .nil, lls := .nil, dynResults := .nil
      waterRL := .inl ⟨rfl, .of_forall fun n => rfl⟩
      waterH := B.mul (B.cos (B.atan (B.div hh hl pl.ne'))) (B.cos (B.atan (B.div hh hl pl.ne')))
      tolerance := B.sci 5 true 3, slices := .of_forall fun n => rfl
      maxIterations := .of_forall fun n => rfl, individual := .nil
      iterations := .of_forall fun n => rfl
      minFailureDist := by
        have := B.pyMin B.zero' (B.mul eL (B.sci 9 true 1))
        rw [← pyMin_real, ← lit_zero] at this
        exact this
      lim1 := by have := B.zero'; rw [← lit_zero] at this; exact this
      lim2 := tX, lim3 := tX, lim4 := eL, limPos := q1
      height := hh, length := hl, hpos := ph, lpos := pl
      gradient := B.div hh hl pl.ne'
      topX := tX, topY := eH, botX := B.add tX hl, botY := B.sub eH hh, extL := eL, extH := eH
      topPos := q1, topLt := q2, extPos := q4
      there := .of_forall fun n => rfl, there' := rfl }

end Better
end PySlope
