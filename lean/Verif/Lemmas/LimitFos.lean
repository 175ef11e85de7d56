import Verif.Lemmas.LimitForces
import Verif.Lemmas.Bishop

/-! # The two methods in arithmetics whose rounding errors go to zero -/

namespace PySlope
open Filter Topology Lit

theorem ordinary_of {K : Type} [PyNum K] {s : Slope K} {cx cy r : K} {l q : K × K} {rows : List (Row K)}
    {fs : List (SliceForces K)} (h0 : ¬ (cx < 0 ∨ cy < 0 ∨ r < 0)) (h1 : ¬ q.1 - l.1 ≤ 1e-6)
    (hr : s.sliceRows cx cy r l.1 q.1 = .ok rows) (hf : s.sliceForces ((q.1 - l.1) / ofInt s.slices) rows = .ok fs)
    (hd : ¬ drivingSum fs ≤ 0) : s.ordinary cx cy r (some l) (some q) =
      .ok (lsum (fs.map (ordinaryTerm ((q.1 - l.1) / ofInt s.slices))) / drivingSum fs) := by
  unfold Slope.ordinary
  rw [if_neg h0]
  simp only [Slope.ordinaryEnds, Bind.bind, Except.bind, Pure.pure, Except.pure]
  rw [if_neg h1, hr]
  simp only
  rw [hf]
  simp only
  rw [if_neg hd]

theorem bishopStep_of {K : Type} [PyNum K] {w prev : K} {fs : List (SliceForces K)} (h0 : pyEq prev 0 = false)
    (h1 : fs.any (fun f => pyEq (bishopDenom prev f) 0) = false)
    (h2 : ¬ (drivingSum fs ≤ 0 ∨ lsum (fs.map (bishopTerm w prev)) < 0)) :
    bishopStep w fs prev = .ok (lsum (fs.map (bishopTerm w prev)) / drivingSum fs) := by
  unfold bishopStep
  rw [h0]
  simp only [Bool.false_eq_true, if_false, h1, Bind.bind, Except.bind, Pure.pure, Except.pure, if_neg h2]

namespace Better
variable {K : ℕ → Type} [∀ n, PyNum (K n)] {val : ∀ n, K n → ℝ} {e : ℕ → ℝ} (B : Better val e)
include B

theorem ordinaryTerm {w : ∀ n, K n} {b : ℝ} (hw : Lim val w b) {f : ∀ n, SliceForces (K n)} {p : SliceForces ℝ}
    (hf : LimForce val f p) (h : p.cosA ≠ 0) :
    Lim val (fun n => PySlope.ordinaryTerm (w n) (f n)) (PySlope.ordinaryTerm b p) := by
  have hb := B.div hw hf.cosA h
  have := B.add (B.mul hf.c hb) (B.mul (B.pyMax B.zero' (B.sub (B.mul hf.W hf.cosA) (B.mul hf.u hb))) hf.tanPhi)
  rw [← pyMax_real, ← lit_zero] at this
  exact this

theorem bishopDenom {F : ∀ n, K n} {F0 : ℝ} (hF : Lim val F F0) (h : F0 ≠ 0) {f : ∀ n, SliceForces (K n)}
    {p : SliceForces ℝ} (hf : LimForce val f p) :
    Lim val (fun n => PySlope.bishopDenom (F n) (f n)) (PySlope.bishopDenom F0 p) :=
  B.add hf.cosA (B.div (B.mul hf.sinA hf.tanPhi) hF h)

theorem bishopTerm {w : ∀ n, K n} {b : ℝ} (hw : Lim val w b) {F : ∀ n, K n} {F0 : ℝ} (hF : Lim val F F0) (h : F0 ≠ 0)
    {f : ∀ n, SliceForces (K n)} {p : SliceForces ℝ} (hf : LimForce val f p) (hd : PySlope.bishopDenom F0 p ≠ 0) :
    Lim val (fun n => PySlope.bishopTerm (w n) (F n) (f n)) (PySlope.bishopTerm b F0 p) :=
  B.div (B.add (B.mul hf.c hw) (B.mul (B.sub hf.W (B.mul hf.u hw)) hf.tanPhi)) (B.bishopDenom hF h hf) hd

theorem driving {N : ℕ} {Φ : ∀ n, ℕ → SliceForces (K n)} {φ : ℕ → SliceForces ℝ}
    (h : ∀ i < N, LimForce val (fun n => Φ n i) (φ i)) :
    Lim val (fun n => drivingSum ((List.range N).map (Φ n))) (drivingSum ((List.range N).map φ)) := by
  have := B.lsum (l := List.range N) (f := fun n i => (Φ n i).W * (Φ n i).sinA) (F := fun i => (φ i).W * (φ i).sinA)
    (fun i hi => B.mul (h i (List.mem_range.mp hi)).W (h i (List.mem_range.mp hi)).sinA)
  unfold drivingSum
  simp only [List.map_map]
  exact this

/-- The ordinary method of the arithmetics goes to the exact one. -/
theorem ordinary {s : Slope ℝ} (rs : Reachable s) {S : ∀ n, Slope (K n)} (C : ∀ n, Close (e n) (val n) s (S n))
    {a b p F : ℝ} {l q : ℝ × ℝ} (eo : s.ordinary a b p (some l) (some q) = .ok F) (nt : NoTies s a b p l.1 q.1)
    {cx cy r : ∀ n, K n} (hcx : Lim val cx a) (hcy : Lim val cy b) (hr : Lim val r p) {L Q : ∀ n, K n × K n}
    (hL : Lim val (fun n => (L n).1) l.1) (hQ : Lim val (fun n => (Q n).1) q.1) :
    ∃ (Φ : ∀ n, ℕ → SliceForces (K n)) (R : ∀ n, K n),
      (∀ i < s.slices.toNat, LimForce val (fun n => Φ n i) (sliceOf s a b p l.1 q.1 i).forces) ∧ Lim val R F ∧
      (∀ᶠ n in atTop, (S n).ordinary (cx n) (cy n) (r n) (some (L n)) (some (Q n)) = .ok (R n)) ∧
      ∀ᶠ n in atTop, ∃ rows, (S n).sliceRows (cx n) (cy n) (r n) (L n).1 (Q n).1 = .ok rows ∧
        (S n).sliceForces (((Q n).1 - (L n).1) / ofInt (S n).slices) rows = .ok ((List.range s.slices.toNat).map (Φ n)) := by
  have g := rs.wf.geo
  have hsl : 10 ≤ s.slices := rs.wf.sl.1
  have h2 : 2 ≤ s.slices := by omega
  obtain ⟨_, _, r0, hw6, hm, hin, water, hwat, hforces, hdr, hF⟩ := ordinary_spec rs eo
  have hw := B.width C hL hQ h2
  obtain ⟨hrows, evrows⟩ := B.sliceRows C g hcx hcy hr hL hQ h2 hin
  obtain ⟨W, evW, hhead⟩ := B.water C g hwat fun z hz => ⟨(nt.water z hz).1, (nt.water z hz).2.1, (nt.water z hz).2.2.1⟩
  have hpt : ∀ i < s.slices.toNat, s.forceAt (s.width l.1 q.1) water
      (s.strengthAt (s.rowAt a b p (PySlope.centre l.1 q.1 s.slices i)).yb) (s.rowAt a b p (PySlope.centre l.1 q.1 s.slices i)) =
      (sliceOf s a b p l.1 q.1 i).forces := by
    intro i hi
    unfold Slope.forces Slope.forcesAt Slope.rowsAt listOf at hforces
    rw [List.map_map] at hforces
    exact List.map_inj_left.mp hforces i (List.mem_range.mpr hi)
  have hf : ∀ i < s.slices.toNat, LimForce val (fun n => (S n).forceOf (((Q n).1 - (L n).1) / ofInt (S n).slices) (W n)
      ((S n).rowOf (cx n) (cy n) (r n) ((S n).centreOf (L n).1 (Q n).1 i))) (sliceOf s a b p l.1 q.1 i).forces := by
    intro i hi
    rw [← hpt i hi]
    obtain ⟨e1, e2⟩ := centre_edges l.1 q.1 s.slices i
    refine B.force C g hw hm (hrows i hi) ?_ ?_ ?_
    · intro c hc
      have hx : (s.rowAt a b p (PySlope.centre l.1 q.1 s.slices i)).x = PySlope.centre l.1 q.1 s.slices i := rfl
      rw [hx]
      have hw' : s.width l.1 q.1 = (q.1 - l.1) / s.slices := rfl
      have k1 := nt.load i hi.le c hc
      have k2 := nt.load (i + 1) hi c hc
      unfold PySlope.centre
      rw [hw']
      constructor
      · intro h; apply k1; rw [h]; ring
      · intro h; apply k2; rw [h]; push_cast; ring
    · intro c hc
      exact nt.base i hi c hc
    · exact hhead _ _ (hrows i hi) fun z hz => (nt.water z hz).2.2.2 i hi
  have hcos : ∀ i < s.slices.toNat, (sliceOf s a b p l.1 q.1 i).forces.cosA ≠ 0 := by
    intro i hi
    rw [← hpt i hi]
    exact (rowAt_cos_pos s (cy := b) (hin i hi)).ne'
  have hD := B.driving hf
  have hdpos : 0 < drivingSum ((List.range s.slices.toNat).map fun i => (sliceOf s a b p l.1 q.1 i).forces) := by
    have := listOf_driving s.slices.toNat (sliceOf s a b p l.1 q.1)
    unfold listOf at this
    rw [this]
    exact hdr
  have hO := B.lsum (l := List.range s.slices.toNat)
    (fun i hi => B.ordinaryTerm hw (hf i (List.mem_range.mp hi)) (hcos i (List.mem_range.mp hi)))
  have hFl : F = PySlope.lsum ((List.range s.slices.toNat).map fun i => PySlope.ordinaryTerm (s.width l.1 q.1) (sliceOf s a b p l.1 q.1 i).forces) /
      drivingSum ((List.range s.slices.toNat).map fun i => (sliceOf s a b p l.1 q.1 i).forces) := by
    rw [hF, ← listOf_ordinary (w := s.width l.1 q.1) (fun i => rfl), lsum_real]
    unfold ordinaryFos listOf
    rw [drivingSum_real]
    simp only [List.map_map]
    rfl
  have evf : ∀ᶠ n in atTop, ∃ rows, (S n).sliceRows (cx n) (cy n) (r n) (L n).1 (Q n).1 = .ok rows ∧
        (S n).sliceForces (((Q n).1 - (L n).1) / ofInt (S n).slices) rows = .ok ((List.range s.slices.toNat).map fun i =>
          (S n).forceOf (((Q n).1 - (L n).1) / ofInt (S n).slices) (W n)
            ((S n).rowOf (cx n) (cy n) (r n) ((S n).centreOf (L n).1 (Q n).1 i))) := by
    filter_upwards [evrows, evW] with n k1 k2
    refine ⟨_, k1, ?_⟩
    have hm' : (S n).materials ≠ [] := by
      intro h
      have := (C n).materials
      rw [h] at this
      exact hm (List.forall₂_nil_right_iff.mp this)
    rw [sliceForces_of hm' k2, List.map_map]
    rfl
  refine ⟨_, fun n => PySlope.lsum ((List.range s.slices.toNat).map fun i => PySlope.ordinaryTerm (((Q n).1 - (L n).1) / ofInt (S n).slices)
      ((S n).forceOf (((Q n).1 - (L n).1) / ofInt (S n).slices) (W n)
            ((S n).rowOf (cx n) (cy n) (r n) ((S n).centreOf (L n).1 (Q n).1 i)))) /
      drivingSum ((List.range s.slices.toNat).map fun i => (S n).forceOf (((Q n).1 - (L n).1) / ofInt (S n).slices) (W n)
            ((S n).rowOf (cx n) (cy n) (r n) ((S n).centreOf (L n).1 (Q n).1 i))), hf, ?_, ?_, evf⟩
  · rw [hFl]
    exact B.div hO hD hdpos.ne'
  · filter_upwards [evf, B.not_lt hcx B.zero' nt.centre_x, B.not_lt hcy B.zero' nt.centre_y, B.not_lt hr B.zero' r0,
      B.not_le (B.sub hQ hL) (B.sci 1 true 6) hw6, B.not_le hD B.zero' hdpos] with n k1 k2 k3 k4 k5 k6
    obtain ⟨rows, j1, j2⟩ := k1
    rw [ordinary_of (by rw [not_or, not_or]; exact ⟨k2, k3, k4⟩) k5 j1 j2 k6]
    simp only [List.map_map]
    rfl

/-- The iteration of the arithmetics goes to the exact one. -/
theorem bishopLoop {N : ℕ} {q : ℕ → Slice} {Φ : ∀ n, ℕ → SliceForces (K n)}
    (hf : ∀ i < N, LimForce val (fun n => Φ n i) (q i).forces) {w : ∀ n, K n} {b : ℝ} (hw : Lim val w b)
    (hb : ∀ i, (q i).b = b) {tol : ∀ n, K n} {t : ℝ} (ht : Lim val tol t) (hdr : 0 < PySlope.driving N q) (m : ℕ)
    {P : ∀ n, K n} {p F : ℝ} (hP : Lim val P p) (hv : ∀ k ≤ m, (bishopRhs N q)^[k] p ≠ 0)
    (hd : ∀ k < m, ∀ i < N, (q i).cos + (q i).sin * (q i).tan / (bishopRhs N q)^[k] p ≠ 0)
    (hs : ∀ k < m, |(bishopRhs N q)^[k + 1] p - (bishopRhs N q)^[k] p| ≠ t)
    (er : PySlope.bishopLoop b t (listOf N q) m p = .ok F) :
    ∃ R : ∀ n, K n, Lim val R F ∧ ∀ᶠ n in atTop, PySlope.bishopLoop (w n) (tol n) ((List.range N).map (Φ n)) m (P n) = .ok (R n) := by
  induction m generalizing P p with
  | zero =>
    cases er
    exact ⟨P, hP, .of_forall fun n => rfl⟩
  | succ m ih =>
    have p0 : p ≠ 0 := hv 0 (Nat.zero_le _)
    unfold PySlope.bishopLoop at er
    cases hst : bishopStep b (listOf N q) p with
    | error x => rw [hst] at er; cases er
    | ok F1 =>
      obtain ⟨e1, e2, _⟩ := bishopStep_ok hb hst
      rw [hst] at er
      simp only [Bind.bind, Except.bind, pyAbs_real] at er
      have F1pos : 0 < F1 := lt_of_le_of_ne e2 (by rw [e1]; exact (hv 1 (by omega)).symm)
      have hden : ∀ i < N, PySlope.bishopDenom p (q i).forces ≠ 0 := fun i hi => hd 0 (by omega) i hi
      have hD := B.driving hf
      have hDr : drivingSum ((List.range N).map fun i => (q i).forces) = PySlope.driving N q := listOf_driving N q
      rw [hDr] at hD
      have hR := B.lsum (l := List.range N) (fun i hi => B.bishopTerm hw hP p0 (hf i (List.mem_range.mp hi)) (hden i (List.mem_range.mp hi)))
      have hF1 : PySlope.lsum ((List.range N).map fun i => PySlope.bishopTerm b p (q i).forces) / PySlope.driving N q = F1 := by
        rw [e1, ← listOf_bishop hb p0, listOf_driving, lsum_real]
        unfold listOf
        rw [List.map_map]
        rfl
      have hRpos : 0 < PySlope.lsum ((List.range N).map fun i => PySlope.bishopTerm b p (q i).forces) := by
        have := mul_pos F1pos hdr
        rwa [← hF1, div_mul_cancel₀ _ hdr.ne'] at this
      have hG := B.div hR hD hdr.ne'
      rw [hF1] at hG
      have evd : ∀ᶠ n in atTop, ∀ i ∈ Finset.range N, pyEq (PySlope.bishopDenom (P n) (Φ n i)) 0 = false :=
        (eventually_all_finset _).mpr fun i hi => B.not_eq (B.bishopDenom hP p0 (hf i (Finset.mem_range.mp hi))) B.zero'
          (hden i (Finset.mem_range.mp hi))
      have evs : ∀ᶠ n in atTop, bishopStep (w n) ((List.range N).map (Φ n)) (P n) =
          .ok (PySlope.lsum ((List.range N).map fun i => PySlope.bishopTerm (w n) (P n) (Φ n i)) / drivingSum ((List.range N).map (Φ n))) := by
        filter_upwards [B.not_eq hP B.zero' p0, evd, B.not_le hD B.zero' hdr, B.not_lt hR B.zero' hRpos] with n k1 k2 k3 k4
        rw [bishopStep_of k1]
        · rw [List.map_map]; rfl
        · rw [List.any_eq_false]
          intro f hf
          obtain ⟨i, hi, rfl⟩ := List.mem_map.mp hf
          simpa using k2 i (Finset.mem_range.mpr (List.mem_range.mp hi))
        · rw [List.map_map, not_or]
          exact ⟨k3, k4⟩
      have hs0 : |F1 - p| ≠ t := by
        rw [e1]; exact hs 0 (by omega)
      have hA := B.pyAbs (B.sub hG hP)
      by_cases hc : |F1 - p| < t
      · rw [if_pos hc] at er
        cases er
        refine ⟨_, hG, ?_⟩
        filter_upwards [evs, B.lt hA ht hc] with n k1 k2
        unfold PySlope.bishopLoop
        rw [k1]
        simp only [Bind.bind, Except.bind]
        rw [if_pos k2]
        rfl
      · rw [if_neg hc] at er
        have hc' := lt_of_le_of_ne (_root_.not_lt.mp hc) hs0.symm
        obtain ⟨R, i1, i2⟩ := ih hG
          (fun k hk => by have := hv (k + 1) (by omega); rwa [Function.iterate_succ_apply, ← e1] at this)
          (fun k hk i hi => by have := hd (k + 1) (by omega) i hi; rwa [Function.iterate_succ_apply, ← e1] at this)
          (fun k hk => by have := hs (k + 1) (by omega); rwa [Function.iterate_succ_apply (bishopRhs N q) (k + 1) p, Function.iterate_succ_apply (bishopRhs N q) k p, ← e1] at this) er
        refine ⟨R, i1, ?_⟩
        filter_upwards [evs, i2, B.not_lt hA ht hc'] with n k1 k2 k3
        unfold PySlope.bishopLoop
        rw [k1]
        simp only [Bind.bind, Except.bind]
        rw [if_neg k3]
        exact k2

/-- Bishop's method of the arithmetics goes to the exact one. -/
theorem bishop {s : Slope ℝ} (rs : Reachable s) {S : ∀ n, Slope (K n)} (C : ∀ n, Close (e n) (val n) s (S n))
    {a b p F : ℝ} {l q : ℝ × ℝ} (eo : s.bishop a b p (some l) (some q) = .ok F) (nt : NoTiesBishop s a b p l.1 q.1)
    {cx cy r : ∀ n, K n} (hcx : Lim val cx a) (hcy : Lim val cy b) (hr : Lim val r p) {L Q : ∀ n, K n × K n}
    (hL : Lim val (fun n => (L n).1) l.1) (hQ : Lim val (fun n => (Q n).1) q.1) :
    ∃ R : ∀ n, K n, Lim val R F ∧
      ∀ᶠ n in atTop, (S n).bishop (cx n) (cy n) (r n) (some (L n)) (some (Q n)) = .ok (R n) := by
  obtain ⟨l', q', F0, h1, h2, h3⟩ := bishop_spec rs eo
  cases h1
  have hsl : 10 ≤ s.slices := rs.wf.sl.1
  obtain ⟨_, _, _, _, _, _, _, _, _, hdr, hF0⟩ := ordinary_spec rs h2
  obtain ⟨Φ, R0, k1, k2, k3, k4⟩ := B.ordinary rs C h2 nt.toNoTies hcx hcy hr hL hQ
  have hw := B.width C hL hQ (by omega)
  subst hF0
  obtain ⟨R, j1, j2⟩ := B.bishopLoop k1 hw (fun i => rfl) (B.of_close fun n => (C n).tolerance) hdr s.maxIterations.toNat k2
    nt.value nt.denominator nt.stop h3
  refine ⟨R, j1, ?_⟩
  filter_upwards [k3, k4, j2] with n i1 i2 i3
  obtain ⟨rows, i4, i5⟩ := i2
  unfold Slope.bishop
  simp only [Slope.bishopEnds, Bind.bind, Except.bind]
  rw [i1]
  simp only
  rw [i4]
  simp only
  rw [i5]
  simp only
  rw [(C n).maxIterations]
  exact i3

end Better
end PySlope
