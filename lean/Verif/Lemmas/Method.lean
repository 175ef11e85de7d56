import Verif.Spec.Method
import Verif.Lemmas.Forces
import Verif.Lemmas.Undrained
import Verif.Props.Slices

/-! # The slices of the code are the slices of the specification -/

namespace PySlope
open Finset

/-- A slice of the specification as the code holds it. -/
noncomputable def Slice.forces (q : Slice) : SliceForces ℝ :=
  { W := q.W, u := q.u, c := q.c, tanPhi := q.tan, cosA := q.cos, sinA := q.sin }

theorem sliceTop_eq {s : Slope ℝ} (g : Geo s) (x : ℝ) : s.sliceTop x = groundY s x := by
  unfold Slope.sliceTop groundY
  rw [g.topY, g.botX, g.botY, g.grad]
  by_cases h : x ≤ s.topX
  · rw [if_pos h, if_pos h]
  · rw [if_neg h, if_neg h]
    by_cases h2 : x < s.topX + s.length
    · rw [if_pos h2, if_neg (not_le.mpr h2)]
    · rw [if_neg h2, if_pos (not_lt.mp h2)]

theorem waterHead_eq {s : Slope ℝ} (g : Geo s) {water} (hw : s.waterX = .ok water)
    (q : Row ℝ) : s.waterHead water q = pressureAt s q.x q.yb q.yt := by
  unfold Slope.waterX at hw
  unfold pressureAt
  cases hz : s.waterRL with
  | none => rw [hz] at hw; cases hw; exact lit_zero
  | some z =>
    rw [hz] at hw
    simp only [pyEq_real, lit_zero, decide_eq_true_eq] at hw
    by_cases h0 : z = 0
    · rw [if_pos h0] at hw; cases hw; simp only [if_pos h0]; exact lit_zero
    · rw [if_neg h0] at hw
      simp only [if_neg h0]
      have hlen : 0 < s.length := lt_of_lt_of_le (by norm_num) g.len
      have key : ∀ xw, water = some (z, xw) →
          ((xw < q.x ∧ q.x < s.botX) ↔ (groundY s q.x < z ∧ q.x < s.topX + s.length)) →
          s.waterHead water q = max (min z q.yt - q.yb) 0 * 9.81 *
            (if groundY s q.x < z ∧ q.x < s.topX + s.length then s.waterH else 1) := by
        intro xw e hi
        rw [e]
        unfold Slope.waterHead
        simp only [pyMax_real, pyMin_real, lit_zero, lit_one, Bool.and_eq_true, decide_eq_true_eq]
        by_cases hc : xw < q.x ∧ q.x < s.botX
        · rw [if_pos hc, if_pos (hi.mp hc)]
        · rw [if_neg hc, if_neg (fun h => hc (hi.mpr h))]
      have hb := g.botX; have hby := g.botY; have hty := g.topY; have hh := g.hgt
      unfold Slope.getExternalX at hw
      by_cases h1 : z < s.botY
      · rw [if_pos h1] at hw
        simp only at hw
        cases hw
        refine key _ rfl ⟨?_, ?_⟩
        · rintro ⟨a, b⟩
          exfalso
          have := g.extL5; have := g.topX
          linarith
        · rintro ⟨a, b⟩
          exfalso
          unfold groundY at a
          by_cases hx : q.x ≤ s.topX
          · rw [if_pos hx] at a; linarith
          · rw [if_neg hx, if_pos b] at a
            have : (q.x - s.topX) * (s.height / s.length) ≤ s.height := by
              have : (q.x - s.topX) * (s.height / s.length) ≤ s.length * (s.height / s.length) :=
                mul_le_mul_of_nonneg_right (by linarith) (by positivity)
              rwa [mul_div_cancel₀ _ hlen.ne'] at this
            linarith
      · rw [if_neg h1] at hw
        push Not at h1
        by_cases h2 : z < s.extH
        · rw [if_pos h2] at hw
          unfold pyDiv at hw
          simp only [pyEq_real, lit_zero, decide_eq_true_eq] at hw
          by_cases hg : s.gradient = 0
          · rw [if_pos hg] at hw; cases hw
          · rw [if_neg hg] at hw
            simp only [bind, Except.bind, pure, Except.pure] at hw
            cases hw
            have hgr := g.grad
            have hg0 : 0 < s.gradient := by
              rcases lt_or_eq_of_le (show 0 ≤ s.gradient by rw [hgr]; positivity) with h | h
              · exact h
              · exact absurd h.symm hg
            refine key _ rfl ?_
            unfold groundY
            rw [← hgr, hb, hty]
            constructor
            · rintro ⟨a, b⟩
              have hq : 0 ≤ (s.extH - z) / s.gradient := div_nonneg (by linarith) hg0.le
              rw [if_neg (by push Not; linarith), if_pos b]
              refine ⟨?_, b⟩
              have : (s.extH - z) / s.gradient < q.x - s.topX := by linarith
              rw [div_lt_iff₀ hg0] at this
              linarith
            · rintro ⟨a, b⟩
              refine ⟨?_, b⟩
              by_cases hx : q.x ≤ s.topX
              · rw [if_pos hx] at a; linarith
              · rw [if_neg hx, if_pos b] at a
                have : (s.extH - z) / s.gradient < q.x - s.topX := by
                  rw [div_lt_iff₀ hg0]; linarith
                linarith
        · rw [if_neg h2] at hw
          push Not at h2
          simp only [pyEq_real, decide_eq_true_eq] at hw
          by_cases h3 : z = s.botY
          · rw [if_pos h3] at hw
            simp only at hw
            cases hw
            have hh0 : s.height = 0 := by linarith
            refine key _ rfl ⟨?_, ?_⟩
            · rintro ⟨a, b⟩; linarith
            · rintro ⟨a, b⟩
              exfalso
              unfold groundY at a
              rw [hh0] at a
              simp only [zero_div, mul_zero, sub_zero, ite_self] at a
              linarith
          · rw [if_neg h3] at hw
            by_cases h4 : z = s.topY
            · rw [if_pos h4] at hw
              simp only at hw
              cases hw
              have hne : s.height ≠ 0 := by
                intro h0'; apply h3; rw [h4, hty, hby, h0']; ring
              have hpos : 0 < s.height := lt_of_le_of_ne hh (Ne.symm hne)
              refine key _ rfl ?_
              unfold groundY
              rw [hb, h4, hty]
              constructor
              · rintro ⟨a, b⟩
                rw [if_neg (by push Not; exact a), if_pos b]
                refine ⟨?_, b⟩
                have : 0 < (q.x - s.topX) * (s.height / s.length) :=
                  mul_pos (by linarith) (by positivity)
                linarith
              · rintro ⟨a, b⟩
                refine ⟨?_, b⟩
                by_contra hx
                rw [if_pos (not_lt.mp hx)] at a
                linarith
            · rw [if_neg h4] at hw
              cases hw

/-- Strength of the specification and of the code. -/
theorem strengthAt_eq {s : Slope ℝ} (r : Reachable s) (hm : s.materials ≠ []) (yb : ℝ) :
    ∃ l, layerAt s.materials yb = some l ∧ l ∈ s.materials ∧
      s.strengthAt yb = (l.mat.cohesion, Real.tan (l.mat.frictionAngle * (Real.pi / 180))) := by
  obtain ⟨pre, l, post, h1, _, _, h2, h3, _⟩ := (C39_strength_at_the_base s r yb).2 hm
  refine ⟨l, h3, by rw [h1]; simp, ?_⟩
  unfold Slope.strengthAt
  rw [h2]; rfl

/-- The forces on the slices are those of the specification. -/
theorem forces_eq {s : Slope ℝ} (rc : Reachable s) (hm : s.materials ≠ []) {water}
    (hw : s.waterX = .ok water) {cx cy r xl xr : ℝ} (hr : 0 ≤ r)
    (hin : ∀ i < s.slices.toNat, (centre xl xr s.slices i - cx) ^ 2 < r ^ 2) :
    s.forces water cx cy r xl xr =
      (List.range s.slices.toNat).map fun i => (sliceOf s cx cy r xl xr i).forces := by
  have hsl : 10 ≤ s.slices := rc.wf.sl.1
  have g := rc.wf.geo
  unfold Slope.forces Slope.forcesAt Slope.rowsAt
  rw [List.map_map]
  apply List.map_congr_left
  intro i hi
  have hi := List.mem_range.mp hi
  simp only [Function.comp_apply]
  have hx : centre xl xr s.slices i = xl + ((i : ℝ) + 1 / 2) * ((xr - xl) / s.slices) := rfl
  obtain ⟨l, hl, _, hst⟩ := strengthAt_eq rc hm (s.rowAt cx cy r (centre xl xr s.slices i)).yb
  obtain ⟨e1, e2⟩ := centre_edges xl xr s.slices i
  have hmem : s.rowAt cx cy r (centre xl xr s.slices i) ∈ s.rowsAt cx cy r xl xr :=
    List.mem_map.mpr ⟨i, List.mem_range.mpr hi, rfl⟩
  have hW := (C38_weight_of_the_soil s rc (sliceRows_eq s (by omega) cx cy r xl xr hin) _ hmem
    (s.width xl xr)).2
  unfold Slope.forceAt Slice.forces
  rw [hst, rowWeight_eq, hW, waterHead_eq g hw]
  have hyb : (s.rowAt cx cy r (centre xl xr s.slices i)).yb =
      cy - √(r ^ 2 - (xl + ((i : ℝ) + 1 / 2) * ((xr - xl) / s.slices) - cx) ^ 2) := rfl
  have hyt : (s.rowAt cx cy r (centre xl xr s.slices i)).yt =
      max (groundY s (xl + ((i : ℝ) + 1 / 2) * ((xr - xl) / s.slices)))
        (cy - √(r ^ 2 - (xl + ((i : ℝ) + 1 / 2) * ((xr - xl) / s.slices) - cx) ^ 2)) := by
    rw [← sliceTop_eq g]; rfl
  have hrx : (s.rowAt cx cy r (centre xl xr s.slices i)).x =
      xl + ((i : ℝ) + 1 / 2) * ((xr - xl) / s.slices) := rfl
  have ha : |r| = r := abs_of_nonneg hr
  have hcos : (s.rowAt cx cy r (centre xl xr s.slices i)).cosA =
      √(r ^ 2 - (xl + ((i : ℝ) + 1 / 2) * ((xr - xl) / s.slices) - cx) ^ 2) / r := by
    unfold Slope.rowAt; simp only [ha]; rfl
  have hsin : (s.rowAt cx cy r (centre xl xr s.slices i)).sinA =
      (cx - (xl + ((i : ℝ) + 1 / 2) * ((xr - xl) / s.slices))) / r := by
    unfold Slope.rowAt; simp only [ha]; rfl
  rw [hyb] at hl
  have hwd : s.width xl xr = (xr - xl) / s.slices := rfl
  unfold sliceOf Slice.tan
  simp only [hl, hyb, hyt, hcos, hsin, hrx, hwd]
  congr 1
  unfold weightOn
  rw [hx] at e1 e2
  rw [e1, e2]
  congr 1
  congr 1
  · congr 1; ring
  · congr 1
    apply List.map_congr_left
    intro u _
    ring

theorem sum_list_range (n : ℕ) (f : ℕ → ℝ) : ((List.range n).map f).sum = ∑ i ∈ range n, f i := by
  induction n with
  | zero => simp
  | succ n ih => rw [List.range_succ, List.map_append, List.sum_append, ih, sum_range_succ]; simp

end PySlope

namespace PySlope
open Finset

/-- The slices of a specification as the code holds them. -/
noncomputable def listOf (n : ℕ) (q : ℕ → Slice) : List (SliceForces ℝ) :=
  (List.range n).map fun i => (q i).forces

theorem listOf_driving (n : ℕ) (q : ℕ → Slice) : drivingSum (listOf n q) = driving n q := by
  rw [drivingSum_real, listOf, List.map_map, sum_list_range]; rfl

theorem listOf_ordinary {n : ℕ} {q : ℕ → Slice} {w : ℝ} (hb : ∀ i, (q i).b = w) :
    ordinaryFos w (listOf n q) = fellenius n q := by
  unfold ordinaryFos fellenius
  rw [← drivingSum_real, listOf_driving]
  congr 1
  rw [listOf, List.map_map, sum_list_range]
  apply sum_congr rfl
  intro i _
  simp only [Function.comp_apply, ordinaryTerm, Slice.forces, pyMax_real, lit_zero, hb]

theorem listOf_bishop {n : ℕ} {q : ℕ → Slice} {w F : ℝ} (hb : ∀ i, (q i).b = w) (hF : F ≠ 0) :
    ((listOf n q).map (bishopTerm w F)).sum / drivingSum (listOf n q) = bishopRhs n q F := by
  unfold bishopRhs
  rw [if_neg hF, listOf_driving]
  congr 1
  rw [listOf, List.map_map, sum_list_range]
  apply sum_congr rfl
  intro i _
  simp only [Function.comp_apply, bishopTerm, bishopDenom, Slice.forces, hb]

/-- A turn of the iteration that goes on computes the right hand side of Bishop's equation, and its
value is not negative. -/
theorem bishopStep_ok {n : ℕ} {q : ℕ → Slice} {w prev F : ℝ} (hb : ∀ i, (q i).b = w)
    (e : bishopStep w (listOf n q) prev = .ok F) :
    F = bishopRhs n q prev ∧ 0 ≤ F ∧ 0 < driving n q := by
  unfold bishopStep at e
  simp only [pyEq_real, lit_zero, decide_eq_true_eq, listOf_driving] at e
  by_cases hp : prev = 0
  · rw [if_pos hp] at e
    simp only [bind, Except.bind, pure, Except.pure] at e
    split at e
    · cases e
    · by_cases hd : driving n q ≤ 0
      · simp only [if_pos hd] at e; cases e
      · simp only [if_neg hd] at e
        cases e
        refine ⟨?_, le_refl _, not_le.mp hd⟩
        unfold bishopRhs; rw [if_pos hp]
  · rw [if_neg hp] at e
    simp only [bind, Except.bind, pure, Except.pure] at e
    split at e
    · cases e
    · by_cases hd : driving n q ≤ 0 ∨ lsum ((listOf n q).map (bishopTerm w prev)) < 0
      · simp only [if_pos hd] at e; cases e
      · simp only [if_neg hd] at e
        push Not at hd
        rw [lsum_real] at e hd
        cases e
        refine ⟨?_, div_nonneg hd.2 hd.1.le, hd.1⟩
        rw [← listOf_bishop hb hp, listOf_driving]

/-- The turns of the iteration. -/
theorem bishopLoop_ok {n : ℕ} {q : ℕ → Slice} {w tol : ℝ} (hb : ∀ i, (q i).b = w) (m : ℕ) (F0 F : ℝ)
    (e : bishopLoop w tol (listOf n q) m F0 = .ok F) :
    ∃ (k : ℕ) (f : ℕ → ℝ), k ≤ m ∧ f 0 = F0 ∧ f k = F ∧
      (∀ i < k, f (i + 1) = bishopRhs n q (f i) ∧ 0 ≤ f (i + 1)) ∧
      (∀ i, i + 1 < k → tol ≤ |f (i + 1) - f i|) ∧
      (k = m ∨ (1 ≤ k ∧ |f k - f (k - 1)| < tol)) := by
  induction m generalizing F0 with
  | zero =>
    cases e
    exact ⟨0, fun _ => F, le_refl _, rfl, rfl, by simp, by simp, .inl rfl⟩
  | succ m ih =>
    unfold bishopLoop at e
    cases hs : bishopStep w (listOf n q) F0 with
    | error x => rw [hs] at e; cases e
    | ok F1 =>
      obtain ⟨h1, h2, _⟩ := bishopStep_ok hb hs
      rw [hs] at e
      simp only [bind, Except.bind, pyAbs_real] at e
      by_cases ht : |F1 - F0| < tol
      · rw [if_pos ht] at e
        cases e
        refine ⟨1, fun i => if i = 0 then F0 else F, by omega, rfl, rfl, ?_, ?_, .inr ⟨le_refl _, ?_⟩⟩
        · intro i hi
          have : i = 0 := by omega
          subst this
          exact ⟨h1, h2⟩
        · intro i hi; omega
        · simpa using ht
      · rw [if_neg ht] at e
        obtain ⟨k, f, a1, a2, a3, a4, a5, a6⟩ := ih F1 e
        refine ⟨k + 1, fun i => if i = 0 then F0 else f (i - 1), by omega, rfl, by simpa using a3,
          ?_, ?_, ?_⟩
        · intro i hi
          cases i with
          | zero => simp only [zero_add, one_ne_zero, if_false, if_true, Nat.sub_self, a2]
                    exact ⟨h1, h2⟩
          | succ i => simpa using a4 i (by omega)
        · intro i hi
          cases i with
          | zero => simpa [a2] using not_lt.mp ht
          | succ i => simpa using a5 i (by omega)
        · rcases a6 with a6 | ⟨a6, a7⟩
          · left; omega
          · right
            refine ⟨by omega, ?_⟩
            have : k ≠ 0 := by omega
            simpa [this] using a7

/-- The ordinary method. -/
theorem ordinary_spec {s : Slope ℝ} (rc : Reachable s) {cx cy r F : ℝ} {l rt : ℝ × ℝ}
    (e : s.ordinary cx cy r (some l) (some rt) = .ok F) :
    0 ≤ cx ∧ 0 ≤ cy ∧ 0 < r ∧ 1e-6 < rt.1 - l.1 ∧ s.materials ≠ [] ∧
    (∀ i < s.slices.toNat, (centre l.1 rt.1 s.slices i - cx) ^ 2 < r ^ 2) ∧
    ∃ water, s.waterX = .ok water ∧
      s.forces water cx cy r l.1 rt.1 = listOf s.slices.toNat (sliceOf s cx cy r l.1 rt.1) ∧
      0 < driving s.slices.toNat (sliceOf s cx cy r l.1 rt.1) ∧
      F = fellenius s.slices.toNat (sliceOf s cx cy r l.1 rt.1) := by
  have hsl : 10 ≤ s.slices := rc.wf.sl.1
  obtain ⟨h1, h2, h3, h4, h5, h6, water, hw, h7, h8⟩ := ordinary_ok (by omega) e
  have hf := forces_eq (cy := cy) rc h6 hw h3 h5
  have hr : 0 < r := by
    rcases lt_or_eq_of_le h3 with h | h
    · exact h
    · have := h5 0 (by omega)
      rw [← h] at this
      nlinarith [sq_nonneg (centre l.1 rt.1 s.slices 0 - cx)]
  refine ⟨h1, h2, hr, h4, h6, h5, water, hw, hf, ?_, ?_⟩
  · rw [hf] at h7
    rwa [← listOf_driving]
  · rw [h8, hf]
    exact listOf_ordinary (fun i => rfl)

theorem bishop_spec {s : Slope ℝ} (rc : Reachable s) {cx cy r F : ℝ} {l rt : Option (ℝ × ℝ)}
    (e : s.bishop cx cy r l rt = .ok F) :
    ∃ l' rt' F0, s.bishopEnds cx cy r l rt = .ok (l', rt') ∧
      s.ordinary cx cy r (some l') (some rt') = .ok F0 ∧
      bishopLoop ((rt'.1 - l'.1) / s.slices) s.tolerance
        (listOf s.slices.toNat (sliceOf s cx cy r l'.1 rt'.1)) s.maxIterations.toNat F0 = .ok F := by
  have hsl : 10 ≤ s.slices := rc.wf.sl.1
  obtain ⟨l', rt', water, F0, h1, h2, h3, h4⟩ := bishop_ok (by omega) e
  obtain ⟨_, _, _, _, _, _, water', hw, hf, _⟩ := ordinary_spec rc h2
  rw [h3] at hw
  cases hw
  rw [hf] at h4
  exact ⟨l', rt', F0, h1, h2, h4⟩

end PySlope
