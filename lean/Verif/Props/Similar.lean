import Verif.Spec.Similar
import Verif.Props.RisingWitness

/-! # Property C101: the factor of safety does not depend on the scale -/

namespace PySlope
open Finset

theorem BishopValue.unique {s : Slope ℝ} {cx cy r xl xr F G : ℝ} (h : BishopValue s cx cy r xl xr F)
    (h' : BishopValue s cx cy r xl xr G) : F = G := by
  obtain ⟨_, k, f, k1, f0, fs, rfl, ft, fe⟩ := h
  obtain ⟨_, m, g, m1, g0, gs, rfl, gt, ge⟩ := h'
  have agree : ∀ i, i ≤ k → i ≤ m → f i = g i := by
    intro i
    induction i with
    | zero => intro _ _; rw [f0, g0]
    | succ i ih => intro a b; rw [fs i (by omega), gs i (by omega), ih (by omega) (by omega)]
  rcases lt_trichotomy k m with c | c | c
  · exfalso
    rcases fe with e | ⟨e1, e2⟩
    · omega
    · have := gt (k - 1) (by omega)
      rw [show k - 1 + 1 = k by omega, ← agree k le_rfl c.le, ← agree (k - 1) (by omega) (by omega)] at this
      linarith
  · subst c; exact agree k le_rfl le_rfl
  · exfalso
    rcases ge with e | ⟨e1, e2⟩
    · omega
    · have := ft (m - 1) (by omega)
      rw [show m - 1 + 1 = m by omega, agree m c.le le_rfl, agree (m - 1) (by omega) (by omega)] at this
      linarith

section
variable {k : ℝ} {s t : Slope ℝ} (h : Similar k s t) (hk : 0 < k)
include h hk

theorem Similar.groundY (rs : Reachable s) (rt : Reachable t) (x : ℝ) :
    groundY t (t.topX + k * (x - s.topX)) = t.topY + k * (groundY s x - s.topY) := by
  have gs := rs.wf.geo
  have gt := rt.wf.geo
  have hl : 0 < s.length := lt_of_lt_of_le (by norm_num) gs.len
  unfold PySlope.groundY
  rw [h.height, h.length, ← gs.topY, ← gt.topY]
  by_cases h1 : x ≤ s.topX
  · rw [if_pos h1, if_pos (by nlinarith)]; ring
  · have h1' := not_le.mp h1
    rw [if_neg h1, if_neg (by push Not; nlinarith [mul_pos hk (sub_pos.mpr h1')])]
    by_cases h2 : x < s.topX + s.length
    · rw [if_pos h2, if_pos (by nlinarith)]
      field_simp
      ring
    · rw [if_neg h2, if_neg (by push Not at h2 ⊢; nlinarith)]
      ring

theorem Similar.layerAt (y : ℝ) :
    (layerAt s.materials y = none ∧ layerAt t.materials (t.topY + k * (y - s.topY)) = none) ∨
      ∃ l l', layerAt s.materials y = some l ∧ layerAt t.materials (t.topY + k * (y - s.topY)) = some l' ∧
        SimilarLayer k s t l l' := by
  have hm := h.materials
  generalize s.materials = a at hm
  generalize t.materials = b at hm
  have hf : (a.find? (fun l => decide (l.rl < y)) = none ∧
        b.find? (fun l => decide (l.rl < t.topY + k * (y - s.topY))) = none) ∨
      ∃ l l', a.find? (fun l => decide (l.rl < y)) = some l ∧
        b.find? (fun l => decide (l.rl < t.topY + k * (y - s.topY))) = some l' ∧ SimilarLayer k s t l l' := by
    clear h
    induction hm with
    | nil => exact .inl ⟨rfl, rfl⟩
    | @cons u v us vs huv _ ih =>
      have e : decide (v.rl < t.topY + k * (y - s.topY)) = decide (u.rl < y) := by
        have := huv.2.2.2
        rw [decide_eq_decide]
        constructor
        · intro h1
          have : k * (u.rl - s.topY) < k * (y - s.topY) := by linarith
          have := lt_of_mul_lt_mul_left this hk.le
          linarith
        · intro h1
          have : k * (u.rl - s.topY) < k * (y - s.topY) := mul_lt_mul_of_pos_left (by linarith) hk
          linarith
      rw [List.find?_cons, List.find?_cons, e]
      by_cases c : u.rl < y
      · simp only [c, decide_true]; exact .inr ⟨_, _, rfl, rfl, huv⟩
      · simp only [c, decide_false]; exact ih
  unfold PySlope.layerAt
  rcases hf with ⟨e1, e2⟩ | ⟨l, l', e1, e2, e3⟩
  · rw [e1, e2]
    simpa using forall2_getLast? hm
  · rw [e1, e2]
    exact .inr ⟨l, l', rfl, rfl, e3⟩

theorem Similar.unitWeightAt (y : ℝ) :
    unitWeightAt t.materials (t.topY + k * (y - s.topY)) = unitWeightAt s.materials y := by
  unfold PySlope.unitWeightAt
  rcases h.layerAt hk y with ⟨e1, e2⟩ | ⟨l, l', e1, e2, e3⟩
  · rw [e1, e2]
  · rw [e1, e2]; exact e3.1

theorem Similar.column (a b : ℝ) :
    (∫ y in (t.topY + k * (a - s.topY))..(t.topY + k * (b - s.topY)), PySlope.unitWeightAt t.materials y) =
      k * ∫ y in a..b, PySlope.unitWeightAt s.materials y := by
  have e : ∀ y, PySlope.unitWeightAt s.materials y =
      (fun z => PySlope.unitWeightAt t.materials z) (k * y + (t.topY - k * s.topY)) := by
    intro y
    rw [← h.unitWeightAt hk y]
    congr 1; ring
  simp only [e]
  rw [intervalIntegral.integral_comp_mul_add (fun z => PySlope.unitWeightAt t.materials z) hk.ne', smul_eq_mul,
    ← mul_assoc, mul_inv_cancel₀ hk.ne', one_mul]
  congr 1 <;> ring

theorem Similar.weightOn (a b yb yt : ℝ) :
    weightOn t (t.topX + k * (a - s.topX)) (t.topX + k * (b - s.topX)) (t.topY + k * (yb - s.topY))
      (t.topY + k * (yt - s.topY)) = k * k * weightOn s a b yb yt := by
  unfold PySlope.weightOn
  rw [h.column hk]
  have e1 : (t.udls.map fun u => u.load.magnitude *
      common (t.topX + k * (a - s.topX)) (t.topX + k * (b - s.topX)) u.left u.right).sum =
      k * k * (s.udls.map fun u => u.load.magnitude * common a b u.left u.right).sum := by
    have hu := h.udls
    generalize s.udls = us at hu
    generalize t.udls = vs at hu
    clear h
    induction hu with
    | nil => simp
    | @cons u v us vs huv _ ih =>
      simp only [List.map_cons, List.sum_cons]
      rw [ih, huv.1]
      have : common (t.topX + k * (a - s.topX)) (t.topX + k * (b - s.topX)) v.left v.right =
          k * common a b u.left u.right := by
        have l1 : v.left = t.topX + k * (u.left - s.topX) := by linarith [huv.2.1]
        have l2 : v.right = t.topX + k * (u.right - s.topX) := by linarith [huv.2.2]
        have mono : ∀ x y : ℝ, x ≤ y → t.topX + k * (x - s.topX) ≤ t.topX + k * (y - s.topX) := by
          intro x y hxy
          have := mul_le_mul_of_nonneg_left hxy hk.le
          linarith
        have mf : Monotone fun x : ℝ => t.topX + k * (x - s.topX) := fun x y hxy => mono x y hxy
        have em : ∀ x y : ℝ, min (t.topX + k * (x - s.topX)) (t.topX + k * (y - s.topX)) =
          t.topX + k * (min x y - s.topX) := fun x y => (mf.map_min (a := x) (b := y)).symm
        have eM : ∀ x y : ℝ, max (t.topX + k * (x - s.topX)) (t.topX + k * (y - s.topX)) =
          t.topX + k * (max x y - s.topX) := fun x y => (mf.map_max (a := x) (b := y)).symm
        unfold common
        rw [l1, l2, em, eM, mul_max_of_nonneg _ _ hk.le, mul_zero]
        congr 1; ring
      rw [this]; ring
  have e2 : (t.lls.map fun l => if t.topX + k * (a - s.topX) ≤ l.coord ∧ l.coord < t.topX + k * (b - s.topX)
      then l.load.magnitude else 0).sum =
      k * k * (s.lls.map fun l => if a ≤ l.coord ∧ l.coord < b then l.load.magnitude else 0).sum := by
    have hu := h.lls
    generalize s.lls = us at hu
    generalize t.lls = vs at hu
    clear h
    induction hu with
    | nil => simp
    | @cons u v us vs huv _ ih =>
      simp only [List.map_cons, List.sum_cons]
      rw [ih]
      have l1 : v.coord = t.topX + k * (u.coord - s.topX) := by linarith [huv.2]
      have c1 : t.topX + k * (a - s.topX) ≤ v.coord ↔ a ≤ u.coord := by
        rw [l1, add_le_add_iff_left, mul_le_mul_iff_right₀ hk]
        constructor <;> intro h <;> linarith
      have c2 : v.coord < t.topX + k * (b - s.topX) ↔ u.coord < b := by
        rw [l1, add_lt_add_iff_left, mul_lt_mul_iff_right₀ hk]
        constructor <;> intro h <;> linarith
      simp only [c1, c2]
      split
      · rw [huv.1]; ring
      · ring
  rw [e1, e2]
  ring

theorem Similar.pressureAt (rs : Reachable s) (rt : Reachable t) (x yb yt : ℝ) :
    pressureAt t (t.topX + k * (x - s.topX)) (t.topY + k * (yb - s.topY)) (t.topY + k * (yt - s.topY)) =
      k * pressureAt s x yb yt := by
  unfold PySlope.pressureAt
  rcases h.water with ⟨e1, e2⟩ | ⟨z, z', e1, e2, p1, p2, e3⟩
  · rw [e1, e2]; simp
  · rw [e1, e2]
    simp only
    rw [if_neg p1.ne', if_neg p2.ne', h.groundY hk rs rt, h.waterH, h.length]
    have hz : z' = t.topY + k * (z - s.topY) := by linarith
    have c1 : t.topY + k * (PySlope.groundY s x - s.topY) < z' ↔ PySlope.groundY s x < z := by
      rw [hz, add_lt_add_iff_left, mul_lt_mul_iff_right₀ hk]
      constructor <;> intro h <;> linarith
    have c2 : t.topX + k * (x - s.topX) < t.topX + k * s.length ↔ x < s.topX + s.length := by
      rw [add_lt_add_iff_left, mul_lt_mul_iff_right₀ hk]
      constructor <;> intro h <;> linarith
    simp only [c1, c2]
    have mf : Monotone fun x : ℝ => t.topY + k * (x - s.topY) := by
      intro x y hxy
      have := mul_le_mul_of_nonneg_left hxy hk.le
      simp only
      linarith
    have em : min (t.topY + k * (z - s.topY)) (t.topY + k * (yt - s.topY)) =
      t.topY + k * (min z yt - s.topY) := (mf.map_min (a := z) (b := yt)).symm
    have e4 : max (min z' (t.topY + k * (yt - s.topY)) - (t.topY + k * (yb - s.topY))) 0 = k * max (min z yt - yb) 0 := by
      rw [hz, em, mul_max_of_nonneg _ _ hk.le, mul_zero]
      congr 1; ring
    rw [e4]; ring

/-- The slices at scale `k`. -/
theorem Similar.slice (rs : Reachable s) (rt : Reachable t) {cx cy r xl xr : ℝ} (i : ℕ) :
    sliceOf t (t.topX + k * (cx - s.topX)) (t.topY + k * (cy - s.topY)) (k * r) (t.topX + k * (xl - s.topX))
        (t.topX + k * (xr - s.topX)) i =
      { b := k * (sliceOf s cx cy r xl xr i).b
        W := k * k * (sliceOf s cx cy r xl xr i).W
        u := k * (sliceOf s cx cy r xl xr i).u
        c := k * (sliceOf s cx cy r xl xr i).c
        φ := (sliceOf s cx cy r xl xr i).φ
        sin := (sliceOf s cx cy r xl xr i).sin
        cos := (sliceOf s cx cy r xl xr i).cos } := by
  have hb : (t.topX + k * (xr - s.topX) - (t.topX + k * (xl - s.topX))) / (t.slices : ℝ) =
      k * ((xr - xl) / (s.slices : ℝ)) := by rw [h.slices]; ring
  set b := (xr - xl) / (s.slices : ℝ) with hb'
  set x := xl + ((i : ℝ) + 1 / 2) * b with hx'
  have hx : t.topX + k * (xl - s.topX) + ((i : ℝ) + 1 / 2) * (k * b) = t.topX + k * (x - s.topX) := by
    rw [hx']; ring
  have hxa : t.topX + k * (xl - s.topX) + (i : ℝ) * (k * b) = t.topX + k * (xl + i * b - s.topX) := by ring
  have hxb : t.topX + k * (xl - s.topX) + ((i : ℝ) + 1) * (k * b) = t.topX + k * (xl + (i + 1) * b - s.topX) := by ring
  have hroot : √((k * r) ^ 2 - (t.topX + k * (x - s.topX) - (t.topX + k * (cx - s.topX))) ^ 2) =
      k * √(r ^ 2 - (x - cx) ^ 2) := by
    rw [show (k * r) ^ 2 - (t.topX + k * (x - s.topX) - (t.topX + k * (cx - s.topX))) ^ 2 =
      k ^ 2 * (r ^ 2 - (x - cx) ^ 2) by ring, Real.sqrt_mul (by positivity), Real.sqrt_sq hk.le]
  set q := √(r ^ 2 - (x - cx) ^ 2) with hq
  have hyb : t.topY + k * (cy - s.topY) - k * q = t.topY + k * (cy - q - s.topY) := by ring
  have mf : Monotone fun x : ℝ => t.topY + k * (x - s.topY) := by
    intro x y hxy
    have := mul_le_mul_of_nonneg_left hxy hk.le
    simp only
    linarith
  have hyt : max (t.topY + k * (PySlope.groundY s x - s.topY)) (t.topY + k * (cy - q - s.topY)) =
      t.topY + k * (max (PySlope.groundY s x) (cy - q) - s.topY) :=
    (mf.map_max (a := PySlope.groundY s x) (b := cy - q)).symm
  unfold sliceOf
  simp only [hb, hx, hxa, hxb, hroot, hyb, h.groundY hk rs rt, hyt, h.weightOn hk, h.pressureAt hk rs rt]
  simp only [← hb', ← hx', ← hq]
  congr 1
  · rcases h.layerAt hk (cy - q) with ⟨e1, e2⟩ | ⟨l, l', e1, e2, e3⟩
    · rw [e1, e2]; simp
    · rw [e1, e2]; exact e3.2.1
  · rcases h.layerAt hk (cy - q) with ⟨e1, e2⟩ | ⟨l, l', e1, e2, e3⟩
    · rw [e1, e2]
    · rw [e1, e2]; exact e3.2.2.1
  · rw [show t.topX + k * (cx - s.topX) - (t.topX + k * (x - s.topX)) = k * (cx - x) by ring,
      mul_div_mul_left _ _ hk.ne']
  · rw [mul_div_mul_left _ _ hk.ne']

theorem Similar.driving (rs : Reachable s) (rt : Reachable t) (cx cy r xl xr : ℝ) (n : ℕ) :
    driving n (sliceOf t (t.topX + k * (cx - s.topX)) (t.topY + k * (cy - s.topY)) (k * r) (t.topX + k * (xl - s.topX))
        (t.topX + k * (xr - s.topX))) = k * k * driving n (sliceOf s cx cy r xl xr) := by
  unfold PySlope.driving
  rw [mul_sum]
  apply sum_congr rfl
  intro i _
  rw [h.slice hk rs rt]
  ring

theorem Similar.fellenius (rs : Reachable s) (rt : Reachable t) (cx cy r xl xr : ℝ) (n : ℕ) :
    fellenius n (sliceOf t (t.topX + k * (cx - s.topX)) (t.topY + k * (cy - s.topY)) (k * r) (t.topX + k * (xl - s.topX))
        (t.topX + k * (xr - s.topX))) = fellenius n (sliceOf s cx cy r xl xr) := by
  have hkk : k * k ≠ 0 := (mul_pos hk hk).ne'
  unfold PySlope.fellenius
  rw [h.driving hk rs rt, ← mul_div_mul_left _ (PySlope.driving n (sliceOf s cx cy r xl xr)) hkk, mul_sum]
  congr 1
  apply sum_congr rfl
  intro i _
  rw [h.slice hk rs rt]
  simp only [Slice.tan]
  rw [mul_add (k * k), ← mul_assoc (k * k) (max _ _), mul_max_of_nonneg _ _ (mul_pos hk hk).le, mul_zero]
  congr 1
  · ring
  · congr 2
    ring

theorem Similar.bishopRhs (rs : Reachable s) (rt : Reachable t) (cx cy r xl xr : ℝ) (n : ℕ) (F : ℝ) :
    bishopRhs n (sliceOf t (t.topX + k * (cx - s.topX)) (t.topY + k * (cy - s.topY)) (k * r) (t.topX + k * (xl - s.topX))
        (t.topX + k * (xr - s.topX))) F = bishopRhs n (sliceOf s cx cy r xl xr) F := by
  have hkk : k * k ≠ 0 := (mul_pos hk hk).ne'
  unfold PySlope.bishopRhs
  split
  · rfl
  rw [h.driving hk rs rt, ← mul_div_mul_left _ (PySlope.driving n (sliceOf s cx cy r xl xr)) hkk, mul_sum]
  congr 1
  apply sum_congr rfl
  intro i _
  rw [h.slice hk rs rt]
  simp only [Slice.tan]
  rw [← mul_div_assoc]
  ring

end

/-- C101: what the analysis computes for a circle (see C41) is what it computes for the circle at another scale on the
slope at that scale, in both directions. -/
theorem C101_bishop (k : ℝ) (hk : 0 < k) (s t : Slope ℝ) (rs : Reachable s) (rt : Reachable t) (h : Similar k s t)
    (c l r : ℝ × ℝ) (R F : ℝ) :
    BishopValue t (atScale k s t c).1 (atScale k s t c).2 (k * R) (atScale k s t l).1 (atScale k s t r).1 F ↔
      BishopValue s c.1 c.2 R l.1 r.1 F := by
  unfold BishopValue atScale
  simp only [h.slices, h.tolerance, h.maxIterations, h.driving hk rs rt, h.fellenius hk rs rt, h.bishopRhs hk rs rt]
  have : 0 < k * k * driving s.slices.toNat (sliceOf s c.1 c.2 R l.1 r.1) ↔
      0 < driving s.slices.toNat (sliceOf s c.1 c.2 R l.1 r.1) := mul_pos_iff_of_pos_left (mul_pos hk hk)
  rw [this]

/-- C101: the same for the ordinary method between two given end points (see C55). -/
theorem C101_ordinary (k : ℝ) (hk : 0 < k) (s t : Slope ℝ) (rs : Reachable s) (rt : Reachable t) (h : Similar k s t)
    (c l r : ℝ × ℝ) (R F : ℝ) (h0 : 0 ≤ (atScale k s t c).1 ∧ 0 ≤ (atScale k s t c).2)
    (far : 1e-6 < (atScale k s t r).1 - (atScale k s t l).1) (hw : ∀ z, t.waterRL = some z → z ≤ t.topY)
    (e : s.ordinary c.1 c.2 R (some l) (some r) = .ok F) :
    t.ordinary (atScale k s t c).1 (atScale k s t c).2 (k * R) (some (atScale k s t l)) (some (atScale k s t r)) =
      .ok F := by
  rw [C55_ordinary_formula s rs] at e
  rw [C55_ordinary_formula t rt]
  obtain ⟨_, _, e3, _, e5, e6, _, e8, e9⟩ := e
  refine ⟨h0.1, h0.2, mul_pos hk e3, far, ?_, ?_, waterX_ok rt.wf.geo hw, ?_, ?_⟩
  · intro i hi
    rw [h.slices] at hi
    have := e5 i hi
    unfold atScale
    simp only
    rw [h.slices, show t.topX + k * (l.1 - s.topX) + ((i : ℝ) + 1 / 2) * ((t.topX + k * (r.1 - s.topX) -
      (t.topX + k * (l.1 - s.topX))) / (s.slices : ℝ)) - (t.topX + k * (c.1 - s.topX)) =
      k * (l.1 + ((i : ℝ) + 1 / 2) * ((r.1 - l.1) / s.slices) - c.1) by ring, abs_mul, abs_of_pos hk]
    exact mul_lt_mul_of_pos_left this hk
  · intro e
    have := h.materials.length_eq
    rw [e] at this
    exact e6 (List.length_eq_zero_iff.mp this)
  · unfold atScale
    simp only
    rw [h.slices, h.driving hk rs rt]
    exact mul_pos (mul_pos hk hk) e8
  · unfold atScale
    simp only
    rw [h.slices, h.fellenius hk rs rt, e9]

theorem MeetsFirst.ends {s : Slope ℝ} {cx cy r : ℝ} {a b l rt : ℝ × ℝ} (h : MeetsFirst s cx cy r a b)
    (f : FirstCrossings s cx cy r l rt) : l.1 = a.1 ∧ rt.1 = b.1 := by
  obtain ⟨h1, h2, h3, h4⟩ := h
  obtain ⟨f1, f2, f3, f4⟩ := f
  have g1 := (f4 a h1).1
  have e1 : l.1 = a.1 := by
    rcases h4 l f1 with e | e
    · exact e
    · linarith
  refine ⟨e1, ?_⟩
  have g2 := f4 b h2
  have e2 : b.1 ≤ rt.1 := by
    rcases h4 rt f2 with e | e
    · rw [e, e1] at f3; norm_num at f3
    · exact e
  rcases g2.2 with e | e
  · rw [e1] at e; linarith
  · linarith

theorem Similar.cuts {k : ℝ} {s t : Slope ℝ} (h : Similar k s t) (hk : 0 < k) (rs : Reachable s) (rt : Reachable t)
    {cx cy r xl xr : ℝ} (hc : CutsMass s cx cy r xl xr) :
    CutsMass t (t.topX + k * (cx - s.topX)) (t.topY + k * (cy - s.topY)) (k * r) (t.topX + k * (xl - s.topX))
      (t.topX + k * (xr - s.topX)) := by
  obtain ⟨h1, h2⟩ := hc
  refine ⟨by have := mul_le_mul_of_nonneg_left h1 hk.le; linarith, ?_⟩
  intro x a b
  obtain ⟨y, rfl⟩ : ∃ y, x = t.topX + k * (y - s.topX) :=
    ⟨s.topX + (x - t.topX) / k, by field_simp; ring⟩
  have a' : xl < y := by
    have : k * (xl - s.topX) < k * (y - s.topX) := by linarith
    linarith [lt_of_mul_lt_mul_left this hk.le]
  have b' : y < xr := by
    have : k * (y - s.topX) < k * (xr - s.topX) := by linarith
    linarith [lt_of_mul_lt_mul_left this hk.le]
  have := h2 y a' b'
  rw [h.groundY hk rs rt, show (k * r) ^ 2 - (t.topX + k * (y - s.topX) - (t.topX + k * (cx - s.topX))) ^ 2 =
      k ^ 2 * (r ^ 2 - (y - cx) ^ 2) by ring, Real.sqrt_mul (by positivity), Real.sqrt_sq hk.le]
  have := mul_lt_mul_of_pos_left this hk
  linarith

/-- C101: at another scale the analysis reports the same factor of safety. The circle is the only one added, cuts off a
mass of soil (C74) and meets the ground at the corresponding points (the edges of the two models need not correspond);
the ground has strength, and is not lighter than water where there is water. -/
theorem C101_reported (k : ℝ) (hk : 0 < k) (s t : Slope ℝ) (rs : Reachable s) (rt : Reachable t) (h : Similar k s t)
    (hs : SoundFriction s) (hh : s.waterRL = none ∨ HeavierThanWater s) (hw : ∀ z, s.waterRL = some z → z ≤ s.topY)
    (hm : s.materials ≠ []) (strong : HasStrength s) (c a b : ℝ × ℝ) (R : ℝ)
    (h0 : 0 ≤ c.1 ∧ 0 ≤ c.2 ∧ 0 ≤ R) (h0' : 0 ≤ (atScale k s t c).1 ∧ 0 ≤ (atScale k s t c).2)
    (m : MeetsFirst s c.1 c.2 R a b)
    (m' : MeetsFirst t (atScale k s t c).1 (atScale k s t c).2 (k * R) (atScale k s t a) (atScale k s t b))
    (cut : CutsMass s c.1 c.2 R a.1 b.1) :
    let u := (s.removeIndividualPlanes.1.addSingleCircularPlane c.1 c.2 R).1.analyseSlope none
    let v := (t.removeIndividualPlanes.1.addSingleCircularPlane (atScale k s t c).1 (atScale k s t c).2
      (k * R)).1.analyseSlope none
    u.2 = .ok () ∧ v.2 = .ok () ∧ ∃ F, 0 < F ∧ u.1.getMinFos = .ok (some F) ∧ v.1.getMinFos = .ok (some F) := by
  intro u v
  obtain ⟨u1, l, r, F, u2, u3, u4, u5⟩ := C74_slip_circle_has_fos s rs hs hh hw hm strong h0 m.1 m.2.1 m.2.2.1
    (by intro l r f
        obtain ⟨e1, e2⟩ := m.ends f
        rw [e1, e2]; exact cut) none
  have ht : ∀ l' ∈ t.materials, ∃ l ∈ s.materials, SimilarLayer k s t l l' := by
    have := h.materials
    intro l' hl'
    generalize s.materials = x at this
    generalize t.materials = y at this hl'
    clear * - this hl'
    induction this with
    | nil => cases hl'
    | @cons p q ps qs hpq _ ih =>
      rcases List.mem_cons.mp hl' with rfl | hl'
      · exact ⟨p, by simp, hpq⟩
      · obtain ⟨l, h1, h2⟩ := ih hl'
        exact ⟨l, by simp [h1], h2⟩
  obtain ⟨v1, l', r', F', v2, v3, v4, v5⟩ := C74_slip_circle_has_fos t rt
    (by intro l' hl'
        obtain ⟨l, hl, e⟩ := ht l' hl'
        rw [e.2.2.1]; exact hs l hl)
    (by rcases h.water with ⟨_, e⟩ | ⟨z, z', e1, e2, _⟩
        · exact .inl e
        · rcases hh with e | e
          · rw [e1] at e; cases e
          · right
            intro l' hl'
            obtain ⟨l, hl, e'⟩ := ht l' hl'
            rw [e'.1]; exact e l hl)
    (by intro w hz
        rcases h.water with ⟨_, e⟩ | ⟨z, z', e1, e2, _, _, e3⟩
        · rw [e] at hz; cases hz
        · rw [e2] at hz; cases hz
          have := mul_le_mul_of_nonneg_left (hw z e1) hk.le
          linarith)
    (by intro e
        have := h.materials.length_eq
        rw [e] at this
        exact hm (List.length_eq_zero_iff.mp this))
    (by rcases strong with e | ⟨e1, e2⟩
        · left
          intro l' hl'
          obtain ⟨l, hl, e'⟩ := ht l' hl'
          rw [e'.2.1]; exact mul_pos hk (e l hl)
        · right
          refine ⟨?_, ?_⟩
          · rcases h.water with ⟨_, e⟩ | ⟨z, z', e3, _⟩
            · exact e
            · rw [e1] at e3; cases e3
          · intro l' hl'
            obtain ⟨l, hl, e'⟩ := ht l' hl'
            rw [e'.2.2.1]; exact e2 l hl)
    ⟨h0'.1, h0'.2, mul_nonneg hk.le h0.2.2⟩ m'.1 m'.2.1 m'.2.2.1
    (by intro l r f
        obtain ⟨e1, e2⟩ := m'.ends f
        rw [e1, e2]; exact h.cuts hk rs rt cut) none
  refine ⟨u1, v1, F, u3, (u5 (by intro M hM; cases hM)).1, ?_⟩
  obtain ⟨e1, e2⟩ := m.ends u2
  obtain ⟨e3, e4⟩ := m'.ends v2
  rw [e1, e2] at u4
  rw [e3, e4] at v4
  have := ((C101_bishop k hk s t rs rt h c a b R F').mp v4).unique u4
  rw [← this]
  exact (v5 (by intro M hM; cases hM)).1

/-! ## A case: the bank of C100 and one twice as large -/

/-- `Material(unit_weight=20, friction_angle=45, cohesion=0.02, depth_to_bottom=4)`. -/
noncomputable def exTwice : Material ℝ :=
  { unitWeight := 20, frictionAngle := 45, cohesion := 1 / 50, depth := 4,
    tanPhi := Real.tan (45 * (Real.pi / 180)), name := "", userColor := none }

theorem exTwice_constructed : Material.Constructed exTwice := by
  refine ⟨fun _ => false, .num 20, .num 45, .num (1 / 50), .num 4, .str "", .str "", ?_⟩
  rw [(C01_material (fun _ => false) (.num 20) (.num 45) (.num (1 / 50)) (.num 4) (.str "") (.str "")).1
    20 45 (1 / 50) 4 "" "" ⟨rfl, by norm_num, by norm_num, rfl, by norm_num, rfl, rfl⟩ rfl rfl]
  simp [exTwice]

/-- The object built by `Slope(height=4, length=2)`. -/
noncomputable def dblSlope : Slope ℝ := freshSlope 4 2

theorem dblSlope_new : Slope.new (.num 4) (.num 30) (.num 2) = .ok dblSlope := by
  rw [new_eq]
  have e : boundaryInputs (.num 4) (.num 30) (.num 2) = .ok ((4 : ℝ), (2 : ℝ)) := by
    have h90 : ¬ ((@OfNat.ofNat ℝ 90 (Lit.natLit 90)) < 30) := not_lt.mpr (by
      change (30 : ℝ) ≤ 90; norm_num)
    have h1 : ¬ ((30 : ℝ) < 0) := by norm_num
    have h2 : ¬ ((4 : ℝ) < 0) := by norm_num
    have h3 : ¬ ((2 : ℝ) < 0) := by norm_num
    simp [boundaryInputs, assertStrictlyPositiveNumber, assertPositiveNumber, assertRange,
      PyCmp.ltb, PyCmp.eqb, bind, Except.bind, pure, Except.pure, PyVal.get!, h90, h1, h2, h3]
    try norm_num
  rw [e]; rfl

theorem dblSlope_reachable : Reachable dblSlope := .init dblSlope_new

theorem dblSlope_extH : dblSlope.extH = 12 := by
  change max (max (3 * (4 : ℝ)) 6) (5 * 2 / 2) = 12
  norm_num

theorem dblSlope_extL : dblSlope.extL = 16 := by
  change max (max (5 * (2 : ℝ)) 10) (4 * 4) = 16
  norm_num

/-- After `set_materials` with that material. -/
noncomputable def dblDry : Slope ℝ := { dblSlope with materials := [mkLayer dblSlope.extH 0 exTwice] }

/-- After `set_water_table(1.2)`. -/
noncomputable def dblWet : Slope ℝ :=
  { dblDry with waterRL := some (max 0 (dblDry.topY - 6 / 5)), waterDepth := some (6 / 5) }

theorem dblDry_reachable : Reachable dblDry := by
  have e : dblSlope.setMaterials [some exTwice] = (dblDry, .ok ()) := by
    rw [setMaterials_one dblSlope_reachable.wf.geo rfl]
    have : dblSlope.deepen exTwice.depth = dblSlope := by
      unfold Slope.deepen
      rw [if_neg]
      rw [dblSlope_extH]; simp [exTwice]; norm_num
    rw [this]
    rfl
  have := Reachable.call dblSlope_reachable (.setMaterials dblSlope [some exTwice] (by
    intro m' hm; simp only [List.mem_singleton, Option.some.injEq] at hm; subst hm; exact exTwice_constructed))
  rwa [e] at this

theorem dblWet_reachable : Reachable dblWet := by
  have e : dblDry.setWaterTable (.num (6 / 5)) = (dblWet, .ok ()) := by
    have h : ¬ (6 / 5 : ℝ) < 0 := by norm_num
    have h0 : dblDry.search = [] := rfl
    simp [Slope.setWaterTable, assertPositiveNumber, PyCmp.ltb, PyVal.get!, Slope.resetResults, dblWet, h, h0]
    try rfl
  have := Reachable.call dblDry_reachable (.setWaterTable _ (.num (6 / 5)))
  rwa [e] at this

theorem dbl_extL : dblWet.extL = 16 := dblSlope_extL
theorem dbl_topX : dblWet.topX = 7 := by
  change dblSlope.topX = _
  rw [dblSlope_reachable.wf.geo.topX, dblSlope_extL]
  change (16 - 2 : ℝ) / 2 = _
  norm_num
theorem dbl_topY : dblWet.topY = 12 := by
  rw [dblWet_reachable.wf.geo.topY]; exact dblSlope_extH
theorem dbl_botX : dblWet.botX = 9 := by
  rw [dblWet_reachable.wf.geo.botX, dbl_topX]
  change (7 + 2 : ℝ) = _
  norm_num
theorem dbl_botY : dblWet.botY = 8 := by
  rw [dblWet_reachable.wf.geo.botY, show dblWet.extH = 12 from dblSlope_extH]
  change (12 - 4 : ℝ) = _
  norm_num
theorem dbl_RL : dblWet.waterRL = some (54 / 5) := by
  change some (max 0 (dblDry.topY - 6 / 5)) = _
  rw [show dblDry.topY = 12 from dbl_topY]
  norm_num

theorem dbl_crossing (p : ℝ × ℝ) : Crossing dblWet 12 12 5 p ↔ p = (7, 12) ∨ p = (9, 8) ∨ p = (15, 8) := by
  obtain ⟨x, y⟩ := p
  simp only [Prod.mk.injEq]
  unfold Crossing OnCircle OnLine
  simp only [dbl_topX, dbl_topY, dbl_botX, dbl_botY, dbl_extL]
  constructor
  · rintro ⟨h, ⟨rfl, h1, h2, h3⟩ | ⟨rfl, h1, h2, h3⟩ | ⟨h1, h2, h3⟩⟩
    · left
      have : (x - 7) * (x - 17) = 0 := by linarith
      rcases mul_eq_zero.mp this with h | h
      · exact ⟨by linarith, rfl⟩
      · exfalso; linarith
    · right
      have : (x - 9) * (x - 15) = 0 := by linarith
      rcases mul_eq_zero.mp this with h | h
      · exact .inl ⟨by linarith, rfl⟩
      · exact .inr ⟨by linarith, rfl⟩
    · have hy : y = 12 - 2 * (x - 7) := by linarith
      subst hy
      have : (x - 7) * (x - 9) = 0 := by linarith
      rcases mul_eq_zero.mp this with h | h
      · exact .inl ⟨by linarith, by linarith⟩
      · exact .inr (.inl ⟨by linarith, by linarith⟩)
  · rintro (⟨rfl, rfl⟩ | ⟨rfl, rfl⟩ | ⟨rfl, rfl⟩) <;> norm_num

theorem dbl_similar : Similar 2 (bankWet (3 / 5)) dblWet where
  height := by change (4 : ℝ) = 2 * 2; norm_num
  length := by change (2 : ℝ) = 2 * 1; norm_num
  slices := rfl
  tolerance := rfl
  maxIterations := rfl
  waterH := by
    change Real.cos (Real.arctan (4 / 2)) ^ 2 = Real.cos (Real.arctan (2 / 1)) ^ 2
    norm_num
  water := .inr ⟨_, _, bank_RL (by norm_num), dbl_RL, by norm_num, by norm_num, by
    rw [dbl_topY, bank_topY]; norm_num⟩
  materials := by
    change List.Forall₂ _ [mkLayer bankSlope.extH 0 (exFric 45 (1 / 100))] [mkLayer dblSlope.extH 0 exTwice]
    refine .cons ⟨rfl, ?_, ?_, ?_⟩ .nil
    · change (1 / 50 : ℝ) = 2 * |(1 / 100 : ℝ)|
      rw [abs_of_pos (by norm_num)]; norm_num
    · change (45 : ℝ) = |(45 : ℝ)|
      rw [abs_of_pos (by norm_num)]
    · change dblSlope.extH - 4 - dblWet.topY = 2 * (bankSlope.extH - 2 - (bankWet (3 / 5)).topY)
      rw [dblSlope_extH, bankSlope_extH, dbl_topY, bank_topY]; norm_num
  udls := .nil
  lls := .nil

/-- A case of C101: the bank of C100 with the water 60 cm below its crest, and a bank twice as large. -/
example :
    let u := ((bankWet (3 / 5)).removeIndividualPlanes.1.addSingleCircularPlane 7 6 (5 / 2)).1.analyseSlope none
    let v := (dblWet.removeIndividualPlanes.1.addSingleCircularPlane 12 12 5).1.analyseSlope none
    ∃ F, 0 < F ∧ u.1.getMinFos = .ok (some F) ∧ v.1.getMinFos = .ok (some F) := by
  intro u v
  have e : ∀ x y : ℝ, atScale 2 (bankWet (3 / 5)) dblWet (x, y) = (7 + 2 * (x - 9 / 2), 12 + 2 * (y - 6)) := by
    intro x y
    unfold atScale
    rw [dbl_topX, dbl_topY, bank_topX, bank_topY]
  have hmem : ∀ l ∈ (bankWet (3 / 5)).materials, l = mkLayer bankSlope.extH 0 (exFric 45 (1 / 100)) := by
    intro l hl
    exact List.mem_singleton.mp hl
  have ec : atScale 2 (bankWet (3 / 5)) dblWet (7, 6) = (12, 12) := by rw [e]; norm_num
  have ea : atScale 2 (bankWet (3 / 5)) dblWet (9 / 2, 6) = (7, 12) := by rw [e]; norm_num
  have eb : atScale 2 (bankWet (3 / 5)) dblWet (11 / 2, 4) = (9, 8) := by rw [e]; norm_num
  have := C101_reported 2 (by norm_num) (bankWet (3 / 5)) dblWet (bankWet_reachable (by norm_num)) dblWet_reachable
    dbl_similar
    (by intro l hl; rw [hmem l hl]; change |(45 : ℝ)| ≤ 90; rw [abs_of_pos] <;> norm_num)
    (.inr (by intro l hl; rw [hmem l hl]; change (9.81 : ℝ) ≤ 20; norm_num))
    (by intro z hz; rw [bank_RL (by norm_num)] at hz; cases hz; rw [bank_topY]; norm_num)
    (by change [_] ≠ []; simp)
    (.inl (by intro l hl; rw [hmem l hl]; change (0 : ℝ) < |(1 / 100 : ℝ)|; rw [abs_of_pos] <;> norm_num))
    (7, 6) (9 / 2, 6) (11 / 2, 4) (5 / 2) (by norm_num) (by rw [ec]; norm_num)
    ⟨(bank_crossing _).mpr (.inl rfl), (bank_crossing _).mpr (.inr (.inl rfl)), by norm_num, by
      intro p hp
      rcases (bank_crossing p).mp hp with rfl | rfl | rfl <;> norm_num⟩
    (by
      rw [ec, ea, eb, show (2 : ℝ) * (5 / 2) = 5 by norm_num]
      refine ⟨(dbl_crossing _).mpr (.inl rfl), (dbl_crossing _).mpr (.inr (.inl rfl)), by norm_num, ?_⟩
      intro p hp
      rcases (dbl_crossing p).mp hp with rfl | rfl | rfl <;> norm_num)
    bank_cuts
  rw [ec, show (2 : ℝ) * (5 / 2) = 5 by norm_num] at this
  exact this.2.2

end PySlope
