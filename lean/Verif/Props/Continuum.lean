import Verif.Lemmas.Riemann
import Verif.Props.FosLaws
import Mathlib.Analysis.SpecialFunctions.Trigonometric.InverseDeriv
import Mathlib.Analysis.SpecialFunctions.Trigonometric.Bounds
import Mathlib.MeasureTheory.Integral.IntervalIntegral.FundThmCalculus

/-! # The slices and the sliding mass they stand for (C114) -/

namespace PySlope
open Finset MeasureTheory

/-! ## Moments of the loads -/

/-- Forces `k i` that act within `h` of the middles `m i`. -/
theorem moment_error {n : ℕ} {k m μ : ℕ → ℝ} {κ M c h : ℝ} (hk : ∑ i ∈ range n, k i = κ) (hμ : ∑ i ∈ range n, μ i = M)
    (he : ∀ i < n, |k i * (c - m i) - μ i| ≤ k i * h) : |∑ i ∈ range n, k i * (c - m i) - M| ≤ κ * h := by
  rw [← hμ, ← sum_sub_distrib, ← hk, sum_mul]
  exact (abs_sum_le_sum_abs _ _).trans (sum_le_sum fun i hi => he i (mem_range.mp hi))

theorem common_between {a b l r : ℝ} (hab : a ≤ b) (hlr : l ≤ r) :
    common a b l r = max l (min b r) - max l (min a r) := by
  unfold common
  rcases le_total b r with h1 | h1 <;> rcases le_total a l with h2 | h2 <;> rcases le_total a r with h3 | h3 <;>
    rcases le_total l b with h4 | h4 <;>
    simp only [min_eq_left, min_eq_right, max_eq_left, max_eq_right, h1, h2, h3, h4, hlr, sub_self] <;>
    first
    | exact max_eq_left (by linarith)
    | (rw [max_eq_right (by linarith)] <;> linarith)

theorem common_moment {a b l r c : ℝ} (hab : a ≤ b) (hlr : l ≤ r) :
    common a b l r * (c - (max a l + min b r) / 2) =
      (c * max l (min b r) - max l (min b r) ^ 2 / 2) - (c * max l (min a r) - max l (min a r) ^ 2 / 2) := by
  by_cases h : max a l ≤ min b r
  · have e1 : max l (min b r) = min b r := max_eq_right ((le_max_right a l).trans h)
    have e2 : max l (min a r) = max a l := by
      have : a ≤ r := (le_max_left a l).trans (h.trans (min_le_right _ _))
      rw [min_eq_left this, max_comm]
    rw [common_between hab hlr, e1, e2]
    ring
  · have h0 : common a b l r = 0 := by
      unfold common
      exact max_eq_right (by linarith [not_le.mp h])
    have h1 := common_between hab hlr
    rw [h0] at h1
    have : max l (min b r) = max l (min a r) := by linarith
    rw [h0, this]; ring

section
variable {a b : ℝ} {n : ℕ}

theorem grid_end (hn : 0 < n) : a + (n : ℕ) * ((b - a) / n) = b := by
  have : (0 : ℝ) < n := by exact_mod_cast hn
  field_simp
  ring

theorem udl_moment_error (hab : a ≤ b) (hn : 0 < n) (l r c : ℝ) :
    |∑ i ∈ range n, common (a + i * ((b - a) / n)) (a + (i + 1) * ((b - a) / n)) l r * (c - (a + (i + 1 / 2) * ((b - a) / n))) -
      common a b l r * (c - (max a l + min b r) / 2)| ≤ common a b l r * ((b - a) / n / 2) := by
  have hn' : (0 : ℝ) < n := by exact_mod_cast hn
  set w := (b - a) / n with hw
  have w0 : 0 ≤ w := div_nonneg (by linarith) hn'.le
  have le : ∀ i : ℕ, a + i * w ≤ a + (i + 1) * w := fun i => by nlinarith
  by_cases hlr : l ≤ r
  · have tele : ∀ f : ℝ → ℝ, ∑ i ∈ range n, (f (a + (i + 1) * w) - f (a + i * w)) = f b - f a := fun f => by
      have := sum_range_sub (fun i : ℕ => f (a + i * w)) n
      rw [show a + ((n : ℕ) : ℝ) * w = b from grid_end hn] at this
      simpa using this
    refine moment_error (μ := fun i => common (a + i * w) (a + (i + 1) * w) l r *
      (c - (max (a + i * w) l + min (a + (i + 1) * w) r) / 2)) ?_ ?_ ?_
    · rw [sum_congr rfl fun i _ => common_between (le i) hlr, tele fun t => max l (min t r), common_between hab hlr]
    · rw [sum_congr rfl fun i _ => common_moment (le i) hlr, tele fun t => c * max l (min t r) - max l (min t r) ^ 2 / 2,
        common_moment hab hlr]
    · intro i _
      rw [← mul_sub, abs_mul, abs_of_nonneg (common_nonneg _ _ _ _)]
      by_cases h : max (a + i * w) l ≤ min (a + (i + 1) * w) r
      · refine mul_le_mul_of_nonneg_left ?_ (common_nonneg _ _ _ _)
        have h1 := le_max_left (a + i * w) l
        have h2 := min_le_left (a + (i + 1) * w) r
        rw [abs_le]
        constructor <;> linarith
      · have : common (a + i * w) (a + (i + 1) * w) l r = 0 := max_eq_right (by linarith [not_le.mp h])
        rw [this, zero_mul, zero_mul]
  · have z : ∀ p q, common p q l r = 0 := fun p q =>
      max_eq_right (by linarith [not_le.mp hlr, min_le_right q r, le_max_right p l])
    simp [z]

theorem ll_moment_error (hab : a ≤ b) (hn : 0 < n) (x c P : ℝ) (hP : 0 ≤ P) :
    |∑ i ∈ range n, (if a + i * ((b - a) / n) ≤ x ∧ x < a + (i + 1) * ((b - a) / n) then P else 0) *
        (c - (a + (i + 1 / 2) * ((b - a) / n))) - (if a ≤ x ∧ x < b then P * (c - x) else 0)| ≤
      (if a ≤ x ∧ x < b then P else 0) * ((b - a) / n / 2) := by
  have hn' : (0 : ℝ) < n := by exact_mod_cast hn
  set w := (b - a) / n with hw
  have w0 : 0 ≤ w := div_nonneg (by linarith) hn'.le
  have le : ∀ i : ℕ, a + i * w ≤ a + (i + 1) * w := fun i => by nlinarith
  have one : ∀ {p q : ℝ} (m : ℝ), p ≤ q → (if p ≤ x ∧ x < q then m else 0) =
      (if x < q then m else 0) - (if x < p then m else 0) := by
    intro p q m h
    by_cases h1 : x < p
    · rw [if_neg (by rintro ⟨h2, _⟩; linarith), if_pos h1, if_pos (by linarith), sub_self]
    · rw [if_neg h1, sub_zero]
      by_cases h2 : x < q
      · rw [if_pos ⟨not_lt.mp h1, h2⟩, if_pos h2]
      · rw [if_neg (fun h => h2 h.2), if_neg h2]
  have tele : ∀ m : ℝ, ∑ i ∈ range n, (if a + i * w ≤ x ∧ x < a + (i + 1) * w then m else 0) = if a ≤ x ∧ x < b then m else 0 := by
    intro m
    have := sum_range_sub (fun i : ℕ => if x < a + i * w then m else 0) n
    rw [show a + ((n : ℕ) : ℝ) * w = b from grid_end hn] at this
    rw [one m hab, sum_congr rfl fun i _ => one m (le i)]
    simpa using this
  refine moment_error (μ := fun i => if a + i * w ≤ x ∧ x < a + (i + 1) * w then P * (c - x) else 0) (tele P) (tele _) ?_
  intro i _
  split_ifs with h
  · rw [← mul_sub, abs_mul, abs_of_nonneg hP]
    refine mul_le_mul_of_nonneg_left ?_ hP
    obtain ⟨h1, h2⟩ := h
    rw [abs_le]
    constructor <;> linarith
  · simp

end

/-- Errors add up over a list of loads. -/
theorem list_error {α : Type} (L : List α) {n : ℕ} {f : α → ℕ → ℝ} {g e : α → ℝ}
    (h : ∀ u ∈ L, |∑ i ∈ range n, f u i - g u| ≤ e u) :
    |∑ i ∈ range n, (L.map fun u => f u i).sum - (L.map g).sum| ≤ (L.map e).sum := by
  induction L with
  | nil => simp
  | cons u L ih =>
    simp only [List.map_cons, List.sum_cons, sum_add_distrib]
    have h1 := h u (by simp)
    have h2 := ih fun v hv => h v (by simp [hv])
    have := abs_add_le (∑ i ∈ range n, f u i - g u) (∑ i ∈ range n, (L.map fun u => f u i).sum - (L.map g).sum)
    rw [show ∑ i ∈ range n, f u i + ∑ i ∈ range n, (L.map fun u => f u i).sum - (g u + (L.map g).sum) =
      (∑ i ∈ range n, f u i - g u) + (∑ i ∈ range n, (L.map fun u => f u i).sum - (L.map g).sum) by ring]
    linarith

/-! ## The densities have bounded variation -/

theorem circleY_anti (cx cy r : ℝ) : AntitoneOn (circleY cx cy r) (Set.Iic cx) := by
  intro x hx y hy h
  have hy' : y ≤ cx := hy
  unfold circleY
  have : √(r ^ 2 - (x - cx) ^ 2) ≤ √(r ^ 2 - (y - cx) ^ 2) := Real.sqrt_le_sqrt (by nlinarith)
  linarith

theorem circleY_mono (cx cy r : ℝ) : MonotoneOn (circleY cx cy r) (Set.Ici cx) := by
  intro x hx y hy h
  have hx' : cx ≤ x := hx
  unfold circleY
  have : √(r ^ 2 - (y - cx) ^ 2) ≤ √(r ^ 2 - (x - cx) ^ 2) := Real.sqrt_le_sqrt (by nlinarith)
  linarith

theorem bv_circle {f : ℝ → ℝ} (hf : ∀ p q, BoundedVariationOn f (Set.Icc p q)) (cx cy r a b : ℝ) :
    BoundedVariationOn (fun x => f (circleY cx cy r x)) (Set.Icc a b) :=
  bv_comp cx hf ((circleY_anti cx cy r).mono Set.inter_subset_right) ((circleY_mono cx cy r).mono Set.inter_subset_right)

theorem groundY_anti {s : Slope ℝ} (g : Geo s) : Antitone (groundY s) := by
  intro x y h
  have h1 := g.hgt
  have h2 : 0 < s.length := by linarith [g.len]
  have h3 : 0 ≤ s.height / s.length := by positivity
  have h4 : s.length * (s.height / s.length) = s.height := by field_simp
  unfold groundY
  split_ifs <;> nlinarith

theorem bv_ground {s : Slope ℝ} (g : Geo s) {f : ℝ → ℝ} (hf : Monotone f) (a b : ℝ) :
    BoundedVariationOn (fun x => f (groundY s x)) (Set.Icc a b) :=
  bv_anti fun _ _ _ _ h => hf (groundY_anti g h)

/-- A number of the layer at the level `y`. -/
noncomputable def stepAt (g : Layer ℝ → ℝ) (ls : List (Layer ℝ)) (y : ℝ) : ℝ :=
  match layerAt ls y with
  | some l => g l
  | none => 0

theorem bv_indicator_lt (t : ℝ) (a b : ℝ) : BoundedVariationOn (fun x => if t < x then (1 : ℝ) else 0) (Set.Icc a b) :=
  bv_mono fun x _ y _ h => by
    split_ifs with h1 h2 h2
    · exact le_rfl
    · exact absurd (h1.trans_le h) h2
    · exact zero_le_one
    · exact le_rfl

theorem bv_step (g : Layer ℝ → ℝ) (ls : List (Layer ℝ)) (a b : ℝ) : BoundedVariationOn (stepAt g ls) (Set.Icc a b) := by
  induction ls with
  | nil => exact bv_const 0 _
  | cons l ls ih =>
    by_cases hl : ls = []
    · subst hl
      have : stepAt g [l] = fun _ => g l := by
        funext y; unfold stepAt layerAt
        by_cases h : l.rl < y <;> simp [h]
      rw [this]; exact bv_const _ _
    · have e : stepAt g (l :: ls) = fun y => stepAt g ls y + (if l.rl < y then 1 else 0) * (g l - stepAt g ls y) := by
        funext y
        by_cases h : l.rl < y
        · rw [if_pos h]
          have : stepAt g (l :: ls) y = g l := by unfold stepAt layerAt; simp [h]
          rw [this]; ring
        · rw [if_neg h]
          have : stepAt g (l :: ls) y = stepAt g ls y := by
            unfold stepAt layerAt
            rw [List.getLast?_cons_of_ne_nil hl]
            simp [h]
          rw [this]; ring
      rw [e]
      exact bv_add ih ((bv_indicator_lt _ _ _).mul (bv_sub (bv_const _ _) ih))

/-- The weight of a column from level 0. -/
noncomputable def weightTo (s : Slope ℝ) (y : ℝ) : ℝ := ∫ t in (0 : ℝ)..y, unitWeightAt s.materials t

theorem weightTo_sub (s : Slope ℝ) (x y : ℝ) : ∫ t in x..y, unitWeightAt s.materials t = weightTo s y - weightTo s x :=
  (intervalIntegral.integral_interval_sub_left (unitWeightAt_integrable _ _ _) (unitWeightAt_integrable _ _ _)).symm

theorem weightTo_mono {s : Slope ℝ} (rc : Reachable s) : Monotone (weightTo s) := by
  intro x y h
  have := intervalIntegral.integral_nonneg (μ := volume) h fun t _ => unitWeightAt_nonneg rc t
  rw [weightTo_sub] at this
  linarith

theorem columnAt_eq {s : Slope ℝ} (rc : Reachable s) (cx cy r x : ℝ) : columnAt s cx cy r x =
    max (weightTo s (groundY s x)) (weightTo s (circleY cx cy r x)) - weightTo s (circleY cx cy r x) := by
  unfold columnAt
  rw [weightTo_sub, (weightTo_mono rc).map_max]

theorem bv_soil {s : Slope ℝ} (rc : Reachable s) (cx cy r a b : ℝ) :
    BoundedVariationOn (columnAt s cx cy r) (Set.Icc a b) := by
  have e : columnAt s cx cy r = fun x => max (weightTo s (groundY s x)) (weightTo s (circleY cx cy r x)) -
      weightTo s (circleY cx cy r x) := by
    funext x; exact columnAt_eq rc cx cy r x
  have h := bv_circle (f := weightTo s) (fun p q => bv_mono ((weightTo_mono rc).monotoneOn _)) cx cy r a b
  rw [e]
  exact bv_sub (bv_max (bv_ground rc.wf.geo (weightTo_mono rc) a b) h) h

theorem bv_arm (cx : ℝ) {r : ℝ} (hr : 0 < r) (a b : ℝ) : BoundedVariationOn (fun x => (cx - x) / r) (Set.Icc a b) :=
  bv_anti fun x _ y _ h => by
    have : cx - y ≤ cx - x := by linarith
    exact div_le_div_of_nonneg_right this hr.le

theorem bv_soilMoment {s : Slope ℝ} (rc : Reachable s) (cx cy : ℝ) {r : ℝ} (hr : 0 < r) (a b : ℝ) :
    BoundedVariationOn (soilMoment s cx cy r) (Set.Icc a b) := (bv_soil rc cx cy r a b).mul (bv_arm cx hr a b)

theorem bv_cos (cx : ℝ) {r : ℝ} (hr : 0 < r) (a b : ℝ) : BoundedVariationOn (cosAt cx r) (Set.Icc a b) := by
  have := (bv_circle (f := fun y => -y / r) (fun p q => bv_anti fun x _ y _ h => by
    have : -y ≤ -x := by linarith
    exact div_le_div_of_nonneg_right this hr.le) cx 0 r a b)
  have e : cosAt cx r = fun x => -circleY cx 0 r x / r := by
    funext x; simp [cosAt, circleY]
  rw [e]; exact this

/-- The points between `a` and `b` are strictly inside the circle. -/
theorem inside_between {cx r a b x : ℝ} (ha : |a - cx| < r) (hb : |b - cx| < r) (hx : x ∈ Set.Icc a b) :
    0 < r ^ 2 - (x - cx) ^ 2 := by
  rw [abs_lt] at ha hb
  obtain ⟨h1, h2⟩ := hx
  nlinarith

theorem bv_sec {cx r a b : ℝ} (hr : 0 < r) (ha : |a - cx| < r) (hb : |b - cx| < r) :
    BoundedVariationOn (fun x => 1 / cosAt cx r x) (Set.Icc a b) := by
  have pos : ∀ x ∈ Set.Icc a b, 0 < cosAt cx r x := fun x hx =>
    div_pos (Real.sqrt_pos.mpr (inside_between ha hb hx)) hr
  refine bv_valley cx ?_ ?_
  · intro x hx y hy h
    refine one_div_le_one_div_of_le (pos x hx.1) ?_
    have hy' : y ≤ cx := hy.2
    exact div_le_div_of_nonneg_right (Real.sqrt_le_sqrt (by nlinarith)) hr.le
  · intro x hx y hy h
    refine one_div_le_one_div_of_le (pos y hy.1) ?_
    have hx' : cx ≤ x := hx.2
    exact div_le_div_of_nonneg_right (Real.sqrt_le_sqrt (by nlinarith)) hr.le

theorem bv_pressure {s : Slope ℝ} (rc : Reachable s) (cx cy r a b : ℝ) :
    BoundedVariationOn (fun x => pressureAt s x (circleY cx cy r x) (max (groundY s x) (circleY cx cy r x))) (Set.Icc a b) := by
  cases hw : s.waterRL with
  | none =>
    have : (fun x => pressureAt s x (circleY cx cy r x) (max (groundY s x) (circleY cx cy r x))) = fun _ => 0 := by
      funext x; simp [pressureAt, hw]
    rw [this]; exact bv_const _ _
  | some z =>
    by_cases hz : z = 0
    · have : (fun x => pressureAt s x (circleY cx cy r x) (max (groundY s x) (circleY cx cy r x))) = fun _ => 0 := by
        funext x; simp [pressureAt, hw, hz]
      rw [this]; exact bv_const _ _
    · have hc : BoundedVariationOn (circleY cx cy r) (Set.Icc a b) :=
        bv_circle (f := fun y => y) (fun p q => bv_mono fun _ _ _ _ h => h) cx cy r a b
      have hg : BoundedVariationOn (groundY s) (Set.Icc a b) := bv_ground rc.wf.geo (f := fun y => y) (fun _ _ h => h) a b
      have i1 : BoundedVariationOn (fun x => if groundY s x < z then (1 : ℝ) else 0) (Set.Icc a b) :=
        bv_mono fun x _ y _ h => by
          have := groundY_anti rc.wf.geo h
          split_ifs with h1 h2 h2
          · exact le_rfl
          · exact absurd (this.trans_lt h1) h2
          · exact zero_le_one
          · exact le_rfl
      have i2 : BoundedVariationOn (fun x => if x < s.topX + s.length then (1 : ℝ) else 0) (Set.Icc a b) :=
        bv_anti fun x _ y _ h => by
          split_ifs with h1 h2 h2
          · exact le_rfl
          · exact absurd (h.trans_lt h1) h2
          · exact zero_le_one
          · exact le_rfl
      have e : (fun x => pressureAt s x (circleY cx cy r x) (max (groundY s x) (circleY cx cy r x))) = fun x =>
          max (min z (max (groundY s x) (circleY cx cy r x)) - circleY cx cy r x) 0 * 9.81 *
            (1 + (s.waterH - 1) * ((if groundY s x < z then (1 : ℝ) else 0) * (if x < s.topX + s.length then (1 : ℝ) else 0))) := by
        funext x
        simp only [pressureAt, hw, if_neg hz]
        by_cases h1 : groundY s x < z <;> by_cases h2 : x < s.topX + s.length <;> simp [h1, h2]
      rw [e]
      exact ((bv_max (bv_sub (bv_min (bv_const z _) (bv_max hg hc)) hc) (bv_const 0 _)).mul (bv_const 9.81 _)).mul
        (bv_add (bv_const 1 _) ((bv_const (s.waterH - 1) _).mul (i1.mul i2)))

theorem bv_resist {s : Slope ℝ} (rc : Reachable s) (cx cy : ℝ) {r a b : ℝ} (hr : 0 < r) (ha : |a - cx| < r) (hb : |b - cx| < r) :
    BoundedVariationOn (resistAt s cx cy r) (Set.Icc a b) := by
  have c1 : BoundedVariationOn (cohesionAt s cx cy r) (Set.Icc a b) :=
    bv_circle (bv_step (fun l => l.mat.cohesion) s.materials) cx cy r a b
  have c2 : BoundedVariationOn (tanPhiAt s cx cy r) (Set.Icc a b) :=
    bv_circle (bv_step (fun l => Real.tan (l.mat.frictionAngle * (Real.pi / 180))) s.materials) cx cy r a b
  have c3 := bv_sec hr ha hb
  exact bv_add (c1.mul c3) ((bv_max (bv_const 0 _) (bv_sub ((bv_soil rc cx cy r a b).mul (bv_cos cx hr a b))
    ((bv_pressure rc cx cy r a b).mul c3))).mul c2)

/-! ## C114 -/

theorem slices_cast {s : Slope ℝ} (rc : Reachable s) : 0 < s.slices.toNat ∧ ((s.slices.toNat : ℕ) : ℝ) = s.slices := by
  have h := rc.wf.sl.1
  refine ⟨by omega, ?_⟩
  have : ((s.slices.toNat : ℕ) : Int) = s.slices := by omega
  exact_mod_cast this

theorem sliceOf_weight (s : Slope ℝ) (cx cy r xl xr : ℝ) (i : ℕ) :
    (sliceOf s cx cy r xl xr i).W = (xr - xl) / s.slices * columnAt s cx cy r (xl + (i + 1 / 2) * ((xr - xl) / s.slices)) +
      (s.udls.map fun u => u.load.magnitude * common (xl + i * ((xr - xl) / s.slices)) (xl + (i + 1) * ((xr - xl) / s.slices))
        u.left u.right).sum +
      (s.lls.map fun l => if xl + i * ((xr - xl) / s.slices) ≤ l.coord ∧ l.coord < xl + (i + 1) * ((xr - xl) / s.slices)
        then l.load.magnitude else 0).sum := by
  unfold sliceOf weightOn columnAt circleY
  simp only
  congr 3
  ring

theorem udl_nonneg {s : Slope ℝ} (rc : Reachable s) : ∀ u ∈ s.udls, 0 ≤ u.load.magnitude := fun u hu =>
  (rc.sane.udl u.load (List.mem_map_of_mem hu)).1.le

theorem ll_nonneg {s : Slope ℝ} (rc : Reachable s) : ∀ u ∈ s.lls, 0 ≤ u.load.magnitude := fun u hu =>
  (rc.sane.ll u.load (List.mem_map_of_mem hu)).le

/-- **C114** (driving). The driving sum over the slices differs from the moment of the sliding mass and of the loads on it
about the centre, divided by the radius, by at most the width of a slice times the total variation of the moment per metre
(which is finite) and half the width of a slice times the loads over the radius. -/
theorem C114_driving (s : Slope ℝ) (rc : Reachable s) (cx cy r xl xr : ℝ) (hr : 0 < r) (h : xl ≤ xr) :
    BoundedVariationOn (soilMoment s cx cy r) (Set.Icc xl xr) ∧
    |driving s.slices.toNat (sliceOf s cx cy r xl xr) -
        ((∫ x in xl..xr, soilMoment s cx cy r x) + loadMoment s cx r xl xr)| ≤
      (xr - xl) / s.slices * variation (soilMoment s cx cy r) xl xr + (xr - xl) / s.slices / 2 * (loadBetween s xl xr / r) := by
  have bv := bv_soilMoment rc cx cy hr xl xr
  refine ⟨bv, ?_⟩
  obtain ⟨hn, hc⟩ := slices_cast rc
  have e1 := midpoint_error h bv hn
  have e2 := list_error s.udls (n := s.slices.toNat)
    (f := fun u i => u.load.magnitude * common (xl + i * ((xr - xl) / s.slices)) (xl + (i + 1) * ((xr - xl) / s.slices)) u.left u.right *
      ((cx - (xl + (i + 1 / 2) * ((xr - xl) / s.slices))) / r))
    (g := fun u => u.load.magnitude * common xl xr u.left u.right * ((cx - (max xl u.left + min xr u.right) / 2) / r))
    (e := fun u => u.load.magnitude * common xl xr u.left u.right * ((xr - xl) / s.slices / 2 / r)) fun u hu => by
      have := udl_moment_error h hn u.left u.right cx
      rw [hc] at this
      have m0 : 0 ≤ u.load.magnitude / r := div_nonneg (udl_nonneg rc u hu) hr.le
      have := mul_le_mul_of_nonneg_left this m0
      rw [← abs_of_nonneg m0, ← abs_mul, abs_of_nonneg m0, mul_sub, mul_sum] at this
      calc _ = _ := by
            congr 1; congr 1
            · exact sum_congr rfl fun i _ => by ring
            · ring
        _ ≤ _ := this
        _ = _ := by ring
  have e3 := list_error s.lls (n := s.slices.toNat)
    (f := fun l i => (if xl + i * ((xr - xl) / s.slices) ≤ l.coord ∧ l.coord < xl + (i + 1) * ((xr - xl) / s.slices)
        then l.load.magnitude else 0) * ((cx - (xl + (i + 1 / 2) * ((xr - xl) / s.slices))) / r))
    (g := fun l => if xl ≤ l.coord ∧ l.coord < xr then l.load.magnitude * ((cx - l.coord) / r) else 0)
    (e := fun l => (if xl ≤ l.coord ∧ l.coord < xr then l.load.magnitude else 0) * ((xr - xl) / s.slices / 2 / r)) fun l hl => by
      have := ll_moment_error h hn l.coord cx l.load.magnitude (ll_nonneg rc l hl)
      rw [hc] at this
      have m0 : 0 ≤ 1 / r := by positivity
      have := mul_le_mul_of_nonneg_left this m0
      rw [← abs_of_nonneg m0, ← abs_mul, abs_of_nonneg m0, mul_sub, mul_sum] at this
      calc _ = _ := by
            congr 1; congr 1
            · exact sum_congr rfl fun i _ => by ring
            · split_ifs <;> ring
        _ ≤ _ := this
        _ = _ := by ring
  rw [hc] at e1
  have total : driving s.slices.toNat (sliceOf s cx cy r xl xr) =
      ∑ i ∈ range s.slices.toNat, (xr - xl) / s.slices * soilMoment s cx cy r (xl + (i + 1 / 2) * ((xr - xl) / s.slices)) +
      ∑ i ∈ range s.slices.toNat, (s.udls.map fun u => u.load.magnitude *
        common (xl + i * ((xr - xl) / s.slices)) (xl + (i + 1) * ((xr - xl) / s.slices)) u.left u.right *
        ((cx - (xl + (i + 1 / 2) * ((xr - xl) / s.slices))) / r)).sum +
      ∑ i ∈ range s.slices.toNat, (s.lls.map fun l =>
        (if xl + i * ((xr - xl) / s.slices) ≤ l.coord ∧ l.coord < xl + (i + 1) * ((xr - xl) / s.slices)
        then l.load.magnitude else 0) * ((cx - (xl + (i + 1 / 2) * ((xr - xl) / s.slices))) / r)).sum := by
    unfold driving
    rw [← sum_add_distrib, ← sum_add_distrib]
    refine sum_congr rfl fun i _ => ?_
    rw [sliceOf_weight, List.sum_map_mul_right, List.sum_map_mul_right]
    unfold soilMoment sliceOf
    simp only
    ring
  have bound : (s.udls.map fun u => u.load.magnitude * common xl xr u.left u.right * ((xr - xl) / s.slices / 2 / r)).sum +
      (s.lls.map fun l => (if xl ≤ l.coord ∧ l.coord < xr then l.load.magnitude else 0) * ((xr - xl) / s.slices / 2 / r)).sum =
      (xr - xl) / s.slices / 2 * (loadBetween s xl xr / r) := by
    rw [List.sum_map_mul_right, List.sum_map_mul_right]
    unfold loadBetween
    ring
  rw [total, ← bound]
  unfold loadMoment
  refine le_trans ?_ ((add_le_add e1 (add_le_add e2 e3)))
  refine le_trans (le_of_eq ?_) ((abs_add_le _ _).trans (add_le_add le_rfl (abs_add_le _ _)))
  congr 1
  ring

/-- **C114** (the ordinary method). Without loads, the factor of safety between two ends inside the circle is `R / D` with `R` and
`D` within the width of a slice times a total variation (which is finite) of what the circle resists and of what drives the
mass, by Fellenius' method without slices. -/
theorem C114_ordinary (s : Slope ℝ) (rc : Reachable s) (hu : s.udls = []) (hl : s.lls = []) (cx cy r : ℝ) (l rt : ℝ × ℝ)
    (h1 : |l.1 - cx| < r) (h2 : |rt.1 - cx| < r) (F : ℝ) (hF : s.ordinary cx cy r (some l) (some rt) = .ok F) :
    ∃ R D : ℝ, F = R / D ∧ 0 < D ∧
      BoundedVariationOn (resistAt s cx cy r) (Set.Icc l.1 rt.1) ∧
      |R - ∫ x in l.1..rt.1, resistAt s cx cy r x| ≤ (rt.1 - l.1) / s.slices * variation (resistAt s cx cy r) l.1 rt.1 ∧
      BoundedVariationOn (soilMoment s cx cy r) (Set.Icc l.1 rt.1) ∧
      |D - ∫ x in l.1..rt.1, soilMoment s cx cy r x| ≤ (rt.1 - l.1) / s.slices * variation (soilMoment s cx cy r) l.1 rt.1 := by
  obtain ⟨_, _, hr, hd, hin, _, _, hD, rfl⟩ := (C55_ordinary_formula s rc cx cy r l rt F).mp hF
  have hlr : l.1 ≤ rt.1 := by norm_num at hd; linarith
  obtain ⟨b1, b2⟩ := C114_driving s rc cx cy r l.1 rt.1 hr hlr
  have m0 : loadMoment s cx r l.1 rt.1 = 0 := by simp [loadMoment, hu, hl]
  have m1 : loadBetween s l.1 rt.1 = 0 := by simp [loadBetween, hu, hl]
  rw [m0, m1, zero_div, mul_zero, add_zero, add_zero] at b2
  have b3 := bv_resist rc cx cy hr h1 h2
  refine ⟨_, _, rfl, hD, b3, ?_, b1, b2⟩
  obtain ⟨hn, hc⟩ := slices_cast rc
  have e := midpoint_error hlr b3 hn
  rw [hc] at e
  refine le_trans (le_of_eq ?_) e
  congr 2
  refine sum_congr rfl fun i hi => ?_
  set w := (rt.1 - l.1) / s.slices with hw
  have w0 : 0 ≤ w := div_nonneg (by linarith) (by rw [← hc]; exact Nat.cast_nonneg _)
  have eW := sliceOf_weight s cx cy r l.1 rt.1 i
  rw [hu, hl] at eW
  simp only [List.map_nil, List.sum_nil, add_zero] at eW
  have eC : (sliceOf s cx cy r l.1 rt.1 i).cos = cosAt cx r (l.1 + (i + 1 / 2) * w) := rfl
  have eb : (sliceOf s cx cy r l.1 rt.1 i).b = w := rfl
  have ec : (sliceOf s cx cy r l.1 rt.1 i).c = cohesionAt s cx cy r (l.1 + (i + 1 / 2) * w) := rfl
  have et : (sliceOf s cx cy r l.1 rt.1 i).tan = tanPhiAt s cx cy r (l.1 + (i + 1 / 2) * w) := by
    unfold Slice.tan tanPhiAt sliceOf
    simp only
    change Real.tan ((match layerAt s.materials (circleY cx cy r (l.1 + (i + 1 / 2) * w)) with
      | some l => l.mat.frictionAngle
      | none => 0) * _) = _
    cases layerAt s.materials (circleY cx cy r (l.1 + (i + 1 / 2) * w)) with
    | none => simp
    | some _ => rfl
  have eu : (sliceOf s cx cy r l.1 rt.1 i).u = pressureAt s (l.1 + (i + 1 / 2) * w) (circleY cx cy r (l.1 + (i + 1 / 2) * w))
    (max (groundY s (l.1 + (i + 1 / 2) * w)) (circleY cx cy r (l.1 + (i + 1 / 2) * w))) := rfl
  rw [eW, eC, eb, ec, et, eu]
  unfold resistAt
  have pull : ∀ A : ℝ, max 0 (w * A) = w * max 0 A := fun A => by
    rw [mul_max_of_nonneg _ _ w0, mul_zero]
  rw [mul_add, ← mul_assoc w (max 0 _), ← pull]
  congr 1
  · ring
  · congr 2
    ring

theorem sliceOf_tan (s : Slope ℝ) (cx cy r xl xr : ℝ) (i : ℕ) :
    (sliceOf s cx cy r xl xr i).tan = tanPhiAt s cx cy r (xl + (i + 1 / 2) * ((xr - xl) / s.slices)) := by
  unfold Slice.tan tanPhiAt sliceOf
  simp only
  change Real.tan ((match layerAt s.materials (circleY cx cy r (xl + (i + 1 / 2) * ((xr - xl) / s.slices))) with
    | some l => l.mat.frictionAngle
    | none => 0) * _) = _
  cases layerAt s.materials (circleY cx cy r (xl + (i + 1 / 2) * ((xr - xl) / s.slices))) with
  | none => simp
  | some _ => rfl

/-- **C114** (Bishop's method). Without loads, the right hand side of Bishop's equation at a factor of safety `F` is `R / D`
with `R` and `D` within the width of a slice times a total variation (which is finite) of what the circle resists and of
what drives the mass, by Bishop's method without slices. Bishop's denominator has to stay away from 0. -/
theorem C114_bishop (s : Slope ℝ) (rc : Reachable s) (hu : s.udls = []) (hl : s.lls = []) (cx cy r xl xr : ℝ) (hr : 0 < r)
    (h : xl ≤ xr) (F : ℝ) (hF : F ≠ 0) (δ : ℝ) (hδ : 0 < δ)
    (hd : ∀ x ∈ Set.Icc xl xr, δ ≤ cosAt cx r x + (cx - x) / r * tanPhiAt s cx cy r x / F) :
    ∃ R D : ℝ, bishopRhs s.slices.toNat (sliceOf s cx cy r xl xr) F = R / D ∧
      D = driving s.slices.toNat (sliceOf s cx cy r xl xr) ∧
      BoundedVariationOn (bishopAt s cx cy r F) (Set.Icc xl xr) ∧
      |R - ∫ x in xl..xr, bishopAt s cx cy r F x| ≤ (xr - xl) / s.slices * variation (bishopAt s cx cy r F) xl xr ∧
      BoundedVariationOn (soilMoment s cx cy r) (Set.Icc xl xr) ∧
      |D - ∫ x in xl..xr, soilMoment s cx cy r x| ≤ (xr - xl) / s.slices * variation (soilMoment s cx cy r) xl xr := by
  obtain ⟨b1, b2⟩ := C114_driving s rc cx cy r xl xr hr h
  have m0 : loadMoment s cx r xl xr = 0 := by simp [loadMoment, hu, hl]
  have m1 : loadBetween s xl xr = 0 := by simp [loadBetween, hu, hl]
  rw [m0, m1, zero_div, mul_zero, add_zero, add_zero] at b2
  have c1 : BoundedVariationOn (cohesionAt s cx cy r) (Set.Icc xl xr) :=
    bv_circle (bv_step (fun l => l.mat.cohesion) s.materials) cx cy r xl xr
  have c2 : BoundedVariationOn (tanPhiAt s cx cy r) (Set.Icc xl xr) :=
    bv_circle (bv_step (fun l => Real.tan (l.mat.frictionAngle * (Real.pi / 180))) s.materials) cx cy r xl xr
  have c3 : BoundedVariationOn (fun x => cosAt cx r x + (cx - x) / r * tanPhiAt s cx cy r x / F) (Set.Icc xl xr) := by
    have := bv_add (bv_cos cx hr xl xr) (((bv_arm cx hr xl xr).mul c2).mul (bv_const (1 / F) _))
    have e : (fun x => cosAt cx r x + (cx - x) / r * tanPhiAt s cx cy r x / F) =
        fun x => cosAt cx r x + ((fun x : ℝ => (cx - x) / r) * tanPhiAt s cx cy r * fun _ => 1 / F : ℝ → ℝ) x := by
      funext x
      simp only [Pi.mul_apply]
      ring
    rw [e]; exact this
  have b3 : BoundedVariationOn (bishopAt s cx cy r F) (Set.Icc xl xr) :=
    (bv_add c1 ((bv_sub (bv_soil rc cx cy r xl xr) (bv_pressure rc cx cy r xl xr)).mul c2)).mul (bv_inv hδ c3 hd)
  refine ⟨_, _, by unfold bishopRhs; rw [if_neg hF], rfl, b3, ?_, b1, b2⟩
  obtain ⟨hn, hc⟩ := slices_cast rc
  have e := midpoint_error h b3 hn
  rw [hc] at e
  refine le_trans (le_of_eq ?_) e
  congr 2
  refine sum_congr rfl fun i hi => ?_
  have eW := sliceOf_weight s cx cy r xl xr i
  rw [hu, hl] at eW
  simp only [List.map_nil, List.sum_nil, add_zero] at eW
  set w := (xr - xl) / s.slices with hw
  have eC : (sliceOf s cx cy r xl xr i).cos = cosAt cx r (xl + (i + 1 / 2) * w) := rfl
  have eS : (sliceOf s cx cy r xl xr i).sin = (cx - (xl + (i + 1 / 2) * w)) / r := rfl
  have eb : (sliceOf s cx cy r xl xr i).b = w := rfl
  have ec : (sliceOf s cx cy r xl xr i).c = cohesionAt s cx cy r (xl + (i + 1 / 2) * w) := rfl
  have eu : (sliceOf s cx cy r xl xr i).u = pressureAt s (xl + (i + 1 / 2) * w) (circleY cx cy r (xl + (i + 1 / 2) * w))
    (max (groundY s (xl + (i + 1 / 2) * w)) (circleY cx cy r (xl + (i + 1 / 2) * w))) := rfl
  rw [eW, eC, eS, eb, ec, sliceOf_tan, eu]
  unfold bishopAt
  ring

/-- The base of a slice, taken along the tangent at its middle, is not longer than the arc. -/
theorem tangent_le_arc {p q : ℝ} (hp : -1 ≤ p) (hpq : p ≤ q) (hq : q ≤ 1) :
    (q - p) / √(1 - ((p + q) / 2) ^ 2) ≤ Real.arcsin q - Real.arcsin p := by
  set α := Real.arcsin p with hα
  set β := Real.arcsin q with hβ
  have ep : Real.sin α = p := Real.sin_arcsin hp (by linarith)
  have eq' : Real.sin β = q := Real.sin_arcsin (by linarith) hq
  have le : α ≤ β := Real.monotone_arcsin hpq
  have a1 := Real.neg_pi_div_two_le_arcsin p
  have b1 := Real.arcsin_le_pi_div_two q
  rw [← hα] at a1
  rw [← hβ] at b1
  set d := (β - α) / 2 with hd
  set σ := (α + β) / 2 with hσ
  have d0 : 0 ≤ d := by rw [hd]; linarith
  have eα : α = σ - d := by rw [hd, hσ]; ring
  have eβ : β = σ + d := by rw [hd, hσ]; ring
  have e1 : q - p = 2 * (Real.sin d * Real.cos σ) := by
    rw [← ep, ← eq', eα, eβ, Real.sin_add, Real.sin_sub]; ring
  have e2 : (p + q) / 2 = Real.sin σ * Real.cos d := by
    rw [← ep, ← eq', eα, eβ, Real.sin_add, Real.sin_sub]; ring
  have cσ : 0 ≤ Real.cos σ := Real.cos_nonneg_of_neg_pi_div_two_le_of_le (by rw [hσ]; linarith) (by rw [hσ]; linarith)
  have e3 : 1 - ((p + q) / 2) ^ 2 = Real.cos σ ^ 2 + (Real.sin σ * Real.sin d) ^ 2 := by
    rw [e2]
    nlinarith [Real.sin_sq_add_cos_sq σ, Real.sin_sq_add_cos_sq d]
  have hs : Real.cos σ ≤ √(1 - ((p + q) / 2) ^ 2) := by
    rw [e3]
    exact Real.le_sqrt_of_sq_le (by nlinarith [sq_nonneg (Real.sin σ * Real.sin d)])
  rw [show β - α = 2 * d by rw [hd]; ring]
  rcases eq_or_lt_of_le (Real.sqrt_nonneg (1 - ((p + q) / 2) ^ 2)) with h0 | h0
  · rw [← h0, div_zero]; linarith
  · rw [div_le_iff₀ h0, e1]
    have := Real.sin_le d0
    have h3 : Real.sin d * Real.cos σ ≤ d * √(1 - ((p + q) / 2) ^ 2) :=
      (mul_le_mul_of_nonneg_right this cσ).trans (mul_le_mul_of_nonneg_left hs d0)
    linarith

/-- The bases of the slices together are not longer than the arc. -/
theorem bases_le_arc {cx r a b : ℝ} (hr : 0 < r) (hab : a ≤ b) (ha : |a - cx| ≤ r) (hb : |b - cx| ≤ r) {n : ℕ} (hn : 0 < n) :
    ∑ i ∈ range n, (b - a) / n * (1 / cosAt cx r (a + (i + 1 / 2) * ((b - a) / n))) ≤ arcLength cx r a b := by
  have hn' : (0 : ℝ) < n := by exact_mod_cast hn
  set w := (b - a) / n with hw
  have w0 : 0 ≤ w := div_nonneg (by linarith) hn'.le
  have hend : a + (n : ℕ) * w = b := grid_end hn
  rw [abs_le] at ha hb
  have tele := sum_range_sub (fun i : ℕ => r * Real.arcsin ((a + i * w - cx) / r)) n
  simp only [hend, Nat.cast_zero, zero_mul, add_zero] at tele
  unfold arcLength
  rw [mul_sub, ← tele]
  refine sum_le_sum fun i hi => ?_
  have hi' : (i : ℝ) + 1 ≤ n := by exact_mod_cast mem_range.mp hi
  have hi0 : (0 : ℝ) ≤ i := Nat.cast_nonneg i
  have up : a + (i + 1) * w ≤ b := by rw [← hend]; nlinarith
  have := tangent_le_arc (p := (a + i * w - cx) / r) (q := (a + (i + 1) * w - cx) / r)
    (by rw [le_div_iff₀ hr]; nlinarith) (by apply div_le_div_of_nonneg_right _ hr.le; nlinarith)
    (by rw [div_le_iff₀ hr]; nlinarith)
  have := mul_le_mul_of_nonneg_left this hr.le
  push_cast
  rw [← mul_sub]
  refine le_trans (le_of_eq ?_) this
  have e1 : ((a + i * w - cx) / r + (a + (i + 1) * w - cx) / r) / 2 = (a + (i + 1 / 2) * w - cx) / r := by
    field_simp; ring
  have e2 : √(1 - ((a + (i + 1 / 2) * w - cx) / r) ^ 2) = cosAt cx r (a + (i + 1 / 2) * w) := by
    unfold cosAt
    rw [show 1 - ((a + (i + 1 / 2) * w - cx) / r) ^ 2 = (r ^ 2 - (a + (i + 1 / 2) * w - cx) ^ 2) / r ^ 2 by field_simp,
      Real.sqrt_div' _ (by positivity), Real.sqrt_sq hr.le]
  rw [e1, e2]
  field_simp
  ring

theorem integral_sec {cx r a b : ℝ} (hr : 0 < r) (hab : a ≤ b) (ha : |a - cx| < r) (hb : |b - cx| < r) :
    ∫ x in a..b, 1 / cosAt cx r x = arcLength cx r a b := by
  have key : ∀ x ∈ Set.uIcc a b, HasDerivAt (fun x => r * Real.arcsin ((x - cx) / r)) (1 / cosAt cx r x) x := by
    intro x hx
    rw [Set.uIcc_of_le hab] at hx
    have pos := inside_between ha hb hx
    have h1 : |x - cx| < r := abs_lt_of_sq_lt_sq (by linarith) hr.le
    rw [abs_lt] at h1
    have n1 : (x - cx) / r ≠ -1 := fun h => by rw [div_eq_iff hr.ne'] at h; linarith
    have n2 : (x - cx) / r ≠ 1 := fun h => by rw [div_eq_iff hr.ne'] at h; linarith
    have := ((Real.hasDerivAt_arcsin n1 n2).comp x (((hasDerivAt_id x).sub_const cx).div_const r)).const_mul r
    refine this.congr_deriv ?_
    have e2 : √(1 - ((x - cx) / r) ^ 2) = cosAt cx r x := by
      unfold cosAt
      rw [show 1 - ((x - cx) / r) ^ 2 = (r ^ 2 - (x - cx) ^ 2) / r ^ 2 by field_simp,
        Real.sqrt_div' _ (by positivity), Real.sqrt_sq hr.le]
    change r * (1 / √(1 - ((x - cx) / r) ^ 2) * (1 / r)) = _
    rw [e2]
    field_simp
  rw [intervalIntegral.integral_eq_sub_of_hasDerivAt key (bv_integrable hab (bv_sec hr ha hb))]
  unfold arcLength
  ring

/-- **C114** (clay). In ground of one cohesion `c` without friction, what is reported for a circle is `R / D`, where `D` is within
the bound of `C114_driving` of the moment of the mass and its loads over the radius, and `R` is at most `c` times the length of
the arc: slicing never overstates the strength. When the ends are inside the circle, the difference is at most `c` times the
width of a slice times the variation of `1 / cos`. -/
theorem C114_clay (s : Slope ℝ) (rc : Reachable s) (c : ℝ) (hm : ∀ l ∈ s.materials, l.mat.cohesion = c ∧ l.mat.frictionAngle = 0)
    (cx cy r : ℝ) (l rt : ℝ × ℝ) (he : s.bishopEnds cx cy r none none = .ok (l, rt)) (F : ℝ)
    (hF : s.bishop cx cy r none none = .ok F) :
    ∃ R D : ℝ, F = R / D ∧ 0 < D ∧ R ≤ c * arcLength cx r l.1 rt.1 ∧
      (|l.1 - cx| < r → |rt.1 - cx| < r →
        c * arcLength cx r l.1 rt.1 - R ≤ c * ((rt.1 - l.1) / s.slices * variation (fun x => 1 / cosAt cx r x) l.1 rt.1)) ∧
      |D - ((∫ x in l.1..rt.1, soilMoment s cx cy r x) + loadMoment s cx r l.1 rt.1)| ≤
        (rt.1 - l.1) / s.slices * variation (soilMoment s cx cy r) l.1 rt.1 +
          (rt.1 - l.1) / s.slices / 2 * (loadBetween s l.1 rt.1 / r) := by
  have hF' := (C56_no_friction s rc (fun l hl => (hm l hl).2) cx cy r l rt he).1 F hF
  obtain ⟨_, _, hr, hd, hin, hne, _, hD, rfl⟩ := (C55_ordinary_formula s rc cx cy r l rt F).mp hF'
  have hlr : l.1 ≤ rt.1 := by norm_num at hd; linarith
  obtain ⟨hn, hc⟩ := slices_cast rc
  have onc : ∀ p : ℝ × ℝ, Crossing s cx cy r p → |p.1 - cx| ≤ r := fun p hp => by
    have h1 : (p.1 - cx) ^ 2 + (p.2 - cy) ^ 2 = r ^ 2 := hp.1
    exact abs_le_of_sq_le_sq (by nlinarith [sq_nonneg (p.2 - cy)]) hr.le
  obtain ⟨k1, k2⟩ := bishopEnds_crossing rc he
  have h1 := onc l k1
  have h2 := onc rt k2
  have c0 : 0 ≤ c := by
    obtain ⟨m, hm'⟩ := List.exists_mem_of_ne_nil _ hne
    rw [← (hm m hm').1]
    exact (rc.sane.mat m.mat (List.mem_map_of_mem hm')).facts.2.2.2.1
  have eR : ∑ i ∈ range s.slices.toNat, ((sliceOf s cx cy r l.1 rt.1 i).c *
      ((sliceOf s cx cy r l.1 rt.1 i).b / (sliceOf s cx cy r l.1 rt.1 i).cos) +
      max 0 ((sliceOf s cx cy r l.1 rt.1 i).W * (sliceOf s cx cy r l.1 rt.1 i).cos - (sliceOf s cx cy r l.1 rt.1 i).u *
        ((sliceOf s cx cy r l.1 rt.1 i).b / (sliceOf s cx cy r l.1 rt.1 i).cos)) * (sliceOf s cx cy r l.1 rt.1 i).tan) =
      c * ∑ i ∈ range s.slices.toNat, (rt.1 - l.1) / s.slices.toNat *
        (1 / cosAt cx r (l.1 + (i + 1 / 2) * ((rt.1 - l.1) / s.slices.toNat))) := by
    rw [mul_sum]
    refine sum_congr rfl fun i _ => ?_
    have key : ∀ y, ∃ m ∈ s.materials, layerAt s.materials y = some m := fun y => by
      unfold layerAt
      cases hf : s.materials.find? (fun l => decide (l.rl < y)) with
      | some m => exact ⟨m, List.mem_of_find?_eq_some hf, rfl⟩
      | none => exact ⟨_, List.getLast_mem hne, by rw [Option.none_or, List.getLast?_eq_getLast_of_ne_nil hne]⟩
    obtain ⟨m, hm', em⟩ := key (cy - √(r ^ 2 - (l.1 + (i + 1 / 2) * ((rt.1 - l.1) / s.slices) - cx) ^ 2))
    have ec : (sliceOf s cx cy r l.1 rt.1 i).c = c := by
      unfold sliceOf; simp only; rw [em]; exact (hm m hm').1
    have et : (sliceOf s cx cy r l.1 rt.1 i).tan = 0 := by
      unfold Slice.tan sliceOf; simp only; rw [em]; simp [(hm m hm').2]
    rw [ec, et, mul_zero, add_zero, hc]
    change c * ((rt.1 - l.1) / s.slices / cosAt cx r (l.1 + (i + 1 / 2) * ((rt.1 - l.1) / s.slices))) = _
    ring
  refine ⟨_, _, rfl, hD, ?_, fun g1 g2 => ?_, (C114_driving s rc cx cy r l.1 rt.1 hr hlr).2⟩
  · rw [eR]
    exact mul_le_mul_of_nonneg_left (bases_le_arc hr hlr h1 h2 hn) c0
  · rw [eR, ← mul_sub]
    refine mul_le_mul_of_nonneg_left ?_ c0
    have := midpoint_error hlr (bv_sec hr g1 g2) hn
    rw [integral_sec hr hlr g1 g2, abs_sub_comm, hc] at this
    rw [hc]
    exact (le_abs_self _).trans this

/-! Cases: the circle of the examples, in clay and in a soil with friction. -/

example : ∃ F R D : ℝ, exSoil.bishop 9 (35 / 3) (17 / 3) none none = .ok F ∧ F = R / D ∧ 0 < D ∧
    R ≤ (exMat 2).cohesion * arcLength 9 (17 / 3) 4 9 := by
  have he : exSoil.bishopEnds 9 (35 / 3) (17 / 3) none none = .ok ((4, 9), (9, 6)) := by
    have := (exOf_ground (m := exMat 2) (exMat_constructed 2) (by norm_num [exMat])).ends
    exact this
  obtain ⟨R, D, h1, h2, h3, _⟩ := C114_clay exSoil exSoil_reachable (exMat 2).cohesion (fun l hl => by
    obtain rfl : l = _ := List.mem_singleton.mp hl
    exact ⟨rfl, rfl⟩) 9 (35 / 3) (17 / 3) (4, 9) (9, 6) he exFos exBishop
  exact ⟨exFos, R, D, exBishop, h1, h2, h3⟩

example : ∃ F R D : ℝ, (exOf (exFric 30 5)).ordinary 9 (35 / 3) (17 / 3) (some (4, 9)) (some (9, 6)) = .ok F ∧ F = R / D ∧
    |R - ∫ x in (4 : ℝ)..9, resistAt (exOf (exFric 30 5)) 9 (35 / 3) (17 / 3) x| ≤
      5 / 25 * variation (resistAt (exOf (exFric 30 5)) 9 (35 / 3) (17 / 3)) 4 9 := by
  have h := (exFric_ground 30 5 (by norm_num)).ordinary (by norm_num [exFric]) rfl
  obtain ⟨R, D, h1, _, _, h2, _⟩ := C114_ordinary _ (exFric_ground 30 5 (by norm_num)).reach rfl rfl 9 (35 / 3) (17 / 3) (4, 9) (9, 6)
    (by rw [abs_lt]; constructor <;> norm_num) (by norm_num) _ h
  refine ⟨_, R, D, h, h1, ?_⟩
  have e : (((exOf (exFric 30 5)).slices : ℤ) : ℝ) = 25 := by
    rw [(exFric_ground 30 5 (by norm_num)).slices]; norm_num
  rw [e] at h2
  norm_num at h2 ⊢
  exact h2

/-- Bishop's equation of the example at the factor of safety 1: the circle dips to the toe, so the denominator is at least the
cosine, which is at least that at the upper end. -/
example : ∃ R D : ℝ, bishopRhs 25 (sliceOf (exOf (exFric 30 5)) 9 (35 / 3) (17 / 3) 4 9) 1 = R / D ∧
    |R - ∫ x in (4 : ℝ)..9, bishopAt (exOf (exFric 30 5)) 9 (35 / 3) (17 / 3) 1 x| ≤
      (9 - 4) / 25 * variation (bishopAt (exOf (exFric 30 5)) 9 (35 / 3) (17 / 3) 1) 4 9 := by
  have g := exFric_ground 30 5 (by norm_num)
  obtain ⟨R, D, h1, _, _, h2, _⟩ := C114_bishop _ g.reach rfl rfl 9 (35 / 3) (17 / 3) 4 9 (by norm_num) (by norm_num) 1 one_ne_zero
    (8 / 17) (by norm_num) fun x hx => by
      obtain ⟨h1, h2⟩ := hx
      have t0 : 0 ≤ tanPhiAt (exOf (exFric 30 5)) 9 (35 / 3) (17 / 3) x := by
        unfold tanPhiAt
        obtain ⟨l, hl, hm⟩ := g.layer (circleY 9 (35 / 3) (17 / 3) x)
        rw [hl]
        simp only [hm]
        exact tan_nonneg_deg (by simp [exFric]) (by simp [exFric]; norm_num)
      have c0 : 8 / 17 ≤ cosAt 9 (17 / 3) x := by
        unfold cosAt
        rw [le_div_iff₀ (by norm_num)]
        exact Real.le_sqrt_of_sq_le (by nlinarith)
      have a0 : 0 ≤ (9 - x) / (17 / 3) * tanPhiAt (exOf (exFric 30 5)) 9 (35 / 3) (17 / 3) x / 1 :=
        div_nonneg (mul_nonneg (div_nonneg (by linarith) (by norm_num)) t0) zero_le_one
      linarith
  have e : (exOf (exFric 30 5)).slices = 25 := g.slices
  rw [e] at h1 h2
  exact ⟨R, D, by exact_mod_cast h1, by exact_mod_cast h2⟩

/-- With loads: the driving sum of the example with a distributed load and a line load. -/
example : exLoaded.udls ≠ [] ∧ exLoaded.lls ≠ [] ∧
    |driving 25 (sliceOf exLoaded 9 (35 / 3) (17 / 3) 4 9) -
        ((∫ x in (4 : ℝ)..9, soilMoment exLoaded 9 (35 / 3) (17 / 3) x) + loadMoment exLoaded 9 (17 / 3) 4 9)| ≤
      (9 - 4) / 25 * variation (soilMoment exLoaded 9 (35 / 3) (17 / 3)) 4 9 +
        (9 - 4) / 25 / 2 * (loadBetween exLoaded 4 9 / (17 / 3)) := by
  refine ⟨by simp [exLoaded], by simp [exLoaded], ?_⟩
  have := (C114_driving exLoaded exLoaded_reachable 9 (35 / 3) (17 / 3) 4 9 (by norm_num) (by norm_num)).2
  have e : exLoaded.slices = 25 := rfl
  rw [e] at this
  exact_mod_cast this

end PySlope
