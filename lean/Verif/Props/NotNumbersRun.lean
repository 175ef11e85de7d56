import Verif.Props.NotNumbers
import Mathlib.Analysis.SpecialFunctions.Trigonometric.Bounds
import Mathlib.Analysis.Real.Pi.Bounds

/-! # A run with a cohesion that is NaN

`Slope(6, length=8)` with one material whose cohesion is NaN, cut in 16 slices, and the circle with centre
`(20, 32)` and radius 15, on the machine whose library rounds correctly. -/

namespace PySlope
open Lit X64

variable {A : Machine}

theorem X64.ofReal_sqrt {x : ℝ} (hx : Dy x) (h : 0 ≤ x) : (PyNum.sqrt (ofReal x) : X64 A) = ofReal (Real.sqrt x) := by
  obtain ⟨a, ha, ha'⟩ := ofReal_dy (A := A) hx
  rw [ha]
  show (if a.val < 0 then _ else ofReal (Real.sqrt a.val)) = _
  rw [if_neg (by rw [ha']; linarith), ha']

theorem X64.zero_ofReal : (@OfNat.ofNat (X64 A) 0 (Lit.natLit 0)) = ofReal 0 := by
  rw [lit_eq, Nat.cast_zero]
theorem X64.one_ofReal : (@OfNat.ofNat (X64 A) 1 (Lit.natLit 1)) = ofReal 1 := by
  rw [lit_eq, Nat.cast_one]
theorem X64.lit_ofReal (n : ℕ) [n.AtLeastTwo] : (@OfNat.ofNat (X64 A) n (Lit.natLit n)) = ofReal ofNat(n) := rfl

theorem X64.ofReal_abs {x : ℝ} (hx : Dy x) : pyAbs (ofReal x : X64 A) = ofReal |x| := by
  unfold pyAbs
  rw [zero_ofReal, ofReal_neg hx]
  by_cases h : x < 0
  · rw [if_pos ((ofReal_lt hx Dy.zero).mpr h), abs_of_neg h]
  · rw [if_neg (fun h' => h ((ofReal_lt hx Dy.zero).mp h')), abs_of_nonneg (not_lt.mp h)]

theorem X64.ofReal_max {x y : ℝ} (hx : Dy x) (hy : Dy y) : pyMax (ofReal x : X64 A) (ofReal y) = ofReal (max x y) := by
  unfold pyMax
  by_cases h : x < y
  · rw [if_pos ((ofReal_lt hx hy).mpr h), max_eq_right h.le]
  · rw [if_neg (fun h' => h ((ofReal_lt hx hy).mp h')), max_eq_left (not_lt.mp h)]

theorem X64.ofReal_lt_zero {x : ℝ} (hx : Dy x) : (ofReal x : X64 A) < 0 ↔ x < 0 := by
  rw [zero_ofReal]; exact ofReal_lt hx Dy.zero
theorem X64.ofReal_pyEq_zero {x : ℝ} (hx : Dy x) : pyEq (ofReal x : X64 A) 0 = decide (x = 0) := by
  rw [zero_ofReal]; exact ofReal_pyEq hx Dy.zero
theorem X64.one_mul_ofReal {x : ℝ} (hx : Dy x) : (1 * ofReal x : X64 A) = ofReal x := by
  rw [one_ofReal, ofReal_mul Dy.one hx, one_mul]
theorem X64.neg_one_mul_ofReal {x : ℝ} (hx : Dy x) : (-1 * ofReal x : X64 A) = ofReal (-x) := by
  rw [one_ofReal, ofReal_neg Dy.one, ofReal_mul Dy.negOne hx, neg_one_mul]

theorem sqrt256 : Real.sqrt 256 = 16 := by
  rw [show (256 : ℝ) = 16 ^ 2 by norm_num]; exact Real.sqrt_sq (by norm_num)

theorem sqrt20736 : Real.sqrt 20736 = 144 := by
  rw [show (20736 : ℝ) = 144 ^ 2 by norm_num]; exact Real.sqrt_sq (by norm_num)
theorem sqrt100 : Real.sqrt 100 = 10 := by
  rw [show (100 : ℝ) = 10 ^ 2 by norm_num]; exact Real.sqrt_sq (by norm_num)
theorem sqrt8100 : Real.sqrt 8100 = 90 := by
  rw [show (8100 : ℝ) = 90 ^ 2 by norm_num]; exact Real.sqrt_sq (by norm_num)

theorem ex_top : circleLine ((ofReal 0 : X64 A), ofReal 20) (ofReal 16, ofReal 20) (ofReal 20) (ofReal 32) (ofReal 15) =
    .ok [(ofReal 29, ofReal 20), (ofReal 11, ofReal 20)] := by
  unfold circleLine sq
  norm_num [ofReal_add, ofReal_sub, ofReal_mul, ofReal_div, ofReal_neg, ofReal_abs, ofReal_lt, ofReal_pyEq,
    ofReal_sqrt, ofReal_lt_zero, ofReal_pyEq_zero, one_mul_ofReal, neg_one_mul_ofReal, Dy.zero, Dy.one, Dy.ofNat, Dy.negOne, Dy.negOfNat, sqrt256, sqrt20736]

theorem ex_bot : circleLine ((ofReal 24 : X64 A), ofReal 14) (ofReal 40, ofReal 14) (ofReal 20) (ofReal 32) (ofReal 15) =
    .ok [] := by
  unfold circleLine sq
  norm_num [ofReal_add, ofReal_sub, ofReal_mul, ofReal_div, ofReal_neg, ofReal_abs, ofReal_lt, ofReal_pyEq,
    ofReal_sqrt, ofReal_lt_zero, ofReal_pyEq_zero, one_mul_ofReal, neg_one_mul_ofReal, Dy.zero, Dy.one, Dy.ofNat, Dy.negOne, Dy.negOfNat, sqrt256, sqrt20736]

theorem ex_mid : ∃ x y : X64 A, Btw x 5 6 ∧ circleLine ((ofReal 16 : X64 A), ofReal 20) (ofReal 24, ofReal 14) (ofReal 20) (ofReal 32) (ofReal 15) =
    .ok [(x, y), (ofReal 20, ofReal 17)] := by
  unfold circleLine sq
  norm_num [ofReal_add, ofReal_sub, ofReal_mul, ofReal_div, ofReal_neg, ofReal_abs, ofReal_lt, ofReal_pyEq,
    ofReal_sqrt, ofReal_lt_zero, ofReal_pyEq_zero, one_mul_ofReal, neg_one_mul_ofReal, Dy.zero, Dy.one, Dy.ofNat, Dy.negOne, Dy.negOfNat, sqrt100, sqrt8100]
  have h1 : Btw (ofReal (-(72 / 5)) : X64 A) (-15) (-14) :=
    Btw.ofReal (by norm_num) (by norm_num) (Dy.negOfNat _ (by norm_num)) (Dy.negOfNat _ (by norm_num))
  exact h1.add (Btw.dy (Dy.ofNat 20 (by norm_num))) (by norm_num) (by norm_num) (by dy) (by dy)

/-- The geometry of `Slope(6, length=8)`. -/
theorem ex_built : (Slope.built 6 8 : Slope (X64 A)).topX = ofReal 16 ∧ (Slope.built 6 8 : Slope (X64 A)).topY = ofReal 20 ∧
    (Slope.built 6 8 : Slope (X64 A)).botX = ofReal 24 ∧ (Slope.built 6 8 : Slope (X64 A)).botY = ofReal 14 ∧
    (Slope.built 6 8 : Slope (X64 A)).extL = ofReal 40 ∧ (Slope.built 6 8 : Slope (X64 A)).extH = ofReal 20 ∧
    (Slope.built 6 8 : Slope (X64 A)).gradient = ofReal (3 / 4) := by
  have d6 : Dy (6 : ℝ) := by dy
  have d8 : Dy (8 : ℝ) := by dy
  have e6 : (6 : X64 A) = ofReal 6 := rfl
  have e8 : (8 : X64 A) = ofReal 8 := rfl
  have e3 : (3 : X64 A) = ofReal 3 := rfl
  have e5 : (5 : X64 A) = ofReal 5 := rfl
  have e4 : (4 : X64 A) = ofReal 4 := rfl
  have e2 : (2 : X64 A) = ofReal 2 := rfl
  have e10 : (10 : X64 A) = ofReal 10 := rfl
  unfold Slope.built
  dsimp only
  rw [e2, e3, e4, e5, e6, e8, e10]
  norm_num [ofReal_add, ofReal_sub, ofReal_mul, ofReal_div, ofReal_max, Dy.zero, Dy.one, Dy.ofNat]

theorem pySort_two {α : Type} (lt : α → α → Bool) (a b : α) :
    pySort lt [a, b] = if lt b a then [b, a] else [a, b] := by
  unfold pySort
  cases h : lt b a <;>
    simp [List.mergeSort, List.MergeSort.Internal.splitInTwo, List.splitAt, List.splitAt.go, h]

theorem ex_hundredth : Btw (0.01 : X64 A) 0 1 :=
  Btw.ofReal (A := A) (y := 0.01) (by norm_num) (by norm_num) Dy.zero Dy.one

/-- Where the circle meets the ground. -/
theorem ex_ext {s : Slope (X64 A)} (h1 : s.topX = ofReal 16) (h2 : s.topY = ofReal 20) (h3 : s.botX = ofReal 24)
    (h4 : s.botY = ofReal 14) (h5 : s.extL = ofReal 40) :
    s.circleExternalIntersection (ofReal 20) (ofReal 32) (ofReal 15) =
      .ok [(ofReal 11, ofReal 20), (ofReal 20, ofReal 17)] := by
  obtain ⟨x, y, hx, e⟩ := ex_mid (A := A)
  unfold Slope.circleExternalIntersection
  rw [h1, h2, h3, h4, h5, zero_ofReal, ex_top, ex_bot, e]
  have n1 : ¬ (ofReal 16 ≤ x) := (Btw.dy (A := A) (Dy.ofNat 16 (by norm_num))).not_le hx (by norm_num)
  have p1 : pairLt ((ofReal 11 : X64 A), (ofReal 20 : X64 A)) (ofReal 29, ofReal 20) = true := by
    norm_num [pairLt, ofReal_pyEq, ofReal_lt, Dy.ofNat]
  have b9 : (0.01 : X64 A) < ofReal 9 := ex_hundredth.lt (Btw.dy (Dy.ofNat 9 (by norm_num))) (by norm_num)
  have b12 : (0.01 : X64 A) < ofReal 12 := ex_hundredth.lt (Btw.dy (Dy.ofNat 12 (by norm_num))) (by norm_num)
  have m1 : (-1 : X64 A) = ofReal (-1) := by rw [one_ofReal, ofReal_neg Dy.one]
  simp only [bind, Except.bind, pure, Except.pure, pySort_two, p1, if_true]
  have f : ([(x, y), (ofReal 20, ofReal 17)] : List (X64 A × X64 A)).filter
      (fun p => decide (ofReal 16 ≤ p.1) && decide (p.1 ≤ ofReal 24)) = [(ofReal 20, ofReal 17)] := by
    norm_num [List.filter, n1, ofReal_le, Dy.ofNat]
  have f0 : pySort pairLt ([] : List (X64 A × X64 A)) = [] := by simp [pySort]
  rw [f, f0, m1]
  norm_num [ofReal_le, ofReal_lt, ofReal_sub, ofReal_abs, Dy.ofNat, Dy.zero, Dy.negOne, sortByKey, pySort_two,
    dropClose, b9, b12]

/-- A library function of the machine of the example. -/
theorem lib_btw {f : ℝ → ℝ} {F : B64 → B64} (hF : ∀ x, (F x).1 = round53 (f x.1)) {x : X64 exMachine} {a b lo hi : ℝ}
    (hx : Btw x a b) (h : ∀ u, a ≤ u → u ≤ b → lo ≤ f u ∧ f u ≤ hi) (hl : Dy lo) (hh : Dy hi) :
    Btw (X64.lib F x) lo hi := by
  obtain ⟨u, rfl, u1, u2⟩ := hx
  obtain ⟨h1, h2⟩ := h _ u1 u2
  have b1 : lo ≤ round53 (f u.val) := by
    rw [← round53_roundsToEven.exact hl.binary]; exact round53_roundsToEven.mono h1
  have b2 : round53 (f u.val) ≤ hi := by
    rw [← round53_roundsToEven.exact hh.binary]; exact round53_roundsToEven.mono h2
  refine ⟨F u, rfl, ?_, ?_⟩
  · exact b1.trans (hF u).ge
  · exact (hF u).le.trans b2

theorem arctan_bounds {t : ℝ} (h0 : 0 ≤ t) (h1 : t ≤ 1) : 0 ≤ Real.arctan t ∧ Real.arctan t ≤ 1 := by
  constructor
  · exact Real.arctan_nonneg.mpr h0
  · have := Real.arctan_strictMono.monotone h1
    rw [Real.arctan_one] at this
    linarith [Real.pi_le_four]

theorem arctan_low {t : ℝ} (h0 : 1 / 4 ≤ t) : 1 / 8 ≤ Real.arctan t := by
  have h1 : Real.arctan (1 / 4) ≤ Real.arctan t := Real.arctan_strictMono.monotone h0
  have h2 : Real.sin (Real.arctan (1 / 4)) ≤ Real.arctan (1 / 4) :=
    Real.sin_le (Real.arctan_nonneg.mpr (by norm_num))
  rw [Real.sin_arctan] at h2
  have h3 : (1 : ℝ) / 8 ≤ 1 / 4 / Real.sqrt (1 + (1 / 4) ^ 2) := by
    have : Real.sqrt (1 + (1 / 4) ^ 2) ≤ 2 := by
      rw [Real.sqrt_le_left (by norm_num)]; norm_num
    rw [le_div_iff₀ (by positivity)]
    linarith
  linarith

theorem sin_bounds {y : ℝ} (h0 : 0 ≤ y) (h1 : y ≤ 1) : 0 ≤ Real.sin y ∧ Real.sin y ≤ 1 :=
  ⟨Real.sin_nonneg_of_nonneg_of_le_pi h0 (by linarith [Real.pi_gt_three]), Real.sin_le_one y⟩

theorem sin_low {y : ℝ} (h0 : 1 / 8 ≤ y) (h1 : y ≤ 1) : 1 / 16 ≤ Real.sin y := by
  have h2 := Real.mul_le_sin (x := y) (by linarith) (by linarith [Real.pi_gt_three])
  have h3 : 1 / 2 ≤ 2 / Real.pi := by
    rw [div_le_div_iff₀ (by norm_num) Real.pi_pos]; linarith [Real.pi_le_four]
  nlinarith

theorem cos_bounds {y : ℝ} (h0 : 0 ≤ y) (h1 : y ≤ 1) : 1 / 2 ≤ Real.cos y ∧ Real.cos y ≤ 1 :=
  ⟨by have := Real.one_sub_sq_div_two_le_cos (x := y); nlinarith, Real.cos_le_one y⟩

/-- The setting of the example. -/
structure ExRun (c : X64 exMachine) (s : Slope (X64 exMachine)) : Prop where
  topX : s.topX = ofReal 16
  topY : s.topY = ofReal 20
  botX : s.botX = ofReal 24
  botY : s.botY = ofReal 14
  extL : s.extL = ofReal 40
  extH : s.extH = ofReal 20
  gradient : s.gradient = ofReal (3 / 4)
  slices : s.slices = 16
  udls : s.udls = []
  lls : s.lls = []
  water : s.waterRL = none
  material : ∃ l, s.materials = [l] ∧ l.mat.unitWeight = ofReal 20 ∧ l.mat.cohesion = c

theorem dy_half : Dy (1 / 2) := ⟨512, by norm_num, by norm_num⟩
theorem dy_quarter : Dy (1 / 4) := ⟨256, by norm_num, by norm_num⟩
theorem dy_eighth : Dy (1 / 8) := ⟨128, by norm_num, by norm_num⟩
theorem dy_sixteenth : Dy (1 / 16) := ⟨64, by norm_num, by norm_num⟩

instance : Inhabited (Row (X64 exMachine)) := ⟨⟨nan, nan, nan, nan, nan⟩⟩

/-- One slice of the example. -/
theorem ExRun.row {c : X64 exMachine} {s : Slope (X64 exMachine)} (h : ExRun c s) {q : ℝ} (dq : Dy q) (h1 : 11 ≤ q) (h2 : q ≤ 20) :
    ∃ v, s.row (ofReal 20) (ofReal 32) (ofReal 15) (ofReal q) = .ok v ∧ Btw v.yb 17 20 ∧ Btw v.yt 17 20 ∧
      Btw v.cosA (1 / 2) 1 ∧ Btw v.sinA 0 1 ∧
      (15 ≤ q → q ≤ 16 → Btw v.yb 17 18 ∧ Btw v.yt 20 20 ∧ Btw v.sinA (1 / 16) 1) := by
  have bq : Btw (ofReal q : X64 exMachine) 11 20 := (Btw.dy dq).weaken h1 h2
  have b20 : Btw (ofReal 20 : X64 exMachine) 20 20 := Btw.dy (by dy)
  have b16 : Btw (ofReal 16 : X64 exMachine) 16 16 := Btw.dy (by dy)
  have b32 : Btw (ofReal 32 : X64 exMachine) 32 32 := Btw.dy (by dy)
  have b24 : Btw (ofReal 24 : X64 exMachine) 24 24 := Btw.dy (by dy)
  have b0 : Btw (0 : X64 exMachine) 0 0 := by rw [zero_ofReal]; exact Btw.dy Dy.zero
  have b225 : Btw (sq (ofReal 15) : X64 exMachine) 225 225 := by
    unfold sq
    exact (Btw.dy (by dy)).mulNonneg (Btw.dy (by dy)) (by norm_num) (by norm_num) (by norm_num) (by norm_num) (by dy) (by dy)
  have bd : Btw (sq (ofReal q - ofReal 20) : X64 exMachine) 0 81 := by
    have := bq.sub b20 (lo := -9) (hi := 0) (by norm_num) (by norm_num) (by dy) (by dy)
    exact this.mul this (fun u v a b c d => by constructor <;> nlinarith) (by dy) (by dy)
  have bs : Btw (PyNum.sqrt (sq (ofReal 15) - sq (ofReal q - ofReal 20)) : X64 exMachine) 12 15 :=
    (b225.sub bd (lo := 144) (hi := 225) (by norm_num) (by norm_num) (by dy) (by dy)).sqrt
      (by norm_num) (by norm_num) (by norm_num) (by norm_num) (by dy) (by dy)
  have byb := b32.sub bs (lo := 17) (hi := 20) (by norm_num) (by norm_num) (by dy) (by dy)
  have bdy := b32.sub byb (lo := 12) (hi := 15) (by norm_num) (by norm_num) (by dy) (by dy)
  have ndy : pyEq (ofReal 32 - (ofReal 32 - PyNum.sqrt (sq (ofReal 15) - sq (ofReal q - ofReal 20))) : X64 exMachine) 0 = false := by
    unfold pyEq
    rw [decide_eq_false (bdy.not_le b0 (by norm_num)), Bool.false_and]
  have btop : Btw (s.sliceTop (ofReal q)) 17 20 := by
    unfold Slope.sliceTop
    rw [h.topX, h.topY, h.botX, h.botY, h.gradient]
    split_ifs with c1 c2
    · exact b20.weaken (by norm_num) (by norm_num)
    · exact absurd c2 (b24.not_le bq (by norm_num))
    · have hq : 16 ≤ q := by
        by_contra hc
        exact c1 ((ofReal_le dq (by dy)).mpr (by linarith))
      have bq' : Btw (ofReal q : X64 exMachine) 16 20 := (Btw.dy dq).weaken hq h2
      have := bq'.sub b16 (lo := 0) (hi := 4) (by norm_num) (by norm_num) (by dy) (by dy)
      have bg : Btw (ofReal (3 / 4) : X64 exMachine) (3 / 4) (3 / 4) := Btw.dy ⟨768, by norm_num, by norm_num⟩
      have := this.mulNonneg bg (lo := 0) (hi := 3) (by norm_num) (by norm_num) (by norm_num) (by norm_num) (by dy) (by dy)
      exact b20.sub this (by norm_num) (by norm_num) (by dy) (by dy)
  have bt : Btw ((ofReal 20 - ofReal q) / (ofReal 32 - (ofReal 32 - PyNum.sqrt (sq (ofReal 15) - sq (ofReal q - ofReal 20)))) : X64 exMachine) 0 1 :=
    (b20.sub bq (lo := 0) (hi := 9) (by norm_num) (by norm_num) (by dy) (by dy)).div bdy (by norm_num)
      (fun u v a b c d => by constructor <;> linarith) (by dy) (by dy)
  have ba := lib_btw (f := Real.arctan) (F := exMachine.atan) (fun _ => rfl) bt (lo := 0) (hi := 1)
    (fun u a b => arctan_bounds a b) (by dy) (by dy)
  have bc := lib_btw (f := Real.cos) (F := exMachine.cos) (fun _ => rfl) ba (lo := 1 / 2) (hi := 1)
    (fun u a b => cos_bounds a b) dy_half (by dy)
  have bsn := lib_btw (f := Real.sin) (F := exMachine.sin) (fun _ => rfl) ba (lo := 0) (hi := 1)
    (fun u a b => sin_bounds a b) (by dy) (by dy)
  unfold Slope.row
  simp only [ndy, Bool.false_eq_true, if_false]
  refine ⟨_, rfl, byb, btop.max byb (by norm_num) (by norm_num) (by norm_num), bc, bsn, ?_⟩
  intro q1 q2
  have bq : Btw (ofReal q : X64 exMachine) 15 16 := (Btw.dy dq).weaken q1 q2
  have bd : Btw (sq (ofReal q - ofReal 20) : X64 exMachine) 0 25 := by
    have := bq.sub b20 (lo := -5) (hi := 0) (by norm_num) (by norm_num) (by dy) (by dy)
    exact this.mul this (fun u v a b c d => by constructor <;> nlinarith) (by dy) (by dy)
  have bs : Btw (PyNum.sqrt (sq (ofReal 15) - sq (ofReal q - ofReal 20)) : X64 exMachine) 14 15 :=
    (b225.sub bd (lo := 200) (hi := 225) (by norm_num) (by norm_num) (by dy) (by dy)).sqrt
      (by norm_num) (by norm_num) (by norm_num) (by norm_num) (by dy) (by dy)
  have byb := b32.sub bs (lo := 17) (hi := 18) (by norm_num) (by norm_num) (by dy) (by dy)
  have bdy := b32.sub byb (lo := 14) (hi := 15) (by norm_num) (by norm_num) (by dy) (by dy)
  have btop : s.sliceTop (ofReal q) = ofReal 20 := by
    unfold Slope.sliceTop
    rw [h.topX, h.topY, if_pos ((ofReal_le dq (by dy)).mpr q2)]
  have bt : Btw ((ofReal 20 - ofReal q) / (ofReal 32 - (ofReal 32 - PyNum.sqrt (sq (ofReal 15) - sq (ofReal q - ofReal 20)))) : X64 exMachine) (1 / 4) 1 :=
    (b20.sub bq (lo := 4) (hi := 5) (by norm_num) (by norm_num) (by dy) (by dy)).div bdy (by norm_num)
      (fun u v a b c d => by constructor <;> linarith) dy_quarter (by dy)
  have ba := lib_btw (f := Real.arctan) (F := exMachine.atan) (fun _ => rfl) bt (lo := 1 / 8) (hi := 1)
    (fun u a b => ⟨arctan_low a, (arctan_bounds (by linarith) b).2⟩) dy_eighth (by dy)
  have bsn := lib_btw (f := Real.sin) (F := exMachine.sin) (fun _ => rfl) ba (lo := 1 / 16) (hi := 1)
    (fun u a b => ⟨sin_low a b, Real.sin_le_one u⟩) dy_sixteenth (by dy)
  refine ⟨byb, ?_, bsn⟩
  rw [btop]
  exact b20.max byb (by norm_num) (by norm_num) (by norm_num)

theorem dy_centre {i : ℕ} (h : i < 16) : Dy ((361 + 18 * i) / 32 : ℝ) := by
  refine ⟨(361 + 18 * i) * 32, ?_, ?_⟩
  · rw [abs_of_nonneg (by positivity)]; norm_cast; omega
  · push_cast; ring

/-- The slices of the example and what enters the sums. -/
theorem ExRun.forces {c : X64 exMachine} {s : Slope (X64 exMachine)} (h : ExRun c s) :
    ∃ rows fs, s.sliceRows (ofReal 20) (ofReal 32) (ofReal 15) (ofReal 11) (ofReal 20) = .ok rows ∧
      s.sliceForces ((ofReal 20 - ofReal 11) / ofInt s.slices) rows = .ok fs ∧ Btw (drivingSum fs) 1 960 ∧
      (ofReal 20 - ofReal 11) / ofInt s.slices = (ofReal (9 / 16) : X64 exMachine) ∧ fs.length = 16 ∧
      ∃ l, s.materials = [l] ∧ ∀ f ∈ fs, Btw f.W 0 60 ∧ Btw f.cosA (1 / 2) 1 ∧ Btw f.sinA 0 1 ∧ f.u = 0 ∧ f.c = c ∧
        f.tanPhi = l.mat.tanPhi := by
  have d916 : Dy (9 / 16) := ⟨576, by norm_num, by norm_num⟩
  have d932 : Dy (9 / 32) := ⟨288, by norm_num, by norm_num⟩
  have i16 : (ofInt 16 : X64 exMachine) = ofReal 16 := rfl
  have i15 : (ofInt (16 - 1) : X64 exMachine) = ofReal 15 := rfl
  have e2 : (2 : X64 exMachine) = ofReal 2 := rfl
  have ew : ((ofReal 20 - ofReal 11) / ofInt s.slices : X64 exMachine) = ofReal (9 / 16) := by
    rw [h.slices, i16, ofReal_sub (by dy) (by dy)]
    norm_num
    rw [ofReal_div (by dy) (by dy) (by norm_num)]
  have eh : (ofReal (9 / 16) / 2 : X64 exMachine) = ofReal (9 / 32) := by
    rw [e2, ofReal_div d916 (by dy) (by norm_num)]; norm_num
  have d1 : Dy (361 / 32) := ⟨11552, by norm_num, by norm_num⟩
  have d2 : Dy (631 / 32) := ⟨20192, by norm_num, by norm_num⟩
  have el : (ofReal 11 + ofReal (9 / 32) : X64 exMachine) = ofReal (361 / 32) := by
    rw [ofReal_add (by dy) d932]; norm_num
  have er : (ofReal 20 - ofReal (9 / 32) : X64 exMachine) = ofReal (631 / 32) := by
    rw [ofReal_sub (by dy) d932]; norm_num
  have es : ((ofReal (631 / 32) - ofReal (361 / 32)) / ofReal 15 : X64 exMachine) = ofReal (9 / 16) := by
    rw [ofReal_sub d2 d1]
    norm_num
    rw [ofReal_div ⟨8640, by norm_num, by norm_num⟩ (by dy) (by norm_num)]
    norm_num
  have ec : ∀ i < 16, linspace (ofReal (361 / 32) : X64 exMachine) (ofReal (631 / 32)) s.slices i =
      ofReal ((361 + 18 * i) / 32) := by
    intro i hi
    have di : Dy (i : ℝ) := ⟨i * 1024, by rw [abs_of_nonneg (by positivity)]; norm_cast; omega, by push_cast; ring⟩
    have dm : Dy ((i : ℝ) * (9 / 16)) := by
      refine ⟨i * 576, ?_, ?_⟩
      · rw [abs_of_nonneg (by positivity)]; norm_cast; omega
      · push_cast; ring
    unfold linspace
    rw [h.slices, i15, es]
    show ofReal (361 / 32) + ofReal (i : ℝ) * ofReal (9 / 16) = _
    rw [ofReal_mul di d916, ofReal_add d1 dm]
    congr 1; ring
  have hc : ∀ i : ℕ, i < 16 → 11 ≤ ((361 + 18 * i) / 32 : ℝ) ∧ ((361 + 18 * i) / 32 : ℝ) ≤ 20 := by
    intro i hi
    have : (i : ℝ) ≤ 15 := by exact_mod_cast Nat.le_of_lt_succ hi
    have : (0 : ℝ) ≤ i := by positivity
    constructor <;> linarith
  have hrow := fun (i : ℕ) (hi : i < 16) => h.row (dy_centre hi) (hc i hi).1 (hc i hi).2
  have exs : (List.range s.slices.toNat).map (linspace (ofReal (361 / 32) : X64 exMachine) (ofReal (631 / 32)) s.slices) =
      (List.range 16).map (fun i : ℕ => ofReal ((361 + 18 * i) / 32)) := by
    rw [h.slices]
    apply List.map_congr_left
    intro i hi
    have := ec i (List.mem_range.mp hi)
    rw [h.slices] at this
    exact this
  choose! g hg using hrow
  have hm : ((List.range 16).map (fun i : ℕ => (ofReal ((361 + 18 * i) / 32) : X64 exMachine))).mapM
      (s.row (ofReal 20) (ofReal 32) (ofReal 15)) = .ok ((List.range 16).map g) := by
    rw [List.mapM_map]
    apply mapM_ok
    intro i hi
    exact (hg i (List.mem_range.mp hi)).1
  have hin : ((List.range 16).map (fun i : ℕ => (ofReal ((361 + 18 * i) / 32) : X64 exMachine))).any
      (fun x => decide (sq (ofReal 15) < sq (x - ofReal 20))) = false := by
    rw [List.any_eq_false]
    intro x hx
    obtain ⟨i, hi, rfl⟩ := List.mem_map.mp hx
    have hi := List.mem_range.mp hi
    have bq : Btw (ofReal ((361 + 18 * i) / 32) : X64 exMachine) 11 20 :=
      (Btw.dy (dy_centre hi)).weaken (hc i hi).1 (hc i hi).2
    have b20 : Btw (ofReal 20 : X64 exMachine) 20 20 := Btw.dy (by dy)
    have b225 : Btw (sq (ofReal 15) : X64 exMachine) 225 225 := by
      unfold sq
      exact (Btw.dy (by dy)).mulNonneg (Btw.dy (by dy)) (by norm_num) (by norm_num) (by norm_num) (by norm_num)
        (by dy) (by dy)
    have bd : Btw (sq (ofReal ((361 + 18 * i) / 32) - ofReal 20) : X64 exMachine) 0 81 := by
      have := bq.sub b20 (lo := -9) (hi := 0) (by norm_num) (by norm_num) (by dy) (by dy)
      exact this.mul this (fun u v a b c d => by constructor <;> nlinarith) (by dy) (by dy)
    simpa using b225.not_lt bd (by norm_num)
  have hcos : ((List.range 16).map g).any (fun q => pyEq q.cosA 0) = false := by
    rw [List.any_eq_false]
    intro x hx
    obtain ⟨i, hi, rfl⟩ := List.mem_map.mp hx
    have hb := (hg i (List.mem_range.mp hi)).2.2.2.1
    have b0 : Btw (0 : X64 exMachine) 0 0 := by rw [zero_ofReal]; exact Btw.dy Dy.zero
    unfold pyEq
    rw [decide_eq_false (hb.not_le b0 (by norm_num))]
    simp
  have hrows : s.sliceRows (ofReal 20) (ofReal 32) (ofReal 15) (ofReal 11) (ofReal 20) = .ok ((List.range 16).map g) := by
    unfold Slope.sliceRows
    rw [ew]
    simp only [eh, el, er, exs, hin, hm, hcos, Bool.false_eq_true, if_false, bind, Except.bind, pure, Except.pure]
  obtain ⟨l, hl, hu, hcoh⟩ := h.material
  have hst : ∀ yb, s.rowStrength yb = some (l.mat.cohesion, l.mat.tanPhi) := by
    intro yb
    unfold Slope.rowStrength
    rw [hl]
    simp only [List.getLast?_singleton, strengthLoop]
    split <;> rfl
  have hfs : s.sliceForces (ofReal (9 / 16)) ((List.range 16).map g) = .ok (((List.range 16).map g).map fun q =>
      { W := s.rowWeight (ofReal (9 / 16)) q, u := s.waterHead none q, c := l.mat.cohesion, tanPhi := l.mat.tanPhi,
        cosA := q.cosA, sinA := q.sinA }) := by
    unfold Slope.sliceForces
    have : s.waterX = .ok none := by unfold Slope.waterX; rw [h.water]
    rw [this]
    simp only [bind, Except.bind]
    apply mapM_ok
    intro q _
    rw [hst]
  have b20 : Btw (ofReal 20 : X64 exMachine) 20 20 := Btw.dy (by dy)
  have b0 : Btw (0 : X64 exMachine) 0 0 := by rw [zero_ofReal]; exact Btw.dy Dy.zero
  have hW : ∀ q : Row (X64 exMachine), s.rowWeight (ofReal (9 / 16)) q =
      ofReal 20 * clip0 (pyMin q.yt (ofReal 20) - q.yb) * ofReal (9 / 16) := by
    intro q
    unfold Slope.rowWeight Slope.stripWeight
    rw [h.udls, h.lls, hl, h.extH]
    simp only [stripColumn, List.foldl_nil, hu]
  have b916 : Btw (ofReal (9 / 16) : X64 exMachine) (1 / 2) 1 := (Btw.dy d916).weaken (by norm_num) (by norm_num)
  have hw : ∀ i < 16, Btw (s.rowWeight (ofReal (9 / 16)) (g i)) 0 60 := by
    intro i hi
    obtain ⟨_, b1, b2, _, _, _⟩ := hg i hi
    rw [hW]
    have m1 := b2.min b20 (lo := 17) (hi := 20) (by norm_num) (by norm_num) (by norm_num)
    have m2 := m1.sub b1 (lo := -3) (hi := 3) (by norm_num) (by norm_num) (by dy) (by dy)
    have m3 : Btw (clip0 (pyMin (g i).yt (ofReal 20) - (g i).yb)) 0 3 := by
      unfold clip0
      split_ifs with c
      · exact b0.weaken (by norm_num) (by norm_num)
      · obtain ⟨u, e, _, u2⟩ := m2
        rw [e] at c ⊢
        obtain ⟨z, hz, hz'⟩ := zero_eq (A := exMachine)
        rw [hz] at c
        refine ⟨u, rfl, ?_, u2⟩
        change ¬ u.val < z.val at c
        rw [hz'] at c
        exact not_lt.mp c
    have m4 := b20.mulNonneg m3 (lo := 0) (hi := 60) (by norm_num) (by norm_num) (by norm_num) (by norm_num) (by dy) (by dy)
    exact m4.mulNonneg b916 (by norm_num) (by norm_num) (by norm_num) (by norm_num) (by dy) (by dy)
  have hb : ∀ i < 16, Btw (s.rowWeight (ofReal (9 / 16)) (g i) * (g i).sinA) 0 ((60 : ℕ) : ℝ) := by
    intro i hi
    obtain ⟨_, _, _, _, b4, _⟩ := hg i hi
    exact (hw i hi).mulNonneg b4 (by norm_num) (by norm_num) (by norm_num) (by norm_num) (by dy) (Dy.ofNat 60 (by norm_num))
  have h7 : Btw (s.rowWeight (ofReal (9 / 16)) (g 7) * (g 7).sinA) 1 60 := by
    obtain ⟨_, _, _, _, _, b7⟩ := hg 7 (by norm_num)
    obtain ⟨b1, b2, b4⟩ := b7 (by norm_num) (by norm_num)
    rw [hW]
    have m1 := b2.min b20 (lo := 20) (hi := 20) (by norm_num) (by norm_num) (by norm_num)
    have m2 := m1.sub b1 (lo := 2) (hi := 3) (by norm_num) (by norm_num) (by dy) (by dy)
    have m3 : Btw (clip0 (pyMin (g 7).yt (ofReal 20) - (g 7).yb)) 2 3 := by
      unfold clip0
      rw [if_neg (m2.not_lt b0 (by norm_num))]
      exact m2
    have m4 := b20.mulNonneg m3 (lo := 40) (hi := 60) (by norm_num) (by norm_num) (by norm_num) (by norm_num) (by dy) (by dy)
    have m5 := m4.mulNonneg b916 (lo := 20) (hi := 60) (by norm_num) (by norm_num) (by norm_num) (by norm_num) (by dy) (by dy)
    exact m5.mulNonneg b4 (by norm_num) (by norm_num) (by norm_num) (by norm_num) (by dy) (by dy)
  refine ⟨_, _, hrows, by rw [ew]; exact hfs, ?_, ew, by simp, l, hl, ?_⟩
  · unfold drivingSum lsum
    rw [List.map_map, List.map_map]
    have := foldl_Btw (B := 60) (m := 0) Dy.one ((List.range 16).map fun i =>
        s.rowWeight (ofReal (9 / 16)) (g i) * (g i).sinA) (fun x hx => by
          obtain ⟨i, hi, rfl⟩ := List.mem_map.mp hx
          exact hb i (List.mem_range.mp hi)) _ (by simpa using b0) (by simp)
        (Or.inr ⟨_, List.mem_map.mpr ⟨7, by simp, rfl⟩, 60, h7⟩)
    norm_num at this
    exact this
  · intro f hf
    rw [List.map_map] at hf
    obtain ⟨i, hi, rfl⟩ := List.mem_map.mp hf
    have hi := List.mem_range.mp hi
    obtain ⟨_, _, _, b3, b4, _⟩ := hg i hi
    exact ⟨hw i hi, b3, b4, rfl, hcoh, rfl⟩

theorem bishopLoop_nan_ok {w tol : X64 A} {fs : List (SliceForces (X64 A))} (h : ∀ f ∈ fs, f.c = nan)
    (hd : ¬ drivingSum fs ≤ 0) (n : ℕ) : bishopLoop w tol fs n nan = .ok nan := by
  induction n with
  | zero => rfl
  | succ n ih =>
    have e1 := resisting_nan (bishopTerm w nan) (fun f hf => bishopTerm_nan w nan (h f hf)) hd
    have e2 : (fs.any fun f => pyEq (bishopDenom nan f) 0) = false := by
      rw [List.any_eq_false]
      intro f _
      simp [bishopDenom, div_nan, add_nan]
    unfold bishopLoop bishopStep
    simp only [pyEq_nan, Bool.false_eq_true, if_false, bind, Except.bind, throw, throwThe, MonadExceptOf.throw, pure,
      Except.pure, e1, e2, hd, nan_lt, or_self, nan_div, nan_sub, pyAbs_nan, ih]

/-- The factor of safety of the circle is NaN. -/
theorem ExRun.bishop {s : Slope (X64 exMachine)} (h : ExRun nan s) :
    s.bishop (ofReal 20) (ofReal 32) (ofReal 15) none none = .ok nan := by
  obtain ⟨rows, fs, h1, h2, h3, _⟩ := h.forces
  replace h3 : ¬ drivingSum fs ≤ 0 := by
    rw [zero_ofReal]
    exact h3.not_le (Btw.dy Dy.zero) (by norm_num)
  have hc : ∀ l ∈ s.materials, l.mat.cohesion = nan := by
    obtain ⟨l, hl, _, hn⟩ := h.material
    rw [hl]; simpa using hn
  have hn := sliceForces_cohesion_nan hc h2
  have b0 : Btw (0 : X64 exMachine) 0 0 := by rw [zero_ofReal]; exact Btw.dy Dy.zero
  have b20 : Btw (ofReal 20 : X64 exMachine) 20 20 := Btw.dy (by dy)
  have b32 : Btw (ofReal 32 : X64 exMachine) 32 32 := Btw.dy (by dy)
  have b15 : Btw (ofReal 15 : X64 exMachine) 15 15 := Btw.dy (by dy)
  have b11 : Btw (ofReal 11 : X64 exMachine) 11 11 := Btw.dy (by dy)
  have c1 := b20.not_lt b0 (by norm_num)
  have c2 := b32.not_lt b0 (by norm_num)
  have c3 := b15.not_lt b0 (by norm_num)
  have bt : Btw (1e-6 : X64 exMachine) 0 1 :=
    Btw.ofReal (A := exMachine) (y := 1e-6) (by norm_num) (by norm_num) Dy.zero Dy.one
  have c4 := (b20.sub b11 (lo := 9) (hi := 9) (by norm_num) (by norm_num) (by dy) (by dy)).not_le bt (by norm_num)
  have ho : s.ordinary (ofReal 20) (ofReal 32) (ofReal 15) (some (ofReal 11, ofReal 20)) (some (ofReal 20, ofReal 17)) =
      .ok nan := by
    unfold Slope.ordinary
    simp only [Slope.ordinaryEnds, c1, c2, c3, c4, or_self, if_false, bind, Except.bind, throw, throwThe,
      MonadExceptOf.throw, pure, Except.pure, h1, h2, h3,
      resisting_nan (ordinaryTerm _) (fun f hf => ordinaryTerm_nan _ (hn f hf)) h3, nan_div]
  have he : s.bishopEnds (ofReal 20) (ofReal 32) (ofReal 15) none none =
      .ok ((ofReal 11, ofReal 20), (ofReal 20, ofReal 17)) := by
    unfold Slope.bishopEnds
    simp only [ex_ext h.topX h.topY h.botX h.botY h.extL]
    have : setSize [((ofReal 11 : X64 exMachine), (ofReal 20 : X64 exMachine)), (ofReal 20, ofReal 17)] = 2 := by
      norm_num [setSize, ofReal_pyEq, Dy.ofNat]
    rw [this]
    rfl
  unfold Slope.bishop
  simp only [he, ho, h1, h2, bind, Except.bind, bishopLoop_nan_ok hn h3]

theorem exNan_new : Slope.new (.num (6 : X64 A)) .none (.num 8) = .ok (Slope.built 6 8) := by
  have d8 : Dy (8 : ℝ) := by dy
  have d6 : Dy (6 : ℝ) := by dy
  have a8 : assertPositiveNumber (0 : X64 A) (.num 8) = .ok () := by
    simp [assertPositiveNumber, PyCmp.ltb, (lit_pos (A := A) 8 (by norm_num) (by norm_num)).2]
  have a6 : assertStrictlyPositiveNumber (0 : X64 A) (.num 6) = .ok () := by
    simp [assertStrictlyPositiveNumber, PyCmp.ltb, (lit_pos (A := A) 6 (by norm_num) (by norm_num)).2]
  have m8 : pyMax (8 : X64 A) 0.001 = 8 := by
    have : Btw (0.001 : X64 A) 0 1 :=
      Btw.ofReal (A := A) (y := 0.001) (by norm_num) (by norm_num) Dy.zero Dy.one
    unfold pyMax
    rw [if_neg]
    exact (Btw.dy (A := A) d8).not_lt this (by norm_num)
  have hb : boundaryInputs (.num (6 : X64 A)) .none (.num 8) = .ok (6, 8) := by
    simp [boundaryInputs, a6, a8, m8, bind, Except.bind, pure, Except.pure, PyVal.get!]
  obtain ⟨e1, _, _, _, e5, _, _⟩ := ex_built (A := A)
  have b16 : Btw (ofReal 16 : X64 A) 16 16 := Btw.dy (by dy)
  have b40 : Btw (ofReal 40 : X64 A) 40 40 := Btw.dy (by dy)
  have hT : pyMax (pyMax (5 * (8 : X64 A)) 10) (4 * 6) = ofReal 40 := e5
  have hX : (ofReal 40 - (8 : X64 A)) / 2 = ofReal 16 := by rw [← hT]; exact e1
  exact new_built64 hb hT hX (not_lt_zero_of_pos b16 (by norm_num)).1 (not_lt_zero_of_pos b40 (by norm_num)).1
    (not_lt_zero_of_pos b16 (by norm_num)).2 (b40.not_le b16 (by norm_num))

/-- A material with the cohesion NaN. -/
noncomputable def exNanMat : Material (X64 exMachine) :=
  { unitWeight := 20, frictionAngle := 35, cohesion := nan, depth := pyAbs 5, tanPhi := PyNum.tan (radians 35)
    name := "", userColor := none }

theorem exNanMat_constructed : Material.Constructed exNanMat := by
  refine ⟨fun _ => false, .num 20, .num 35, .num nan, .num 5, .str "", .str "", ?_⟩
  have h1 : ¬ (20 : X64 exMachine) < 1 := by
    rw [one_ofReal, show (20 : X64 exMachine) = ofReal 20 from rfl, ofReal_lt (by dy) (by dy)]; norm_num
  have h2 : ¬ (50 : X64 exMachine) < 20 := by
    rw [show (50 : X64 exMachine) = ofReal 50 from rfl, show (20 : X64 exMachine) = ofReal 20 from rfl,
      ofReal_lt (by dy) (by dy)]; norm_num
  have h3 := (lit_pos (A := exMachine) 35 (by norm_num) (by norm_num)).2
  simp [Material.new, assertRange, assertPositiveNumber, assertNumber, PyCmp.ltb, h1, h2, h3, bind, Except.bind, pure,
    Except.pure, PyVal.get!, strArg, exNanMat]

/-- The circle of the example. -/
noncomputable def exArc : Plane (X64 exMachine) :=
  { lc := (ofReal 11, ofReal 20), rc := (ofReal 20, ofReal 17), cx := ofReal 20, cy := ofReal 32, radius := ofReal 15,
    fos := none }

/-- The slope of the example with a material and the circle: `Slope(6, length=8)`,
`update_analysis_options(slices=16)`, `set_materials(m)`, `add_single_circular_plane(20, 32, 15)`. -/
theorem ExRun.reach {m : Material (X64 exMachine)} (hm : Material.Constructed m) (hd : m.depth = pyAbs 5)
    (hu : m.unitWeight = 20) : ∃ s : Slope (X64 exMachine), Reachable s ∧ ExRun m.cohesion s ∧
      (∃ l, s.materials = [l] ∧ l.mat = m) ∧ s.individual = [exArc] ∧ s.maxIterations = 15 := by
  let s0 : Slope (X64 exMachine) := Slope.built 6 8
  have r0 : Reachable s0 := .init exNan_new
  let s1 : Slope (X64 exMachine) := (s0.updateAnalysisOptions (some 16) none none none none).1
  have r1 : Reachable s1 := r0.call (.updateAnalysisOptions _ _ _ _ _ _)
  let s2 : Slope (X64 exMachine) := (s1.setMaterials [some m]).1
  have r2 : Reachable s2 := r1.call (.setMaterials _ _ (by simpa using hm))
  obtain ⟨e1, e2, e3, e4, e5, e6, e7⟩ := ex_built (A := exMachine)
  have hs2 : s2 = { s1 with materials := [mkLayer s1.extH 0 m], search := [] } := by
    have hd : ¬ s1.extH < m.depth := by
      rw [hd]
      show ¬ s0.extH < pyAbs 5
      have : (pyAbs 5 : X64 exMachine) = ofReal 5 := by
        rw [show (5 : X64 exMachine) = ofReal 5 from rfl, ofReal_abs (by dy)]; norm_num
      rw [this, e6, ofReal_lt (by dy) (by dy)]; norm_num
    show (s1.setMaterials [some m]).1 = _
    have h0 : s1.materials = [] := rfl
    simp [Slope.setMaterials, h0, sortByKey, pySort, hd, Out.andThen, mkLayers, setSizeNum, Slope.resetResults]
  have run : ExRun m.cohesion s2 := by
    rw [hs2]
    exact ⟨e1, e2, e3, e4, e5, e6, e7, rfl, rfl, rfl, rfl, ⟨_, rfl, hu, rfl⟩⟩
  let s3 : Slope (X64 exMachine) := (s2.addSingleCircularPlane (ofReal 20) (ofReal 32) (ofReal 15)).1
  have r3 : Reachable s3 := r2.call (.addSingleCircularPlane _ _ _ _)
  have hs3 : s3 = { s2 with individual := [exArc], search := [] } := by
    show (s2.addSingleCircularPlane (ofReal 20) (ofReal 32) (ofReal 15)).1 = _
    unfold Slope.addSingleCircularPlane
    have hz : setSize [((ofReal 11 : X64 exMachine), (ofReal 20 : X64 exMachine)), (ofReal 20, ofReal 17)] = 2 := by
      norm_num [setSize, ofReal_pyEq, Dy.ofNat]
    have hi : s2.individual = [] := by rw [hs2]; rfl
    simp only [ex_ext run.topX run.topY run.botX run.botY run.extL, hz, hi]
    rfl
  refine ⟨s3, r3, ?_, ?_, by rw [hs3], ?_⟩
  · rw [hs3]
    exact ⟨run.topX, run.topY, run.botX, run.botY, run.extL, run.extH, run.gradient, run.slices, run.udls, run.lls,
      run.water, run.material⟩
  · rw [hs3, hs2]
    exact ⟨_, rfl, rfl⟩
  · rw [hs3, hs2]
    rfl

/-- C92, the case: `Slope(6, length=8)` with a material whose cohesion is NaN and the circle at `(20, 32)` with
radius 15. The analysis returns and `get_min_FOS` is NaN. -/
theorem C92_nan_reported : ∃ s : Slope (X64 exMachine), Reachable s ∧ s.materials ≠ [] ∧
    (∀ l ∈ s.materials, l.mat.cohesion = nan) ∧ (s.analyseSlope none).2 = .ok () ∧
    (s.analyseSlope none).1.getMinFos = .ok (some nan) := by
  obtain ⟨s3, r3, run3, ⟨l, hl, hlm⟩, hi3, _⟩ := ExRun.reach exNanMat_constructed rfl rfl
  have ok : s3.analyseSlope none = (s3.analysedTo none [exArc], .ok ()) := by
    apply analyseSlope_of
    · left; rw [hi3]; simp
    · intro q hq e he
      simp only [List.mem_singleton] at hq
      subst hq
      have he' : s3.bishop (ofReal 20) (ofReal 32) (ofReal 15) none none = .error (.raise e) := he
      rw [run3.bishop] at he'
      cases he'
  have hf : fosOf s3 exArc = some nan := fosOf_some.mpr run3.bishop
  refine ⟨s3, r3, by rw [hl]; simp, ?_, by rw [ok], ?_⟩
  · rw [hl]
    intro l' hl'
    rw [List.mem_singleton.mp hl', hlm]
    rfl
  · rw [ok]
    simp [Slope.getMinFos, Slope.analysedTo, tidySearch, withFos, hf, Plane.fosVal, pySort]

theorem exMachine_cos (x : F64 exMachine) : |(exMachine.cos x).1| ≤ 1 := by
  show |round53 (Real.cos x.1)| ≤ 1
  have h1 : round53 1 = 1 := round53_roundsToEven.exact ⟨1, 0, by norm_num, by norm_num⟩
  have h2 : round53 (-1) = -1 := round53_roundsToEven.exact ⟨-1, 0, by norm_num, by norm_num⟩
  rw [abs_le]
  constructor
  · rw [← h2]; exact round53_roundsToEven.mono (Real.neg_one_le_cos _)
  · rw [← h1]; exact round53_roundsToEven.mono (Real.cos_le_one _)

/-- The hypotheses of `C92_numbers_partial` are met: a slope 3 m high and 4 m long on a machine whose library rounds
correctly. -/
example : ∃ s : Slope (X64 exMachine), Slope.new (.num (ofReal 3)) .none (.num (ofReal 4)) = .ok s ∧
    IsNumber s.botY := by
  obtain ⟨s, h, r⟩ := (C92_numbers_partial (A := exMachine) (fun _ => true) exMachine_cos).2.2.2 (ofReal 3) (ofReal 4)
    (by obtain ⟨u, e, a, b⟩ := Btw.dy (A := exMachine) (x := 3) (by dy)
        exact ⟨u, e, le_trans (by norm_num) a, le_trans b (by norm_num)⟩)
    (by obtain ⟨u, e, a, b⟩ := Btw.dy (A := exMachine) (x := 4) (by dy)
        exact ⟨u, e, le_trans (by norm_num) a, le_trans b (by norm_num)⟩)
  exact ⟨s, h, r.2.2.2.2.2.2.1⟩

end PySlope
