import Verif.Lemmas.Interval
import Verif.Lemmas.IeeeForm
import Verif.Lemmas.Results

/-! # Arguments that are not a number (C92)

The model is read at `X64 A`: doubles with infinities and NaN, on any machine. -/

namespace PySlope
open Lit

section AnyNumbers

variable {K : Type} [PyNum K]

/-- What `Slope(...)` leaves, from the height and the length. -/
noncomputable def Slope.built (H L : K) : Slope K :=
  let totH := pyMax (pyMax (3 * H) 6) (5 * L / 2)
  let totL := pyMax (pyMax (5 * L) 10) (4 * H)
  let x := (totL - L) / 2
  { (Slope.blank : Slope K) with
    minExtH := 6, minExtL := 10
    extBoundary := some [(0, 0), (0, totH), (x, totH), (x + L, totH - H), (totL, totH - H), (totL, 0), (0, 0)]
    height := H, length := L, gradient := H / L
    topX := x, topY := totH, botX := x + L, botY := totH - H, extL := totL, extH := totH
    lim1 := 0, lim2 := x, lim3 := x, lim4 := totL
    slices := 25, iterations := 1000, minFailureDist := pyMin 0 (totL * 0.9), tolerance := 0.005
    maxIterations := 15, waterH := sq (PyNum.cos (PyNum.atan (H / L))) }

theorem new_built {h a l : PyVal K} {H L : K} (hb : boundaryInputs h a l = .ok (H, L))
    (e10 : pyEq (10 : K) 0 = false) (e6 : pyEq (6 : K) 0 = false)
    (p10 : ¬ (10 : K) < 0) (p6 : ¬ (6 : K) < 0)
    {T X : K} (hT : pyMax (pyMax (5 * L) 10) (4 * H) = T) (hX : (T - L) / 2 = X)
    (h0 : ¬ (0 : K) < 0) (h1 : ¬ X < 0) (h2 : ¬ T < 0) (h3 : ¬ X ≤ 0) (h4 : ¬ T ≤ X) :
    Slope.new h a l = .ok (Slope.built H L) := by
  subst hT hX
  have e0 : Slope.updateBoundaryOptions (Slope.blank : Slope K) (.num 10) (.num 6) =
      ({ (Slope.blank : Slope K) with minExtH := 6, minExtL := 10 }, .ok ()) := by
    simp [Slope.updateBoundaryOptions, PyVal.truthy, e10, e6, assertStrictlyPositiveNumber,
      PyCmp.ltb, p10, p6, Out.andThen, PyVal.get!, Slope.blank, Slope.resetResults]
  unfold Slope.new Slope.init
  rw [e0, andThen_any]
  simp only [Slope.setExternalBoundary, hb, Slope.applyBoundary]
  rw [removeAnalysisLimits_any _ h0 h1 h2 h3 h4, andThen_any, andThen_any]
  simp only [Slope.updateAnalysisOptions, Slope.updateWaterAnalysisOptions, andThen_any, if_true]
  rw [removeAnalysisLimits_any _ h0 h1 h2 h3 h4]
  rfl

end AnyNumbers

namespace X64

variable {A : Machine}

theorem lit_pos (n : ℕ) (h : 0 < n) (h2 : n < 2 ^ 43) : pyEq (@OfNat.ofNat (X64 A) n (Lit.natLit n)) 0 = false ∧
    ¬ (@OfNat.ofNat (X64 A) n (Lit.natLit n)) < 0 := by
  have hn : Dy (n : ℝ) := ⟨n * 1024, by rw [abs_of_nonneg (by positivity)]; norm_cast; omega, by push_cast; ring⟩
  have h0 : Dy ((0 : ℕ) : ℝ) := by rw [Nat.cast_zero]; exact Dy.zero
  rw [lit_eq, lit_eq, ofReal_pyEq hn h0, ofReal_lt hn h0]
  constructor
  · rw [decide_eq_false_iff_not]; norm_cast; omega
  · norm_cast; omega

theorem zero_lt_zero : ¬ (0 : X64 A) < 0 := by
  obtain ⟨z, h, _⟩ := zero_eq (A := A)
  rw [h]
  exact lt_irrefl z.val

/-- The constructor, with doubles. -/
theorem new_built64 {h a l : PyVal (X64 A)} {H L : X64 A} (hb : boundaryInputs h a l = .ok (H, L))
    {T X : X64 A} (hT : pyMax (pyMax (5 * L) 10) (4 * H) = T) (hX : (T - L) / 2 = X)
    (h1 : ¬ X < 0) (h2 : ¬ T < 0) (h3 : ¬ X ≤ 0) (h4 : ¬ T ≤ X) : Slope.new h a l = .ok (Slope.built H L) :=
  new_built hb (lit_pos 10 (by norm_num) (by norm_num)).1 (lit_pos 6 (by norm_num) (by norm_num)).1
    (lit_pos 10 (by norm_num) (by norm_num)).2 (lit_pos 6 (by norm_num) (by norm_num)).2 hT hX zero_lt_zero h1 h2 h3 h4

end X64

open X64

variable {A : Machine}

/-- C92: no constructor refuses NaN. Put NaN in the place of any number of a call that returns, and the
call returns, with NaN in the attribute. -/
theorem C92_nan_objects (isColor : String → Bool) :
    (∀ (uw f c d : PyVal (X64 A)) name color m, Material.new isColor uw f c d name color = .ok m →
      Material.new isColor (.num nan) f c d name color = .ok { m with unitWeight := nan } ∧
      Material.new isColor uw (.num nan) c d name color = .ok { m with frictionAngle := nan, tanPhi := nan } ∧
      Material.new isColor uw f (.num nan) d name color = .ok { m with cohesion := nan } ∧
      Material.new isColor uw f c (.num nan) name color = .ok { m with depth := nan }) ∧
    (∀ (q o l : PyVal (X64 A)) color dyn u, Udl.new isColor q o l color dyn = .ok u →
      Udl.new isColor (.num nan) o l color dyn = .ok { u with magnitude := nan } ∧
      Udl.new isColor q (.num nan) l color dyn = .ok { u with offset := nan } ∧
      Udl.new isColor q o (.num nan) color dyn = .ok { u with length := some nan }) ∧
    (∀ (q o : PyVal (X64 A)) color dyn u, LineLoad.new isColor q o color dyn = .ok u →
      LineLoad.new isColor (.num nan) o color dyn = .ok { u with magnitude := nan } ∧
      LineLoad.new isColor q (.num nan) color dyn = .ok { u with offset := nan }) := by
  refine ⟨?_, ?_, ?_⟩
  · intro uw f c d name color m e
    unfold Material.new at e ⊢
    simp only [bind, Except.bind, pure, Except.pure] at e ⊢
    cases h1 : assertRange uw (1 : X64 A) 50 false false with
    | error x => rw [h1] at e; cases e
    | ok _ =>
    cases h2 : assertPositiveNumber (0 : X64 A) f with
    | error x => rw [h1, h2] at e; cases e
    | ok _ =>
    cases h3 : assertNumber c with
    | error x => rw [h1, h2, h3] at e; cases e
    | ok _ =>
    cases h4 : assertNumber d with
    | error x => rw [h1, h2, h3, h4] at e; cases e
    | ok _ =>
    cases h5 : strArg name with
    | error x => rw [h1, h2, h3, h4, h5] at e; cases e
    | ok _ =>
    cases h6 : strArg color with
    | error x => rw [h1, h2, h3, h4, h5, h6] at e; cases e
    | ok _ =>
    rw [h1, h2, h3, h4, h5, h6] at e
    simp only [Except.ok.injEq] at e
    subst e
    simp [assertRange, assertPositiveNumber, assertNumber, PyVal.get!]
  · intro q o l color dyn u e
    unfold Udl.new at e ⊢
    simp only [bind, Except.bind, pure, Except.pure] at e ⊢
    cases h1 : assertNumber q with
    | error x => rw [h1] at e; cases e
    | ok _ =>
    cases h2 : assertNumber o with
    | error x => rw [h1, h2] at e; cases e
    | ok _ =>
    rw [h1, h2] at e
    cases ht : l.truthy with
    | false =>
      simp only [ht, Bool.false_eq_true, if_false, Except.ok.injEq] at e
      subst e
      simp [assertNumber, PyVal.get!]
    | true =>
      cases h3 : assertNumber l with
      | error x => simp [ht, h3] at e
      | ok _ =>
        simp only [ht, h3, if_true, Except.ok.injEq] at e
        subst e
        simp [assertNumber, PyVal.get!]
  · intro q o color dyn u e
    unfold LineLoad.new at e ⊢
    simp only [bind, Except.bind, pure, Except.pure] at e ⊢
    cases h1 : assertNumber q with
    | error x => rw [h1] at e; cases e
    | ok _ =>
    cases h2 : assertNumber o with
    | error x => rw [h1, h2] at e; cases e
    | ok _ =>
    rw [h1, h2] at e
    simp only [Except.ok.injEq] at e
    subst e
    simp [assertNumber, PyVal.get!]

example : Udl.new (fun _ => true) (.num (10 : X64 A)) (.num nan) .none "red" false =
    .ok { magnitude := pyAbs 10, offset := nan, length := none, color := "red", dynamic := false } :=
  ((C92_nan_objects (A := A) (fun _ => true)).2.1 (.num 10) (.num 2) .none "red" false _ rfl).2.1

theorem not_lt_zero_of_pos {x : X64 A} {a b : ℝ} (h : Btw x a b) (ha : 0 < a) : ¬ x < 0 ∧ ¬ x ≤ 0 := by
  have h0 : Btw (0 : X64 A) 0 0 := by
    obtain ⟨z, h, hz⟩ := zero_eq (A := A)
    exact ⟨z, h, hz.ge, hz.le⟩
  exact ⟨h.not_lt h0 ha.le, h.not_le h0 ha⟩

/-- C92: `Slope` takes NaN for the height, for the angle and for the length. With the height NaN the
length and the crest are numbers and the toe is at the level NaN; with the angle or the length NaN the
crest is at the abscissa NaN. -/
theorem C92_nan_slope :
    (∃ s : Slope (X64 A), Slope.new (.num nan) (.num 30) (.num 8) = .ok s ∧
      s.height = nan ∧ s.length = 8 ∧ s.botY = nan ∧ s.gradient = nan) ∧
    (∃ s : Slope (X64 A), Slope.new (.num 6) (.num nan) .none = .ok s ∧ s.height = 6 ∧ s.length = nan ∧ s.topX = nan) ∧
    (∃ s : Slope (X64 A), Slope.new (.num 6) (.num 30) (.num nan) = .ok s ∧ s.height = 6 ∧ s.length = nan ∧ s.topX = nan) := by
  have d30 : Dy ((30 : ℕ) : ℝ) := by dy
  have d0 : Dy ((0 : ℕ) : ℝ) := by norm_num; dy
  have d90 : Dy ((90 : ℕ) : ℝ) := by dy
  have d8 : Dy ((8 : ℕ) : ℝ) := by dy
  have d6 : Dy ((6 : ℕ) : ℝ) := by dy
  have d5 : Dy ((5 : ℕ) : ℝ) := by dy
  have d2 : Dy ((2 : ℕ) : ℝ) := by dy
  have d10 : Dy ((10 : ℕ) : ℝ) := by dy
  have a30 : assertRange (.num (30 : X64 A)) (0 : X64 A) 90 true false = .ok () := by
    have h1 : ¬ (30 : X64 A) < 0 := by rw [lit_eq, lit_eq, ofReal_lt d30 d0]; norm_num
    have h2 : ¬ (90 : X64 A) < 30 := by rw [lit_eq, lit_eq, ofReal_lt d90 d30]; norm_num
    have h3 : pyEq (30 : X64 A) 0 = false := (lit_pos 30 (by norm_num) (by norm_num)).1
    simp [assertRange, PyCmp.ltb, PyCmp.eqb, h1, h2, h3]
  have a8 : assertPositiveNumber (0 : X64 A) (.num 8) = .ok () := by
    simp [assertPositiveNumber, PyCmp.ltb, (lit_pos (A := A) 8 (by norm_num) (by norm_num)).2]
  have a6 : assertStrictlyPositiveNumber (0 : X64 A) (.num 6) = .ok () := by
    simp [assertStrictlyPositiveNumber, PyCmp.ltb, (lit_pos (A := A) 6 (by norm_num) (by norm_num)).2]
  have m8 : pyMax (8 : X64 A) 0.001 = 8 := by
    have : Btw (0.001 : X64 A) 0 1 :=
      Btw.ofReal (A := A) (y := 0.001) (by norm_num) (by norm_num) Dy.zero Dy.one
    unfold pyMax
    rw [if_neg]
    exact (Btw.dy (A := A) d8).not_lt this (by norm_num)
  refine ⟨⟨Slope.built nan 8, ?_, rfl, rfl, sub_nan _, nan_div _⟩,
    ⟨Slope.built 6 nan, ?_, rfl, rfl, ?_⟩, ⟨Slope.built 6 nan, ?_, rfl, rfl, ?_⟩⟩
  · have hb : boundaryInputs (.num (nan : X64 A)) (.num 30) (.num 8) = .ok (nan, 8) := by
      simp [boundaryInputs, assertStrictlyPositiveNumber, a30, a8, m8, bind, Except.bind, pure, Except.pure,
        PyVal.get!]
    have e40 : pyMax (pyMax (5 * (8 : X64 A)) 10) (4 * nan) = ofReal 40 := by
      rw [mul_nan, pyMax_nan, lit_eq, lit_eq, lit_eq, ofReal_mul d5 d8]
      norm_num
      unfold pyMax
      rw [if_neg]
      rw [ofReal_lt (by dy) (by dy)]; norm_num
    have e16 : (ofReal 40 - (8 : X64 A)) / 2 = ofReal 16 := by
      rw [lit_eq, lit_eq, ofReal_sub (by dy) d8]
      norm_num
      rw [ofReal_div (by dy) (by dy) (by norm_num)]
      norm_num
    have b16 : Btw (ofReal 16 : X64 A) 16 16 := Btw.dy (by dy)
    have b40 : Btw (ofReal 40 : X64 A) 40 40 := Btw.dy (by dy)
    exact new_built64 hb e40 e16 (not_lt_zero_of_pos b16 (by norm_num)).1 (not_lt_zero_of_pos b40 (by norm_num)).1
      (not_lt_zero_of_pos b16 (by norm_num)).2 (b40.not_le b16 (by norm_num))
  · have hb : boundaryInputs (.num (6 : X64 A)) (.num nan) .none = .ok (6, nan) := by
      simp [boundaryInputs, a6, assertRange, PyCmp.eqb, bind, Except.bind, pure, Except.pure, PyVal.get!, div_nan]
    have e1 : pyMax (pyMax (5 * (nan : X64 A)) 10) (4 * 6) = nan := by rw [mul_nan, pyMax_nan_left, pyMax_nan_left]
    have e2 : ((nan : X64 A) - nan) / 2 = nan := by rw [nan_sub, nan_div]
    exact new_built64 hb e1 e2 (nan_lt _) (nan_lt _) (nan_le _) (nan_le _)
  · show (_ - _) / 2 = nan
    rw [sub_nan, nan_div]
  · have hb : boundaryInputs (.num (6 : X64 A)) (.num 30) (.num nan) = .ok (6, nan) := by
      simp [boundaryInputs, a6, a30, assertPositiveNumber, bind, Except.bind, pure, Except.pure, PyVal.get!]
    have e1 : pyMax (pyMax (5 * (nan : X64 A)) 10) (4 * 6) = nan := by rw [mul_nan, pyMax_nan_left, pyMax_nan_left]
    have e2 : ((nan : X64 A) - nan) / 2 = nan := by rw [nan_sub, nan_div]
    exact new_built64 hb e1 e2 (nan_lt _) (nan_lt _) (nan_le _) (nan_le _)
  · show (_ - _) / 2 = nan
    rw [sub_nan, nan_div]

theorem X64.Btw.isNumber {x : X64 A} {a b : ℝ} (h : Btw x a b) : IsNumber x := by
  obtain ⟨u, e, _⟩ := h
  exact ⟨u, e⟩

theorem isNumber_abs {x : X64 A} (h : IsNumber x) : IsNumber (pyAbs x) := by
  obtain ⟨u, rfl⟩ := h
  unfold pyAbs
  split_ifs
  · exact ⟨_, rfl⟩
  · exact ⟨u, rfl⟩

theorem numbers_slope (hcos : ∀ x, |(A.cos x).1| ≤ 1) {h l : X64 A} (hh : UpTo (2 ^ 30) h) (hl : UpTo (2 ^ 30) l) :
    ∃ s : Slope (X64 A), Slope.new (.num h) .none (.num l) = .ok s ∧
      IsNumber s.height ∧ IsNumber s.length ∧ IsNumber s.gradient ∧ IsNumber s.topX ∧ IsNumber s.topY ∧
      IsNumber s.botX ∧ IsNumber s.botY ∧ IsNumber s.extL ∧ IsNumber s.extH ∧ IsNumber s.lim1 ∧ IsNumber s.lim2 ∧
      IsNumber s.lim3 ∧ IsNumber s.lim4 ∧ IsNumber s.waterH := by
  have h0 : Btw (0 : X64 A) 0 0 := by
    obtain ⟨z, h, hz⟩ := zero_eq (A := A)
    exact ⟨z, h, hz.ge, hz.le⟩
  have bh : Btw h 0 (2 ^ 30) := hh
  have bl : Btw l 0 (2 ^ 30) := hl
  have b2 : Btw (2 : X64 A) 2 2 := Btw.dy (x := 2) (by dy)
  have b3 : Btw (3 : X64 A) 3 3 := Btw.dy (x := 3) (by dy)
  have b4 : Btw (4 : X64 A) 4 4 := Btw.dy (x := 4) (by dy)
  have b5 : Btw (5 : X64 A) 5 5 := Btw.dy (x := 5) (by dy)
  have b6 : Btw (6 : X64 A) 6 6 := Btw.dy (x := 6) (by dy)
  have b10 : Btw (10 : X64 A) 10 10 := Btw.dy (x := 10) (by dy)
  have bt : Btw (0.001 : X64 A) (1 / 1024) 1 :=
    Btw.ofReal (A := A) (y := 0.001) (by norm_num) (by norm_num) ⟨1, by norm_num, by norm_num⟩ Dy.one
  have dp : ∀ n : ℕ, n < 43 → Dy ((2 : ℝ) ^ n) := by
    intro n hn
    refine ⟨2 ^ (n + 10), ?_, by push_cast; ring⟩
    rw [abs_of_pos (by positivity)]
    exact pow_lt_pow_right₀ (by norm_num) (by omega)
  have ah : assertStrictlyPositiveNumber (0 : X64 A) (.num h) = .ok () := by
    simp [assertStrictlyPositiveNumber, PyCmp.ltb, bh.not_lt h0 le_rfl]
  have al : assertPositiveNumber (0 : X64 A) (.num l) = .ok () := by
    simp [assertPositiveNumber, PyCmp.ltb, bl.not_lt h0 le_rfl]
  have hb : boundaryInputs (.num h) .none (.num l) = .ok (h, pyMax l 0.001) := by
    simp [boundaryInputs, ah, al, bind, Except.bind, pure, Except.pure, PyVal.get!]
  have bL : Btw (pyMax l 0.001) (1 / 1024) (2 ^ 30) := bl.max bt (by norm_num) le_rfl (by norm_num)
  generalize hL : pyMax l 0.001 = L at hb bL
  have b5L := b5.mulNonneg bL (lo := 0) (hi := 2 ^ 33) (by norm_num) (by norm_num) (by norm_num) (by norm_num)
    Dy.zero (dp 33 (by norm_num))
  have b4h := b4.mulNonneg bh (lo := 0) (hi := 2 ^ 33) (by norm_num) (by norm_num) (by norm_num) (by norm_num)
    Dy.zero (dp 33 (by norm_num))
  have b3h := b3.mulNonneg bh (lo := 0) (hi := 2 ^ 33) (by norm_num) (by norm_num) (by norm_num) (by norm_num)
    Dy.zero (dp 33 (by norm_num))
  have b5L2 := b5L.div b2 (lo := 0) (hi := 2 ^ 33) (by norm_num) (fun u v a b c d => by constructor <;> nlinarith)
    Dy.zero (dp 33 (by norm_num))
  have m1 := b5L.max b10 (lo := 10) (hi := 2 ^ 33) (by norm_num) le_rfl (by norm_num)
  have bT := m1.max b4h (lo := 10) (hi := 2 ^ 33) (by norm_num) le_rfl le_rfl
  have m2 := b3h.max b6 (lo := 6) (hi := 2 ^ 33) (by norm_num) le_rfl (by norm_num)
  have bH := m2.max b5L2 (lo := 6) (hi := 2 ^ 33) (by norm_num) le_rfl le_rfl
  -- the total length is at least twice the length
  have rel : ∀ T L' : F64 A, pyMax (pyMax (5 * L) 10) (4 * h) = fin T → L = fin L' → 2 * L'.val ≤ T.val := by
    intro T L' e1 e2
    have hL' : 0 ≤ L'.val := by
      obtain ⟨u, e, u1, _⟩ := bL
      rw [e2] at e; cases e
      exact le_trans (by norm_num) u1
    have e5 : (5 : X64 A) * L = ofReal (5 * L'.val) := by
      obtain ⟨z, hz, hz'⟩ := ofReal_dy (A := A) (x := 5) (by dy)
      rw [show (5 : X64 A) = ofReal 5 from rfl, hz, e2, ← hz']; rfl
    have c1 : Btw ((5 : X64 A) * L) (2 * L'.val) (2 ^ 33) := by
      obtain ⟨u, e, _, u2⟩ := b5L
      refine ⟨u, e, ?_, u2⟩
      rw [e5] at e
      unfold ofReal at e
      split at e
      · cases e
        show 2 * L'.val ≤ A.rnd (5 * L'.val)
        have : A.rnd (2 * L'.val) = 2 * L'.val := by
          obtain ⟨m, k, hm, hk⟩ := L'.2
          apply A.rounds.exact
          refine ⟨m, k + 1, hm, ?_⟩
          show 2 * L'.1 = _
          rw [hk, zpow_add₀ (by norm_num)]; ring
        rw [← this]
        exact A.rounds.mono (by linarith)
      · cases e
    have c2 := (c1.max b10 (lo := 2 * L'.val) (hi := 2 ^ 33) (le_max_left _ _) le_rfl (by norm_num)).max b4h
      (lo := 2 * L'.val) (hi := 2 ^ 33) (le_max_left _ _) le_rfl le_rfl
    obtain ⟨u, e, u1, _⟩ := c2
    rw [e1] at e; cases e
    exact u1
  have bD : Btw (pyMax (pyMax (5 * L) 10) (4 * h) - L) 2 (2 ^ 33) ∧
      (∀ T : F64 A, pyMax (pyMax (5 * L) 10) (4 * h) = fin T →
        ∃ d : F64 A, pyMax (pyMax (5 * L) 10) (4 * h) - L = fin d ∧ d.val ≤ T.val) := by
    obtain ⟨T, eT, T1, T2⟩ := bT
    obtain ⟨L', eL, L1, L2⟩ := bL
    have r := rel T L' eT eL
    rw [eT, eL]
    have bb : Btw (fin T - fin L' : X64 A) 2 (2 ^ 33) := by
      have : Btw (ofReal (T.val + -L'.val) : X64 A) 2 (2 ^ 33) :=
        Btw.ofReal (by linarith) (by linarith) (by dy) (dp 33 (by norm_num))
      exact this
    refine ⟨bb, ?_⟩
    intro T' e'
    cases e'
    obtain ⟨d, ed, _, _⟩ := bb
    refine ⟨d, ed, ?_⟩
    have ed' : (ofReal (T.val + -L'.val) : X64 A) = fin d := ed
    unfold ofReal at ed'
    split at ed'
    · cases ed'
      show A.rnd (T.val + -L'.val) ≤ T.val
      have h1 : (1 / 1024 : ℝ) > 0 := by norm_num
      exact F64.rnd_le T (by linarith)
    · cases ed'
  obtain ⟨bD, hD⟩ := bD
  have bX := bD.div b2 (lo := 1) (hi := 2 ^ 33) (by norm_num) (fun u v a b c d => by constructor <;> nlinarith)
    Dy.one (dp 33 (by norm_num))
  have bbx := bX.add bL (lo := 0) (hi := 2 ^ 34) (by norm_num) (by norm_num) Dy.zero (dp 34 (by norm_num))
  have bby := bH.sub bh (lo := -(2 ^ 34)) (hi := 2 ^ 34) (by norm_num) (by norm_num) (dp 34 (by norm_num)).neg (dp 34 (by norm_num))
  have bg := bh.div bL (lo := 0) (hi := 2 ^ 41) (by norm_num) (fun u v a b c d => by constructor <;> nlinarith)
    Dy.zero (dp 41 (by norm_num))
  have n4 : ¬ pyMax (pyMax (5 * L) 10) (4 * h) ≤ (pyMax (pyMax (5 * L) 10) (4 * h) - L) / 2 := by
    obtain ⟨T, eT, T1, T2⟩ := bT
    obtain ⟨d, ed, hd⟩ := hD T eT
    obtain ⟨d', ed', d1, d2⟩ := bD
    rw [ed] at ed'; cases ed'
    rw [ed, eT]
    obtain ⟨z, hz, hz'⟩ := ofReal_dy (A := A) (x := 2) (by dy)
    have e2 : (fin d / 2 : X64 A) = ofReal (d.val / 2) := by
      rw [show (2 : X64 A) = ofReal 2 from rfl, hz]
      show (if z.val = 0 then _ else ofReal (d.val / z.val)) = _
      rw [hz', if_neg (by norm_num)]
    rw [e2]
    have half : A.rnd (d.val / 2) = d.val / 2 := by
      obtain ⟨m, k, hm, hk⟩ := d.2
      apply A.rounds.exact
      refine ⟨m, k - 1, hm, ?_⟩
      show d.1 / 2 = _
      rw [hk, zpow_sub₀ (by norm_num)]; ring
    unfold ofReal
    split
    · show ¬ T.val ≤ A.rnd (d.val / 2)
      rw [half]; linarith
    · rename_i hc
      exfalso
      apply hc
      rw [half, abs_of_pos (by linarith)]
      have : (2 : ℝ) ^ 33 < 2 ^ 1024 := pow_lt_pow_right₀ (by norm_num) (by norm_num)
      exact lt_of_le_of_lt (by linarith) this
  refine ⟨Slope.built h L, ?_, bh.isNumber, bL.isNumber, bg.isNumber, bX.isNumber, bH.isNumber, bbx.isNumber,
    bby.isNumber, bT.isNumber, bH.isNumber, h0.isNumber, bX.isNumber, bX.isNumber, bT.isNumber, ?_⟩
  · exact new_built64 hb rfl rfl (not_lt_zero_of_pos bX (by norm_num)).1 (not_lt_zero_of_pos bT (by norm_num)).1
      (not_lt_zero_of_pos bX (by norm_num)).2 n4
  · show IsNumber (sq (PyNum.cos (PyNum.atan (h / L))))
    obtain ⟨g, eg⟩ := bg.isNumber
    rw [eg]
    have hc := hcos (A.atan g)
    have b1 : Btw (PyNum.cos (PyNum.atan (fin g)) : X64 A) (-1) 1 := by
      rw [abs_le] at hc
      exact ⟨_, rfl, hc.1, hc.2⟩
    exact (b1.mul b1 (lo := -1) (hi := 1) (fun u v a b c d => by constructor <;> nlinarith) Dy.negOne Dy.one).isNumber

/-- C92, partial: NaN does not come from numbers. Objects made with numbers hold numbers, and so does a slope made
with a height and a length of any size up to `2^30`, on a machine whose cosines are at most 1. -/
theorem C92_numbers_partial (isColor : String → Bool) (hcos : ∀ x, |(A.cos x).1| ≤ 1) :
    (∀ (uw f c d : X64 A) name color m, IsNumber uw → IsNumber f → IsNumber c → IsNumber d →
      Material.new isColor (.num uw) (.num f) (.num c) (.num d) name color = .ok m →
      IsNumber m.unitWeight ∧ IsNumber m.frictionAngle ∧ IsNumber m.cohesion ∧ IsNumber m.depth) ∧
    (∀ (q o : X64 A) l color dyn u, IsNumber q → IsNumber o → (∀ x, l = .num x → IsNumber x) →
      Udl.new isColor (.num q) (.num o) l color dyn = .ok u →
      IsNumber u.magnitude ∧ IsNumber u.offset ∧ ∀ x, u.length = some x → IsNumber x) ∧
    (∀ (q o : X64 A) color dyn u, IsNumber q → IsNumber o → LineLoad.new isColor (.num q) (.num o) color dyn = .ok u →
      IsNumber u.magnitude ∧ IsNumber u.offset) ∧
    (∀ h l : X64 A, UpTo (2 ^ 30) h → UpTo (2 ^ 30) l →
      ∃ s : Slope (X64 A), Slope.new (.num h) .none (.num l) = .ok s ∧
        IsNumber s.height ∧ IsNumber s.length ∧ IsNumber s.gradient ∧ IsNumber s.topX ∧ IsNumber s.topY ∧
        IsNumber s.botX ∧ IsNumber s.botY ∧ IsNumber s.extL ∧ IsNumber s.extH ∧ IsNumber s.lim1 ∧ IsNumber s.lim2 ∧
        IsNumber s.lim3 ∧ IsNumber s.lim4 ∧ IsNumber s.waterH) := by
  refine ⟨?_, ?_, ?_, fun h l hh hl => numbers_slope hcos hh hl⟩
  · intro uw f c d name color m n1 n2 n3 n4 e
    unfold Material.new at e
    simp only [bind, Except.bind, pure, Except.pure, assertNumber] at e
    cases h1 : assertRange (.num uw) (1 : X64 A) 50 false false <;> rw [h1] at e
    · cases e
    cases h2 : assertPositiveNumber (0 : X64 A) (.num f) <;> rw [h2] at e
    · cases e
    cases h3 : strArg name <;> rw [h3] at e
    · cases e
    cases h4 : strArg color <;> rw [h4] at e
    · cases e
    simp only [Except.ok.injEq] at e
    subst e
    exact ⟨n1, n2, isNumber_abs n3, isNumber_abs n4⟩
  · intro q o l color dyn u n1 n2 n3 e
    unfold Udl.new at e
    simp only [bind, Except.bind, pure, Except.pure, assertNumber] at e
    cases l with
    | num x =>
      by_cases ht : (PyVal.num x : PyVal (X64 A)).truthy = true
      · simp only [ht, if_true, Except.ok.injEq] at e
        subst e
        exact ⟨isNumber_abs n1, isNumber_abs n2, fun y hy => by cases hy; exact isNumber_abs (n3 x rfl)⟩
      · simp only [ht, Bool.false_eq_true, if_false, Except.ok.injEq] at e
        subst e
        exact ⟨isNumber_abs n1, isNumber_abs n2, fun y hy => by cases hy⟩
    | numSub x =>
      by_cases ht : (PyVal.numSub x : PyVal (X64 A)).truthy = true
      · simp [ht] at e
      · simp only [ht, Bool.false_eq_true, if_false, Except.ok.injEq] at e
        subst e
        exact ⟨isNumber_abs n1, isNumber_abs n2, fun y hy => by cases hy⟩
    | none =>
      simp only [PyVal.truthy, Bool.false_eq_true, if_false, Except.ok.injEq] at e
      subst e
      exact ⟨isNumber_abs n1, isNumber_abs n2, fun y hy => by cases hy⟩
    | other b =>
      cases b with
      | true => simp [PyVal.truthy] at e
      | false =>
        simp only [PyVal.truthy, Bool.false_eq_true, if_false, Except.ok.injEq] at e
        subst e
        exact ⟨isNumber_abs n1, isNumber_abs n2, fun y hy => by cases hy⟩
  · intro q o color dyn u n1 n2 e
    unfold LineLoad.new at e
    simp only [bind, Except.bind, pure, Except.pure, assertNumber, Except.ok.injEq] at e
    subst e
    exact ⟨isNumber_abs n1, isNumber_abs n2⟩

/-- C92: a water table at the depth NaN is accepted, and every factor of safety is what it is without
water. -/
theorem C92_nan_water (s : Slope (X64 A)) (cx cy r : X64 A) :
    (s.setWaterTable (.num nan)).2 = .ok () ∧ (s.setWaterTable (.num nan)).1.waterDepth = some nan ∧
    (s.setWaterTable (.num nan)).1.bishop cx cy r none none = s.removeWaterTable.1.bishop cx cy r none none := by
  have e : s.setWaterTable (.num nan) =
      (({ s with waterRL := some 0, waterDepth := some nan } : Slope (X64 A)).resetResults, .ok ()) := by
    simp [Slope.setWaterTable, assertPositiveNumber, PyVal.get!, sub_nan]
  rw [e]
  refine ⟨rfl, rfl, ?_⟩
  have z : pyEq (0 : X64 A) 0 = true := by simp [pyEq, zero_le_zero]
  have w1 : (({ s with waterRL := some 0, waterDepth := some nan } : Slope (X64 A)).resetResults).waterX = .ok none := by
    simp [Slope.waterX, Slope.resetResults, z]
  have w2 : (s.removeWaterTable.1).waterX = .ok none := rfl
  have f : (({ s with waterRL := some 0, waterDepth := some nan } : Slope (X64 A)).resetResults).sliceForces =
      s.removeWaterTable.1.sliceForces := by
    funext w rows
    unfold Slope.sliceForces
    rw [w1, w2]
    rfl
  have o : (({ s with waterRL := some 0, waterDepth := some nan } : Slope (X64 A)).resetResults).ordinary =
      s.removeWaterTable.1.ordinary := by
    funext cx cy r left right
    unfold Slope.ordinary
    rw [f]
    rfl
  unfold Slope.bishop
  rw [f, o]
  rfl

/-- C92: a load with the magnitude NaN is left out without a word: the call does what it does without
that load. -/
theorem C92_nan_magnitude (s : Slope (X64 A)) :
    (∀ (before after : List (UdlArg (X64 A))) u, u.magnitude = nan →
      s.setUdls (before ++ some u :: after) = s.setUdls (before ++ after)) ∧
    (∀ (before after : List (Option (LineLoad (X64 A)))) u, u.magnitude = nan →
      s.setLls (before ++ some u :: after) = s.setLls (before ++ after)) := by
  have gen : ∀ {α : Type} (f : Slope (X64 A) → α → Out (X64 A) Unit) (x : α), (∀ s, f s x = (s, .ok ())) →
      ∀ (before after : List α) s, Slope.forEach f (before ++ x :: after) s = Slope.forEach f (before ++ after) s := by
    intro α f x hx before after
    induction before with
    | nil =>
      intro s
      simp only [List.nil_append, Slope.forEach]
      rw [hx s]; rfl
    | cons b before ih =>
      intro s
      simp only [List.cons_append, Slope.forEach]
      congr 1
      funext t _
      exact ih t
  constructor
  · intro before after u hu
    unfold Slope.setUdls
    rw [gen Slope.addUdl (some u)]
    intro s
    simp [Slope.addUdl, hu, lt_nan]
  · intro before after u hu
    unfold Slope.setLls
    rw [gen Slope.addLl (some u)]
    intro s
    simp [Slope.addLl, hu, lt_nan]

/-- C92: an analysis with `max_fos` NaN reports no circle at all. -/
theorem C92_nan_max_fos (s : Slope (X64 A)) (h : (s.analyseSlope (some nan)).2 = .ok ()) :
    (s.analyseSlope (some nan)).1.search = [] := by
  rcases analyseSlope_cases s (some nan) with ⟨ps, _, _, e⟩ | ⟨x, _, _, e⟩ | ⟨_, _, _, x, _, _, _, _, _, e⟩
  · rw [e]
    show tidySearch (some nan) _ = []
    unfold tidySearch
    simp only [pyEq_nan, Bool.false_eq_true, if_false]
    rw [List.filter_eq_nil_iff]
    intro p _
    cases p.fosVal with
    | none => simp
    | some f => simp [le_nan]
  · rw [e] at h; cases h
  · rw [e] at h; cases h

/-- C92: when the cohesion of every material is NaN, every factor of safety is NaN: that of every circle,
and with them the least one. -/
theorem C92_nan_cohesion (s : Slope (X64 A)) (h : ∀ l ∈ s.materials, l.mat.cohesion = nan) :
    (∀ cx cy r F, s.bishop cx cy r none none = .ok F → F = nan) ∧
    (∀ m, (s.analyseSlope m).2 = .ok () → ∀ p ∈ (s.analyseSlope m).1.search, p.fos = some (some nan)) ∧
    (∀ m F, (s.analyseSlope m).2 = .ok () → (s.analyseSlope m).1.getMinFos = .ok F → F = some nan) := by
  have h2 : ∀ m, (s.analyseSlope m).2 = .ok () → ∀ p ∈ (s.analyseSlope m).1.search, p.fos = some (some nan) := by
    intro m ok p hp
    rcases analyseSlope_cases s m with ⟨ps, _, _, e⟩ | ⟨x, _, _, e⟩ | ⟨_, _, _, x, _, _, _, _, _, e⟩
    · rw [e] at hp
      obtain ⟨h3, h4⟩ := mem_tidySearch (hp : p ∈ tidySearch m _)
      obtain ⟨q, _, rfl⟩ := List.mem_map.mp h3
      obtain ⟨x, hx⟩ := Option.isSome_iff_exists.mp h4
      have hx' : fosOf s q = some x := hx
      have := fosOf_some.mp hx'
      show some (fosOf s q) = _
      rw [hx', bishop_cohesion_nan h this]
    · rw [e] at ok; cases ok
    · rw [e] at ok; cases ok
  refine ⟨fun cx cy r F e => bishop_cohesion_nan h e, h2, ?_⟩
  intro m F ok e
  unfold Slope.getMinFos at e
  have := h2 m ok
  cases hs : (s.analyseSlope m).1.search with
  | nil => rw [hs] at e; cases e
  | cons p l =>
    rw [hs] at e this
    simp only [this p (by simp), Except.ok.injEq] at e
    exact e.symm

end PySlope
