import Verif.Props.Assessed
import Verif.Props.FosLaws

/-! # Property C93: friction and the factor of safety -/

namespace PySlope
open Finset

theorem unitWeightAt_rougher {s t : Slope ℝ} (h : Rougher s t) :
    unitWeightAt t.materials = unitWeightAt s.materials := by
  funext y
  unfold unitWeightAt
  rcases layerAt_forall2 h.materials (fun x y hxy => hxy.2.2.2.2) y with ⟨e1, e2⟩ | ⟨l, l', e1, e2, e3⟩
  · rw [e1, e2]
  · rw [e1, e2]; exact e3.1

/-- The slices of a configuration with more friction. -/
theorem Rougher.slice {s t : Slope ℝ} (h : Rougher s t) (cx cy r xl xr : ℝ) (i : ℕ) :
    let p := sliceOf t cx cy r xl xr i
    let q := sliceOf s cx cy r xl xr i
    p.b = q.b ∧ p.W = q.W ∧ p.u = q.u ∧ p.c = q.c ∧ p.sin = q.sin ∧ p.cos = q.cos ∧ q.φ ≤ p.φ ∧ (p.φ < 90 ∨ p.φ = q.φ) := by
  have hg : groundY t = groundY s := by
    funext x; unfold groundY; rw [h.topX, h.length, h.extH, h.height]
  have hp : pressureAt t = pressureAt s := by
    funext x yb yt; unfold pressureAt; rw [h.waterRL, hg, h.topX, h.length, h.waterH]
  have hw : weightOn t = weightOn s := by
    funext a b yb yt; unfold weightOn; rw [unitWeightAt_rougher h, h.udls, h.lls]
  intro p q
  simp only [p, q, sliceOf, h.slices, hg, hp, hw, true_and]
  rcases layerAt_forall2 h.materials (fun x y hxy => hxy.2.2.2.2)
    (cy - √(r ^ 2 - (xl + ((i : ℝ) + 1 / 2) * ((xr - xl) / s.slices) - cx) ^ 2))
    with ⟨e1, e2⟩ | ⟨l, l', e1, e2, e3⟩
  · simp only [e1, e2]
    exact ⟨trivial, le_refl _, .inr trivial⟩
  · simp only [e1, e2]
    exact ⟨e3.2.1, e3.2.2.1, .inl e3.2.2.2.1⟩

theorem tan_le_deg {φ ψ : ℝ} (h0 : 0 ≤ φ) (h : φ ≤ ψ) (h1 : ψ < 90) :
    Real.tan (φ * (Real.pi / 180)) ≤ Real.tan (ψ * (Real.pi / 180)) := by
  have hp := Real.pi_pos
  rcases eq_or_lt_of_le h with e | e
  · rw [e]
  · apply le_of_lt
    apply Real.tan_lt_tan_of_lt_of_lt_pi_div_two
    · have : 0 ≤ φ * (Real.pi / 180) := by positivity
      linarith
    · nlinarith
    · nlinarith

/-- The tangents of a configuration with more friction. -/
theorem Rougher.tan {s t : Slope ℝ} (h : Rougher s t) {cx cy r xl xr : ℝ} {i : ℕ}
    (h0 : 0 ≤ (sliceOf s cx cy r xl xr i).φ) :
    (sliceOf s cx cy r xl xr i).tan ≤ (sliceOf t cx cy r xl xr i).tan := by
  obtain ⟨_, _, _, _, _, _, h7, h8⟩ := h.slice cx cy r xl xr i
  unfold Slice.tan
  rcases h8 with h8 | h8
  · exact tan_le_deg h0 h7 h8
  · rw [h8]

theorem Rougher.driving {s t : Slope ℝ} (h : Rougher s t) (cx cy r xl xr : ℝ) (n : ℕ) :
    PySlope.driving n (sliceOf t cx cy r xl xr) = PySlope.driving n (sliceOf s cx cy r xl xr) := by
  unfold PySlope.driving
  apply sum_congr rfl
  intro i _
  obtain ⟨_, h2, _, _, h5, _⟩ := h.slice cx cy r xl xr i
  rw [h2, h5]

/-- C93 (partial): raising friction angles does not lower the factor of safety of the ordinary method, on any
circle with any end points. Missing: Bishop's method (`C93_friction_lowers`). -/
theorem C93_ordinary_partial (s t : Slope ℝ) (rs : Reachable s) (rt : Reachable t)
    (h : Rougher s t) (cx cy r : ℝ) (a b : ℝ × ℝ) :
    ∀ F, s.ordinary cx cy r (some a) (some b) = .ok F →
      ∃ F', t.ordinary cx cy r (some a) (some b) = .ok F' ∧ F ≤ F' := by
  intro F e
  obtain ⟨h1, h2, h3, h4, h5, h6, ⟨w, hw⟩, h8, rfl⟩ := (C55_ordinary_formula s rs cx cy r a b F).mp e
  have hm : t.materials ≠ [] := by
    intro c
    have := h.materials
    rw [c] at this
    cases hs : s.materials with
    | nil => exact h6 hs
    | cons x xs => rw [hs] at this; cases this
  have hwt : t.waterX = s.waterX := by
    unfold Slope.waterX Slope.getExternalX
    rw [h.waterRL, h.gradient, h.topX, h.topY, h.botX, h.botY, h.extL, h.extH]
  have hdr := h.driving cx cy r a.1 b.1 s.slices.toNat
  refine ⟨_, (C55_ordinary_formula t rt cx cy r a b _).mpr
    ⟨h1, h2, h3, h4, by rw [h.slices]; exact h5, hm, ⟨w, by rw [hwt, hw]⟩, by rw [h.slices, hdr]; exact h8,
      rfl⟩, ?_⟩
  unfold fellenius
  rw [h.slices, hdr]
  apply div_le_div_of_nonneg_right _ h8.le
  apply sum_le_sum
  intro i hi
  have hx : a.1 < b.1 := by norm_num at h4; linarith
  have hin : (centre a.1 b.1 s.slices i - cx) ^ 2 < r ^ 2 := by
    have := h5 i (mem_range.mp hi)
    rw [← abs_of_pos h3, ← sq_lt_sq] at this
    exact this
  obtain ⟨a1, a2, a3, a4, a5, a6, a7⟩ := slice_facts (cy := cy) rs h6 h3 hx hin
  obtain ⟨b1, b2, b3, b4, b5, b6, b7, _⟩ := h.slice cx cy r a.1 b.1 i
  rw [b1, b2, b3, b4, b6]
  exact add_le_add (le_refl _) (mul_le_mul_of_nonneg_left (h.tan a3) (le_max_left _ _))

/-- A case of `C93_ordinary_partial`: 20 and 30 degrees. -/
example : Rougher (exOf (exFric 20 5)) (exOf (exFric 30 5)) ∧
    ∃ F F', (exOf (exFric 20 5)).ordinary 9 (35 / 3) (17 / 3) (some (4, 9)) (some (9, 6)) = .ok F ∧
      (exOf (exFric 30 5)).ordinary 9 (35 / 3) (17 / 3) (some (4, 9)) (some (9, 6)) = .ok F' ∧ F ≤ F' := by
  have g := exFric_ground 20 5 (by norm_num)
  have h : Rougher (exOf (exFric 20 5)) (exOf (exFric 30 5)) := by
    refine ⟨by constructor <;> rfl, ?_, rfl, rfl⟩
    refine .cons ⟨rfl, rfl, ?_, ?_, rfl⟩ .nil
    · change |(20 : ℝ)| ≤ |30|; norm_num
    · change |(30 : ℝ)| < 90; norm_num
  have e := g.ordinary (by norm_num [exFric]) rfl
  obtain ⟨F', h1, h2⟩ := C93_ordinary_partial _ _ g.reach (exFric_ground 30 5 (by norm_num)).reach h _ _ _ _ _ _ e
  exact ⟨h, _, F', e, h1, h2⟩

/-- Specification: at the factor of safety `F` no base is in tension: the part of the weight across the base is
at least what the mobilised cohesion holds of it. -/
def NoTension (n : ℕ) (q : ℕ → Slice) (F : ℝ) : Prop :=
  ∀ i < n, (q i).c * (q i).b * (q i).sin / F ≤ ((q i).W - (q i).u * (q i).b) * (q i).cos

/-- C93 (partial): where bases dip to the toe and no base is in tension, raising friction angles does not lower
the solution of Bishop's equation. Missing: bases in tension, as at the top of a steep slip surface in cohesive
ground (`C93_friction_lowers`). -/
theorem C93_no_tension_partial (s t : Slope ℝ) (rs : Reachable s) (h : Rougher s t) (hm : s.materials ≠ [])
    (cx cy r : ℝ) (hr : 0 < r) (a b : ℝ × ℝ) (hab : a.1 < b.1)
    (hin : ∀ i < s.slices.toNat, (centre a.1 b.1 s.slices i - cx) ^ 2 < r ^ 2)
    (hD : Dips s.slices.toNat (sliceOf s cx cy r a.1 b.1)) (F F' : ℝ) (hF : 0 < F) (hF' : 0 < F')
    (hT : NoTension s.slices.toNat (sliceOf s cx cy r a.1 b.1) F)
    (e : bishopRhs s.slices.toNat (sliceOf s cx cy r a.1 b.1) F = F)
    (e' : bishopRhs t.slices.toNat (sliceOf t cx cy r a.1 b.1) F' = F') : F ≤ F' := by
  rw [h.slices] at e'
  set n := s.slices.toNat
  set q := sliceOf s cx cy r a.1 b.1
  set p := sliceOf t cx cy r a.1 b.1
  have hdr : driving n p = driving n q := h.driving cx cy r a.1 b.1 n
  have htan : ∀ i < n, (q i).tan ≤ (p i).tan := fun i hi =>
    h.tan (slice_facts (cy := cy) rs hm hr hab (hin i hi)).2.2.1
  have hsl := fun i => h.slice cx cy r a.1 b.1 i
  have press : ∀ i < n, 0 ≤ (q i).W - (q i).u * (q i).b := by
    intro i hi
    have f := slice_facts (cy := cy) rs hm hr hab (hin i hi)
    have h1 := hT i hi
    have h2 : 0 ≤ (q i).c * (q i).b * (q i).sin / F :=
      div_nonneg (mul_nonneg (mul_nonneg f.2.1 f.1.le) (hD.sin i hi)) hF.le
    have h3 := hD.cos i hi
    by_contra hc
    push Not at hc
    nlinarith
  have hold : ∀ i < n, (q i).hold ≤ (p i).hold := by
    intro i hi
    obtain ⟨b1, b2, b3, b4, _⟩ := hsl i
    unfold Slice.hold
    rw [b1, b2, b3, b4]
    exact add_le_add (le_refl _) (mul_le_mul_of_nonneg_left (htan i hi) (press i hi))
  have hP : Dips n p := by
    obtain ⟨j, hj, hpj⟩ := hD.some
    exact ⟨fun i hi => by rw [(hsl i).2.2.2.2.2.1]; exact hD.cos i hi,
      fun i hi => by rw [(hsl i).2.2.2.2.1]; exact hD.sin i hi,
      fun i hi => le_trans (hD.tan i hi) (htan i hi), fun i hi => le_trans (hD.hold i hi) (hold i hi),
      ⟨j, hj, lt_of_lt_of_le hpj (hold j hj)⟩, by rw [hdr]; exact hD.driving⟩
  -- at `F` the rougher ground resists as much
  have key : bishopRhs n q F ≤ bishopRhs n p F := by
    rw [Dips.rhs hF, Dips.rhs hF, hdr]
    apply div_le_div_of_nonneg_right _ hD.driving.le
    apply sum_le_sum
    intro i hi
    have hi := mem_range.mp hi
    obtain ⟨b1, b2, b3, b4, b5, b6, _⟩ := hsl i
    have d1 := hD.denom hi hF
    have d2 := hP.denom hi hF
    have ht := hT i hi
    rw [div_le_div_iff₀ d1 d2]
    unfold Slice.hold
    rw [b1, b2, b3, b4, b5, b6]
    have h1 := htan i hi
    have h2 := mul_le_mul_of_nonneg_right ht (sub_nonneg.mpr h1)
    have e1 : ∀ T : ℝ, (q i).sin * T / F = (q i).sin / F * T := fun T => by ring
    rw [e1, e1]
    have e2 : (q i).c * (q i).b * (q i).sin / F = (q i).c * (q i).b * ((q i).sin / F) := by ring
    rw [e2] at h2
    nlinarith
  rw [e] at key
  by_contra hc
  push Not at hc
  have h1 := hP.ratio_anti hF' hc
  rw [e', div_self hF'.ne'] at h1
  have : 1 ≤ bishopRhs n p F / F := by rw [le_div_iff₀ hF]; linarith
  linarith

/-! ## A steep cut in cohesive ground -/

/-- The object built by `Slope(height=12, length=0.08)`. -/
noncomputable def cutSlope : Slope ℝ := freshSlope 12 (2 / 25)

theorem cutSlope_new : Slope.new (.num 12) (.num 30) (.num (2 / 25)) = .ok cutSlope := by
  rw [new_eq]
  have e : boundaryInputs (.num 12) (.num 30) (.num (2 / 25)) = .ok ((12 : ℝ), (2 / 25 : ℝ)) := by
    have h90 : ¬ ((@OfNat.ofNat ℝ 90 (Lit.natLit 90)) < 30) := not_lt.mpr (by
      change (30 : ℝ) ≤ 90; norm_num)
    have h1 : ¬ ((30 : ℝ) < 0) := by norm_num
    have h2 : ¬ ((12 : ℝ) < 0) := by norm_num
    have h3 : ¬ ((2 / 25 : ℝ) < 0) := by norm_num
    simp [boundaryInputs, assertStrictlyPositiveNumber, assertPositiveNumber, assertRange,
      PyCmp.ltb, PyCmp.eqb, bind, Except.bind, pure, Except.pure, PyVal.get!, h90, h1, h2, h3]
    norm_num
  rw [e]; rfl

theorem cutSlope_reachable : Reachable cutSlope := .init cutSlope_new

/-- `s = Slope(height=12, length=0.08); s.set_materials(m)`. -/
noncomputable def cutOf (m : Material ℝ) : Slope ℝ :=
  { cutSlope with materials := [mkLayer cutSlope.extH 0 m] }

theorem cutSlope_extH : cutSlope.extH = 36 := by
  change max (max (3 * (12 : ℝ)) 6) (5 * (2 / 25) / 2) = 36
  rw [max_eq_left, max_eq_left] <;> norm_num

theorem cutSlope_extL : cutSlope.extL = 48 := by
  change max (max (5 * (2 / 25 : ℝ)) 10) (4 * 12) = 48
  norm_num

theorem cut_setMaterials (φ c : ℝ) : cutSlope.setMaterials [some (exFric φ c)] = (cutOf (exFric φ c), .ok ()) := by
  rw [setMaterials_one cutSlope_reachable.wf.geo rfl]
  have : cutSlope.deepen (exFric φ c).depth = cutSlope := by
    unfold Slope.deepen
    rw [if_neg]
    rw [cutSlope_extH]; simp [exFric]; norm_num
  rw [this]
  rfl

theorem cutOf_reachable {φ c : ℝ} (hφ : 0 ≤ φ) : Reachable (cutOf (exFric φ c)) := by
  have e := cut_setMaterials φ c
  have := Reachable.call cutSlope_reachable (.setMaterials cutSlope [some (exFric φ c)] (by
    intro m' hm; simp at hm; subst hm; exact exFric_constructed φ c hφ))
  rwa [e] at this

section Cut
variable {φ c : ℝ} (hφ : 0 ≤ φ)

theorem cut_extH (m) : (cutOf m).extH = 36 := cutSlope_extH
theorem cut_extL (m) : (cutOf m).extL = 48 := cutSlope_extL
theorem cut_topX (m) : (cutOf m).topX = 599 / 25 := by
  change cutSlope.topX = _
  rw [cutSlope_reachable.wf.geo.topX, cutSlope_extL]
  change (48 - 2 / 25 : ℝ) / 2 = _
  norm_num
theorem cut_topY (m) : (cutOf m).topY = 36 := by
  change cutSlope.topY = _
  rw [cutSlope_reachable.wf.geo.topY, cutSlope_extH]
theorem cut_botX (m) : (cutOf m).botX = 601 / 25 := by
  change cutSlope.botX = _
  rw [cutSlope_reachable.wf.geo.botX]
  change (cutOf m).topX + (2 / 25 : ℝ) = _
  rw [cut_topX]; norm_num
theorem cut_botY (m) : (cutOf m).botY = 24 := by
  change cutSlope.botY = _
  rw [cutSlope_reachable.wf.geo.botY, cutSlope_extH]
  change (36 - 12 : ℝ) = _
  norm_num

theorem cut_crossing (m) (p : ℝ × ℝ) : Crossing (cutOf m) 32 36 10 p ↔ p = (22, 36) ∨ p = (24, 30) := by
  obtain ⟨x, y⟩ := p
  simp only [Prod.mk.injEq]
  unfold Crossing OnCircle OnLine
  simp only [cut_topX, cut_topY, cut_botX, cut_botY, cut_extL]
  constructor
  · rintro ⟨h, ⟨rfl, h1, h2, h3⟩ | ⟨rfl, h1, h2, h3⟩ | ⟨h1, h2, h3⟩⟩
    · left
      have : (x - 22) * (x - 42) = 0 := by linarith
      rcases mul_eq_zero.mp this with h | h
      · exact ⟨by linarith, rfl⟩
      · exfalso; linarith
    · exfalso; nlinarith [sq_nonneg (x - 32)]
    · right
      have hy : y = 36 - 150 * (x - 599 / 25) := by linarith
      subst hy
      have : (x - 24) * (22501 * x - 22501 * 24 + 1784) = 0 := by linarith
      rcases mul_eq_zero.mp this with h | h
      · exact ⟨by linarith, by linarith⟩
      · exfalso; linarith
  · rintro (⟨rfl, rfl⟩ | ⟨rfl, rfl⟩)
    · norm_num
    · norm_num

theorem cut_first (m) {l rt : ℝ × ℝ} (h : FirstCrossings (cutOf m) 32 36 10 l rt) : l = (22, 36) ∧ rt = (24, 30) := by
  obtain ⟨h1, h2, h3, _⟩ := h
  rcases (cut_crossing m l).mp h1 with rfl | rfl <;> rcases (cut_crossing m rt).mp h2 with rfl | rfl <;>
    first | (norm_num at h3; done) | exact ⟨rfl, rfl⟩

theorem cut_cuts (m) : CutsMass (cutOf m) 32 36 10 22 24 := by
  refine ⟨by norm_num, ?_⟩
  intro x h1 h2
  have hs : 0 < (10 : ℝ) ^ 2 - (x - 32) ^ 2 := by nlinarith
  have hp := Real.sqrt_pos.mpr hs
  unfold groundY
  rw [cut_topX, cut_extH]
  change _ < if x ≤ 599 / 25 then (36 : ℝ) else
    if x < 599 / 25 + 2 / 25 then 36 - (x - 599 / 25) * (12 / (2 / 25)) else 36 - 12
  split
  · linarith
  · rename_i h3
    push Not at h3
    rw [if_pos (by norm_num; linarith)]
    have : 150 * (x - 599 / 25) < √((10 : ℝ) ^ 2 - (x - 32) ^ 2) := by
      apply Real.lt_sqrt_of_sq_lt
      have h4 : 0 < (24 - x) * (1784 - 22501 * (24 - x)) := mul_pos (by linarith) (by linarith)
      nlinarith
    have e : (12 / (2 / 25) : ℝ) = 150 := by norm_num
    rw [e]; linarith

/-- The inclinations of the bases: sine and cosine. -/
noncomputable def cutSin (i : ℕ) : ℝ := 1 - (i + 1 / 2) * (1 / 125)
noncomputable def cutCos (i : ℕ) : ℝ := √(1 - cutSin i ^ 2)

/-- The cosines to four digits. -/
def cutTable (i : ℕ) : ℕ := [893, 1544, 1989, 2349, 2659, 2933, 3182, 3411, 3624, 3823, 4011, 4189, 4358, 4520, 4674, 4823, 4965, 5102, 5235, 5363, 5487, 5607, 5723, 5836, 5946].getD i 0

theorem cutCos_table : ∀ i < 25, (cutTable i : ℝ) / 10000 ≤ cutCos i ∧ cutCos i ≤ ((cutTable i : ℝ) + 1) / 10000 := by
  intro i hi
  interval_cases i <;> unfold cutCos cutSin cutTable <;>
    refine ⟨Real.le_sqrt_of_sq_le ?_, Real.sqrt_le_iff.mpr ⟨?_, ?_⟩⟩ <;> norm_num

theorem cut_slice {i : ℕ} (hi : i < 25) :
    sliceOf (cutOf (exFric φ c)) 32 36 10 22 24 i =
      { b := 2 / 25, W := 16 * cutCos i, u := 0, c := |c|, φ := |φ|, sin := cutSin i, cos := cutCos i } := by
  have hi' : (i : ℝ) ≤ 24 := by exact_mod_cast Nat.lt_succ_iff.mp hi
  have h0 : (0 : ℝ) ≤ i := Nat.cast_nonneg i
  have hsl : (cutOf (exFric φ c)).slices = 25 := rfl
  have hb : ((24 : ℝ) - 22) / ((cutOf (exFric φ c)).slices : ℝ) = 2 / 25 := by rw [hsl]; norm_num
  have hx : (22 : ℝ) + ((i : ℝ) + 1 / 2) * (2 / 25) = 32 - 10 * cutSin i := by unfold cutSin; ring
  have hroot : √((10 : ℝ) ^ 2 - (32 - 10 * cutSin i - 32) ^ 2) = 10 * cutCos i := by
    unfold cutCos
    rw [show (10 : ℝ) ^ 2 - (32 - 10 * cutSin i - 32) ^ 2 = 10 ^ 2 * (1 - cutSin i ^ 2) by ring,
      Real.sqrt_mul (by norm_num), Real.sqrt_sq (by norm_num)]
  have hcos : 0 ≤ cutCos i := Real.sqrt_nonneg _
  have hg : groundY (cutOf (exFric φ c)) (32 - 10 * cutSin i) = 36 := by
    unfold groundY
    rw [if_pos, cut_extH]
    rw [cut_topX]
    unfold cutSin
    linarith
  have hlay : ∀ y, layerAt (cutOf (exFric φ c)).materials y = some (mkLayer cutSlope.extH 0 (exFric φ c)) := by
    intro y
    change layerAt [mkLayer cutSlope.extH 0 (exFric φ c)] y = _
    unfold layerAt
    simp only [List.find?_cons, List.find?_nil, List.getLast?_singleton]
    split <;> rfl
  have hint : ∀ a b : ℝ, (∫ y in a..b, unitWeightAt (cutOf (exFric φ c)).materials y) = 20 * (b - a) := by
    intro a b
    have : ∀ y, unitWeightAt (cutOf (exFric φ c)).materials y = 20 := by
      intro y
      unfold unitWeightAt
      rw [hlay]; rfl
    simp only [this, intervalIntegral.integral_const, smul_eq_mul]
    ring
  unfold sliceOf
  simp only [hb, hx, hroot, hg, hlay]
  rw [max_eq_left (by linarith)]
  congr 1
  · unfold weightOn
    rw [hint]
    change _ + (List.map _ []).sum + (List.map _ []).sum = _
    simp only [List.map_nil, List.sum_nil, add_zero]
    ring
  · ring
  · ring

theorem cutCos_pos {i : ℕ} (hi : i < 25) : 0 < cutCos i := by
  unfold cutCos cutSin
  apply Real.sqrt_pos.mpr
  have hi' : (i : ℝ) ≤ 24 := by exact_mod_cast Nat.lt_succ_iff.mp hi
  have h0 : (0 : ℝ) ≤ i := Nat.cast_nonneg i
  nlinarith

theorem cutSin_pos {i : ℕ} (hi : i < 25) : 0 < cutSin i := by
  unfold cutSin
  have hi' : (i : ℝ) ≤ 24 := by exact_mod_cast Nat.lt_succ_iff.mp hi
  linarith

theorem cut_driving : driving 25 (sliceOf (cutOf (exFric φ c)) 32 36 10 22 24) =
    ∑ i ∈ range 25, 16 * cutCos i * cutSin i := by
  unfold driving
  apply sum_congr rfl
  intro i hi
  rw [cut_slice (mem_range.mp hi)]

theorem cut_driving_pos : 0 < ∑ i ∈ range 25, 16 * cutCos i * cutSin i := by
  apply sum_pos
  · intro i hi
    have := cutCos_pos (mem_range.mp hi)
    have := cutSin_pos (mem_range.mp hi)
    positivity
  · exact ⟨0, by simp⟩

/-- Without friction both methods give cohesion times the length of the arc over the driving sum. -/
noncomputable def clayFos : ℝ := (∑ i ∈ range 25, 8 / cutCos i) / ∑ i ∈ range 25, 16 * cutCos i * cutSin i

theorem clay_fellenius : fellenius 25 (sliceOf (cutOf (exFric 0 100)) 32 36 10 22 24) = clayFos := by
  unfold fellenius clayFos
  rw [cut_driving]
  congr 1
  apply sum_congr rfl
  intro i hi
  rw [cut_slice (mem_range.mp hi)]
  simp only [Slice.tan, abs_zero, zero_mul, Real.tan_zero, mul_zero, add_zero]
  rw [abs_of_pos (by norm_num)]; ring

theorem clayFos_pos : 0 < clayFos := by
  apply div_pos _ cut_driving_pos
  apply sum_pos
  · intro i hi
    have := cutCos_pos (mem_range.mp hi)
    positivity
  · exact ⟨0, by simp⟩

theorem clay_rhs : bishopRhs 25 (sliceOf (cutOf (exFric 0 100)) 32 36 10 22 24) clayFos = clayFos := by
  unfold bishopRhs
  rw [if_neg clayFos_pos.ne', cut_driving]
  conv_rhs => unfold clayFos
  congr 1
  apply sum_congr rfl
  intro i hi
  rw [cut_slice (mem_range.mp hi)]
  simp only [Slice.tan, abs_zero, zero_mul, Real.tan_zero, mul_zero, add_zero, zero_div]
  rw [abs_of_pos (by norm_num)]; ring

theorem cut_clay {F : ℝ} (h : BishopValue (cutOf (exFric 0 100)) 32 36 10 22 24 F) : F = clayFos := by
  obtain ⟨_, k, f, _, h0, hs, rfl, _, _⟩ := h
  change f 0 = fellenius 25 _ at h0
  change ∀ i < k, f (i + 1) = bishopRhs 25 _ (f i) at hs
  have : ∀ i ≤ k, f i = clayFos := by
    intro i
    induction i with
    | zero => intro _; rw [h0, clay_fellenius]
    | succ i ih =>
      intro hi
      rw [hs i (by omega), ih (by omega), clay_rhs]
  exact this k le_rfl

theorem tan30 : (0.5773 : ℝ) ≤ Real.tan (30 * (Real.pi / 180)) ∧ Real.tan (30 * (Real.pi / 180)) ≤ 0.5774 := by
  rw [show (30 : ℝ) * (Real.pi / 180) = Real.pi / 6 by ring, Real.tan_pi_div_six]
  have h := Real.sqrt_nonneg 3
  have h2 := Real.sq_sqrt (show (0 : ℝ) ≤ 3 by norm_num)
  have h3 : 0 < √(3 : ℝ) := Real.sqrt_pos.mpr (by norm_num)
  constructor
  · rw [le_div_iff₀ h3]; nlinarith
  · rw [div_le_iff₀ h3]; nlinarith

theorem cut_dips (hφ : 0 < φ) (h90 : φ < 90) : Dips 25 (sliceOf (cutOf (exFric φ c)) 32 36 10 22 24) := by
  have ht : 0 < Real.tan (φ * (Real.pi / 180)) := by
    have hp := Real.pi_pos
    apply Real.tan_pos_of_pos_of_lt_pi_div_two
    · positivity
    · nlinarith
  have hold : ∀ i < 25, 0 < (sliceOf (cutOf (exFric φ c)) 32 36 10 22 24 i).hold := by
    intro i hi
    rw [cut_slice hi]
    have := cutCos_pos hi
    simp only [Slice.hold, Slice.tan]
    rw [abs_of_pos hφ]
    have : 0 < (16 * cutCos i - 0 * (2 / 25)) * Real.tan (φ * (Real.pi / 180)) := mul_pos (by linarith) ht
    have : (0 : ℝ) ≤ |c| * (2 / 25) := by positivity
    linarith
  refine ⟨?_, ?_, ?_, fun i hi => (hold i hi).le, ⟨0, by norm_num, hold 0 (by norm_num)⟩, ?_⟩
  · intro i hi; rw [cut_slice hi]; exact cutCos_pos hi
  · intro i hi; rw [cut_slice hi]; exact (cutSin_pos hi).le
  · intro i hi
    rw [cut_slice hi]
    simp only [Slice.tan]
    rw [abs_of_pos hφ]
    exact ht.le
  · rw [cut_driving]; exact cut_driving_pos

/-- The ordinary method gives at most 4.6. -/
theorem cut_rough_start : fellenius 25 (sliceOf (cutOf (exFric 30 100)) 32 36 10 22 24) ≤ 4.6 := by
  unfold fellenius
  rw [cut_driving, div_le_iff₀ cut_driving_pos, mul_sum]
  have h1 : ∀ i ∈ range 25, (sliceOf (cutOf (exFric 30 100)) 32 36 10 22 24 i).c *
      ((sliceOf (cutOf (exFric 30 100)) 32 36 10 22 24 i).b / (sliceOf (cutOf (exFric 30 100)) 32 36 10 22 24 i).cos) +
      max 0 ((sliceOf (cutOf (exFric 30 100)) 32 36 10 22 24 i).W * (sliceOf (cutOf (exFric 30 100)) 32 36 10 22 24 i).cos -
        (sliceOf (cutOf (exFric 30 100)) 32 36 10 22 24 i).u *
          ((sliceOf (cutOf (exFric 30 100)) 32 36 10 22 24 i).b / (sliceOf (cutOf (exFric 30 100)) 32 36 10 22 24 i).cos)) *
        (sliceOf (cutOf (exFric 30 100)) 32 36 10 22 24 i).tan ≤
      8 / ((cutTable i : ℝ) / 10000) + 16 * (1 - cutSin i ^ 2) * 0.5774 := by
    intro i hi
    have hi := mem_range.mp hi
    have hc := cutCos_pos hi
    obtain ⟨t1, t2⟩ := cutCos_table i hi
    have t0 : 0 < (cutTable i : ℝ) / 10000 := by
      unfold cutTable
      interval_cases i <;> norm_num
    have hsq : cutCos i * cutCos i = 1 - cutSin i ^ 2 := Real.mul_self_sqrt (Real.sqrt_pos.mp hc).le
    rw [cut_slice hi]
    simp only [Slice.tan]
    rw [abs_of_pos (by norm_num : (0 : ℝ) < 30), abs_of_pos (by norm_num : (0 : ℝ) < 100), zero_mul, sub_zero,
      mul_assoc, hsq, max_eq_right (by rw [← hsq]; positivity)]
    refine add_le_add ?_ (mul_le_mul_of_nonneg_left tan30.2 (by rw [← hsq]; positivity))
    rw [← mul_div_assoc]
    norm_num only
    exact div_le_div_of_nonneg_left (by norm_num) t0 t1
  have h2 : ∀ i ∈ range 25, 4.6 * (16 * ((cutTable i : ℝ) / 10000) * cutSin i) ≤ 4.6 * (16 * cutCos i * cutSin i) := by
    intro i hi
    have hi := mem_range.mp hi
    have hs := cutSin_pos hi
    obtain ⟨t1, t2⟩ := cutCos_table i hi
    have := mul_le_mul_of_nonneg_right t1 hs.le
    nlinarith
  refine le_trans (sum_le_sum h1) (le_trans ?_ (sum_le_sum h2))
  simp only [sum_range_succ, sum_range_zero, cutTable, cutSin]
  norm_num

/-- From there Bishop's equation gives less than the factor of safety without friction. -/
theorem cut_rough_turn : bishopRhs 25 (sliceOf (cutOf (exFric 30 100)) 32 36 10 22 24) 4.6 < clayFos := by
  unfold bishopRhs clayFos
  rw [if_neg (by norm_num), cut_driving]
  apply div_lt_div_of_pos_right _ cut_driving_pos
  have h1 : ∀ i ∈ range 25, ((sliceOf (cutOf (exFric 30 100)) 32 36 10 22 24 i).c *
      (sliceOf (cutOf (exFric 30 100)) 32 36 10 22 24 i).b + ((sliceOf (cutOf (exFric 30 100)) 32 36 10 22 24 i).W -
        (sliceOf (cutOf (exFric 30 100)) 32 36 10 22 24 i).u * (sliceOf (cutOf (exFric 30 100)) 32 36 10 22 24 i).b) *
        (sliceOf (cutOf (exFric 30 100)) 32 36 10 22 24 i).tan) /
      ((sliceOf (cutOf (exFric 30 100)) 32 36 10 22 24 i).cos + (sliceOf (cutOf (exFric 30 100)) 32 36 10 22 24 i).sin *
        (sliceOf (cutOf (exFric 30 100)) 32 36 10 22 24 i).tan / 4.6) ≤
      (8 + 16 * (((cutTable i : ℝ) + 1) / 10000) * 0.5774) / ((cutTable i : ℝ) / 10000 + cutSin i * 0.5773 / 4.6) := by
    intro i hi
    have hi := mem_range.mp hi
    have hc := cutCos_pos hi
    have hs := cutSin_pos hi
    obtain ⟨t1, t2⟩ := cutCos_table i hi
    have t0 : 0 < (cutTable i : ℝ) / 10000 := by
      unfold cutTable
      interval_cases i <;> norm_num
    obtain ⟨u1, u2⟩ := tan30
    rw [cut_slice hi]
    simp only [Slice.tan]
    rw [abs_of_pos (by norm_num : (0 : ℝ) < 30), abs_of_pos (by norm_num : (0 : ℝ) < 100), zero_mul, sub_zero]
    have u0 : 0 < Real.tan (30 * (Real.pi / 180)) := by linarith
    apply div_le_div₀
    · positivity
    · refine add_le_add (by norm_num) ?_
      apply mul_le_mul _ u2 u0.le (by positivity)
      linarith
    · positivity
    · refine add_le_add t1 ?_
      apply div_le_div_of_nonneg_right _ (by norm_num)
      exact mul_le_mul_of_nonneg_left u1 hs.le
  have h2 : ∀ i ∈ range 25, 8 / (((cutTable i : ℝ) + 1) / 10000) ≤ 8 / cutCos i := by
    intro i hi
    have hi := mem_range.mp hi
    exact div_le_div_of_nonneg_left (by norm_num) (cutCos_pos hi) (cutCos_table i hi).2
  refine lt_of_le_of_lt (sum_le_sum h1) (lt_of_lt_of_le ?_ (sum_le_sum h2))
  simp only [sum_range_succ, sum_range_zero, cutTable, cutSin]
  norm_num

theorem cut_rough {F : ℝ} (h : BishopValue (cutOf (exFric 30 100)) 32 36 10 22 24 F) : F < clayFos := by
  obtain ⟨_, k, f, _, h0, hs, rfl, _, hk⟩ := h
  change f 0 = fellenius 25 _ at h0
  change ∀ i < k, f (i + 1) = bishopRhs 25 _ (f i) at hs
  have hk1 : 1 ≤ k := by
    rcases hk with hk | hk
    · rw [hk]; change 1 ≤ Int.toNat _; decide
    · exact hk.1
  have D := cut_dips (φ := 30) (c := 100) (by norm_num) (by norm_num)
  have hc : clayFos ≤ 4.6 := by
    refine le_trans ?_ cut_rough_start
    unfold fellenius clayFos
    rw [cut_driving]
    apply div_le_div_of_nonneg_right _ cut_driving_pos.le
    apply sum_le_sum
    intro i hi
    have hi := mem_range.mp hi
    have ht := D.tan i hi
    have : 8 / cutCos i = (sliceOf (cutOf (exFric 30 100)) 32 36 10 22 24 i).c *
      ((sliceOf (cutOf (exFric 30 100)) 32 36 10 22 24 i).b / (sliceOf (cutOf (exFric 30 100)) 32 36 10 22 24 i).cos) := by
      rw [cut_slice hi]
      simp only
      rw [abs_of_pos (by norm_num : (0 : ℝ) < 100)]; ring
    rw [this]
    exact le_add_of_nonneg_right (mul_nonneg (le_max_left _ _) ht)
  have pos0 : 0 < f 0 := by
    rw [h0]
    unfold fellenius
    apply div_pos _ D.driving
    apply sum_pos
    · intro i hi
      have hi := mem_range.mp hi
      have ht := D.tan i hi
      apply add_pos_of_pos_of_nonneg _ (mul_nonneg (le_max_left _ _) ht)
      rw [cut_slice hi]
      have := cutCos_pos hi
      simp only
      positivity
    · exact ⟨0, by simp⟩
  have key : ∀ i ≤ k, 0 < f i ∧ f i ≤ 4.6 ∧ (1 ≤ i → f i < clayFos) := by
    intro i
    induction i with
    | zero => intro _; exact ⟨pos0, by rw [h0]; exact cut_rough_start, fun h => absurd h (by norm_num)⟩
    | succ i ih =>
      intro hi
      obtain ⟨p, q, _⟩ := ih (by omega)
      have h1 : f (i + 1) < clayFos := by
        rw [hs i (by omega)]
        exact lt_of_le_of_lt (D.rhs_mono p q) cut_rough_turn
      exact ⟨by rw [hs i (by omega)]; exact D.rhs_pos p, by linarith, fun _ => h1⟩
  exact (key k le_rfl).2.2 hk1

/-- What an analysis of the circle reports. -/
theorem cut_report (hφ : 0 ≤ φ) (h90 : φ ≤ 90) (hc : 0 < c) :
    let t := ((cutOf (exFric φ c)).addSingleCircularPlane 32 36 10).1.analyseSlope none
    t.2 = .ok () ∧ ∃ F, BishopValue (cutOf (exFric φ c)) 32 36 10 22 24 F ∧ t.1.getMinFos = .ok (some F) ∧ 0 < F := by
  have rc := cutOf_reachable (c := c) hφ
  have hmats : (cutOf (exFric φ c)).materials = [mkLayer cutSlope.extH 0 (exFric φ c)] := rfl
  obtain ⟨h1, l, rt, F, h2, hF, h4, h5⟩ := C74_slip_circle_has_fos (cutOf (exFric φ c)) rc
    (by intro l hl; rw [hmats] at hl; simp only [List.mem_singleton] at hl; subst hl
        change |φ| ≤ 90; rwa [abs_of_nonneg hφ])
    (.inl rfl) (by intro z hz; cases hz) (by rw [hmats]; simp)
    (.inl (by intro l hl; rw [hmats] at hl; simp only [List.mem_singleton] at hl; subst hl
              change 0 < |c|; exact abs_pos.mpr hc.ne'))
    (cx := 32) (cy := 36) (r := 10) (by norm_num) ((cut_crossing _ _).mpr (.inl rfl))
    ((cut_crossing _ _).mpr (.inr rfl)) (by norm_num)
    (by intro l rt h
        obtain ⟨rfl, rfl⟩ := cut_first _ h
        exact cut_cuts _) none
  have e : (cutOf (exFric φ c)).removeIndividualPlanes.1 = cutOf (exFric φ c) := rfl
  rw [e] at h1 h5
  obtain ⟨rfl, rfl⟩ := cut_first _ h2
  exact ⟨h1, F, h4, (h5 (by intro M hM; cases hM)).1, hF⟩

end Cut

/-- Above a value that Bishop's equation raises there is a solution. -/
theorem Dips.solution_above {n : ℕ} {q : ℕ → Slice} (h : Dips n q) {F0 : ℝ} (h0 : 0 < F0) (hr : F0 ≤ bishopRhs n q F0) :
    ∃ L, F0 ≤ L ∧ bishopRhs n q L = L := by
  obtain ⟨L, _, h2, h3, _⟩ := h.iter_tendsto h0
  refine ⟨L, ge_of_tendsto' h2 ?_, h3⟩
  intro k
  induction k with
  | zero => exact le_rfl
  | succ k ih =>
    rw [Function.iterate_succ_apply']
    exact le_trans hr (h.rhs_mono h0 ih)

theorem cut_sand_solution (hφ : 30 ≤ φ) (h90 : φ < 90) : ∃ F, 0 < F ∧
    bishopRhs 25 (sliceOf (cutOf (exFric φ 0)) 32 36 10 22 24) F = F := by
  have D := cut_dips (φ := φ) (c := 0) (by linarith) h90
  have ht : 0.5773 ≤ Real.tan (φ * (Real.pi / 180)) := le_trans tan30.1 (tan_le_deg (by norm_num) hφ h90)
  obtain ⟨L, h1, h2⟩ := D.solution_above (F0 := 0.05) (by norm_num) (by
    rw [Dips.rhs (by norm_num), le_div_iff₀ D.driving, cut_driving, mul_sum]
    apply sum_le_sum
    intro i hi
    have hi := mem_range.mp hi
    have hc := cutCos_pos hi
    have hs := cutSin_pos hi
    rw [cut_slice hi]
    simp only [Slice.hold, Slice.tan, abs_zero, zero_mul, zero_add, sub_zero]
    rw [abs_of_pos (by linarith : 0 < φ)]
    set T := Real.tan (φ * (Real.pi / 180))
    have hT : 0 < T := by linarith
    rw [le_div_iff₀ (by positivity)]
    have hsq : cutCos i * cutCos i = 1 - cutSin i ^ 2 := Real.mul_self_sqrt (Real.sqrt_pos.mp hc).le
    have h1 : (cutTable 0 : ℝ) / 10000 ≤ cutCos i := by
      refine le_trans (cutCos_table 0 (by norm_num)).1 ?_
      unfold cutCos
      apply Real.sqrt_le_sqrt
      have : cutSin i ≤ cutSin 0 := by
        unfold cutSin
        have : (0 : ℝ) ≤ i := Nat.cast_nonneg i
        push_cast; linarith
      nlinarith
    have h2 : (0.05 : ℝ) * cutSin i ≤ T * cutCos i := by
      have h3 : cutSin i ≤ 1 := by
        unfold cutSin
        have : (0 : ℝ) ≤ i := Nat.cast_nonneg i
        linarith
      have h4 : (0.5773 : ℝ) * ((cutTable 0 : ℝ) / 10000) ≤ T * cutCos i :=
        mul_le_mul ht h1 (by positivity) hT.le
      refine le_trans ?_ h4
      unfold cutTable
      norm_num
      linarith
    have e : 0.05 * (16 * cutCos i * cutSin i) * (cutCos i + cutSin i * T / 0.05) =
        16 * cutCos i * (0.05 * cutSin i * cutCos i + cutSin i ^ 2 * T) := by ring
    rw [e, mul_assoc 16, mul_assoc 16]
    have h5 : 0.05 * cutSin i * cutCos i + cutSin i ^ 2 * T ≤ T := by
      have := mul_le_mul_of_nonneg_right h2 hc.le
      nlinarith
    have := mul_le_mul_of_nonneg_left h5 hc.le
    nlinarith)
  exact ⟨L, by linarith, h2⟩

/-- A case of `C93_no_tension_partial`: sand, with 30 and 35 degrees. -/
example : ∃ F F' : ℝ, 0 < F ∧ NoTension 25 (sliceOf (cutOf (exFric 30 0)) 32 36 10 22 24) F ∧
    bishopRhs 25 (sliceOf (cutOf (exFric 30 0)) 32 36 10 22 24) F = F ∧
    bishopRhs 25 (sliceOf (cutOf (exFric 35 0)) 32 36 10 22 24) F' = F' ∧ F ≤ F' := by
  obtain ⟨F, h1, h2⟩ := cut_sand_solution (φ := 30) le_rfl (by norm_num)
  obtain ⟨F', h3, h4⟩ := cut_sand_solution (φ := 35) (by norm_num) (by norm_num)
  have nt : NoTension 25 (sliceOf (cutOf (exFric 30 0)) 32 36 10 22 24) F := by
    intro i hi
    have hc := cutCos_pos hi
    rw [cut_slice hi]
    simp only [abs_zero, zero_mul, zero_div, sub_zero]
    positivity
  have h : Rougher (cutOf (exFric 30 0)) (cutOf (exFric 35 0)) := by
    refine ⟨by constructor <;> rfl, ?_, rfl, rfl⟩
    refine .cons ⟨rfl, rfl, ?_, ?_, rfl⟩ .nil
    · change |(30 : ℝ)| ≤ |35|; norm_num
    · change |(35 : ℝ)| < 90; norm_num
  refine ⟨F, F', h1, nt, h2, h4, C93_no_tension_partial (cutOf (exFric 30 0)) (cutOf (exFric 35 0))
    (cutOf_reachable (by norm_num)) h (by simp [cutOf]) 32 36 10 (by norm_num) (22, 36) (24, 30) (by norm_num) ?_
    (cut_dips (by norm_num) (by norm_num)) F F' h1 h3 nt h2 h4⟩
  intro i hi
  have hi : i < 25 := hi
  have hi' : (i : ℝ) ≤ 24 := by exact_mod_cast Nat.lt_succ_iff.mp hi
  have h0 : (0 : ℝ) ≤ i := Nat.cast_nonneg i
  change (22 + ((i : ℝ) + 1 / 2) * ((24 - 22) / (((25 : ℤ) : ℝ))) - 32) ^ 2 < (10 : ℝ) ^ 2
  push_cast
  nlinarith

/-- C93 is violated: a cut 12 m high and 8 cm wide, unit weight 20, cohesion 100. The circle with centre 8 m
right of where it leaves the face and radius 10 has a lower factor of safety with a friction angle of 30 degrees
than without friction (computed: 3.96 and 4.20). Bishop's method lets the cohesion of the steep bases at the top
pull the mass up, and friction multiplies the tension. -/
theorem C93_friction_lowers : ∃ (s t : Slope ℝ) (cx cy r F F' : ℝ), Reachable s ∧ Reachable t ∧ Rougher s t ∧
    ((s.addSingleCircularPlane cx cy r).1.analyseSlope none).2 = .ok () ∧
    ((t.addSingleCircularPlane cx cy r).1.analyseSlope none).2 = .ok () ∧
    ((s.addSingleCircularPlane cx cy r).1.analyseSlope none).1.getMinFos = .ok (some F) ∧
    ((t.addSingleCircularPlane cx cy r).1.analyseSlope none).1.getMinFos = .ok (some F') ∧ F' < F := by
  obtain ⟨a1, F, a2, a3, _⟩ := cut_report (φ := 0) (c := 100) le_rfl (by norm_num) (by norm_num)
  obtain ⟨b1, F', b2, b3, _⟩ := cut_report (φ := 30) (c := 100) (by norm_num) (by norm_num) (by norm_num)
  refine ⟨cutOf (exFric 0 100), cutOf (exFric 30 100), 32, 36, 10, F, F', cutOf_reachable le_rfl,
    cutOf_reachable (by norm_num), ⟨by constructor <;> rfl, ?_, rfl, rfl⟩, a1, b1, a3, b3, ?_⟩
  · refine .cons ⟨rfl, rfl, ?_, ?_, rfl⟩ .nil
    · change |(0 : ℝ)| ≤ |30|; norm_num
    · change |(30 : ℝ)| < 90; norm_num
  · rw [cut_clay a2]; exact cut_rough b2

end PySlope
