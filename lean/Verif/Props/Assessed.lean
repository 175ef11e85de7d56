import Verif.Props.Total
import Verif.Props.Critical

/-! # C73, C74: which circles are assessed, and which get a factor of safety -/

namespace PySlope
open Finset

/-! ## C74 -/

/-- The loop over slices that dip to the toe gives a number. -/
theorem Dips.loop_ok {n : ℕ} {q : ℕ → Slice} (h : Dips n q) {w tol : ℝ} (hb : ∀ i, (q i).b = w)
    {F0 : ℝ} (h0 : 0 < F0) (m : ℕ) : ∃ F, 0 < F ∧ bishopLoop w tol (listOf n q) m F0 = .ok F := by
  induction m generalizing F0 with
  | zero => exact ⟨F0, h0, rfl⟩
  | succ m ih =>
    unfold bishopLoop
    rw [h.step hb h0]
    simp only [Bind.bind, Except.bind, pyAbs_real]
    split
    · exact ⟨_, h.rhs_pos h0, rfl⟩
    · exact ih (h.rhs_pos h0)

/-- The unit weight is at least 1 wherever there is ground. -/
theorem unitWeightAt_ge {s : Slope ℝ} (r : Reachable s) (hm : s.materials ≠ []) (y : ℝ) :
    1 ≤ unitWeightAt s.materials y := by
  obtain ⟨l, hl, hlm, _⟩ := strengthAt_eq r hm y
  unfold unitWeightAt
  rw [hl]
  exact (r.sane.mat l.mat (List.mem_map_of_mem hlm)).facts.1

/-- A slice with ground over its base has weight. -/
theorem slice_weight_pos {s : Slope ℝ} (rc : Reachable s) (hm : s.materials ≠ []) {cx cy r xl xr : ℝ}
    (hx : xl < xr) {i : ℕ}
    (hg : cy - √(r ^ 2 - (centre xl xr s.slices i - cx) ^ 2) < groundY s (centre xl xr s.slices i)) :
    0 < (sliceOf s cx cy r xl xr i).W := by
  have hsl : 10 ≤ s.slices := rc.wf.sl.1
  have hn : (0 : ℝ) < s.slices := by
    have : (0 : Int) < s.slices := by omega
    exact_mod_cast this
  have hb : 0 < (xr - xl) / s.slices := div_pos (by linarith) hn
  change 0 < weightOn s _ _ _ _
  unfold weightOn
  apply add_pos_of_pos_of_nonneg
  · apply add_pos_of_pos_of_nonneg
    · apply mul_pos
      · linarith
      · have hlt : cy - √(r ^ 2 - (centre xl xr s.slices i - cx) ^ 2) <
            max (groundY s (centre xl xr s.slices i))
              (cy - √(r ^ 2 - (centre xl xr s.slices i - cx) ^ 2)) := lt_max_of_lt_left hg
        have := intervalIntegral.integral_mono_on (μ := MeasureTheory.volume) hlt.le
          (f := fun _ => (1 : ℝ)) (g := unitWeightAt s.materials)
          intervalIntegrable_const (unitWeightAt_integrable _ _ _)
          (fun y _ => unitWeightAt_ge rc hm y)
        rw [intervalIntegral.integral_const, smul_eq_mul, mul_one] at this
        exact lt_of_lt_of_le (by linarith) this
    · apply list_sum_nonneg
      intro u hu
      exact mul_nonneg (rc.sane.udl u.load (List.mem_map_of_mem hu)).1.le (le_max_right _ _)
  · apply list_sum_nonneg
    intro u hu
    split
    · exact (rc.sane.ll u.load (List.mem_map_of_mem hu)).le
    · exact le_refl _

/-- Specification: the ground has strength wherever a circle may pass: every material has cohesion,
or there is no water and every material has friction. -/
def HasStrength (s : Slope ℝ) : Prop :=
  (∀ l ∈ s.materials, 0 < l.mat.cohesion) ∨
  (s.waterRL = none ∧ ∀ l ∈ s.materials, 0 < l.mat.frictionAngle ∧ l.mat.frictionAngle < 90)

/-- Specification: between two abscissae the lower half of the circle is under the ground, left of
the centre. -/
def CutsMass (s : Slope ℝ) (cx cy r xl xr : ℝ) : Prop :=
  xr ≤ cx ∧ ∀ x, xl < x → x < xr → cy - √(r ^ 2 - (x - cx) ^ 2) < groundY s x

/-- The factor of safety of a circle that cuts off a mass of soil. -/
theorem bishop_of_cut {s : Slope ℝ} (rc : Reachable s) (hs : SoundFriction s)
    (hh : s.waterRL = none ∨ HeavierThanWater s) (hw : ∀ z, s.waterRL = some z → z ≤ s.topY)
    (hm : s.materials ≠ []) (strong : HasStrength s) {cx cy r : ℝ} (h0 : 0 ≤ cx ∧ 0 ≤ cy ∧ 0 ≤ r)
    {l rt : ℝ × ℝ} (he : s.bishopEnds cx cy r none none = .ok (l, rt))
    (cut : CutsMass s cx cy r l.1 rt.1) :
    ∃ F, 0 < F ∧ s.bishop cx cy r none none = .ok F ∧ BishopValue s cx cy r l.1 rt.1 F := by
  have hsl : 10 ≤ s.slices := rc.wf.sl.1
  have g := rc.wf.geo
  obtain ⟨water, hwx⟩ := waterX_ok g hw
  obtain ⟨h1, h2, h3, _⟩ := (bishopEnds_first g he).2
  have hx : l.1 < rt.1 := by norm_num at h3; linarith
  have hin : ∀ i < s.slices.toNat, (centre l.1 rt.1 s.slices i - cx) ^ 2 < r ^ 2 := by
    intro i hi
    have e1 := h1.1
    have e2 := h2.1
    unfold OnCircle at e1 e2
    exact centre_inside hx (by nlinarith [sq_nonneg (l.2 - cy)])
      (by nlinarith [sq_nonneg (rt.2 - cy)]) (by omega) hi
  have hr : 0 < r := by
    rcases lt_or_eq_of_le h0.2.2 with h | h
    · exact h
    · have := hin 0 (by omega)
      rw [← h] at this
      nlinarith [sq_nonneg (centre l.1 rt.1 s.slices 0 - cx)]
  have hc : ∀ i < s.slices.toNat, l.1 < centre l.1 rt.1 s.slices i ∧
      centre l.1 rt.1 s.slices i < rt.1 := fun i hi => centre_mem hx (by omega) hi
  have facts := fun i hi => slice_facts (cy := cy) (i := i) rc hm hr hx (hin i hi)
  have hW : ∀ i < s.slices.toNat, 0 < (sliceOf s cx cy r l.1 rt.1 i).W := fun i hi =>
    slice_weight_pos rc hm hx (cut.2 _ (hc i hi).1 (hc i hi).2)
  have hsin : ∀ i < s.slices.toNat, 0 < (sliceOf s cx cy r l.1 rt.1 i).sin := by
    intro i hi
    change 0 < (cx - centre l.1 rt.1 s.slices i) / r
    exact div_pos (by linarith [(hc i hi).2, cut.1]) hr
  have hne : (range s.slices.toNat).Nonempty := ⟨0, mem_range.mpr (by omega)⟩
  have hdr : 0 < driving s.slices.toNat (sliceOf s cx cy r l.1 rt.1) :=
    sum_pos (fun i hi => mul_pos (hW i (mem_range.mp hi)) (hsin i (mem_range.mp hi))) hne
  have hu : ∀ i < s.slices.toNat, (sliceOf s cx cy r l.1 rt.1 i).u * (sliceOf s cx cy r l.1 rt.1 i).b ≤
      (sliceOf s cx cy r l.1 rt.1 i).W := by
    intro i hi
    rcases hh with hh | hh
    · have : (sliceOf s cx cy r l.1 rt.1 i).u = 0 := by
        change pressureAt s _ _ _ = 0
        unfold pressureAt; rw [hh]
      rw [this, zero_mul]; exact (hW i hi).le
    · exact pressure_le_weight rc hm hh hx i
  have hold : ∀ i < s.slices.toNat, 0 < (sliceOf s cx cy r l.1 rt.1 i).hold ∧
      0 < (sliceOf s cx cy r l.1 rt.1 i).c * ((sliceOf s cx cy r l.1 rt.1 i).b /
          (sliceOf s cx cy r l.1 rt.1 i).cos) +
        max 0 ((sliceOf s cx cy r l.1 rt.1 i).W * (sliceOf s cx cy r l.1 rt.1 i).cos -
          (sliceOf s cx cy r l.1 rt.1 i).u * ((sliceOf s cx cy r l.1 rt.1 i).b /
          (sliceOf s cx cy r l.1 rt.1 i).cos)) * (sliceOf s cx cy r l.1 rt.1 i).tan := by
    intro i hi
    obtain ⟨a1, a2, a3, a4, a5, a6, a7⟩ := facts i hi
    have a7 := a7 hs
    obtain ⟨ly, hl, hlm, _⟩ := strengthAt_eq rc hm
      (cy - √(r ^ 2 - (l.1 + ((i : ℝ) + 1 / 2) * ((rt.1 - l.1) / s.slices) - cx) ^ 2))
    rcases strong with st | ⟨st1, st2⟩
    · have hcoh : 0 < (sliceOf s cx cy r l.1 rt.1 i).c := by
        unfold sliceOf; simp only [hl]; exact st ly hlm
      constructor
      · exact add_pos_of_pos_of_nonneg (mul_pos hcoh a1)
          (mul_nonneg (sub_nonneg.mpr (hu i hi)) a7)
      · exact add_pos_of_pos_of_nonneg (mul_pos hcoh (div_pos a1 a4))
          (mul_nonneg (le_max_left _ _) a7)
    · have hu0 : (sliceOf s cx cy r l.1 rt.1 i).u = 0 := by
        change pressureAt s _ _ _ = 0
        unfold pressureAt; rw [st1]
      have htan : 0 < (sliceOf s cx cy r l.1 rt.1 i).tan := by
        unfold Slice.tan sliceOf
        simp only [hl]
        obtain ⟨p1, p2⟩ := st2 ly hlm
        have := Real.pi_pos
        apply Real.tan_pos_of_pos_of_lt_pi_div_two
        · positivity
        · nlinarith
      constructor
      · unfold Slice.hold
        rw [hu0, zero_mul, sub_zero]
        exact add_pos_of_nonneg_of_pos (mul_nonneg a2 a1.le) (mul_pos (hW i hi) htan)
      · rw [hu0, zero_mul, sub_zero]
        refine add_pos_of_nonneg_of_pos (mul_nonneg a2 (div_pos a1 a4).le) (mul_pos ?_ htan)
        exact lt_max_of_lt_right (mul_pos (hW i hi) a4)
  have hF : 0 < fellenius s.slices.toNat (sliceOf s cx cy r l.1 rt.1) :=
    div_pos (sum_pos (fun i hi => (hold i (mem_range.mp hi)).2) hne) hdr
  have dips : Dips s.slices.toNat (sliceOf s cx cy r l.1 rt.1) :=
    ⟨fun i hi => (facts i hi).2.2.2.1, fun i hi => (hsin i hi).le,
      fun i hi => (facts i hi).2.2.2.2.2.2 hs, fun i hi => (hold i hi).1.le,
      ⟨0, by omega, (hold 0 (by omega)).1⟩, hdr⟩
  have ho : s.ordinary cx cy r (some l) (some rt) =
      .ok (fellenius s.slices.toNat (sliceOf s cx cy r l.1 rt.1)) := by
    rw [C55_ordinary_formula s rc]
    refine ⟨h0.1, h0.2.1, hr, by norm_num at h3 ⊢; linarith, ?_, hm, ⟨_, hwx⟩, hdr, rfl⟩
    intro i hi
    have := hin i hi
    rw [sq_lt_sq, abs_of_pos hr] at this
    exact this
  obtain ⟨_, _, _, _, _, _, water', hw', hf, _⟩ := ordinary_spec rc ho
  have hb := bishop_eq (by omega) he ho hw'
  rw [hf] at hb
  obtain ⟨F, f1, f2⟩ := dips.loop_ok (w := s.width l.1 rt.1) (tol := s.tolerance) (fun _ => rfl) hF
    s.maxIterations.toNat
  exact ⟨F, f1, by rw [hb, f2], bishopLoop_value rc ho f2⟩

/-- Two crossings apart give the end points. -/
theorem bishopEnds_of {s : Slope ℝ} (g : Geo s) {cx cy r : ℝ} {a b : ℝ × ℝ} (ha : Crossing s cx cy r a)
    (hb : Crossing s cx cy r b) (hab : 0.03 < b.1 - a.1) :
    ∃ l rt rest, s.circleExternalIntersection cx cy r = .ok (l :: rt :: rest) ∧
      s.bishopEnds cx cy r none none = .ok (l, rt) := by
  obtain ⟨is, e, h1, h2, h3⟩ := intersections g cx cy r
  obtain ⟨q1, m1, l1, d1⟩ := h3 a ha
  obtain ⟨q2, m2, l2, d2⟩ := h3 b hb
  have hne : q1 ≠ q2 := by
    rintro rfl
    norm_num at *; linarith
  rcases two_first g e with h | ⟨x, y, rest, rfl, h, _⟩
  · rw [setSize_nodup (nodup_of_apart h1)] at h
    match is, h with
    | [], _ => cases m1
    | [z], _ =>
      rw [List.mem_singleton] at m1 m2
      exact absurd (m1.trans m2.symm) hne
  · refine ⟨x, y, rest, e, ?_⟩
    unfold Slope.bishopEnds
    rw [e]
    simp only
    rw [if_neg h]

/-- C74: a circle that cuts off a mass of soil gets a factor of safety, and a positive one: added to
a slope without individual planes and analysed, it is what `get_min_FOS` returns. -/
theorem C74_slip_circle_has_fos (s : Slope ℝ) (rc : Reachable s) (hs : SoundFriction s)
    (hh : s.waterRL = none ∨ HeavierThanWater s) (hw : ∀ z, s.waterRL = some z → z ≤ s.topY)
    (hm : s.materials ≠ []) (strong : HasStrength s) {cx cy r : ℝ} (h0 : 0 ≤ cx ∧ 0 ≤ cy ∧ 0 ≤ r)
    {a b : ℝ × ℝ} (ha : Crossing s cx cy r a) (hb : Crossing s cx cy r b) (hab : 0.03 < b.1 - a.1)
    (cut : ∀ l rt, FirstCrossings s cx cy r l rt → CutsMass s cx cy r l.1 rt.1) (m : Option ℝ) :
    let t := (s.removeIndividualPlanes.1.addSingleCircularPlane cx cy r).1.analyseSlope m
    t.2 = .ok () ∧
    ∃ l rt F, FirstCrossings s cx cy r l rt ∧ 0 < F ∧ BishopValue s cx cy r l.1 rt.1 F ∧
      ((∀ M, m = some M → F ≤ M) → t.1.getMinFos = .ok (some F) ∧
        t.1.getMinFosCircle = .ok (cx, cy, r) ∧ t.1.getMinFosEndPoints = .ok (l, rt)) := by
  have g := rc.wf.geo
  obtain ⟨l, rt, rest, hi, he⟩ := bishopEnds_of g ha hb hab
  have fc := (bishopEnds_first g he).2
  obtain ⟨F, f1, f2, f3⟩ := bishop_of_cut rc hs hh hw hm strong h0 he (cut l rt fc)
  set p : Plane ℝ := { lc := l, rc := rt, cx := cx, cy := cy, radius := r, fos := none } with hp
  set u : Slope ℝ := { s with search := [], individual := [p] } with hu
  have hadd : (s.removeIndividualPlanes.1.addSingleCircularPlane cx cy r).1 = u := by
    unfold Slope.addSingleCircularPlane
    have : s.removeIndividualPlanes.1.circleExternalIntersection cx cy r =
      s.circleExternalIntersection cx cy r := rfl
    rw [this, hi]
    obtain ⟨is, e, h1, h2, h3⟩ := intersections g cx cy r
    rw [hi] at e; cases e
    simp only
    rw [if_neg (by rw [setSize_nodup (nodup_of_apart h1)]; simp)]
    rfl
  intro t
  have hsame : SameSetup s u := by constructor <;> rfl
  have hfos : fosOf u p = some F := by
    rw [fosOf_some, hsame.bishop]; exact f2
  have ht : t = (u.analysedTo m [p], .ok ()) := by
    change Slope.analyseSlope _ m = _
    rw [hadd]
    apply analyseSlope_of (.inl ⟨by simp [hu], rfl⟩)
    intro q hq e he'
    rw [List.mem_singleton] at hq
    subst hq
    unfold FosRaises at he'
    rw [fosOf_some.mp hfos] at he'
    cases he'
  rw [ht]
  refine ⟨rfl, l, rt, F, fc, f1, f3, ?_⟩
  intro hM
  have hsearch : (u.analysedTo m [p]).search = [withFos u p] := by
    change tidySearch m [withFos u p] = _
    rw [tidySearch_eq]
    have h1 : (withFos u p).fosVal.isSome := by rw [fosVal_withFos, hfos]; rfl
    have h2 : keeps m (withFos u p) = true := by
      cases m with
      | none => rfl
      | some M =>
        have : fosKey (withFos u p) = F := by
          unfold fosKey; rw [fosVal_withFos, hfos]; rfl
        unfold keeps
        simp only [this]
        split
        · rfl
        · exact decide_eq_true (hM M rfl)
    simp [h1, sortByKey, pySort, h2]
  unfold Slope.getMinFos Slope.getMinFosCircle Slope.getMinFosEndPoints
  simp only [hsearch, withFos, hfos]
  exact ⟨trivial, rfl, rfl⟩

/-- A case of C74: the circle of the example. -/
example : SoundFriction exSoil ∧ exSoil.waterRL = none ∧ exSoil.materials ≠ [] ∧ HasStrength exSoil ∧
    Crossing exSoil 9 (35 / 3) (17 / 3) (4, 9) ∧ Crossing exSoil 9 (35 / 3) (17 / 3) (9, 6) ∧
    ∀ l rt, FirstCrossings exSoil 9 (35 / 3) (17 / 3) l rt →
      CutsMass exSoil 9 (35 / 3) (17 / 3) l.1 rt.1 := by
  refine ⟨?_, rfl, by simp, .inl ?_, (exCrossing _).mpr (.inl rfl), (exCrossing _).mpr (.inr rfl), ?_⟩
  · intro l hl
    obtain rfl : l = _ := List.mem_singleton.mp hl
    change (0 : ℝ) ≤ 90
    norm_num
  · intro l hl
    obtain rfl : l = _ := List.mem_singleton.mp hl
    change (0 : ℝ) < 5
    norm_num
  · rintro l rt ⟨h1, h2, h3, _⟩
    norm_num at h3
    rcases (exCrossing _).mp h1 with rfl | rfl <;> rcases (exCrossing _).mp h2 with rfl | rfl
    · norm_num at h3
    · refine ⟨le_refl _, fun x a b => ?_⟩
      have := (exBelow a b).1
      rwa [← sliceTop_eq exSoil_reachable.wf.geo]
    · norm_num at h3
    · norm_num at h3

end PySlope
