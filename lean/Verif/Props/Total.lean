import Verif.Props.FosLaws
import Verif.Props.Search

/-! # Property C70: an analysis that can start ends -/

namespace PySlope
open Finset

theorem crossing_level {s : Slope ℝ} (g : Geo s) {x y : ℝ} (h : s.getExternalY x = some y) :
    0 ≤ x ∧ 0 ≤ y ∧ y ≤ s.topY := by
  have hl : 0 < s.length := by have := g.len; norm_num at this ⊢; linarith
  have h1 := g.extH3
  have h2 := g.hgt
  have h3 := g.topY
  have h4 := g.botY
  have h5 := g.botX
  have hg : 0 ≤ s.gradient := by rw [g.grad]; positivity
  unfold Slope.getExternalY at h
  simp only [lit_zero] at h
  split_ifs at h with c1 c2 c3
  · have := Option.some.inj h
    push Not at c1
    exact ⟨c1.1, by linarith, by linarith⟩
  · have := Option.some.inj h
    push Not at c1
    exact ⟨c1.1, by linarith, by linarith⟩
  · have e := Option.some.inj h
    push Not at c1 c2 c3
    have h6 : (x - s.topX) * s.gradient ≤ s.length * s.gradient :=
      mul_le_mul_of_nonneg_right (by linarith) hg
    have h7 : s.length * s.gradient = s.height := by rw [g.grad]; field_simp
    have h8 : 0 ≤ (x - s.topX) * s.gradient := mul_nonneg (by linarith) hg
    exact ⟨c1.1, by linarith, by linarith⟩

theorem planeLoop_centre {s : Slope ℝ} (g : Geo s) {β e C : ℝ} (he : 0 < e) (hC : e ^ 2 ≤ C)
    (hs : 0 ≤ Real.sin β) (hc : 0 ≤ Real.cos β) (num todo : Nat) (ht : todo ≤ num)
    (lc rc : ℝ × ℝ) (hx : 0 ≤ lc.1 + rc.1) (hy : 0 ≤ lc.2 + rc.2) {ps}
    (h : s.planeLoop β e C num todo lc rc = .ok ps) :
    ∀ p ∈ ps, 0 ≤ p.cx ∧ 0 ≤ p.cy ∧ 0 ≤ p.radius := by
  induction todo generalizing lc rc ps with
  | zero => cases h; simp
  | succ n ih =>
    have hn0 : (0 : ℝ) < ((num : Nat) : ℝ) := by
      have : 0 < num := by omega
      exact_mod_cast this
    have hn1 : (((n + 1 : Nat) : ℝ)) ≤ ((num : Nat) : ℝ) := by exact_mod_cast ht
    have hpos : 0 < e * ((n + 1 : Nat) : ℝ) / ((num : Nat) : ℝ) := by positivity
    have hle : e * ((n + 1 : Nat) : ℝ) / ((num : Nat) : ℝ) ≤ e := by
      rw [div_le_iff₀ hn0]
      exact mul_le_mul_of_nonneg_left hn1 he.le
    set e' := e * ((n + 1 : Nat) : ℝ) / ((num : Nat) : ℝ) with he'
    have hrad : circleRadiusFromAbcd e' C = .ok ((C + e' ^ 2) / (2 * e')) := by
      unfold circleRadiusFromAbcd pyDiv
      simp only [sq_real, pyEq_real]
      have e2 : (@OfNat.ofNat ℝ 2 (Lit.natLit 2)) = 2 := rfl
      rw [e2, if_neg]
      simpa using hpos.ne'
    unfold Slope.planeLoop at h
    change ((circleRadiusFromAbcd e' C) >>= _) = _ at h
    rw [hrad] at h
    simp only [bind, Except.bind] at h
    have hC' : e' ^ 2 ≤ C := by nlinarith
    have hr0 : 0 ≤ (C + e' ^ 2) / (2 * e') := by
      apply div_nonneg <;> nlinarith [sq_nonneg e']
    have hr1 : 0 ≤ (C + e' ^ 2) / (2 * e') - e' := by
      have : (C + e' ^ 2) / (2 * e') - e' = (C - e' ^ 2) / (2 * e') := by field_simp; ring
      rw [this]
      apply div_nonneg <;> linarith
    set radius := (C + e' ^ 2) / (2 * e') with hradius
    set centre := circleCentre β (midCoord lc rc) (radius - e') with hcentre
    have c1 : 0 ≤ centre.1 := by
      change 0 ≤ (lc.1 + rc.1) / 2 + Real.sin β * (radius - e')
      have := mul_nonneg hs hr1
      linarith
    have c2 : 0 ≤ centre.2 := by
      change 0 ≤ (lc.2 + rc.2) / 2 + Real.cos β * (radius - e')
      have := mul_nonneg hc hr1
      linarith
    obtain ⟨l, el, _⟩ := intersections g centre.1 centre.2 radius
    rw [el] at h
    simp only at h
    rcases two_first g el with h2 | ⟨a, b, rest, rfl, h2, hok⟩
    · rw [if_pos h2] at h
      exact ih (by omega) lc rc hx hy h
    · rw [if_neg h2] at h
      simp only at h
      cases hp : s.planeLoop β e C num n a b with
      | error x => rw [hp] at h; cases h
      | ok ps' =>
        rw [hp] at h
        cases h
        obtain ⟨a1, a2, _⟩ := crossing_level g hok.lGround
        obtain ⟨b1, b2, _⟩ := crossing_level g hok.rGround
        intro p hp'
        rcases List.mem_cons.mp hp' with rfl | hp'
        · exact ⟨c1, c2, hr0⟩
        · exact ih (by omega) a b (add_nonneg a1 b1) (add_nonneg a2 b2) hp p hp'

/-- The circles through an entry point and a lower exit point on its right have their centres and
radii not negative. -/
theorem generatePlanes_centre {s : Slope ℝ} (g : Geo s) {L R : ℝ × ℝ} (hLR : L.1 < R.1)
    (hy : R.2 ≤ L.2) (hx : 0 ≤ L.1 + R.1) (hy0 : 0 ≤ L.2 + R.2) {n : Int} {ps}
    (h : s.generatePlanes L R n = .ok ps) : ∀ p ∈ ps, 0 ≤ p.cx ∧ 0 ≤ p.cy ∧ 0 ≤ p.radius := by
  have hd : 0 < R.1 - L.1 := by linarith
  have hdiv : pyDiv (L.2 - R.2) (R.1 - L.1) = .ok ((L.2 - R.2) / (R.1 - L.1)) := by
    unfold pyDiv
    rw [if_neg]
    simpa using hd.ne'
  unfold Slope.generatePlanes at h
  rw [hdiv] at h
  simp only [bind, Except.bind, sq_real] at h
  set β := PyNum.atan ((L.2 - R.2) / (R.1 - L.1)) with hβ
  have hβ' : β = Real.arctan ((L.2 - R.2) / (R.1 - L.1)) := rfl
  have hcos : 0 < Real.cos β := by rw [hβ']; exact Real.cos_arctan_pos _
  have htan : Real.sin β * (R.1 - L.1) = Real.cos β * (L.2 - R.2) := by
    have : Real.sin β / Real.cos β = (L.2 - R.2) / (R.1 - L.1) := by
      rw [← Real.tan_eq_sin_div_cos, hβ', Real.tan_arctan]
    rw [div_eq_div_iff hcos.ne' hd.ne'] at this
    linarith
  have hsin : 0 ≤ Real.sin β := by
    have h : 0 ≤ Real.sin β * (R.1 - L.1) := by
      rw [htan]; exact mul_nonneg hcos.le (by linarith)
    exact nonneg_of_mul_nonneg_left h hd
  set Q := (L.2 - R.2) ^ 2 + (R.1 - L.1) ^ 2 with hQ
  have hQpos : 0 < Q := by positivity
  have e2 : (@OfNat.ofNat ℝ 2 (Lit.natLit 2)) = 2 := rfl
  set half := PyNum.sqrt Q / (@OfNat.ofNat ℝ 2 (Lit.natLit 2)) with hhalf
  have hhalfpos : 0 < half := by
    have : half = Real.sqrt Q / 2 := rfl
    rw [this]; positivity
  set r0 := half / PyNum.cos β * 1.1 with hr0
  have hr0' : r0 = half / Real.cos β * 1.1 := rfl
  have hr0pos : 0 < r0 := by rw [hr0']; positivity
  have hrh : half ≤ r0 := by
    rw [hr0']
    have : half ≤ half / Real.cos β := by
      rw [le_div_iff₀ hcos]; nlinarith [Real.cos_le_one β]
    have : 0 < half / Real.cos β := by positivity
    nlinarith
  set d := PyNum.sqrt (r0 ^ 2 - half ^ 2) with hd'
  have hdd : d = Real.sqrt (r0 ^ 2 - half ^ 2) := rfl
  have hd0 : 0 ≤ d := by rw [hdd]; positivity
  have hdsq : d ^ 2 = r0 ^ 2 - half ^ 2 := by
    rw [hdd, Real.sq_sqrt]; nlinarith
  have hdr : d < r0 := by
    have : 0 < half ^ 2 := by positivity
    nlinarith
  have hed : (r0 - d) * (r0 + d) = half ^ 2 := by linear_combination -hdsq
  refine planeLoop_centre g (by linarith) ?_ hsin hcos.le _ _ le_rfl L R hx hy0 h
  nlinarith

/-- The planes of the search have their centres and radii not negative. -/
theorem entryExitPlanes_centre {s : Slope ℝ} (r : Reachable s) (hu : ∀ u ∈ s.udls, u.left ≤ s.topX)
    (hl : ∀ l ∈ s.lls, l.coord ≤ s.topX) {ps} (h : s.entryExitPlanes = .ok ps) :
    ∀ p ∈ ps, 0 ≤ p.cx ∧ 0 ≤ p.cy ∧ 0 ≤ p.radius := by
  have w := r.wf
  have g := w.geo
  unfold Slope.entryExitPlanes at h
  cases hle : s.entryPoints with
  | error e => rw [hle] at h; cases h
  | ok lefts =>
    rw [hle] at h
    have hpts : ∀ q ∈ lefts, q.1 ≤ s.topX ∧ -0.001 ≤ q.1 ∧ q.2 = s.topY := by
      obtain ⟨even, rfl, h2, _⟩ := (C30_points_partial s r).1 lefts hle
      intro q hq
      rw [List.mem_append, List.mem_append] at hq
      rcases hq with (hq | hq) | hq
      · obtain ⟨a, b, c⟩ := h2 q hq
        have := w.l1; have := w.l2
        exact ⟨by linarith, by norm_num; linarith, c⟩
      · obtain ⟨p, hp, rfl⟩ := List.mem_map.mp hq
        have := hl p hp
        have h0 : 0 ≤ p.coord := by rw [w.ll p hp]; simp [placeLl]
        refine ⟨by simp only; norm_num; linarith, by simp only; norm_num; linarith, rfl⟩
      · obtain ⟨p, hp, rfl⟩ := List.mem_map.mp hq
        have := hu p hp
        have h0 : 0 ≤ p.left := by
          rw [w.udl p hp]
          cases hlen : p.load.length with
          | none => simp [placeUdl, hlen]
          | some l =>
            simp only [placeUdl, hlen, pyMax_real, lit_zero]
            split_ifs <;> simp
        refine ⟨by simp only; norm_num; linarith, by simp only; norm_num; linarith, rfl⟩
    obtain ⟨ps', e1, e2, _⟩ := planesAll_spec g (numCircles s.iterations.toNat) s.exitPoints lefts (by
      intro l hl' p hp
      obtain ⟨a, _, y, b, _⟩ := exitPoints_mem w hp
      have := (hpts l hl').1
      have := w.l3
      exact ⟨by linarith, by rw [b]; rfl⟩)
    have : ps = ps' := by
      have h' : s.planesAll (numCircles s.iterations.toNat) s.exitPoints lefts = .ok ps := h
      rw [e1] at h'; cases h'; rfl
    subst this
    intro p hp
    obtain ⟨l, hl', x, y, h1, h2, qs, h3, h4⟩ := (e2 p).mp hp
    obtain ⟨a1, a2, a3⟩ := hpts l hl'
    obtain ⟨b1, _, y', b2, b3⟩ := exitPoints_mem w h1
    obtain rfl : y = y' := Option.some.inj b2
    obtain ⟨_, c2, c3⟩ := crossing_level g b3
    have h5 := g.topX_pos
    have h6 := w.l3
    have h7 := g.extL5
    have h8 := g.len
    have h9 := g.topX
    have h10 : 0.001 ≤ s.topX := by rw [h9]; norm_num at *; linarith
    simp only at b1 b3
    exact generatePlanes_centre g (by simp only; linarith) (by simp only; rw [a3]; exact c3)
      (by simp only; norm_num at *; linarith) (by simp only; rw [a3]; linarith) h3 p h4

theorem waterX_ok {s : Slope ℝ} (g : Geo s) (h : ∀ z, s.waterRL = some z → z ≤ s.topY) :
    ∃ v, s.waterX = .ok v := by
  unfold Slope.waterX
  cases hz : s.waterRL with
  | none => exact ⟨_, rfl⟩
  | some z =>
    simp only
    have hz' := h z hz
    obtain ⟨x, hx⟩ : ∃ x, s.getExternalX z = .ok (some x) := by
      unfold Slope.getExternalX
      split
      · exact ⟨_, rfl⟩
      · rename_i h1
        split
        · rename_i h2
          have hg : s.gradient ≠ 0 := by
            intro h0
            rw [g.grad] at h0
            have hl : s.length ≠ 0 := by have := g.len; norm_num at this; intro h; rw [h] at this; norm_num at this
            have : s.height = 0 := by simpa [hl] using h0
            rw [g.botY, this] at h1
            exact h1 (by linarith)
          have : pyDiv (s.topY - z) s.gradient = .ok ((s.topY - z) / s.gradient) := by
            unfold pyDiv
            rw [if_neg (by simpa using hg)]
          rw [this]
          exact ⟨_, rfl⟩
        · rename_i h2
          split
          · exact ⟨_, rfl⟩
          · have : z = s.topY := le_antisymm hz' (by rw [g.topY]; exact not_lt.mp h2)
            rw [if_pos (by simp [this])]
            exact ⟨_, rfl⟩
    split
    · exact ⟨_, rfl⟩
    · rw [hx]; exact ⟨_, rfl⟩

theorem bishopLoop_raise {w tol : ℝ} {fs : List (SliceForces ℝ)} {e : PyErr} (n : ℕ) (F : ℝ)
    (h : bishopLoop w tol fs n F = .error (.raise e)) : e = .nonreal := by
  induction n generalizing F with
  | zero => cases h
  | succ n ih =>
    unfold bishopLoop at h
    cases hs : bishopStep w fs F with
    | error x =>
      rw [hs] at h
      cases h
      unfold bishopStep at hs
      simp only [bind, Except.bind, throw, throwThe, MonadExceptOf.throw, pure, Except.pure] at hs
      split_ifs at hs <;> cases hs
      rfl
    | ok F' =>
      rw [hs] at h
      simp only [bind, Except.bind] at h
      split at h
      · cases h
      · exact ih _ h

/-- The ordinary method never raises on the ends of a circle with centre and radius not negative. -/
theorem ordinary_raise {s : Slope ℝ} (rc : Reachable s) (hw : ∀ z, s.waterRL = some z → z ≤ s.topY)
    {cx cy r : ℝ} (h0 : 0 ≤ cx ∧ 0 ≤ cy ∧ 0 ≤ r) {l rt : ℝ × ℝ}
    (he : s.bishopEnds cx cy r none none = .ok (l, rt)) {e : PyErr}
    (h : s.ordinary cx cy r (some l) (some rt) = .error (.raise e)) : False := by
  have hsl : 10 ≤ s.slices := rc.wf.sl.1
  have g := rc.wf.geo
  obtain ⟨water, hw⟩ := waterX_ok g hw
  have hends : EndsOk s { lc := l, rc := rt, cx := cx, cy := cy, radius := r, fos := none } := by
    obtain ⟨is, el, _⟩ := intersections g cx cy r
    have he' := he
    unfold Slope.bishopEnds at he'
    rw [el] at he'
    simp only at he'
    rcases two_first g el with h2 | ⟨a, b, rest, rfl, h2, hok⟩
    · rw [if_pos h2] at he'; cases he'
    · rw [if_neg h2] at he'; cases he'; exact hok
  have hlt : l.1 < rt.1 := by have := hends.order; norm_num at this; linarith
  have hin : ∀ i < s.slices.toNat, (centre l.1 rt.1 s.slices i - cx) ^ 2 < r ^ 2 := by
    intro i hi
    have e1 := hends.lOn
    have e2 := hends.rOn
    unfold OnCircle at e1 e2
    simp only at e1 e2
    exact centre_inside hlt (by nlinarith [sq_nonneg (l.2 - cy)])
      (by nlinarith [sq_nonneg (rt.2 - cy)]) (by omega) hi
  by_cases hm : s.materials = []
  · have ho : s.ordinary cx cy r (some l) (some rt) = .error .retNone := by
      unfold Slope.ordinary
      rw [if_neg (by simp only [lit_zero]; push Not; exact h0)]
      simp only [Slope.ordinaryEnds, bind, Except.bind, pure, Except.pure]
      split
      · rfl
      · rw [sliceRows_eq s (by omega) cx cy r l.1 rt.1 hin]
        simp only
        rw [sliceForces_noMaterial hm _ hw]
        unfold Slope.rowsAt
        intro hnil
        have := congrArg List.length hnil
        simp at this
        omega
    rw [ho] at h
    cases h
  · have ho := ordinary_eq (by omega) h0 (l := l) (rt := rt) (by
      have := hends.order; norm_num at this ⊢; linarith) hin hm hw
    rw [ho] at h
    split at h <;> cases h

/-- What raises while the factor of safety of one circle is computed. -/
theorem bishop_raise {s : Slope ℝ} (rc : Reachable s) (hw : ∀ z, s.waterRL = some z → z ≤ s.topY)
    {cx cy r : ℝ} (h0 : 0 ≤ cx ∧ 0 ≤ cy ∧ 0 ≤ r) {e : PyErr}
    (h : s.bishop cx cy r none none = .error (.raise e)) : e = .nonreal := by
  have hsl : 10 ≤ s.slices := rc.wf.sl.1
  have g := rc.wf.geo
  obtain ⟨water, hw'⟩ := waterX_ok g hw
  cases he : s.bishopEnds cx cy r none none with
  | error x =>
    exfalso
    unfold Slope.bishop at h
    rw [he] at h
    cases h
    obtain ⟨l, el, _⟩ := intersections g cx cy r
    unfold Slope.bishopEnds at he
    rw [el] at he
    simp only at he
    rcases two_first g el with h2 | ⟨a, b, rest, rfl, h2, hok⟩
    · rw [if_pos h2] at he; cases he
    · rw [if_neg h2] at he; cases he
  | ok lr =>
    obtain ⟨l, rt⟩ := lr
    cases ho : s.ordinary cx cy r (some l) (some rt) with
    | ok F0 =>
      rw [bishop_eq (by omega) he ho hw'] at h
      exact bishopLoop_raise _ _ h
    | error x =>
      exfalso
      have h' := h
      unfold Slope.bishop at h'
      rw [he] at h'
      simp only [bind, Except.bind] at h'
      rw [ho] at h'
      cases h'
      exact ordinary_raise rc hw h0 he ho

/-- Without friction and with cohesion in every layer nothing raises. -/
theorem bishop_clay {s : Slope ℝ} (rc : Reachable s) (hw : ∀ z, s.waterRL = some z → z ≤ s.topY)
    {cx cy r : ℝ} (h0 : 0 ≤ cx ∧ 0 ≤ cy ∧ 0 ≤ r)
    (hm : ∀ l ∈ s.materials, l.mat.frictionAngle = 0 ∧ 0 < l.mat.cohesion) (e : PyErr) :
    s.bishop cx cy r none none ≠ .error (.raise e) := by
  intro h
  have hsl : 10 ≤ s.slices := rc.wf.sl.1
  have g := rc.wf.geo
  obtain rfl := bishop_raise rc hw h0 h
  cases he : s.bishopEnds cx cy r none none with
  | error x =>
    unfold Slope.bishop at h
    rw [he] at h
    cases h
    obtain ⟨l, el, _⟩ := intersections g cx cy r
    unfold Slope.bishopEnds at he
    rw [el] at he
    simp only at he
    rcases two_first g el with h2 | ⟨a, b, rest, rfl, h2, hok⟩
    · rw [if_pos h2] at he; cases he
    · rw [if_neg h2] at he; cases he
  | ok lr =>
    obtain ⟨l, rt⟩ := lr
    cases ho : s.ordinary cx cy r (some l) (some rt) with
    | ok F =>
      obtain ⟨_, _, h3, h4, hne, hin, water, hw', hf, hdr, hFe⟩ := ordinary_spec rc ho
      have hx : l.1 < rt.1 := by norm_num at h4; linarith
      have hF : F ≠ 0 := by
        rw [hFe]
        apply ne_of_gt
        unfold fellenius
        refine div_pos (sum_pos ?_ ?_) hdr
        · intro i hi
          obtain ⟨a1, a2, a3, a4, _⟩ := slice_facts (cy := cy) rc hne h3 hx (hin i (mem_range.mp hi))
          obtain ⟨ly, hl, hlm, _⟩ := strengthAt_eq rc hne
            (cy - √(r ^ 2 - (l.1 + ((i : ℝ) + 1 / 2) * ((rt.1 - l.1) / s.slices) - cx) ^ 2))
          have htan : (sliceOf s cx cy r l.1 rt.1 i).tan = 0 := by
            unfold Slice.tan sliceOf
            simp only [hl, (hm ly hlm).1, zero_mul, Real.tan_zero]
          have hcoh : 0 < (sliceOf s cx cy r l.1 rt.1 i).c := by
            unfold sliceOf
            simp only [hl]
            exact (hm ly hlm).2
          rw [htan, mul_zero, add_zero]
          exact mul_pos hcoh (div_pos a1 a4)
        · exact ⟨0, mem_range.mpr (by omega)⟩
      have := (C56_no_friction s rc (fun l hl => (hm l hl).1) cx cy r l rt he).2 F ho hF
      rw [this] at h
      cases h
    | error x =>
      have h' := h
      unfold Slope.bishop at h'
      rw [he] at h'
      simp only [bind, Except.bind] at h'
      rw [ho] at h'
      cases h'
      have h5 := ordinary_raise rc hw h0 he ho
      exact h5

/-- C70: an analysis ends without an exception unless one of these holds: an individual circle has a
negative centre or radius; the water is above the crest; in a search, a load lies beyond the crest or
there are as many loads as leave one entry point (`C29_zero_division`). What can happen then is only
that the computation leaves the real numbers (`nonreal`: numpy then has 0/0, which is no exception).
Not even this happens in clay: no friction and some cohesion in every layer. -/
theorem C70_analysis_ends (s : Slope ℝ) (r : Reachable s) (m : Option ℝ)
    (hc : ∀ p ∈ s.individual, 0 ≤ p.cx ∧ 0 ≤ p.cy ∧ 0 ≤ p.radius)
    (hw : ∀ z, s.waterRL = some z → z ≤ s.topY)
    (hn : s.individual = [] → (∀ u ∈ s.udls, u.left ≤ s.topX) ∧ (∀ l ∈ s.lls, l.coord ≤ s.topX) ∧
      s.udls.length + s.lls.length + 1 ≠ topPointsFor s.iterations.toNat) :
    ((s.analyseSlope m).2 = .ok () ∨ (s.analyseSlope m).2 = .error .nonreal) ∧
    ((∀ l ∈ s.materials, l.mat.frictionAngle = 0 ∧ 0 < l.mat.cohesion) →
      (s.analyseSlope m).2 = .ok ()) := by
  have planes : ∀ ps, Analysed s ps → ∀ p ∈ ps, 0 ≤ p.cx ∧ 0 ≤ p.cy ∧ 0 ≤ p.radius := by
    rintro ps (⟨_, rfl⟩ | ⟨h1, h2⟩)
    · exact hc
    · exact entryExitPlanes_centre r (hn h1).1 (hn h1).2.1 h2
  rcases analyseSlope_cases s m with ⟨ps, _, _, e⟩ | ⟨x, hi, h, _⟩ | ⟨pre, p, post, x, ind, h1, h2, _, _, e⟩
  · rw [e]; exact ⟨.inl rfl, fun _ => rfl⟩
  · obtain ⟨a, b, c⟩ := hn hi
    exact absurd (((C29_zero_division s r).2.2 a b x).mp h).2 c
  · have h0 := planes _ h1 p (by simp)
    unfold FosRaises at h2
    constructor
    · right; rw [e, bishop_raise r hw h0 h2]
    · intro hm
      exact absurd h2 (bishop_clay r hw h0 hm x)

/-- A case of C70: the search in the clay of the example. -/
example : ∃ t, exSoil.analyseSlope (some 5) = (t, .ok ()) ∧ exSoil.individual = [] := by
  have h := (C70_analysis_ends exSoil exSoil_reachable (some 5) (by intro p hp; cases hp)
    (by intro z hz; cases hz) (fun _ => ⟨by simp, by simp, by
      have : topPointsFor exSoil.iterations.toNat = 14 := by
        unfold topPointsFor
        exact (Nat.eq_sqrt.mpr ⟨by decide, by decide⟩).symm
      rw [this]; simp⟩)).2 (by
    intro l hl
    obtain rfl : l = _ := List.mem_singleton.mp hl
    exact ⟨rfl, by simp [exMat, mkLayer]⟩)
  refine ⟨(exSoil.analyseSlope (some 5)).1, ?_, rfl⟩
  rw [← h]

/-- A condition of C70 is needed: a circle with a negative centre is taken as an individual plane, and
then the analysis raises `ValueError`. -/
theorem C70_negative_centre : ∃ s t u : Slope ℝ, Reachable s ∧
    s.addSingleCircularPlane (-1) 0 (√130) = (t, .ok ()) ∧
    t.analyseSlope none = (u, .error .valueError) := by
  have hsq : √(130 : ℝ) ^ 2 = 130 := Real.sq_sqrt (by norm_num)
  have hcr : ∀ p, Crossing exSlope (-1) 0 (√130) p ↔ p = (6, 9) ∨ p = (8, 7) := by
    rintro ⟨x, y⟩
    simp only [Prod.mk.injEq]
    unfold Crossing OnCircle OnLine
    simp only [exSlope_topX, exSlope_topY, exSlope_botX, exSlope_botY, exSlope_extL, hsq]
    constructor
    · rintro ⟨h, ⟨rfl, h1, h2, h3⟩ | ⟨rfl, h1, h2, h3⟩ | ⟨h1, h2, h3⟩⟩
      · exfalso; linarith
      · exfalso; nlinarith
      · have hy : y = 15 - x := by linarith
        subst hy
        have : (x - 6) * (x - 8) = 0 := by linarith
        rcases mul_eq_zero.mp this with h | h
        · left; exact ⟨by linarith, by linarith⟩
        · right; exact ⟨by linarith, by linarith⟩
    · rintro (⟨rfl, rfl⟩ | ⟨rfl, rfl⟩) <;> norm_num
  have hi := intersections_two exSlope_reachable.wf.geo hcr (by norm_num)
  have ha : exSlope.addSingleCircularPlane (-1) 0 (√130) =
      ({ exSlope with individual := [{ lc := (6, 9), rc := (8, 7), cx := -1, cy := 0, radius := √130, fos := none }] },
        .ok ()) := by
    unfold Slope.addSingleCircularPlane
    rw [hi]
    simp only
    rw [setSize_nodup (by simp)]
    rfl
  refine ⟨exSlope, _, (Slope.analyseSlope _ none).1, exSlope_reachable, ha, Prod.ext rfl ?_⟩
  unfold Slope.analyseSlope
  simp only
  unfold Slope.fillFos
  have hb : ({ exSlope with individual := [{ lc := (6, 9), rc := (8, 7), cx := -1, cy := 0, radius := √130, fos := none }] } : Slope ℝ).bishop
      (-1) 0 (√130) none none = .error (.raise .valueError) := by
    change exSlope.bishop (-1) 0 (√130) none none = _
    unfold Slope.bishop
    have he : exSlope.bishopEnds (-1) 0 (√130) none none = .ok ((6, 9), (8, 7)) := by
      unfold Slope.bishopEnds
      rw [hi]
      simp only
      rw [setSize_nodup (by simp)]
      rfl
    rw [he]
    simp only [bind, Except.bind]
    have ho : exSlope.ordinary (-1) 0 (√130) (some (6, 9)) (some (8, 7)) = .error (.raise .valueError) := by
      unfold Slope.ordinary
      rw [if_pos (by simp only [lit_zero]; left; norm_num)]
      rfl
    rw [ho]
  simp only
  rw [hb]
  rfl

end PySlope
