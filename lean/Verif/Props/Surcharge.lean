import Verif.Props.Clay

/-! # Property C96: loads on the crest and the factor of safety -/

namespace PySlope
open Finset

/-- Specification: the same slope with at least as much load on every stretch of the ground. -/
structure MoreLoad (s t : Slope ℝ) : Prop extends SameFrame s t where
  materials : t.materials = s.materials
  load : ∀ a b, a ≤ b → loadOn s a b ≤ loadOn t a b

theorem weightOn_load (s : Slope ℝ) (a b yb yt : ℝ) :
    weightOn s a b yb yt = (b - a) * (∫ y in yb..yt, unitWeightAt s.materials y) + loadOn s a b := by
  unfold weightOn loadOn
  have : (fun u : PUdl ℝ => u.load.magnitude * common a b u.left u.right) =
      fun u => common a b u.left u.right * u.load.magnitude := by funext u; ring
  rw [this]; ring

/-- Specification: no load lies right of the crest. -/
def LoadsBehindCrest (s : Slope ℝ) : Prop :=
  (∀ u ∈ s.udls, 0 ≤ u.load.offset) ∧ ∀ l ∈ s.lls, 0 ≤ l.load.offset

/-- There is no load right of the crest. -/
theorem loadOn_face {s : Slope ℝ} (r : Reachable s) (hb : LoadsBehindCrest s) {a b : ℝ} (h : s.topX < a) :
    loadOn s a b = 0 := by
  obtain ⟨h1, h2⟩ := C18_loads_in_place s r
  unfold loadOn
  have e1 : (s.udls.map fun u => common a b u.left u.right * u.load.magnitude).sum = 0 := by
    apply List.sum_eq_zero
    intro x hx
    obtain ⟨u, hu, rfl⟩ := List.mem_map.mp hx
    have h3 := (h1 u hu).1
    have h4 := hb.1 u hu
    have : common a b u.left u.right = 0 := by
      unfold common
      exact max_eq_right (by linarith [min_le_right b u.right, le_max_left a u.left])
    rw [this, zero_mul]
  have e2 : (s.lls.map fun l => if a ≤ l.coord ∧ l.coord < b then l.load.magnitude else 0).sum = 0 := by
    apply List.sum_eq_zero
    intro x hx
    obtain ⟨u, hu, rfl⟩ := List.mem_map.mp hx
    have h3 := h2 u hu
    have h4 := hb.2 u hu
    have h5 : 0 ≤ s.topX := by
      have := r.wf; have a1 := this.l1; have a2 := this.l12; have a3 := this.l2; linarith
    rw [if_neg]
    rintro ⟨h6, _⟩
    rw [h3] at h6
    have : max 0 (s.topX - u.load.offset) ≤ s.topX := max_le h5 (by linarith)
    linarith
  rw [e1, e2, add_zero]

theorem loadOn_nonneg {s : Slope ℝ} (r : Reachable s) (a b : ℝ) : 0 ≤ loadOn s a b := by
  unfold loadOn
  refine add_nonneg (List.sum_nonneg ?_) (List.sum_nonneg ?_)
  · intro x hx
    obtain ⟨u, hu, rfl⟩ := List.mem_map.mp hx
    exact mul_nonneg (common_nonneg _ _ _ _) (r.sane.udl u.load (List.mem_map_of_mem hu)).1.le
  · intro x hx
    obtain ⟨u, hu, rfl⟩ := List.mem_map.mp hx
    split
    · exact (r.sane.ll u.load (List.mem_map_of_mem hu)).le
    · exact le_rfl

/-- Specification: the same slope with at least as much load on every stretch between two abscissas. -/
structure MoreLoadOn (s t : Slope ℝ) (xl xr : ℝ) : Prop extends SameFrame s t where
  materials : t.materials = s.materials
  load : ∀ a b, xl ≤ a → a ≤ b → b ≤ xr → loadOn s a b ≤ loadOn t a b

theorem MoreLoad.on {s t : Slope ℝ} (h : MoreLoad s t) (xl xr : ℝ) : MoreLoadOn s t xl xr :=
  ⟨h.toSameFrame, h.materials, fun a b _ hab _ => h.load a b hab⟩

theorem SameFrame.groundY {s t : Slope ℝ} (h : SameFrame s t) (x : ℝ) : PySlope.groundY t x = PySlope.groundY s x := by
  unfold PySlope.groundY
  rw [h.topX, h.extH, h.length, h.height]

theorem MoreLoad.groundY {s t : Slope ℝ} (h : MoreLoad s t) (x : ℝ) : PySlope.groundY t x = PySlope.groundY s x :=
  h.toSameFrame.groundY x

/-- A slice with more load: all the rest is the same. -/
theorem SameFrame.slice {s t : Slope ℝ} (h : SameFrame s t) (hm : t.materials = s.materials) (cx cy r xl xr : ℝ) (i : ℕ) :
    ∃ d, sliceOf t cx cy r xl xr i = { sliceOf s cx cy r xl xr i with W := (sliceOf s cx cy r xl xr i).W + d } ∧
      d = loadOn t (xl + i * ((xr - xl) / s.slices)) (xl + (i + 1) * ((xr - xl) / s.slices)) -
        loadOn s (xl + i * ((xr - xl) / s.slices)) (xl + (i + 1) * ((xr - xl) / s.slices)) := by
  refine ⟨_, ?_, rfl⟩
  have hp : ∀ x yb yt, pressureAt t x yb yt = pressureAt s x yb yt := by
    intro x yb yt
    unfold pressureAt
    rw [h.waterRL, h.waterH, h.topX, h.length, h.groundY]
  unfold sliceOf
  simp only [h.slices, hm, h.groundY, hp, weightOn_load]
  congr 1
  ring

/-- The driving sum does not fall. -/
theorem MoreLoadOn.driving {s t : Slope ℝ} (rs : Reachable s) (rt : Reachable t) {xl xr : ℝ} (h : MoreLoadOn s t xl xr)
    (hb : LoadsBehindCrest t) (cx cy r : ℝ) (hr : 0 < r) (hx : xl ≤ xr)
    (hc : s.topX + (xr - xl) / s.slices / 2 ≤ cx) :
    PySlope.driving s.slices.toNat (sliceOf s cx cy r xl xr) ≤
      PySlope.driving s.slices.toNat (sliceOf t cx cy r xl xr) := by
  unfold PySlope.driving
  refine Finset.sum_le_sum fun i hi => ?_
  have hi := mem_range.mp hi
  obtain ⟨d, e, hd⟩ := h.toSameFrame.slice h.materials cx cy r xl xr i
  rw [e]
  dsimp only
  rw [add_mul]
  refine le_add_of_nonneg_right ?_
  have hw : 0 ≤ (xr - xl) / s.slices := by
    have := rs.wf.sl.1
    have : (0 : ℝ) < s.slices := by exact_mod_cast (by omega : (0 : ℤ) < s.slices)
    exact div_nonneg (by linarith) this.le
  have hd0 : 0 ≤ d := by
    rw [hd]
    have hn : (0 : ℝ) < s.slices := by
      have := rs.wf.sl.1
      exact_mod_cast (by omega : (0 : ℤ) < s.slices)
    have hi' : (i : ℝ) + 1 ≤ s.slices := by exact_mod_cast (by omega : (i : ℤ) + 1 ≤ s.slices)
    refine sub_nonneg.mpr (h.load _ _ ?_ (by nlinarith) ?_)
    · have : 0 ≤ (i : ℝ) * ((xr - xl) / s.slices) := mul_nonneg (Nat.cast_nonneg i) hw
      linarith
    · have e : (s.slices : ℝ) * ((xr - xl) / s.slices) = xr - xl := by field_simp
      have : ((i : ℝ) + 1) * ((xr - xl) / s.slices) ≤ xr - xl := by
        exact (mul_le_mul_of_nonneg_right hi' hw).trans e.le
      linarith
  by_cases hs : 0 ≤ (sliceOf s cx cy r xl xr i).sin
  · exact mul_nonneg hd0 hs
  · have hs' : cx < xl + (i + 1 / 2) * ((xr - xl) / s.slices) := by
      by_contra hh
      exact hs (div_nonneg (by linarith) hr.le)
    have hl : s.topX < xl + i * ((xr - xl) / s.slices) := by nlinarith
    have h0 : loadOn t (xl + i * ((xr - xl) / s.slices)) (xl + (i + 1) * ((xr - xl) / s.slices)) = 0 :=
      loadOn_face rt hb (by rw [h.topX]; exact hl)
    have h1 := loadOn_nonneg rs (xl + i * ((xr - xl) / s.slices)) (xl + (i + 1) * ((xr - xl) / s.slices))
    have : d = 0 := by rw [h0] at hd; linarith
    rw [this, zero_mul]

/-- Without friction a slice resists with its cohesion. -/
theorem Frictionless.tan {s : Slope ℝ} (hφ : Frictionless s) (cx cy r xl xr : ℝ) (i : ℕ) :
    (sliceOf s cx cy r xl xr i).tan = 0 := by
  have : (sliceOf s cx cy r xl xr i).φ = 0 := by
    unfold sliceOf
    dsimp only
    split
    · rename_i l hl
      unfold layerAt at hl
      rcases Option.or_eq_some_iff.mp hl with h | ⟨-, h⟩
      · exact hφ l (List.mem_of_find?_eq_some h)
      · exact hφ l (List.mem_of_getLast? h)
    · rfl
  unfold Slice.tan
  rw [this, zero_mul, Real.tan_zero]

/-- Without friction the ordinary method divides the cohesion along the bases by the driving sum. -/
theorem Frictionless.fellenius {s : Slope ℝ} (hφ : Frictionless s) (cx cy r xl xr : ℝ) (n : ℕ) :
    PySlope.fellenius n (sliceOf s cx cy r xl xr) =
      (∑ i ∈ range n, (sliceOf s cx cy r xl xr i).c *
        ((sliceOf s cx cy r xl xr i).b / (sliceOf s cx cy r xl xr i).cos)) /
        PySlope.driving n (sliceOf s cx cy r xl xr) := by
  unfold PySlope.fellenius
  congr 1
  refine Finset.sum_congr rfl fun i _ => ?_
  rw [hφ.tan, mul_zero, add_zero]

theorem SameFrame.resisting {s t : Slope ℝ} (h : SameFrame s t) (hm : t.materials = s.materials) (hφ : Frictionless s) (cx cy r xl xr : ℝ) (n : ℕ) :
    PySlope.fellenius n (sliceOf t cx cy r xl xr) =
      (∑ i ∈ range n, (sliceOf s cx cy r xl xr i).c *
        ((sliceOf s cx cy r xl xr i).b / (sliceOf s cx cy r xl xr i).cos)) /
        PySlope.driving n (sliceOf t cx cy r xl xr) := by
  have hφ' : Frictionless t := by unfold Frictionless; rw [hm]; exact hφ
  rw [hφ'.fellenius]
  congr 1
  refine Finset.sum_congr rfl fun i _ => ?_
  obtain ⟨d, e, -⟩ := h.slice hm cx cy r xl xr i
  rw [e]

/-- In ground without friction more load on the mass does not raise the factor of safety of either method. -/
theorem MoreLoadOn.clay {s t : Slope ℝ} (rs : Reachable s) (rt : Reachable t) {a b : ℝ × ℝ} (h : MoreLoadOn s t a.1 b.1)
    (hφ : Frictionless s) (hb : LoadsBehindCrest t) (cx cy r : ℝ)
    (hc : s.topX + (b.1 - a.1) / s.slices / 2 ≤ cx) :
    (∀ F, s.ordinary cx cy r (some a) (some b) = .ok F →
      ∃ F', t.ordinary cx cy r (some a) (some b) = .ok F' ∧ F' ≤ F) ∧
    ∀ F, s.bishop cx cy r (some a) (some b) = .ok F →
      ∃ F', t.bishop cx cy r (some a) (some b) = .ok F' ∧ F' ≤ F := by
  have hφ' : Frictionless t := by unfold Frictionless; rw [h.materials]; exact hφ
  have key : ∀ F, s.ordinary cx cy r (some a) (some b) = .ok F →
      ∃ F', t.ordinary cx cy r (some a) (some b) = .ok F' ∧ F' ≤ F ∧ (F ≠ 0 → F' ≠ 0) := by
    intro F hF
    rw [C55_ordinary_formula s rs] at hF
    obtain ⟨h1, h2, h3, h4, h5, h6, ⟨w, h7⟩, h8, rfl⟩ := hF
    have hd := h.driving rs rt hb cx cy r h3 (by linarith) hc
    refine ⟨fellenius t.slices.toNat (sliceOf t cx cy r a.1 b.1), ?_, ?_⟩
    · rw [C55_ordinary_formula t rt]
      refine ⟨h1, h2, h3, h4, by rw [h.slices]; exact h5, by rw [h.materials]; exact h6, ⟨w, ?_⟩, ?_, rfl⟩
      · rw [← h7]
        unfold Slope.waterX Slope.getExternalX
        rw [h.waterRL, h.gradient, h.topX, h.topY, h.botX, h.botY, h.extL, h.extH]
      · rw [h.slices]; exact h8.trans_le hd
    · rw [h.slices]
      rw [h.toSameFrame.resisting h.materials hφ, hφ.fellenius]
      have hn : 0 ≤ ∑ i ∈ range s.slices.toNat, (sliceOf s cx cy r a.1 b.1 i).c *
          ((sliceOf s cx cy r a.1 b.1 i).b / (sliceOf s cx cy r a.1 b.1 i).cos) := by
        refine Finset.sum_nonneg fun i hi => ?_
        obtain ⟨a1, a2, a3, a4, -⟩ := slice_facts (cy := cy) (i := i) rs h6 h3
          (by norm_num at h4; linarith : a.1 < b.1)
          (by
            have := h5 i (mem_range.mp hi)
            rw [← abs_of_pos h3] at this
            exact sq_lt_sq.mpr this)
        exact mul_nonneg a2 (div_nonneg a1.le a4.le)
      refine ⟨div_le_div_of_nonneg_left hn h8 hd, fun hne => ?_⟩
      intro h0
      rcases div_eq_zero_iff.mp h0 with h0 | h0
      · exact hne (by rw [h0, zero_div])
      · linarith
  refine ⟨fun F hF => ?_, fun F hF => ?_⟩
  · obtain ⟨F', h1, h2, -⟩ := key F hF
    exact ⟨F', h1, h2⟩
  · rw [clay_bishop rs hφ] at hF
    have e1 : ∀ u : Slope ℝ, u.bishopEnds cx cy r (some a) (some b) = .ok (a, b) := fun _ => rfl
    rw [e1] at hF
    simp only [bind, Except.bind] at hF
    cases ho : s.ordinary cx cy r (some a) (some b) with
    | error e => rw [ho] at hF; cases hF
    | ok G =>
      rw [ho] at hF
      obtain ⟨F', k1, k2, k3⟩ := key G ho
      simp only at hF
      split at hF
      · cases hF
      · rename_i hcond
        cases hF
        refine ⟨F', ?_, k2⟩
        rw [clay_bishop rt hφ', e1]
        simp only [bind, Except.bind]
        rw [k1]
        simp only
        have hi : t.maxIterations = s.maxIterations := h.maxIterations
        rw [hi, if_neg]
        · rfl
        · rintro ⟨q1, q2⟩
          exact hcond ⟨q1, by_contra fun q => k3 q q2⟩

/-- C96 (partial): in ground without friction more load on the crest does not raise the factor of safety of
either method, on any circle whose centre is right of the crest by at least half the width of a slice: where there
is a number without the load there is one with it, and it is not higher. Missing: circles with the centre further
left, where it fails (`C96_load_raises`), and ground with friction. -/
theorem C96_clay_partial (s t : Slope ℝ) (rs : Reachable s) (rt : Reachable t) (h : MoreLoad s t)
    (hφ : Frictionless s) (hb : LoadsBehindCrest t) (cx cy r : ℝ) (a b : ℝ × ℝ)
    (hc : s.topX + (b.1 - a.1) / s.slices / 2 ≤ cx) :
    (∀ F, s.ordinary cx cy r (some a) (some b) = .ok F →
      ∃ F', t.ordinary cx cy r (some a) (some b) = .ok F' ∧ F' ≤ F) ∧
    ∀ F, s.bishop cx cy r (some a) (some b) = .ok F →
      ∃ F', t.bishop cx cy r (some a) (some b) = .ok F' ∧ F' ≤ F :=
  (h.on a.1 b.1).clay rs rt hφ hb cx cy r hc

/-- The same for the end points that the code looks for. -/
theorem SameFrame.clay_found {s t : Slope ℝ} (rs : Reachable s) (rt : Reachable t) (h : SameFrame s t)
    (hm : t.materials = s.materials) (hφ : Frictionless s) (hb : LoadsBehindCrest t) (cx cy r : ℝ)
    (hl : ∀ a b, s.bishopEnds cx cy r none none = .ok (a, b) → ∀ x y, a.1 ≤ x → x ≤ y → y ≤ b.1 →
      loadOn s x y ≤ loadOn t x y)
    (hc : s.topX + s.extL / s.slices / 2 ≤ cx) :
    ∀ F, s.bishop cx cy r none none = .ok F → ∃ F', t.bishop cx cy r none none = .ok F' ∧ F' ≤ F := by
  intro F hF
  have hφ' : Frictionless t := by unfold Frictionless; rw [hm]; exact hφ
  have he : t.bishopEnds cx cy r none none = s.bishopEnds cx cy r none none := by
    unfold Slope.bishopEnds Slope.circleExternalIntersection
    simp only [h.topX, h.topY, h.botX, h.botY, h.extL]
  cases hs : s.bishopEnds cx cy r none none with
  | error e => rw [clay_bishop rs hφ, hs] at hF; cases hF
  | ok q =>
    obtain ⟨a, b⟩ := q
    obtain ⟨c1, c2⟩ := bishopEnds_crossing rs hs
    have hcl : ∀ u : Slope ℝ, Reachable u → Frictionless u → u.bishopEnds cx cy r none none = .ok (a, b) →
        u.bishop cx cy r none none = u.bishop cx cy r (some a) (some b) := by
      intro u ru hu eu
      rw [clay_bishop ru hu, clay_bishop ru hu, eu]
      rfl
    rw [hcl s rs hφ hs] at hF
    rw [hcl t rt hφ' (by rw [he, hs])]
    refine (MoreLoadOn.clay rs rt (a := a) (b := b) ⟨h, hm, hl a b hs⟩ hφ hb cx cy r (le_trans ?_ hc)).2 F hF
    have hn : (0 : ℝ) < s.slices := by
      have := rs.wf.sl.1
      exact_mod_cast (by omega : (0 : ℤ) < s.slices)
    have hw : b.1 - a.1 ≤ s.extL := by
      have w := rs.wf
      have g := w.geo
      have := g.len
      have e1 := g.topX
      have e2 := g.botX
      have e3 := g.extL5
      have e0 : 0 ≤ s.topX := by linarith
      have e4 : s.botX ≤ s.extL := by linarith
      have h1 : 0 ≤ a.1 := by
        rcases c1.2 with ⟨_, h, _, _⟩ | ⟨_, h, _, _⟩ | ⟨_, h, _⟩ <;> linarith
      have h2 : b.1 ≤ s.extL := by
        rcases c2.2 with ⟨_, _, h, _⟩ | ⟨_, _, h, _⟩ | ⟨_, _, h⟩ <;> linarith
      linarith
    gcongr

/-- C96 (partial), for the circles of an analysis, whose end points the code looks for: the centre at least half
the width of the widest slice right of the crest. -/
theorem C96_clay_found_partial (s t : Slope ℝ) (rs : Reachable s) (rt : Reachable t) (h : MoreLoad s t)
    (hφ : Frictionless s) (hb : LoadsBehindCrest t) (cx cy r : ℝ)
    (hc : s.topX + s.extL / s.slices / 2 ≤ cx) :
    ∀ F, s.bishop cx cy r none none = .ok F → ∃ F', t.bishop cx cy r none none = .ok F' ∧ F' ≤ F :=
  h.toSameFrame.clay_found rs rt h.materials hφ hb cx cy r (fun _ _ _ x y _ hxy _ => h.load x y hxy) hc

/-! ## A load that raises the factor of safety -/

/-- What is reported for one circle without friction: the ordinary value over the crossings. -/
theorem clay_report {s : Slope ℝ} (rc : Reachable s) (hφ : Frictionless s) (hs : s.individual = [])
    (hs' : s.search = []) {cx cy r : ℝ} {a b : ℝ × ℝ}
    (hx : ∀ p, Crossing s cx cy r p ↔ p = a ∨ p = b) (hab : 0.03 < b.1 - a.1) {F : ℝ}
    (ho : s.ordinary cx cy r (some a) (some b) = .ok F) (hF : F ≠ 0) :
    let t := (s.addSingleCircularPlane cx cy r).1.analyseSlope none
    t.2 = .ok () ∧ t.1.getMinFos = .ok (some F) := by
  have g := rc.wf.geo
  have hi := intersections_two g hx hab
  have hne : a ≠ b := by rintro rfl; norm_num at hab
  have h2 : setSize [a, b] = 2 := setSize_nodup (by simp [hne])
  have he : s.bishopEnds cx cy r none none = .ok (a, b) := by
    unfold Slope.bishopEnds
    rw [hi]
    simp [h2]
  have hb : s.bishop cx cy r none none = .ok F := by
    rw [clay_bishop rc hφ, he]
    simp only [bind, Except.bind]
    rw [ho]
    simp [hF, pure, Except.pure]
  set p : Plane ℝ := { lc := a, rc := b, cx := cx, cy := cy, radius := r, fos := none } with hp
  set u : Slope ℝ := { s with search := [], individual := [p] } with hu
  have hadd : (s.addSingleCircularPlane cx cy r).1 = u := by
    unfold Slope.addSingleCircularPlane
    rw [hi]
    simp only
    rw [if_neg (by rw [h2]; simp)]
    rw [hs]
    rfl
  intro t
  have hsame : SameSetup s u := by constructor <;> rfl
  have hfos : fosOf u p = some F := by
    rw [fosOf_some, hsame.bishop]; exact hb
  have ht : t = (u.analysedTo none [p], .ok ()) := by
    change Slope.analyseSlope _ none = _
    rw [hadd]
    apply analyseSlope_of (.inl ⟨by simp [hu], rfl⟩)
    intro q hq e he'
    rw [List.mem_singleton] at hq
    subst hq
    unfold FosRaises at he'
    rw [fosOf_some.mp hfos] at he'
    cases he'
  rw [ht]
  refine ⟨rfl, ?_⟩
  have hsearch : (u.analysedTo none [p]).search = [withFos u p] := by
    change tidySearch none [withFos u p] = _
    rw [tidySearch_eq]
    have h1 : (withFos u p).fosVal.isSome := by rw [fosVal_withFos, hfos]; rfl
    have h2 : keeps none (withFos u p) = true := rfl
    simp [h1, sortByKey, pySort, h2]
  unfold Slope.getMinFos
  simp only [hsearch, withFos, hfos]

/-- `LineLoad(magnitude=1, offset=0.4)`. -/
noncomputable def heelLoad : LineLoad ℝ :=
  { magnitude := 1, offset := |2 / 5|, color := "blue", dynamic := false }

theorem heelLoad_constructed : LineLoad.Constructed heelLoad := by
  refine ⟨fun _ => true, .num 1, .num (2 / 5), "blue", false, ?_⟩
  simp [LineLoad.new, assertNumber, bind, Except.bind, pure, Except.pure, PyVal.get!, heelLoad]

/-- The slope of the example with that load on the crest. -/
noncomputable def exHeel : Slope ℝ := { exSoil with lls := [placeLl exSoil.topX heelLoad] }

theorem exHeel_eq : exSoil.setLls [some heelLoad] = (exHeel, .ok ()) := by
  have e := addLl_eq exSoil_reachable.sane exSoil_reachable.wf.geo heelLoad (by norm_num [heelLoad])
  rw [if_neg (by change ¬ (10 : ℝ) < |2 / 5| * 3; rw [abs_of_nonneg] <;> norm_num)] at e
  unfold Slope.setLls Slope.forEach
  rw [e]
  rfl

theorem exHeel_reachable : Reachable exHeel := by
  have := Reachable.call exSoil_reachable (.setLls exSoil [some heelLoad] (by
    intro m hm; simp at hm; subst hm; exact heelLoad_constructed))
  rwa [exHeel_eq] at this

theorem exHeel_coord : (placeLl exSoil.topX heelLoad).coord = 28 / 5 := by
  unfold placeLl heelLoad
  simp only [exSoil_topX]
  rw [abs_of_nonneg (by norm_num), pyMax_real]
  rw [lit_zero, max_eq_right] <;> norm_num

theorem exHeel_load (a b : ℝ) : loadOn exHeel a b = if a ≤ 28 / 5 ∧ 28 / 5 < b then 1 else 0 := by
  unfold loadOn
  change (List.map _ []).sum + (List.map _ [placeLl exSoil.topX heelLoad]).sum = _
  simp only [List.map_nil, List.sum_nil, List.map_cons, List.sum_cons, exHeel_coord, zero_add, add_zero]
  rfl

theorem exSoil_load (a b : ℝ) : loadOn exSoil a b = 0 := by
  unfold loadOn
  simp

theorem exHeel_more : MoreLoad exSoil exHeel := by
  refine ⟨by constructor <;> rfl, rfl, fun a b _ => ?_⟩
  rw [exSoil_load, exHeel_load]
  split <;> norm_num

theorem exHeel_behind : LoadsBehindCrest exHeel := by
  refine ⟨fun u hu => absurd hu (List.not_mem_nil), fun l hl => ?_⟩
  obtain rfl : l = _ := List.mem_singleton.mp hl
  change 0 ≤ |(2 / 5 : ℝ)|
  exact abs_nonneg _

theorem exSoil_frictionless : Frictionless exSoil := by
  intro l hl
  obtain rfl : l = _ := List.mem_singleton.mp hl
  rfl

/-- The crossings of the circle with centre (5, 10.5) and radius 2.5. -/
theorem heelCrossing (p : ℝ × ℝ) : Crossing exSoil 5 (21 / 2) (5 / 2) p ↔ p = (3, 9) ∨ p = (13 / 2, 17 / 2) := by
  obtain ⟨x, y⟩ := p
  simp only [Prod.mk.injEq]
  unfold Crossing OnCircle OnLine
  simp only [exSoil_topX, exSoil_topY, exSoil_botX, exSoil_botY, exSoil_extL]
  constructor
  · rintro ⟨h, ⟨rfl, h1, h2, h3⟩ | ⟨rfl, h1, h2, h3⟩ | ⟨h1, h2, h3⟩⟩
    · left
      have : (x - 3) * (x - 7) = 0 := by linarith
      rcases mul_eq_zero.mp this with h | h
      · exact ⟨by linarith, rfl⟩
      · exfalso; linarith
    · exfalso; nlinarith [sq_nonneg (x - 5)]
    · right
      have hy : y = 15 - x := by linarith
      subst hy
      have : (x - 3) * (x - 13 / 2) = 0 := by linarith
      rcases mul_eq_zero.mp this with h | h
      · exfalso; linarith
      · exact ⟨by linarith, by linarith⟩
  · rintro (⟨rfl, rfl⟩ | ⟨rfl, rfl⟩)
    · norm_num
    · norm_num

/-- Depths of the bases below the centre, in millimetres: rounded down left of the centre and up right of it. -/
def heelTable (i : ℕ) : ℕ := [1589, 1745, 1878, 1992, 2091, 2176, 2249, 2312, 2365, 2408, 2443, 2469, 2487, 2497, 2500, 2495, 2481, 2460, 2430, 2392, 2344, 2287, 2220, 2142, 2051].getD i 0

/-- What the slices drive at least, in thousandths. -/
def heelDrive (i : ℕ) : ℤ := [192, 491, 698, 832, 906, 931, 914, 863, 784, 681, 559, 423, 276, 122, -34, -190, -341, -484, -615, -730, -823, -879, -735, -509, -194].getD i 0

theorem heel_term : ∀ i < 25, (heelDrive i : ℝ) / 1000 ≤
    (sliceOf exSoil 5 (21 / 2) (5 / 2) 3 (13 / 2) i).W * (sliceOf exSoil 5 (21 / 2) (5 / 2) 3 (13 / 2) i).sin := by
  intro i hi
  have hlay : ∀ y, unitWeightAt exSoil.materials y = 20 := by
    intro y
    unfold unitWeightAt layerAt
    rw [exSoil_materials]
    simp only [List.find?_cons, List.find?_nil, List.getLast?_singleton]
    split
    · rename_i h; split at h <;> (cases h; rfl)
    · rename_i h; split at h <;> cases h
  have hW : (sliceOf exSoil 5 (21 / 2) (5 / 2) 3 (13 / 2) i).W * (sliceOf exSoil 5 (21 / 2) (5 / 2) 3 (13 / 2) i).sin =
      14 / 5 * (max (groundY exSoil (3 + ((i : ℝ) + 1 / 2) * (7 / 50)) - 21 / 2 +
        √((5 / 2) ^ 2 - (3 + ((i : ℝ) + 1 / 2) * (7 / 50) - 5) ^ 2)) 0) *
        ((5 - (3 + ((i : ℝ) + 1 / 2) * (7 / 50))) / (5 / 2)) := by
    unfold sliceOf
    simp only [exSoil_slices, weightOn_load, exSoil_load, hlay, intervalIntegral.integral_const, smul_eq_mul]
    have hb : ((13 / 2 : ℝ) - 3) / ((25 : ℤ) : ℝ) = 7 / 50 := by norm_num
    rw [hb, ← max_sub_sub_right, sub_self]
    generalize √((5 / 2) ^ 2 - (3 + ((i : ℝ) + 1 / 2) * (7 / 50) - 5) ^ 2) = S
    rw [show groundY exSoil (3 + ((i : ℝ) + 1 / 2) * (7 / 50)) - (21 / 2 - S) =
      groundY exSoil (3 + ((i : ℝ) + 1 / 2) * (7 / 50)) - 21 / 2 + S by ring]
    ring
  rw [hW]
  unfold groundY
  rw [exSoil_topX, exSoil_extH]
  have e1 : exSoil.length = 3 := rfl
  have e2 : exSoil.height = 3 := rfl
  rw [e1, e2]
  have hS : (i ≤ 13 → (heelTable i : ℝ) / 1000 ≤ √((5 / 2) ^ 2 - (3 + ((i : ℝ) + 1 / 2) * (7 / 50) - 5) ^ 2)) ∧
      (14 ≤ i → √((5 / 2) ^ 2 - (3 + ((i : ℝ) + 1 / 2) * (7 / 50) - 5) ^ 2) ≤ (heelTable i : ℝ) / 1000) := by
    constructor
    · intro h
      interval_cases i <;> refine Real.le_sqrt_of_sq_le ?_ <;> norm_num [heelTable]
    · intro h
      interval_cases i <;> refine Real.sqrt_le_iff.mpr ⟨?_, ?_⟩ <;> norm_num [heelTable]
  generalize √((5 / 2) ^ 2 - (3 + ((i : ℝ) + 1 / 2) * (7 / 50) - 5) ^ 2) = S at hS
  by_cases h13 : i ≤ 13
  · have h := hS.1 h13
    clear hS hW
    rw [if_pos (by have : (i : ℝ) ≤ 13 := by exact_mod_cast h13
                   linarith)]
    have h' := le_max_left (9 - 21 / 2 + S) 0
    generalize max (9 - 21 / 2 + S) 0 = M at h'
    have hM : (heelTable i : ℝ) / 1000 - 3 / 2 ≤ M := by linarith
    interval_cases i <;> norm_num [heelTable, heelDrive] at hM ⊢ <;> linarith
  · have h := hS.2 (by omega)
    clear hS hW
    by_cases h20 : i ≤ 20
    · rw [if_pos (by have : (i : ℝ) ≤ 20 := by exact_mod_cast h20
                     linarith)]
      have hM : max (9 - 21 / 2 + S) 0 ≤ (heelTable i : ℝ) / 1000 - 3 / 2 := by
        refine max_le (by linarith) ?_
        interval_cases i <;> norm_num [heelTable] at h13 ⊢
      generalize max (9 - 21 / 2 + S) 0 = M at hM
      interval_cases i <;> norm_num [heelTable, heelDrive] at h13 hM ⊢ <;> linarith
    · have h21 : (21 : ℝ) ≤ i := by exact_mod_cast (by omega : 21 ≤ i)
      have h24 : (i : ℝ) ≤ 24 := by exact_mod_cast (by omega : i ≤ 24)
      rw [if_neg (by linarith), if_pos (by linarith)]
      have hM : max (9 - (3 + ((i : ℝ) + 1 / 2) * (7 / 50) - 6) * (3 / 3) - 21 / 2 + S) 0 ≤
          (heelTable i : ℝ) / 1000 - 3 / 2 - (3 + ((i : ℝ) + 1 / 2) * (7 / 50) - 6) := by
        refine max_le (by linarith) ?_
        interval_cases i <;> norm_num [heelTable] at h13 h20 ⊢
      generalize max (9 - (3 + ((i : ℝ) + 1 / 2) * (7 / 50) - 6) * (3 / 3) - 21 / 2 + S) 0 = M at hM
      interval_cases i <;> norm_num [heelTable, heelDrive] at h13 h20 hM ⊢ <;> linarith

theorem heel_driving : 1 ≤ driving 25 (sliceOf exSoil 5 (21 / 2) (5 / 2) 3 (13 / 2)) := by
  unfold driving
  refine le_trans ?_ (Finset.sum_le_sum fun i hi => heel_term i (mem_range.mp hi))
  rw [← Finset.sum_div, ← Int.cast_sum]
  have : ∑ i ∈ range 25, heelDrive i = 3138 := by decide
  rw [this]
  norm_num

/-- The load takes from the driving sum. -/
theorem heel_less : driving 25 (sliceOf exHeel 5 (21 / 2) (5 / 2) 3 (13 / 2)) =
    driving 25 (sliceOf exSoil 5 (21 / 2) (5 / 2) 3 (13 / 2)) - 59 / 250 := by
  have key : ∀ i ∈ range 25, (sliceOf exHeel 5 (21 / 2) (5 / 2) 3 (13 / 2) i).W *
      (sliceOf exHeel 5 (21 / 2) (5 / 2) 3 (13 / 2) i).sin =
      (sliceOf exSoil 5 (21 / 2) (5 / 2) 3 (13 / 2) i).W * (sliceOf exSoil 5 (21 / 2) (5 / 2) 3 (13 / 2) i).sin +
        if i = 18 then -(59 / 250) else 0 := by
    intro i hi
    obtain ⟨d, e, hd⟩ := exHeel_more.toSameFrame.slice exHeel_more.materials 5 (21 / 2) (5 / 2) 3 (13 / 2) i
    rw [e, exSoil_load, exHeel_load] at *
    dsimp only
    rw [add_mul]
    congr 1
    rw [hd, exSoil_slices]
    change _ * ((5 - (3 + ((i : ℝ) + 1 / 2) * ((13 / 2 - 3) / ((25 : ℤ) : ℝ)))) / (5 / 2)) = _
    have := mem_range.mp hi
    interval_cases i <;> norm_num
  unfold driving
  rw [Finset.sum_congr rfl key, Finset.sum_add_distrib, Finset.sum_ite_eq' (range 25) 18]
  simp
  ring

theorem heel_inside {i : ℕ} (hi : i < 25) : |(3 : ℝ) + ((i : ℝ) + 1 / 2) * ((13 / 2 - 3) / (25 : ℤ)) - 5| < 5 / 2 := by
  have h1 : (0 : ℝ) ≤ i := Nat.cast_nonneg i
  have h2 : (i : ℝ) ≤ 24 := by exact_mod_cast (by omega : i ≤ 24)
  rw [abs_lt]
  constructor <;> norm_num <;> linarith

theorem heel_resists : 0 < ∑ i ∈ range 25, (sliceOf exSoil 5 (21 / 2) (5 / 2) 3 (13 / 2) i).c *
    ((sliceOf exSoil 5 (21 / 2) (5 / 2) 3 (13 / 2) i).b / (sliceOf exSoil 5 (21 / 2) (5 / 2) 3 (13 / 2) i).cos) := by
  refine Finset.sum_pos (fun i hi => ?_) ⟨0, by simp⟩
  obtain ⟨a1, a2, a3, a4, -⟩ := slice_facts (cy := 21 / 2) (i := i) exSoil_reachable (by simp)
    (by norm_num : (0 : ℝ) < 5 / 2) (by norm_num : (3 : ℝ) < 13 / 2)
    (by
      have := heel_inside (mem_range.mp hi)
      rw [← abs_of_pos (by norm_num : (0 : ℝ) < 5 / 2)] at this
      exact sq_lt_sq.mpr this)
  have hc : (sliceOf exSoil 5 (21 / 2) (5 / 2) 3 (13 / 2) i).c = 5 := by
    unfold sliceOf layerAt
    rw [exSoil_materials]
    simp only [List.find?_cons, List.find?_nil, List.getLast?_singleton]
    split
    · rename_i h; split at h <;> (cases h; rfl)
    · rename_i h; split at h <;> cases h
  rw [hc]
  exact mul_pos (by norm_num) (div_pos a1 a4)

/-- C96 fails: clay, a circle and a line load of 1 kN per metre on the crest; with the load the analysis reports a
higher minimum factor of safety for the circle. -/
theorem C96_load_raises : ∃ (s : Slope ℝ) (u : LineLoad ℝ) (cx cy r F F' : ℝ), Reachable s ∧
    LineLoad.Constructed u ∧ Frictionless s ∧ MoreLoad s (s.setLls [some u]).1 ∧
    LoadsBehindCrest (s.setLls [some u]).1 ∧
    ((s.addSingleCircularPlane cx cy r).1.analyseSlope none).2 = .ok () ∧
    (((s.setLls [some u]).1.addSingleCircularPlane cx cy r).1.analyseSlope none).2 = .ok () ∧
    ((s.addSingleCircularPlane cx cy r).1.analyseSlope none).1.getMinFos = .ok (some F) ∧
    (((s.setLls [some u]).1.addSingleCircularPlane cx cy r).1.analyseSlope none).1.getMinFos = .ok (some F') ∧
    0 < F ∧ F < F' := by
  have d1 := heel_driving
  have d2 := heel_less
  have hR := heel_resists
  have o1 : exSoil.ordinary 5 (21 / 2) (5 / 2) (some (3, 9)) (some (13 / 2, 17 / 2)) =
      .ok (fellenius 25 (sliceOf exSoil 5 (21 / 2) (5 / 2) 3 (13 / 2))) := by
    rw [C55_ordinary_formula _ exSoil_reachable]
    exact ⟨by norm_num, by norm_num, by norm_num, by norm_num, fun i hi => heel_inside hi, by simp, ⟨none, rfl⟩,
      lt_of_lt_of_le one_pos d1, rfl⟩
  have o2 : exHeel.ordinary 5 (21 / 2) (5 / 2) (some (3, 9)) (some (13 / 2, 17 / 2)) =
      .ok (fellenius 25 (sliceOf exHeel 5 (21 / 2) (5 / 2) 3 (13 / 2))) := by
    rw [C55_ordinary_formula _ exHeel_reachable]
    refine ⟨by norm_num, by norm_num, by norm_num, by norm_num, fun i hi => heel_inside hi, ?_, ⟨none, rfl⟩,
      ?_, rfl⟩
    · change exSoil.materials ≠ []
      simp
    · change 0 < driving 25 _
      rw [d2]; linarith
  have f1 := exSoil_frictionless.fellenius 5 (21 / 2) (5 / 2) 3 (13 / 2) 25
  have f2 := exHeel_more.toSameFrame.resisting exHeel_more.materials exSoil_frictionless 5 (21 / 2) (5 / 2) 3 (13 / 2) 25
  have p1 : 0 < fellenius 25 (sliceOf exSoil 5 (21 / 2) (5 / 2) 3 (13 / 2)) := by
    rw [f1]; exact div_pos hR (by linarith)
  have lt : fellenius 25 (sliceOf exSoil 5 (21 / 2) (5 / 2) 3 (13 / 2)) <
      fellenius 25 (sliceOf exHeel 5 (21 / 2) (5 / 2) 3 (13 / 2)) := by
    rw [f1, f2]
    exact div_lt_div_of_pos_left hR (by rw [d2]; linarith) (by rw [d2]; linarith)
  obtain ⟨r1, r2⟩ := clay_report exSoil_reachable exSoil_frictionless rfl rfl heelCrossing (by norm_num) o1 p1.ne'
  obtain ⟨r3, r4⟩ := clay_report (s := exHeel) exHeel_reachable exSoil_frictionless rfl rfl heelCrossing
    (by norm_num) o2 (p1.trans lt).ne'
  refine ⟨exSoil, heelLoad, 5, 21 / 2, 5 / 2, _, _, exSoil_reachable, heelLoad_constructed, exSoil_frictionless,
    ?_, ?_, r1, ?_, r2, ?_, p1, lt⟩ <;> rw [exHeel_eq]
  · exact exHeel_more
  · exact exHeel_behind
  · exact r3
  · exact r4

/-- A case of C96: the circle of the example with centre (9, 35/3), 3 m right of the crest, has a factor of safety,
and the load is on its slip. -/
example : MoreLoad exSoil exHeel ∧ Frictionless exSoil ∧ LoadsBehindCrest exHeel ∧
    exSoil.topX + ((9 : ℝ) - 4) / exSoil.slices / 2 ≤ 9 ∧ loadOn exHeel 4 9 = 1 ∧ loadOn exSoil 4 9 = 0 ∧
    ∃ F, exSoil.ordinary 9 (35 / 3) (17 / 3) (some (4, 9)) (some (9, 6)) = .ok F := by
  refine ⟨exHeel_more, exSoil_frictionless, exHeel_behind, ?_, ?_, exSoil_load _ _, ?_⟩
  · rw [exSoil_topX, exSoil_slices]; norm_num
  · rw [exHeel_load]; norm_num
  · exact ⟨_, exOrdinary⟩

end PySlope
