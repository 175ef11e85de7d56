import Verif.Props.Accepted
import Verif.Props.PlotCircle

/-! # Property C88: the lines the page draws, and the slope of a first visit -/

namespace PySlope

/-- The points of the circle the page draws between the end points. -/
theorem pageTrace_mem {p : Plane ℝ} {q : ℝ × ℝ} (h : q ∈ pageTrace p) : q = p.lc ∨ q = p.rc ∨
    (q ∈ circleCoordinates p.cx p.cy p.radius ∧ p.lc.1 ≤ q.1 ∧ q.1 ≤ p.rc.1) := by
  unfold pageTrace at h
  simp only [List.cons_append, List.mem_cons, List.mem_append, List.not_mem_nil, or_false, List.mem_filter,
    Bool.and_eq_true, decide_eq_true_eq] at h
  rcases h with h | ⟨h1, h2, h3⟩ | h
  · exact .inl h
  · exact .inr (.inr ⟨h1, h3, h2⟩)
  · exact .inr (.inl h)

/-- The points of a circle come from left to right. -/
theorem circleCoordinates_sorted {cx cy r : ℝ} (hr : 0 ≤ r) :
    (circleCoordinates cx cy r).Pairwise fun a b => a.1 ≤ b.1 := by
  have h := C60_left_to_right { lc := (cx - r - 1, cy + 1), rc := (cx + r + 1, 0), cx := cx, cy := cy, radius := r, fos := none }
    hr (by simp only; linarith)
  unfold planeTrace at h
  rw [List.cons_append, List.pairwise_cons, List.pairwise_append] at h
  have h := h.2.1
  unfold arcPoints at h
  rw [List.filter_eq_self.mpr] at h
  · exact h
  · intro a ha
    obtain ⟨q, h1, h2, h3, h4⟩ := circleCoordinates_near cx cy r a ha
    have h5 : |q.1 - cx| ≤ r := abs_le_of_sq_le_sq (by nlinarith [sq_nonneg (q.2 - cy)]) hr
    have h2 := h2 hr
    rw [abs_le] at h3 h4 h5
    simp only [Bool.and_eq_true, decide_eq_true_eq]
    norm_num at h3 h4
    refine ⟨⟨by linarith, by linarith⟩, by linarith⟩

/-- Specification: a line for the arc of a plane, `d` the distance between neighbouring points of it.
It starts at the left end point and ends at the right one. What is between is between them across,
within half a millimetre, along each axis, of the lower half of the circle, and goes from left to right.
No point of the lower half of the circle, between the end points by `d`, is farther than `d`. -/
structure DrawsArc (p : Plane ℝ) (line : List (ℝ × ℝ)) (d : ℝ) : Prop where
  start : line.head? = some p.lc
  finish : line.getLast? = some p.rc
  near : ∀ q ∈ line, q = p.lc ∨ q = p.rc ∨
    (NearLowerArc p.cx p.cy p.radius 0.0005 q ∧ p.lc.1 ≤ q.1 ∧ q.1 ≤ p.rc.1)
  sorted : 0 ≤ p.radius → p.lc.1 ≤ p.rc.1 → line.Pairwise fun a b => a.1 ≤ b.1
  complete : 0 ≤ p.radius → ∀ q : ℝ × ℝ, (q.1 - p.cx) ^ 2 + (q.2 - p.cy) ^ 2 = p.radius ^ 2 → q.2 ≤ p.cy →
    p.lc.1 + d ≤ q.1 → q.1 ≤ p.rc.1 - d → ∃ c ∈ line, |c.1 - q.1| ≤ d ∧ |c.2 - q.2| ≤ d

theorem pageTrace_draws (p : Plane ℝ) : DrawsArc p (pageTrace p) (p.radius * (Real.pi / 180) + 0.0005) where
  start := rfl
  finish := by unfold pageTrace; rw [List.getLast?_append]; simp
  near q hq := by
    rcases pageTrace_mem hq with h | h | ⟨h1, h2⟩
    · exact .inl h
    · exact .inr (.inl h)
    · exact .inr (.inr ⟨circleCoordinates_near _ _ _ q h1, h2⟩)
  sorted hr hp := by
    unfold pageTrace
    rw [List.cons_append, List.pairwise_cons, List.pairwise_append]
    refine ⟨?_, (circleCoordinates_sorted hr).filter _, List.pairwise_singleton _ _, ?_⟩
    · intro a ha
      rcases List.mem_append.mp ha with h | h
      · have := (List.mem_filter.mp h).2
        simp only [Bool.and_eq_true, decide_eq_true_eq] at this
        exact this.2
      · rw [List.mem_singleton.mp h]; exact hp
    · intro a ha b hb
      rw [List.mem_singleton.mp hb]
      have := (List.mem_filter.mp ha).2
      simp only [Bool.and_eq_true, decide_eq_true_eq] at this
      exact this.1
  complete hr q hq hy h1 h2 := by
    obtain ⟨c, hc, a1, a2⟩ := circleCoordinates_dense (cx' := p.cx) (cy' := p.cy) (r' := p.radius) (ε := 0)
      hr hq hy (by simp) (by simp) (by simp)
    rw [mul_zero, add_zero] at a1 a2
    refine ⟨c, ?_, a1, a2⟩
    unfold pageTrace
    simp only [List.cons_append, List.mem_cons, List.mem_append, List.mem_filter]
    right; left
    refine ⟨hc, ?_⟩
    have b1 := abs_le.mp a1
    simp only [Bool.and_eq_true, decide_eq_true_eq]
    exact ⟨by linarith, by linarith⟩

/-- C88: on whatever page a visitor gets, after any history of requests, every plane listed has a line,
and it is that of its arc. -/
theorem C88_page_lines (isColor : String → Bool) (h : List (Request ℝ)) (q : Request ℝ)
    {forms : Option (WebForm ℝ)} {search : List (PagePlane ℝ)} {plot : CriticalPlot ℝ}
    (e : ((Session.fresh.after isColor h).serve isColor q).2 = .page forms search plot) :
    search ≠ [] ∧ ∀ x ∈ search, DrawsArc x.1 x.2 (x.1.radius * (Real.pi / 180) + 0.0005) := by
  have key : ∀ {s : Slope ℝ} {p}, Shows s search p →
      search ≠ [] ∧ ∀ x ∈ search, DrawsArc x.1 x.2 (x.1.radius * (Real.pi / 180) + 0.0005) := by
    intro s p hs
    refine ⟨hs.ne, fun x hx => ?_⟩
    rw [hs.2.2 x hx]
    exact pageTrace_draws x.1
  cases q with
  | get =>
    by_cases hf : ∃ f, LastAccepted isColor h f
    · obtain ⟨f, hf⟩ := hf
      obtain ⟨s, search', p, _, h2, h3⟩ := (C77_page isColor h).1 f hf
      rw [h3] at e
      cases e
      exact key h2
    · rcases (C77_page isColor h).2 (fun f h => hf ⟨f, h⟩) with ⟨s, search', p, _, h2, h3⟩ | ⟨_, x, h3⟩
      · rw [h3] at e
        cases e
        exact key h2
      · rw [h3] at e; cases e
  | post f =>
    cases f with
    | none => cases e
    | some f =>
      by_cases hf : Accepted isColor f
      · obtain ⟨s, search', p, _, h2, h3⟩ := (C77_form isColor (Session.fresh.after isColor h) f).1 hf
        rw [h3] at e
        cases e
        exact key h2
      · obtain ⟨_, x, h3, _⟩ := (C77_form isColor (Session.fresh.after isColor h) f).2 hf
        rw [h3] at e; cases e
  | reset => cases e
  | pdf m =>
    unfold Session.serve Session.pdf at e
    simp only at e
    repeat' split at e
    all_goals cases e

/-- A page for C88: the answer to a form that is accepted. -/
example (isColor : String → Bool) : ∃ f forms search plot,
    ((Session.fresh.after isColor [.get, .reset]).serve isColor (.post (some f))).2 =
      Response.page (K := ℝ) forms search plot := by
  obtain ⟨f, _, _, ha⟩ := C77_accepted_form isColor
  obtain ⟨_, search, p, _, _, h⟩ := (C77_form isColor (Session.fresh.after isColor [.get, .reset]) f).1 ha
  exact ⟨f, _, _, _, h⟩

/-- The material of a first visit. -/
noncomputable def defaultMat : Material ℝ :=
  { unitWeight := 20, frictionAngle := 35, cohesion := 2, depth := 5,
    tanPhi := Real.tan (35 * (Real.pi / 180)), name := "", userColor := none }

/-- The slope of a first visit, before its analysis. -/
noncomputable def defaultSlope : Slope ℝ :=
  { freshSlope 1 1 with slices := 10, iterations := 500, materials := [mkLayer 6 0 defaultMat] }

theorem defaultSlope_new : Slope.new (.num 1) (.num 45) .none = .ok (freshSlope 1 1) := by
  have l45 : (45 : ℝ) * (Real.pi / 180) = Real.pi / 4 := by ring
  have e : boundaryInputs (.num (1 : ℝ)) (.num 45) .none = .ok ((1 : ℝ), (1 : ℝ)) := by
    have h90 : ¬ ((@OfNat.ofNat ℝ 90 (Lit.natLit 90)) < 45) := not_lt.mpr (by
      change (45 : ℝ) ≤ 90; norm_num)
    have h1 : ¬ ((45 : ℝ) < 0) := by norm_num
    have h2 : ¬ ((1 : ℝ) < 0) := by norm_num
    have t : (PyNum.tan (radians (45 : ℝ)) : ℝ) = 1 := by
      rw [radians_real, l45]; exact Real.tan_pi_div_four
    rw [radians_real] at t
    simp [boundaryInputs, assertStrictlyPositiveNumber, assertPositiveNumber, assertRange, PyVal.truthy,
      PyCmp.ltb, PyCmp.eqb, bind, Except.bind, pure, Except.pure, PyVal.get!, h90, h1, h2, t]
    norm_num
  rw [new_eq, e]

/-- C88, what a first visit is about: a slope 1 m high and 1 m long, a single material 5 m deep with a
unit weight of 20, 35 degrees of friction and a cohesion of 2, no loads and no water, analysed with 10
slices and 500 iterations, up to a factor of safety of 5. -/
theorem C88_default_slope (isColor : String → Bool) : ∃ s0 : Slope ℝ, Reachable s0 ∧
    (s0.height = 1 ∧ s0.length = 1) ∧
    (∃ l, s0.materials = [l] ∧ l.mat.unitWeight = 20 ∧ l.mat.frictionAngle = 35 ∧ l.mat.cohesion = 2 ∧
      l.mat.depth = 5 ∧ l.rl = s0.topY - 5) ∧
    (s0.udls = [] ∧ s0.lls = [] ∧ s0.waterRL = none ∧ s0.individual = []) ∧
    (s0.slices = 10 ∧ s0.iterations = 500) ∧
    (s0.lim1 = 0 ∧ s0.lim2 = s0.topX ∧ s0.lim3 = s0.topX ∧ s0.lim4 = s0.extL) ∧
    (∀ s, firstSlope isColor = .ok s ↔ s0.analyseSlope (some 5) = (s, .ok ())) ∧
    ∀ e, firstSlope (K := ℝ) isColor = .error e ↔ (s0.analyseSlope (some 5)).2 = .error e := by
  have hH : (freshSlope 1 1).extH = 6 := by
    change max (max (3 * 1) 6) (5 * 1 / 2) = (6 : ℝ)
    norm_num
  have hm : ∀ c, Material.new c (.num (20 : ℝ)) (.num 35) (.num 2) (.num 5) (.str "") (.str "") = .ok defaultMat := by
    intro c
    rw [(C01_material c _ _ _ _ _ _).1 20 35 2 5 "" "" ⟨rfl, by norm_num, by norm_num, rfl, by norm_num, rfl, rfl⟩ rfl rfl]
    simp [defaultMat]
  have r0 : Reachable (freshSlope 1 1) := .init defaultSlope_new
  have h1 : (freshSlope 1 1).setMaterials [some defaultMat] =
      ({ freshSlope 1 1 with materials := [mkLayer 6 0 defaultMat] }, .ok ()) := by
    rw [setMaterials_one r0.wf.geo rfl]
    have : (freshSlope 1 1).deepen defaultMat.depth = freshSlope 1 1 := by
      unfold Slope.deepen
      rw [if_neg]
      rw [hH]; simp [defaultMat]; norm_num
    rw [this, hH]
    rfl
  have h2 : ({ freshSlope 1 1 with materials := [mkLayer 6 0 defaultMat] } : Slope ℝ).updateAnalysisOptions
      (some 10) (some 500) none none none = (defaultSlope, .ok ()) := rfl
  have r1 := r0.call (.setMaterials _ [some defaultMat] (by
    intro m hm'; simp at hm'; subst hm'; exact ⟨isColor, _, _, _, _, _, _, hm isColor⟩))
  rw [h1] at r1
  have r2 := r1.call (.updateAnalysisOptions _ (some 10) (some 500) none none none)
  rw [h2] at r2
  have hf : firstSlope isColor = (defaultSlope.analyseSlope (some 5)).get := by
    unfold firstSlope
    have n : (Slope.new (.num (@OfNat.ofNat ℝ 1 (Lit.natLit 1))) (.num (@OfNat.ofNat ℝ 45 (Lit.natLit 45))) .none) =
        .ok (freshSlope 1 1) := by
      rw [lit_one, show (@OfNat.ofNat ℝ 45 (Lit.natLit 45)) = 45 from lit_real 45]
      exact defaultSlope_new
    have m : Material.new isColor (.num (@OfNat.ofNat ℝ 20 (Lit.natLit 20))) (.num (@OfNat.ofNat ℝ 35 (Lit.natLit 35)))
        (.num (@OfNat.ofNat ℝ 2 (Lit.natLit 2))) (.num (@OfNat.ofNat ℝ 5 (Lit.natLit 5))) (.str "") (.str "") =
        .ok defaultMat := by
      rw [show (@OfNat.ofNat ℝ 20 (Lit.natLit 20)) = 20 from lit_real 20,
        show (@OfNat.ofNat ℝ 35 (Lit.natLit 35)) = 35 from lit_real 35,
        show (@OfNat.ofNat ℝ 2 (Lit.natLit 2)) = 2 from lit_real 2,
        show (@OfNat.ofNat ℝ 5 (Lit.natLit 5)) = 5 from lit_real 5]
      exact hm isColor
    rw [n, m]
    simp only [bind, Except.bind]
    rw [h1]
    simp only [Out.get]
    rw [h2]
  refine ⟨defaultSlope, r2, ⟨rfl, rfl⟩, ⟨_, rfl, rfl, rfl, rfl, rfl, ?_⟩, ⟨rfl, rfl, rfl, rfl⟩, ⟨rfl, rfl⟩,
    ⟨rfl, rfl, rfl, rfl⟩, ?_, ?_⟩
  · have : defaultSlope.topY = 6 := hH
    rw [this]
    rfl
  · intro s
    rw [hf]
    exact Out.get_ok
  · intro e
    rw [hf]
    unfold Out.get
    generalize defaultSlope.analyseSlope (some 5) = o
    obtain ⟨t, x⟩ := o
    cases x <;> simp

end PySlope
