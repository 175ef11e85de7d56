import Verif.Spec.Reduced
import Verif.Props.Friction

/-! # Property C102: the factor of safety is the number by which the strengths can be divided -/

namespace PySlope

/-- Forces with the strengths multiplied by `k`. -/
noncomputable def strengthF (k : ℝ) (f : SliceForces ℝ) : SliceForces ℝ := { f with c := k * f.c, tanPhi := k * f.tanPhi }

/-- What the code sees of `StrengthLayer`. -/
def TanLayer (k : ℝ) (a b : Layer ℝ) : Prop :=
  b.mat.unitWeight = a.mat.unitWeight ∧ b.mat.cohesion = k * a.mat.cohesion ∧ b.mat.tanPhi = k * a.mat.tanPhi ∧
  b.rl = a.rl

theorem stripColumn_strength {k : ℝ} {a b : List (Layer ℝ)} (h : List.Forall₂ (TanLayer k) a b)
    (yt yb top : ℝ) : stripColumn yt yb top b = stripColumn yt yb top a := by
  induction h generalizing top with
  | nil => simp [stripColumn]
  | @cons x y xs ys hxy hs ih =>
    obtain ⟨h1, _, _, h5⟩ := hxy
    cases hs with
    | nil => simp only [stripColumn, h1]
    | cons h' hs' =>
      simp only [stripColumn] at ih ⊢
      rw [ih, h1, h5]

theorem strengthLoop_strength {k : ℝ} {a b : List (Layer ℝ)} (h : List.Forall₂ (TanLayer k) a b)
    (yb c t : ℝ) (d : Bool) : strengthLoop yb b (k * c, k * t, d) =
      (k * (strengthLoop yb a (c, t, d)).1, k * (strengthLoop yb a (c, t, d)).2.1,
        (strengthLoop yb a (c, t, d)).2.2) := by
  induction h generalizing c t d with
  | nil => rfl
  | @cons x y xs ys hxy hs ih =>
    obtain ⟨_, h2, h4, h5⟩ := hxy
    unfold strengthLoop
    rw [h5, h2, h4]
    split
    · exact ih _ _ _
    · exact ih _ _ _

theorem drivingSum_strength {k : ℝ} (fs : List (SliceForces ℝ)) : drivingSum (fs.map (strengthF k)) = drivingSum fs := by
  rw [drivingSum_real, drivingSum_real, List.map_map]
  rfl

theorem ordinaryTerm_strength {k : ℝ} (w : ℝ) (f : SliceForces ℝ) :
    ordinaryTerm w (strengthF k f) = k * ordinaryTerm w f := by
  unfold ordinaryTerm strengthF
  simp only
  ring

theorem bishopDenom_strength {k : ℝ} (hk : 0 < k) (F : ℝ) (f : SliceForces ℝ) :
    bishopDenom (k * F) (strengthF k f) = bishopDenom F f := by
  unfold bishopDenom strengthF
  simp only
  rw [show f.sinA * (k * f.tanPhi) = k * (f.sinA * f.tanPhi) by ring, mul_div_mul_left _ _ hk.ne']

theorem bishopTerm_strength {k : ℝ} (hk : 0 < k) (w F : ℝ) (f : SliceForces ℝ) :
    bishopTerm w (k * F) (strengthF k f) = k * bishopTerm w F f := by
  unfold bishopTerm
  rw [bishopDenom_strength hk]
  unfold strengthF
  simp only
  ring

theorem mul_pyEq_zero {k : ℝ} (hk : 0 < k) (x : ℝ) : pyEq (k * x) (0 : ℝ) = pyEq x 0 := by
  rw [pyEq_real, pyEq_real]
  simp [hk.ne']

theorem bishopStep_strength {k : ℝ} (hk : 0 < k) (w : ℝ) (fs : List (SliceForces ℝ)) (F : ℝ) :
    bishopStep w (fs.map (strengthF k)) (k * F) = (bishopStep w fs F).map (k * ·) := by
  have e0 : pyEq (k * F) (@OfNat.ofNat ℝ 0 (Lit.natLit 0)) = pyEq F (@OfNat.ofNat ℝ 0 (Lit.natLit 0)) := by
    rw [lit_zero]; exact mul_pyEq_zero hk F
  have e1 : (fs.map (strengthF k)).any
      (fun f => pyEq (f.sinA * f.tanPhi) (@OfNat.ofNat ℝ 0 (Lit.natLit 0))) =
      fs.any (fun f => pyEq (f.sinA * f.tanPhi) (@OfNat.ofNat ℝ 0 (Lit.natLit 0))) := by
    rw [List.any_map]
    congr 1
    funext f
    simp only [Function.comp_apply, strengthF, lit_zero]
    rw [show f.sinA * (k * f.tanPhi) = k * (f.sinA * f.tanPhi) by ring, mul_pyEq_zero hk]
  have e2 : (fs.map (strengthF k)).any
      (fun f => pyEq (bishopDenom (k * F) f) (@OfNat.ofNat ℝ 0 (Lit.natLit 0))) =
      fs.any (fun f => pyEq (bishopDenom F f) (@OfNat.ofNat ℝ 0 (Lit.natLit 0))) := by
    rw [List.any_map]
    congr 1
    funext f
    simp only [Function.comp_apply, bishopDenom_strength hk]
  have e3 : ((fs.map (strengthF k)).map (bishopTerm w (k * F))).sum = k * (fs.map (bishopTerm w F)).sum := by
    rw [List.map_map, ← List.sum_map_mul_left]
    congr 1
    apply List.map_congr_left
    intro f _
    exact bishopTerm_strength hk w F f
  have c2 : k * (fs.map (bishopTerm w F)).sum < 0 ↔ (fs.map (bishopTerm w F)).sum < 0 := by
    constructor
    · intro h'; by_contra hc; push Not at hc; have := mul_nonneg hk.le hc; linarith
    · intro h'; exact mul_neg_of_pos_of_neg hk h'
  unfold bishopStep
  rw [e0, e1, e2, drivingSum_strength]
  simp only [lsum_real, e3, lit_zero, c2]
  simp only [bind, Except.bind, pure, Except.pure, throw, throwThe, MonadExceptOf.throw]
  split
  · split
    · rfl
    · split
      · rfl
      · simp [Except.map]
  · split
    · rfl
    · split
      · rfl
      · simp only [Except.map]
        rw [mul_div_assoc]

theorem bishopLoop_strength {k : ℝ} (hk : 0 < k) (w tol : ℝ) (fs : List (SliceForces ℝ)) (n : ℕ)
    (F : ℝ) : bishopLoop w (k * tol) (fs.map (strengthF k)) n (k * F) = (bishopLoop w tol fs n F).map (k * ·) := by
  induction n generalizing F with
  | zero => rfl
  | succ n ih =>
    unfold bishopLoop
    rw [bishopStep_strength hk]
    cases bishopStep w fs F with
    | error e => rfl
    | ok G =>
      have : pyAbs (k * G - k * F) < k * tol ↔ pyAbs (G - F) < tol := by
        have e : ∀ x : ℝ, pyAbs x = |x| := pyAbs_real
        rw [e, e, ← mul_sub, abs_mul, abs_of_pos hk, mul_lt_mul_iff_right₀ hk]
      simp only [Except.map, bind, Except.bind, this]
      split
      · rfl
      · exact ih G

/-- The search does not look at the tolerance. -/
theorem tolerance_entryExitPlanes (s : Slope ℝ) (x : ℝ) :
    Slope.entryExitPlanes { s with tolerance := x } = s.entryExitPlanes := by
  have h1 : ∀ (b c C : ℝ) (num todo : ℕ) (l r : ℝ × ℝ),
      Slope.planeLoop { s with tolerance := x } b c C num todo l r = s.planeLoop b c C num todo l r := by
    intro b c C num todo
    induction todo with
    | zero => intro l r; rfl
    | succ todo ih =>
      intro l r
      unfold Slope.planeLoop
      simp only [ih]
      rfl
  have h2 : Slope.generatePlanes { s with tolerance := x } = s.generatePlanes := by
    funext l r n
    unfold Slope.generatePlanes
    simp only [h1]
  have h3 : ∀ (l : ℝ × ℝ) (num : ℕ) (rs), Slope.planesFrom { s with tolerance := x } l num rs = s.planesFrom l num rs := by
    intro l num rs
    induction rs with
    | nil => rfl
    | cons a rs ih =>
      rcases a with ⟨y, _ | z⟩
      · rfl
      · unfold Slope.planesFrom
        simp only [h2, ih]
  have h4 : ∀ (num : ℕ) (rs ls), Slope.planesAll { s with tolerance := x } num rs ls = s.planesAll num rs ls := by
    intro num rs ls
    induction ls with
    | nil => rfl
    | cons a ls ih =>
      unfold Slope.planesAll
      simp only [h3, ih]
  unfold Slope.entryExitPlanes
  simp only [h4]
  rfl

namespace StrengthTimes
variable {k : ℝ} {s t : Slope ℝ} (h : StrengthTimes k s t)
include h

theorem tanLayers (rs : Reachable s) (rt : Reachable t) : List.Forall₂ (TanLayer k) s.materials t.materials := by
  have hs : ∀ l ∈ s.materials, l.mat.tanPhi = Real.tan (l.mat.frictionAngle * (Real.pi / 180)) :=
    fun l hl => (rs.sane.mat l.mat (List.mem_map_of_mem hl)).facts.2.2.2.2.2
  have ht : ∀ l ∈ t.materials, l.mat.tanPhi = Real.tan (l.mat.frictionAngle * (Real.pi / 180)) :=
    fun l hl => (rt.sane.mat l.mat (List.mem_map_of_mem hl)).facts.2.2.2.2.2
  have hm := h.materials
  generalize s.materials = a at hm hs
  generalize t.materials = b at hm ht
  clear h
  induction hm with
  | nil => exact .nil
  | @cons x y xs ys hxy _ ih =>
    refine .cons ⟨hxy.1, hxy.2.1, ?_, hxy.2.2.2⟩ (ih (fun l hl => hs l (by simp [hl])) (fun l hl => ht l (by simp [hl])))
    rw [hs x (by simp), ht y (by simp)]
    exact hxy.2.2.1

theorem rowWeight (rs : Reachable s) (rt : Reachable t) (w : ℝ) (q : Row ℝ) : t.rowWeight w q = s.rowWeight w q := by
  rw [rowWeight_eq, rowWeight_eq]
  unfold Slope.stripWeight
  rw [h.frame.extH, stripColumn_strength (h.tanLayers rs rt), h.udls, h.lls]

theorem rowStrength (rs : Reachable s) (rt : Reachable t) (yb : ℝ) :
    t.rowStrength yb = (s.rowStrength yb).map fun ct => (k * ct.1, k * ct.2) := by
  unfold Slope.rowStrength
  rcases forall2_getLast? (h.tanLayers rs rt) with ⟨e1, e2⟩ | ⟨x, y, e1, e2, _, h2, h4, _⟩
  · rw [e1, e2]; rfl
  · rw [e1, e2]
    simp only [h2, h4, strengthLoop_strength (h.tanLayers rs rt), Option.map_some]

theorem sliceForces (rs : Reachable s) (rt : Reachable t) (w : ℝ) (rows : List (Row ℝ)) :
    t.sliceForces w rows = (s.sliceForces w rows).map (List.map (strengthF k)) := by
  have hd : t.waterX = s.waterX := by
    have h' := h.frame
    unfold Slope.waterX Slope.getExternalX
    rw [h'.waterRL, h'.gradient, h'.topX, h'.topY, h'.botX, h'.botY, h'.extL, h'.extH]
  unfold Slope.sliceForces
  rw [hd]
  cases s.waterX with
  | error e => rfl
  | ok v =>
    simp only [bind, Except.bind]
    apply mapM_map_ok
    intro q
    rw [h.rowStrength rs rt]
    cases s.rowStrength q.yb with
    | none => rfl
    | some ct =>
      have hb : t.botX = s.botX := h.frame.botX
      have hw : t.waterH = s.waterH := h.frame.waterH
      simp only [Option.map_some, Except.map, strengthF, h.rowWeight rs rt, Slope.waterHead, hb, hw]

theorem ordinary (rs : Reachable s) (rt : Reachable t) (cx cy r : ℝ) (l ri : Option (ℝ × ℝ)) :
    t.ordinary cx cy r l ri = (s.ordinary cx cy r l ri).map (k * ·) := by
  have he : t.ordinaryEnds = s.ordinaryEnds := by
    funext a b c d e
    unfold Slope.ordinaryEnds
    rw [h.frame.circleExternalIntersection]
    rfl
  have hr : t.sliceRows = s.sliceRows := h.frame.sliceRows
  have hn : t.slices = s.slices := h.frame.slices
  unfold Slope.ordinary
  rw [he, hn, hr]
  simp only [h.sliceForces rs rt, bind, Except.bind, pure, Except.pure, throw, throwThe, MonadExceptOf.throw]
  split
  · rfl
  cases s.ordinaryEnds cx cy r l ri with
  | error e => rfl
  | ok lr =>
  simp only
  split
  · rfl
  cases s.sliceRows cx cy r lr.1.1 lr.2.1 with
  | error e => rfl
  | ok rows =>
  simp only
  cases s.sliceForces ((lr.2.1 - lr.1.1) / ofInt s.slices) rows with
  | error e => rfl
  | ok fs =>
    have e1 : lsum ((fs.map (strengthF k)).map (ordinaryTerm ((lr.2.1 - lr.1.1) / ofInt s.slices))) =
        k * lsum (fs.map (ordinaryTerm ((lr.2.1 - lr.1.1) / ofInt s.slices))) := by
      rw [lsum_real, lsum_real, List.map_map, ← List.sum_map_mul_left]
      congr 1
      apply List.map_congr_left
      intro f _
      exact ordinaryTerm_strength _ f
    simp only [Except.map, drivingSum_strength, e1]
    split
    · rfl
    · simp only [mul_div_assoc]

theorem bishop (hk : 0 < k) (rs : Reachable s) (rt : Reachable t) (cx cy r : ℝ) (l ri : Option (ℝ × ℝ)) :
    t.bishop cx cy r l ri = (s.bishop cx cy r l ri).map (k * ·) := by
  have he : t.bishopEnds = s.bishopEnds := h.frame.bishopEnds
  have hr : t.sliceRows = s.sliceRows := h.frame.sliceRows
  have hn : t.slices = s.slices := h.frame.slices
  have htol : t.tolerance = k * s.tolerance := h.frame.tolerance
  have hmax : t.maxIterations = s.maxIterations := h.frame.maxIterations
  unfold Slope.bishop
  rw [he, hn, hr, htol, hmax]
  simp only [h.sliceForces rs rt, h.ordinary rs rt, bind, Except.bind]
  cases s.bishopEnds cx cy r l ri with
  | error e => rfl
  | ok lr =>
  simp only
  cases s.ordinary cx cy r (some lr.1) (some lr.2) with
  | error e => rfl
  | ok F0 =>
  simp only [Except.map]
  cases s.sliceRows cx cy r lr.1.1 lr.2.1 with
  | error e => rfl
  | ok rows =>
  simp only
  cases s.sliceForces ((lr.2.1 - lr.1.1) / ofInt s.slices) rows with
  | error e => rfl
  | ok fs => exact bishopLoop_strength hk _ _ _ _ _

theorem planes : t.entryExitPlanes = s.entryExitPlanes :=
  (h.frame.entryExitPlanes (by rw [h.udls]) (by rw [h.lls])).trans (tolerance_entryExitPlanes s _)

theorem fillFos (hk : 0 < k) (rs : Reachable s) (rt : Reachable t) (ps : List (Plane ℝ)) :
    (t.fillFos ps).2 = (s.fillFos ps).2 ∧
    ((s.fillFos ps).2 = none → (t.fillFos ps).1 = (s.fillFos ps).1.map (Plane.fosTimes k)) := by
  induction ps with
  | nil => exact ⟨rfl, fun _ => rfl⟩
  | cons p ps ih =>
    unfold Slope.fillFos
    rw [h.bishop hk rs rt]
    cases s.bishop p.cx p.cy p.radius none none with
    | ok F =>
      simp only [Except.map, toFos]
      refine ⟨ih.1, fun e => ?_⟩
      rw [ih.2 e]
      rfl
    | error x =>
      cases x with
      | retNone =>
        simp only [Except.map, toFos]
        refine ⟨ih.1, fun e => ?_⟩
        rw [ih.2 e]
        rfl
      | raise x => simp [Except.map, toFos]

end StrengthTimes

theorem fosVal_times (k : ℝ) (p : Plane ℝ) : (p.fosTimes k).fosVal = p.fosVal.map (k * ·) := by
  unfold Plane.fosTimes Plane.fosVal
  rcases p.fos with _ | _ | f <;> rfl

theorem tidySearch_times {k : ℝ} (hk : 0 < k) (m : Option ℝ) (ps : List (Plane ℝ)) :
    tidySearch (m.map (k * ·)) (ps.map (Plane.fosTimes k)) = (tidySearch m ps).map (Plane.fosTimes k) := by
  have e1 : pySort fosLt ((ps.map (Plane.fosTimes k)).filter fun p => p.fosVal.isSome) =
      (pySort fosLt (ps.filter fun p => p.fosVal.isSome)).map (Plane.fosTimes k) := by
    unfold pySort
    rw [List.filter_map]
    have : ((fun p : Plane ℝ => p.fosVal.isSome) ∘ Plane.fosTimes k) = fun p => p.fosVal.isSome := by
      funext p
      simp [fosVal_times]
    rw [this]
    symm
    apply List.map_mergeSort
    intro a _ b _
    unfold fosLt
    rw [fosVal_times, fosVal_times]
    rcases a.fosVal with _ | x <;> rcases b.fosVal with _ | y <;> simp [hk]
  unfold tidySearch
  simp only [e1]
  cases m with
  | none => rfl
  | some m =>
    simp only [Option.map_some]
    have e0 : pyEq (k * m) (@OfNat.ofNat ℝ 0 (Lit.natLit 0)) = pyEq m (@OfNat.ofNat ℝ 0 (Lit.natLit 0)) := by
      rw [lit_zero]; exact mul_pyEq_zero hk m
    rw [e0]
    split
    · rfl
    · rw [List.filter_map]
      congr 2
      funext p
      simp only [Function.comp_apply, fosVal_times]
      rcases p.fosVal with _ | x <;> simp [hk]

/-- C102: multiplying all strengths by `k` (and the tolerance with them) multiplies every factor of safety by `k`: the
ordinary method on any circle, and everything an analysis reports; and the analysis raises exactly when it did. -/
theorem C102_strength_times (k : ℝ) (hk : 0 < k) (s t : Slope ℝ) (rs : Reachable s) (rt : Reachable t)
    (h : StrengthTimes k s t) :
    (∀ cx cy r l ri, t.ordinary cx cy r l ri = (s.ordinary cx cy r l ri).map (k * ·)) ∧
    ∀ m : Option ℝ, (t.analyseSlope (m.map (k * ·))).2 = (s.analyseSlope m).2 ∧
      ((s.analyseSlope m).2 = .ok () →
        (t.analyseSlope (m.map (k * ·))).1.search = (s.analyseSlope m).1.search.map (Plane.fosTimes k) ∧
        ∀ F, (s.analyseSlope m).1.getMinFos = .ok (some F) →
          (t.analyseSlope (m.map (k * ·))).1.getMinFos = .ok (some (k * F))) := by
  refine ⟨fun cx cy r l ri => h.ordinary rs rt cx cy r l ri, fun m => ?_⟩
  have hi : t.individual = s.individual := h.frame.individual
  have key : (t.analyseSlope (m.map (k * ·))).2 = (s.analyseSlope m).2 ∧
      ((s.analyseSlope m).2 = .ok () →
        (t.analyseSlope (m.map (k * ·))).1.search = (s.analyseSlope m).1.search.map (Plane.fosTimes k)) := by
    unfold Slope.analyseSlope
    rw [hi, h.planes]
    cases s.individual with
    | cons p ps =>
      obtain ⟨f1, f2⟩ := h.fillFos hk rs rt (p :: ps)
      simp only [f1]
      cases e : (s.fillFos (p :: ps)).2 with
      | some x => simp
      | none =>
        simp only [f2 e, true_and, forall_const]
        exact tidySearch_times hk m _
    | nil =>
      simp only
      cases s.entryExitPlanes with
      | error e => simp
      | ok planes =>
        obtain ⟨f1, f2⟩ := h.fillFos hk rs rt planes
        simp only [f1]
        cases e : (s.fillFos planes).2 with
        | some x => simp
        | none =>
          simp only [f2 e, true_and, forall_const]
          exact tidySearch_times hk m _
  refine ⟨key.1, fun ho => ⟨key.2 ho, fun F hF => ?_⟩⟩
  unfold Slope.getMinFos at hF ⊢
  rw [key.2 ho]
  cases e : (s.analyseSlope m).1.search with
  | nil => rw [e] at hF; cases hF
  | cons p ps =>
    rw [e] at hF
    simp only [List.map_cons, Plane.fosTimes] at hF ⊢
    rcases hp : p.fos with _ | v
    · rw [hp] at hF; cases hF
    · rw [hp] at hF
      simp only [Except.ok.injEq] at hF
      subst hF
      rfl

/-- C102: dividing all strengths by the least factor of safety reported leaves a slope whose least factor of safety is
exactly 1. -/
theorem C102_divided_by_itself (s t : Slope ℝ) (rs : Reachable s) (rt : Reachable t) (F : ℝ) (hF : 0 < F)
    (h : StrengthTimes (1 / F) s t) (ok : (s.analyseSlope none).2 = .ok ())
    (e : (s.analyseSlope none).1.getMinFos = .ok (some F)) :
    (t.analyseSlope none).2 = .ok () ∧ (t.analyseSlope none).1.getMinFos = .ok (some 1) := by
  obtain ⟨h1, h2⟩ := (C102_strength_times (1 / F) (by positivity) s t rs rt h).2 none
  refine ⟨h1.trans ok, ?_⟩
  have := (h2 ok).2 F e
  rwa [one_div, inv_mul_cancel₀ hF.ne'] at this

/-! ## A case: the cut of C93 -/

/-- The cut with a material of unit weight 20, the given tolerance, and one circle. -/
noncomputable def cutWith (φ c tol : ℝ) : Slope ℝ :=
  (((cutOf (exFric φ c)).addSingleCircularPlane 32 36 10).1.updateAnalysisOptions none none none (some tol) none).1

theorem cutWith_reachable {φ : ℝ} (hφ : 0 ≤ φ) (c tol : ℝ) : Reachable (cutWith φ c tol) :=
  .call (.call (cutOf_reachable hφ) (.addSingleCircularPlane _ 32 36 10))
    (.updateAnalysisOptions _ none none none (some tol) none)

theorem cutWith_strength {k φ φ' c c' : ℝ} (hc : |c'| = k * |c|)
    (ht : Real.tan (|φ'| * (Real.pi / 180)) = k * Real.tan (|φ| * (Real.pi / 180))) (tol : ℝ) :
    StrengthTimes k (cutWith φ c tol) (cutWith φ' c' (k * tol)) := by
  have e : ∀ φ c tol, cutWith φ c tol =
      { cutSlope with
        materials := [mkLayer cutSlope.extH 0 (exFric φ c)]
        tolerance := tol
        individual := (cutSlope.addSingleCircularPlane 32 36 10).1.individual } := by
    intro φ c tol
    have e1 : (cutOf (exFric φ c)).circleExternalIntersection = cutSlope.circleExternalIntersection := rfl
    unfold cutWith Slope.addSingleCircularPlane
    rw [e1]
    cases cutSlope.circleExternalIntersection 32 36 10 with
    | error x => rfl
    | ok is =>
      simp only
      split
      · rfl
      · rcases is with _ | ⟨a, _ | ⟨b, is⟩⟩ <;> rfl
  rw [e, e]
  refine ⟨by constructor <;> rfl, .cons ⟨rfl, hc, ht, rfl⟩ .nil, rfl, rfl⟩

/-- What is reported for it with the default tolerance. -/
theorem cutWith_report {φ c : ℝ} (hφ : 0 ≤ φ) (h90 : φ ≤ 90) (hc : 0 < c) :
    ((cutWith φ c cutSlope.tolerance).analyseSlope none).2 = .ok () ∧
    ∃ F, 0 < F ∧ ((cutWith φ c cutSlope.tolerance).analyseSlope none).1.getMinFos = .ok (some F) := by
  have e : cutWith φ c cutSlope.tolerance = ((cutOf (exFric φ c)).addSingleCircularPlane 32 36 10).1 := by
    have e1 : (cutOf (exFric φ c)).circleExternalIntersection = cutSlope.circleExternalIntersection := rfl
    unfold cutWith Slope.addSingleCircularPlane
    rw [e1]
    cases cutSlope.circleExternalIntersection 32 36 10 with
    | error x => rfl
    | ok is =>
      simp only
      split
      · rfl
      · rcases is with _ | ⟨a, _ | ⟨b, is⟩⟩ <;> rfl
  rw [e]
  obtain ⟨h1, F, _, h2, h3⟩ := cut_report (φ := φ) (c := c) hφ h90 hc
  exact ⟨h1, F, h3, h2⟩

/-- A case of C102: dividing the strengths of the cut by its factor of safety leaves exactly 1. -/
example : ∃ F φ c tol, 0 < F ∧ ((cutWith 45 100 cutSlope.tolerance).analyseSlope none).1.getMinFos = .ok (some F) ∧
    ((cutWith φ c tol).analyseSlope none).1.getMinFos = .ok (some 1) := by
  obtain ⟨h1, F, hF, h2⟩ := cutWith_report (φ := 45) (c := 100) (by norm_num) (by norm_num) (by norm_num)
  have ha : 0 ≤ Real.arctan (1 / F) := Real.arctan_nonneg.mpr (by positivity)
  have hφ : 0 ≤ Real.arctan (1 / F) * (180 / Real.pi) := mul_nonneg ha (by positivity)
  refine ⟨F, Real.arctan (1 / F) * (180 / Real.pi), 100 / F, 1 / F * cutSlope.tolerance, hF, h2, ?_⟩
  refine (C102_divided_by_itself _ _ (cutWith_reachable (by norm_num) 100 cutSlope.tolerance) (cutWith_reachable hφ _ _) F hF
    (cutWith_strength ?_ ?_ cutSlope.tolerance) h1 h2).2
  · rw [abs_of_pos (by positivity), abs_of_pos (by norm_num)]; ring
  · rw [abs_of_nonneg hφ, abs_of_pos (by norm_num), show (45 : ℝ) * (Real.pi / 180) = Real.pi / 4 by ring,
      Real.tan_pi_div_four, show Real.arctan (1 / F) * (180 / Real.pi) * (Real.pi / 180) = Real.arctan (1 / F) by
        field_simp, Real.tan_arctan, mul_one]

end PySlope
