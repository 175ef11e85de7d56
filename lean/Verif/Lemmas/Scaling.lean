import Verif.Spec.Change
import Verif.Lemmas.Forces
import Verif.Lemmas.Loads
import Verif.Lemmas.Results

/-! # Multiplying weights, cohesions and loads -/

namespace PySlope

namespace SameFrame
variable {s t : Slope ℝ} (h : SameFrame s t)
include h

theorem circleExternalIntersection :
    t.circleExternalIntersection = s.circleExternalIntersection := by
  funext cx cy r
  unfold Slope.circleExternalIntersection
  rw [h.topX, h.topY, h.botX, h.botY, h.extL]

theorem getExternalY : t.getExternalY = s.getExternalY := by
  funext x
  unfold Slope.getExternalY
  rw [h.extL, h.topX, h.topY, h.botX, h.botY, h.gradient]

theorem sliceTop : t.sliceTop = s.sliceTop := by
  funext x
  unfold Slope.sliceTop
  rw [h.topX, h.topY, h.botX, h.botY, h.gradient]

theorem sliceRows : t.sliceRows = s.sliceRows := by
  funext cx cy r xl xr
  unfold Slope.sliceRows Slope.row
  rw [h.slices, h.sliceTop]

theorem bishopEnds : t.bishopEnds = s.bishopEnds := by
  funext cx cy r l rt
  unfold Slope.bishopEnds
  rw [h.circleExternalIntersection]

theorem planeLoop (b c C : ℝ) (num todo : Nat) (l r : ℝ × ℝ) :
    t.planeLoop b c C num todo l r = s.planeLoop b c C num todo l r := by
  induction todo generalizing l r with
  | zero => rfl
  | succ todo ih =>
    unfold Slope.planeLoop
    simp only [h.circleExternalIntersection, ih]

theorem generatePlanes : t.generatePlanes = s.generatePlanes := by
  funext l r n
  unfold Slope.generatePlanes
  simp only [h.planeLoop]

theorem planesFrom (l : ℝ × ℝ) (num : Nat) (rs) : t.planesFrom l num rs = s.planesFrom l num rs := by
  induction rs with
  | nil => rfl
  | cons a rs ih =>
    rcases a with ⟨x, _ | y⟩
    · rfl
    · unfold Slope.planesFrom
      simp only [h.generatePlanes, h.minFailureDist, ih]

theorem planesAll (num : Nat) (rs ls) : t.planesAll num rs ls = s.planesAll num rs ls := by
  induction ls with
  | nil => rfl
  | cons a ls ih =>
    unfold Slope.planesAll
    simp only [h.planesFrom, ih]

/-- The search only looks at where the loads are. -/
theorem entryExitPlanes (hu : t.udls.map PUdl.left = s.udls.map PUdl.left)
    (hl : t.lls.map PLl.coord = s.lls.map PLl.coord) : t.entryExitPlanes = s.entryExitPlanes := by
  have h1 : t.entryPoints = s.entryPoints := by
    unfold Slope.entryPoints
    have e1 : t.udls.length = s.udls.length := by simpa using congrArg List.length hu
    have e2 : t.lls.length = s.lls.length := by simpa using congrArg List.length hl
    have e3 : t.udls.map (fun u => (u.left - 0.001, s.topY)) =
        s.udls.map (fun u => (u.left - 0.001, s.topY)) := by
      have := congrArg (List.map fun x : ℝ => (x - 0.001, s.topY)) hu
      simpa [Function.comp_def] using this
    have e4 : t.lls.map (fun u => (u.coord - 0.001, s.topY)) =
        s.lls.map (fun u => (u.coord - 0.001, s.topY)) := by
      have := congrArg (List.map fun x : ℝ => (x - 0.001, s.topY)) hl
      simpa [Function.comp_def] using this
    rw [h.iterations, h.lim1, h.lim2, h.topY, e1, e2]
    rw [e3, e4]
  have h2 : t.exitPoints = s.exitPoints := by
    unfold Slope.exitPoints Slope.rightCoords
    rw [h.iterations, h.lim3, h.lim4, h.getExternalY]
  unfold Slope.entryExitPlanes
  simp only [h1, h2, h.iterations, h.planesAll]

end SameFrame

/-- Same search and same value for every circle: same results. -/
theorem analyse_congr {s t : Slope ℝ} (h1 : t.entryExitPlanes = s.entryExitPlanes)
    (h2 : t.individual = s.individual) (h3 : ∀ cx cy r, t.bishop cx cy r none none =
      s.bishop cx cy r none none) (m : Option ℝ) :
    (t.analyseSlope m).2 = (s.analyseSlope m).2 ∧
    ((s.analyseSlope m).2 = .ok () → (t.analyseSlope m).1.search = (s.analyseSlope m).1.search) := by
  have hf : ∀ ps, t.fillFos ps = s.fillFos ps := by
    intro ps
    induction ps with
    | nil => rfl
    | cons p ps ih =>
      unfold Slope.fillFos
      rw [h3, ih]
  unfold Slope.analyseSlope
  rw [h2, h1]
  simp only [hf]
  cases s.individual with
  | cons p ps => simp only; split <;> simp
  | nil =>
    simp only
    cases s.entryExitPlanes with
    | error e => simp
    | ok planes => simp only; split <;> simp

/-! ## Scaling -/

/-- Forces multiplied by `k`. -/
noncomputable def scaleF (k : ℝ) (f : SliceForces ℝ) : SliceForces ℝ :=
  { f with W := k * f.W, u := k * f.u, c := k * f.c }

theorem stripColumn_scaled {k : ℝ} {a b : List (Layer ℝ)} (h : List.Forall₂ (ScaledLayer k) a b)
    (yt yb top : ℝ) : stripColumn yt yb top b = k * stripColumn yt yb top a := by
  induction h generalizing top with
  | nil => simp [stripColumn]
  | @cons x y xs ys hxy hs ih =>
    obtain ⟨h1, _, _, _, h5⟩ := hxy
    cases hs with
    | nil => simp only [stripColumn, h1]; ring
    | cons h' hs' =>
      simp only [stripColumn] at ih ⊢
      rw [ih, h1, h5]; ring

theorem strengthLoop_scaled {k : ℝ} {a b : List (Layer ℝ)} (h : List.Forall₂ (ScaledLayer k) a b)
    (yb c t : ℝ) (d : Bool) : strengthLoop yb b (k * c, t, d) =
      (k * (strengthLoop yb a (c, t, d)).1, (strengthLoop yb a (c, t, d)).2) := by
  induction h generalizing c t d with
  | nil => rfl
  | @cons x y xs ys hxy hs ih =>
    obtain ⟨_, h2, _, h4, h5⟩ := hxy
    unfold strengthLoop
    rw [h5, h2, h4]
    split
    · exact ih _ _ _
    · exact ih _ _ _

theorem forall2_getLast? {R : Layer ℝ → Layer ℝ → Prop} {a b : List (Layer ℝ)} (h : List.Forall₂ R a b) :
    (a.getLast? = none ∧ b.getLast? = none) ∨
      ∃ x y, a.getLast? = some x ∧ b.getLast? = some y ∧ R x y := by
  induction h with
  | nil => exact .inl ⟨rfl, rfl⟩
  | @cons x y xs ys hxy hs ih =>
    right
    rw [List.getLast?_cons, List.getLast?_cons]
    rcases ih with ⟨e1, e2⟩ | ⟨u, v, e1, e2, huv⟩
    · rw [e1, e2]; exact ⟨x, y, rfl, rfl, hxy⟩
    · rw [e1, e2]; exact ⟨u, v, rfl, rfl, huv⟩

theorem forall2_sum {α β : Type} {R : α → β → Prop} {a : List α} {b : List β}
    (h : List.Forall₂ R a b) {k : ℝ} {f : α → ℝ} {g : β → ℝ} (hR : ∀ x y, R x y → g y = k * f x) :
    (b.map g).sum = k * (a.map f).sum := by
  induction h with
  | nil => simp
  | cons hxy _ ih => rw [List.map_cons, List.map_cons, List.sum_cons, List.sum_cons, ih, hR _ _ hxy]; ring

theorem mapM_map_ok {α β γ ε : Type} (f : α → Except ε β) (f' : α → Except ε γ) (g : β → γ)
    (h : ∀ a, f' a = (f a).map g) (l : List α) : l.mapM f' = (l.mapM f).map (List.map g) := by
  induction l with
  | nil => rfl
  | cons a l ih =>
    rw [List.mapM_cons, List.mapM_cons, h a, ih]
    cases f a with
    | error e => rfl
    | ok b =>
      cases hl : l.mapM f with
      | error e => simp [bind, Except.bind, Except.map]
      | ok bs => simp [bind, Except.bind, Except.map, pure, Except.pure]

namespace Scaled
variable {k : ℝ} {s t : Slope ℝ} (h : Scaled k s t)
include h

theorem rowWeight (w : ℝ) (q : Row ℝ) : t.rowWeight w q = k * s.rowWeight w q := by
  rw [rowWeight_eq, rowWeight_eq]
  unfold Slope.stripWeight
  rw [h.extH, stripColumn_scaled h.materials,
    forall2_sum h.udls (k := k) (f := fun u => common (q.x - w / 2) (q.x + w / 2) u.left u.right *
      u.load.magnitude) (by rintro x y ⟨h1, h2, h3⟩; rw [h1, h2, h3]; ring),
    forall2_sum h.lls (k := k) (f := fun l => if q.x - w / 2 ≤ l.coord ∧ l.coord < q.x + w / 2 then
      l.load.magnitude else 0) (by
        rintro x y ⟨h1, h2⟩; rw [h1, h2]; split <;> ring)]
  ring

theorem rowStrength (yb : ℝ) :
    t.rowStrength yb = (s.rowStrength yb).map fun ct => (k * ct.1, ct.2) := by
  unfold Slope.rowStrength
  rcases forall2_getLast? h.materials with ⟨e1, e2⟩ | ⟨x, y, e1, e2, _, h2, _, h4, _⟩
  · rw [e1, e2]; rfl
  · rw [e1, e2]
    simp only [h2, h4, strengthLoop_scaled h.materials, Option.map_some]

theorem sliceForces (hd : s.waterX = .ok none) (w : ℝ) (rows : List (Row ℝ)) :
    t.sliceForces w rows = (s.sliceForces w rows).map (List.map (scaleF k)) := by
  have hd' : t.waterX = .ok none := by
    have : t.waterX = s.waterX := by
      unfold Slope.waterX Slope.getExternalX
      rw [h.waterRL, h.gradient, h.topX, h.topY, h.botX, h.botY, h.extL, h.extH]
    rw [this, hd]
  unfold Slope.sliceForces
  rw [hd, hd']
  simp only [bind, Except.bind]
  apply mapM_map_ok
  intro q
  rw [h.rowStrength]
  cases s.rowStrength q.yb with
  | none => rfl
  | some ct =>
    simp only [Option.map_some, Except.map, scaleF, h.rowWeight, Slope.waterHead]
    simp

end Scaled

theorem ordinaryTerm_scaled {k : ℝ} (hk : 0 < k) (w : ℝ) (f : SliceForces ℝ) :
    ordinaryTerm w (scaleF k f) = k * ordinaryTerm w f := by
  unfold ordinaryTerm scaleF
  simp only [pyMax_real, lit_zero]
  have : max 0 (k * f.W * f.cosA - k * f.u * (w / f.cosA)) =
      k * max 0 (f.W * f.cosA - f.u * (w / f.cosA)) := by
    rw [mul_max_of_nonneg _ _ hk.le, mul_zero]
    congr 1; ring
  rw [this]; ring

theorem bishopTerm_scaled {k : ℝ} (w F : ℝ) (f : SliceForces ℝ) :
    bishopTerm w F (scaleF k f) = k * bishopTerm w F f := by
  unfold bishopTerm bishopDenom scaleF
  simp only
  ring

theorem drivingSum_scaled {k : ℝ} (fs : List (SliceForces ℝ)) :
    drivingSum (fs.map (scaleF k)) = k * drivingSum fs := by
  rw [drivingSum_real, drivingSum_real, List.map_map, ← List.sum_map_mul_left]
  congr 1
  apply List.map_congr_left
  intro f _
  simp only [Function.comp_apply, scaleF]; ring

theorem bishopStep_scaled {k : ℝ} (hk : 0 < k) (w : ℝ) (fs : List (SliceForces ℝ)) (F : ℝ) :
    bishopStep w (fs.map (scaleF k)) F = bishopStep w fs F := by
  have e1 : (fs.map (scaleF k)).any
      (fun f => pyEq (f.sinA * f.tanPhi) (@OfNat.ofNat ℝ 0 (Lit.natLit 0))) =
      fs.any (fun f => pyEq (f.sinA * f.tanPhi) (@OfNat.ofNat ℝ 0 (Lit.natLit 0))) := by
    rw [List.any_map]; rfl
  have e2 : (fs.map (scaleF k)).any
      (fun f => pyEq (bishopDenom F f) (@OfNat.ofNat ℝ 0 (Lit.natLit 0))) =
      fs.any (fun f => pyEq (bishopDenom F f) (@OfNat.ofNat ℝ 0 (Lit.natLit 0))) := by
    rw [List.any_map]; rfl
  have e3 : ((fs.map (scaleF k)).map (bishopTerm w F)).sum = k * (fs.map (bishopTerm w F)).sum := by
    rw [List.map_map, ← List.sum_map_mul_left]
    congr 1
    apply List.map_congr_left
    intro f _
    exact bishopTerm_scaled w F f
  unfold bishopStep
  rw [e1, e2, drivingSum_scaled]
  simp only [lsum_real, e3, lit_zero]
  have c1 : k * drivingSum fs ≤ 0 ↔ drivingSum fs ≤ 0 := by
    constructor
    · intro h'; by_contra hc; push Not at hc; have := mul_pos hk hc; linarith
    · intro h'; exact mul_nonpos_of_nonneg_of_nonpos hk.le h'
  have c2 : k * (fs.map (bishopTerm w F)).sum < 0 ↔ (fs.map (bishopTerm w F)).sum < 0 := by
    constructor
    · intro h'; by_contra hc; push Not at hc; have := mul_nonneg hk.le hc; linarith
    · intro h'; exact mul_neg_of_pos_of_neg hk h'
  simp only [c1, c2, mul_div_mul_left _ _ hk.ne']

theorem bishopLoop_scaled {k : ℝ} (hk : 0 < k) (w tol : ℝ) (fs : List (SliceForces ℝ)) (n : ℕ)
    (F : ℝ) : bishopLoop w tol (fs.map (scaleF k)) n F = bishopLoop w tol fs n F := by
  induction n generalizing F with
  | zero => rfl
  | succ n ih =>
    unfold bishopLoop
    rw [bishopStep_scaled hk]
    simp only [ih]

theorem Scaled.ordinary {k : ℝ} {s t : Slope ℝ} (h : Scaled k s t) (hk : 0 < k)
    (hd : s.waterX = .ok none) (cx cy r : ℝ) (l rt : Option (ℝ × ℝ)) :
    t.ordinary cx cy r l rt = s.ordinary cx cy r l rt := by
  have he : t.ordinaryEnds = s.ordinaryEnds := by
    funext a b c d e
    unfold Slope.ordinaryEnds
    rw [h.circleExternalIntersection]
  unfold Slope.ordinary
  rw [he, h.slices, h.sliceRows]
  simp only [h.sliceForces hd]
  cases s.ordinaryEnds cx cy r l rt with
  | error e => rfl
  | ok lr =>
  simp only [bind, Except.bind]
  split
  · rfl
  cases s.sliceRows cx cy r lr.1.1 lr.2.1 with
  | error e => rfl
  | ok rows =>
  simp only
  cases s.sliceForces ((lr.2.1 - lr.1.1) / ofInt s.slices) rows with
  | error e => rfl
  | ok fs =>
    simp only [Except.map, drivingSum_scaled, lit_zero]
    have c1 : k * drivingSum fs ≤ 0 ↔ drivingSum fs ≤ 0 := by
      constructor
      · intro h'; by_contra hc; push Not at hc; have := mul_pos hk hc; linarith
      · intro h'; exact mul_nonpos_of_nonneg_of_nonpos hk.le h'
    have e1 : lsum ((fs.map (scaleF k)).map (ordinaryTerm ((lr.2.1 - lr.1.1) / ofInt s.slices))) =
        k * lsum (fs.map (ordinaryTerm ((lr.2.1 - lr.1.1) / ofInt s.slices))) := by
      rw [lsum_real, lsum_real, List.map_map, ← List.sum_map_mul_left]
      congr 1
      apply List.map_congr_left
      intro f _
      exact ordinaryTerm_scaled hk _ f
    simp only [c1, e1, mul_div_mul_left _ _ hk.ne']

theorem Scaled.bishop {k : ℝ} {s t : Slope ℝ} (h : Scaled k s t) (hk : 0 < k)
    (hd : s.waterX = .ok none) (cx cy r : ℝ) (l rt : Option (ℝ × ℝ)) :
    t.bishop cx cy r l rt = s.bishop cx cy r l rt := by
  unfold Slope.bishop
  rw [h.bishopEnds, h.slices, h.sliceRows, h.tolerance, h.maxIterations]
  simp only [h.sliceForces hd, h.ordinary hk hd]
  congr 1
  funext lr
  congr 1
  funext F0
  congr 1
  funext rows
  cases s.sliceForces ((lr.2.1 - lr.1.1) / ofInt s.slices) rows with
  | error e => rfl
  | ok fs =>
    simp only [Except.map, bind, Except.bind, bishopLoop_scaled hk]

end PySlope
