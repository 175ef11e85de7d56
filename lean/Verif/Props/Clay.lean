import Verif.Props.Alike
import Verif.Props.Total

/-! # Properties C94, C95: ground without friction -/

namespace PySlope

/-- The same error, or values related by `R`. -/
def ERel {α β ε : Type} (R : α → β → Prop) : Except ε α → Except ε β → Prop
  | .error e, .error e' => e' = e
  | .ok a, .ok b => R a b
  | _, _ => False

theorem ERel.mapM {α β γ ε : Type} {R : β → γ → Prop} {f : α → Except ε β} {g : α → Except ε γ}
    (l : List α) (h : ∀ a ∈ l, ERel R (f a) (g a)) : ERel (List.Forall₂ R) (l.mapM f) (l.mapM g) := by
  induction l with
  | nil => exact .nil
  | cons a l ih =>
    have h1 := h a (by simp)
    have h2 := ih fun b hb => h b (List.mem_cons_of_mem _ hb)
    rw [List.mapM_cons, List.mapM_cons]
    cases e1 : f a <;> cases e2 : g a <;> rw [e1, e2] at h1 <;> try exact h1.elim
    · exact h1
    · cases e3 : l.mapM f <;> cases e4 : l.mapM g <;> rw [e3, e4] at h2 <;> try exact h2.elim
      · exact h2
      · exact .cons h1 h2

theorem ERel.bind {α β γ δ ε : Type} {R : α → β → Prop} {S : γ → δ → Prop} {x : Except ε α} {y : Except ε β}
    {f : α → Except ε γ} {g : β → Except ε δ} (h : ERel R x y)
    (h' : ∀ a b, x = .ok a → y = .ok b → R a b → ERel S (f a) (g b)) : ERel S (x >>= f) (y >>= g) := by
  cases e1 : x <;> cases e2 : y <;> rw [e1, e2] at h <;> try exact h.elim
  · exact h
  · exact h' _ _ e1 e2 h

theorem ERel.refl {α ε : Type} {R : α → α → Prop} (h : ∀ a, R a a) (x : Except ε α) : ERel R x x := by
  cases x
  · rfl
  · exact h _

theorem ERel.antisymm {ε : Type} {x y : Except ε ℝ} (h : ERel (· ≤ ·) x y) (h' : ERel (· ≤ ·) y x) : y = x := by
  cases x <;> cases y <;> try exact h.elim
  · exact congrArg _ h
  · exact congrArg _ (le_antisymm h' h)

/-- Slices without friction that differ in the pressure of the water and in that cohesion is not lower. -/
structure ClaySlices (f g : SliceForces ℝ) : Prop where
  W : g.W = f.W
  cosA : g.cosA = f.cosA
  sinA : g.sinA = f.sinA
  c : f.c ≤ g.c
  tan : f.tanPhi = 0 ∧ g.tanPhi = 0

theorem ClaySlices.driving {fs gs : List (SliceForces ℝ)} (h : List.Forall₂ ClaySlices fs gs) :
    drivingSum gs = drivingSum fs := by
  rw [drivingSum_real, drivingSum_real]
  induction h with
  | nil => rfl
  | cons h _ ih => rw [List.map_cons, List.map_cons, List.sum_cons, List.sum_cons, ih, h.W, h.sinA]

theorem ClaySlices.resisting {w : ℝ} (hw : 0 ≤ w) {fs gs : List (SliceForces ℝ)} (h : List.Forall₂ ClaySlices fs gs)
    (hc : ∀ f ∈ fs, 0 ≤ f.cosA) : lsum (fs.map (ordinaryTerm w)) ≤ lsum (gs.map (ordinaryTerm w)) := by
  rw [lsum_real, lsum_real]
  induction h with
  | nil => exact le_refl _
  | @cons f g fs gs h _ ih =>
    rw [List.map_cons, List.map_cons, List.sum_cons, List.sum_cons]
    refine add_le_add ?_ (ih fun f hf => hc f (List.mem_cons_of_mem _ hf))
    unfold ordinaryTerm
    simp only [h.tan.1, h.tan.2, mul_zero, add_zero, h.cosA]
    exact mul_le_mul_of_nonneg_right h.c (div_nonneg hw (hc f (by simp)))

/-- Two slopes without friction that differ in the water and in that cohesions are not lower. -/
structure ClayPair (s t : Slope ℝ) : Prop where
  frame : SameFrame s { t with waterRL := s.waterRL, waterH := s.waterH }
  materials : List.Forall₂ MoreCohesion s.materials t.materials
  udls : t.udls = s.udls
  lls : t.lls = s.lls
  clay : Frictionless s
  rs : Reachable s
  rt : Reachable t
  ws : ∃ w, s.waterX = .ok w
  wt : ∃ w, t.waterX = .ok w

namespace ClayPair
variable {s t : Slope ℝ} (h : ClayPair s t)
include h

theorem sliceRows : t.sliceRows = s.sliceRows := h.frame.sliceRows
theorem bishopEnds : t.bishopEnds = s.bishopEnds := h.frame.bishopEnds
theorem slices : t.slices = s.slices := h.frame.slices

theorem ordinaryEnds (cx cy r : ℝ) (l rt : Option (ℝ × ℝ)) :
    t.ordinaryEnds cx cy r l rt = s.ordinaryEnds cx cy r l rt := by
  have : t.circleExternalIntersection = s.circleExternalIntersection := h.frame.circleExternalIntersection
  unfold Slope.ordinaryEnds
  rw [this]

theorem rowWeight (w : ℝ) (q : Row ℝ) : t.rowWeight w q = s.rowWeight w q := by
  have hc : ∀ {a b : List (Layer ℝ)}, List.Forall₂ MoreCohesion a b → ∀ yt yb top,
      stripColumn yt yb top b = stripColumn yt yb top a := by
    intro a b hab
    induction hab with
    | nil => intros; rfl
    | @cons x y xs ys hxy hs ih =>
      intro yt yb top
      obtain ⟨h1, _, _, h4⟩ := hxy
      cases hs with
      | nil => simp only [stripColumn, h1]
      | cons h' hs' =>
        simp only [stripColumn] at ih ⊢
        rw [ih, h1, h4]
  have e : t.extH = s.extH := h.frame.extH
  rw [rowWeight_eq, rowWeight_eq]
  unfold Slope.stripWeight
  rw [hc h.materials, e, h.udls, h.lls]

theorem rowStrength (y : ℝ) : (s.rowStrength y = none ∧ t.rowStrength y = none) ∨
    ∃ c d, s.rowStrength y = some (c, 0) ∧ t.rowStrength y = some (d, 0) ∧ c ≤ d := by
  rw [soil_strength h.rs, soil_strength h.rt]
  unfold soilAt
  rcases layerAt_forall2 h.materials (fun x y hxy => hxy.2.2.2) y with ⟨e1, e2⟩ | ⟨l, l', e1, e2, e3⟩
  · rw [e1, e2]; exact .inl ⟨rfl, rfl⟩
  · have hl : l ∈ s.materials := by
      by_cases hm : s.materials = []
      · rw [hm] at e1; cases e1
      · obtain ⟨l0, f1, f2, _⟩ := strengthAt_eq h.rs hm y
        rw [f1] at e1
        cases e1
        exact f2
    rw [e1, e2]
    refine .inr ⟨l.mat.cohesion, l'.mat.cohesion, ?_, ?_, e3.2.1⟩
    · simp [h.clay l hl]
    · simp [e3.2.2.1, h.clay l hl]

theorem sliceForces (w : ℝ) (rows : List (Row ℝ)) :
    ERel (List.Forall₂ ClaySlices) (s.sliceForces w rows) (t.sliceForces w rows) := by
  obtain ⟨ws, h1⟩ := h.ws
  obtain ⟨wt, h2⟩ := h.wt
  unfold Slope.sliceForces
  rw [h1, h2]
  refine ERel.mapM rows fun q _ => ?_
  rcases h.rowStrength q.yb with ⟨e1, e2⟩ | ⟨c, d, e1, e2, e3⟩
  · rw [e1, e2]; rfl
  · rw [e1, e2]
    exact ⟨h.rowWeight w q, rfl, rfl, e3, rfl, rfl⟩

theorem ordinary (cx cy r : ℝ) (a b : Option (ℝ × ℝ)) :
    ERel (· ≤ ·) (s.ordinary cx cy r a b) (t.ordinary cx cy r a b) := by
  unfold Slope.ordinary
  rw [h.ordinaryEnds]
  simp only [h.sliceRows, h.slices]
  split
  · rfl
  · refine ERel.bind (ERel.refl (R := Eq) (fun _ => rfl) _) ?_
    rintro q _ _ _ rfl
    split
    · rfl
    · rename_i hq
      refine ERel.bind (ERel.refl (R := Eq) (fun _ => rfl) _) ?_
      rintro rows _ hr _ rfl
      refine ERel.bind (h.sliceForces _ rows) ?_
      intro fs gs hf hg hfg
      rw [ClaySlices.driving hfg]
      split
      · rfl
      · rename_i hd
        rename_i hd
        have hw : 0 ≤ (q.2.1 - q.1.1) / ofInt s.slices := by
          rw [ofInt_real]
          refine div_nonneg ?_ ?_
          · norm_num at hq; linarith
          · have := h.rs.wf.sl.1
            exact_mod_cast (by omega : 0 ≤ s.slices)
        refine div_le_div_of_nonneg_right (ClaySlices.resisting hw hfg ?_) (le_of_lt (by simpa using hd))
        intro f hf'
        obtain ⟨_, _, rfl, _⟩ := sliceForces_ok hf
        unfold Slope.forcesAt at hf'
        obtain ⟨x, hx, rfl⟩ := List.mem_map.mp hf'
        obtain ⟨rfl, hin⟩ := sliceRows_ok (by have := h.rs.wf.sl.1; omega) hr
        unfold Slope.rowsAt at hx
        obtain ⟨i, hi, rfl⟩ := List.mem_map.mp hx
        exact (rowAt_cos_pos s (cy := cy) (hin i (List.mem_range.mp hi))).le

end ClayPair

/-- Bishop's method without friction: the ordinary value, and NaN if that is 0. -/
theorem clay_bishop {s : Slope ℝ} (rs : Reachable s) (hφ : Frictionless s) (cx cy r : ℝ)
    (a b : Option (ℝ × ℝ)) :
    s.bishop cx cy r a b = (do
      let q ← s.bishopEnds cx cy r a b
      let F ← s.ordinary cx cy r (some q.1) (some q.2)
      if s.maxIterations.toNat ≠ 0 ∧ F = 0 then throw (.raise .nonreal) else pure F) := by
  cases he : s.bishopEnds cx cy r a b with
  | error e => unfold Slope.bishop; rw [he]; rfl
  | ok q =>
  cases ho : s.ordinary cx cy r (some q.1) (some q.2) with
  | error e =>
    unfold Slope.bishop
    rw [he]
    simp only [bind, Except.bind]
    rw [ho]
  | ok F =>
  have hsl : 10 ≤ s.slices := rs.wf.sl.1
  obtain ⟨_, _, h3, h4, hm, hin, water, hw, hf, hdr, hFe⟩ := ordinary_spec rs ho
  have hx : q.1.1 < q.2.1 := by norm_num at h4; linarith
  have htan : ∀ i, (sliceOf s cx cy r q.1.1 q.2.1 i).tan = 0 := by
    intro i
    obtain ⟨ly, hl, hlm, _⟩ := strengthAt_eq rs hm
      (cy - √(r ^ 2 - (q.1.1 + ((i : ℝ) + 1 / 2) * ((q.2.1 - q.1.1) / s.slices) - cx) ^ 2))
    unfold Slice.tan sliceOf
    simp only [hl, hφ ly hlm, zero_mul, Real.tan_zero]
  have hlist : ∀ g ∈ listOf s.slices.toNat (sliceOf s cx cy r q.1.1 q.2.1),
      g.tanPhi = 0 ∧ 0 < g.cosA ∧ 0 ≤ g.c := by
    intro g hg
    unfold listOf at hg
    obtain ⟨i, hi, rfl⟩ := List.mem_map.mp hg
    obtain ⟨a1, a2, a3, a4, _⟩ := slice_facts (cy := cy) rs hm h3 hx (hin i (List.mem_range.mp hi))
    exact ⟨htan i, a4, a2⟩
  rw [bishop_eq (by omega) he ho hw, hf]
  simp only [bind, Except.bind, pure, Except.pure]
  rw [ho]
  simp only
  by_cases h0 : F = 0
  · cases hn : s.maxIterations.toNat with
    | zero => simp [bishopLoop, pure, Except.pure]
    | succ n =>
      rw [if_pos ⟨by simp, h0⟩]
      have hany : (listOf s.slices.toNat (sliceOf s cx cy r q.1.1 q.2.1)).any
          (fun f => pyEq (f.sinA * f.tanPhi) (@OfNat.ofNat ℝ 0 (Lit.natLit 0))) = true := by
        rw [List.any_eq_true]
        have hmem : (sliceOf s cx cy r q.1.1 q.2.1 0).forces ∈
            listOf s.slices.toNat (sliceOf s cx cy r q.1.1 q.2.1) := by
          unfold listOf
          exact List.mem_map.mpr ⟨0, List.mem_range.mpr (by omega), rfl⟩
        refine ⟨_, hmem, ?_⟩
        simp [(hlist _ hmem).1]
      unfold bishopLoop bishopStep
      rw [hany, h0]
      simp [bind, Except.bind, throw, throwThe, MonadExceptOf.throw]
  · rw [if_neg (fun c => h0 c.2)]
    apply bishopLoop_undrained _ hlist _ _ h0
    · rw [hFe]
      exact (listOf_ordinary (w := (q.2.1 - q.1.1) / s.slices) (fun i => rfl)).symm
    · have hn : (0 : ℝ) < s.slices := by
        have : (0 : Int) < s.slices := by omega
        exact_mod_cast this
      exact div_pos (by linarith) hn
    · rw [listOf_driving]; exact hdr

theorem forall2_cohesion_refl (l : List (Layer ℝ)) : List.Forall₂ MoreCohesion l l := by
  induction l with
  | nil => exact .nil
  | cons a l ih => exact .cons ⟨rfl, le_refl _, rfl, rfl⟩ ih

theorem WaterBelowCrest.ok {s : Slope ℝ} (h : WaterBelowCrest s) (r : Reachable s) : ∃ w, s.waterX = .ok w :=
  waterX_ok r.wf.geo h

theorem OtherWater.pair {s t : Slope ℝ} (h : OtherWater s t) (rs : Reachable s) (rt : Reachable t)
    (hφ : Frictionless s) (ws : WaterBelowCrest s) (wt : WaterBelowCrest t) : ClayPair s t :=
  ⟨h.frame, by rw [h.materials]; exact forall2_cohesion_refl _, h.udls, h.lls, hφ, rs, rt, ws.ok rs, wt.ok rt⟩

theorem OtherWater.symm {s t : Slope ℝ} (h : OtherWater s t) : OtherWater t s := by
  refine ⟨?_, h.materials.symm, h.udls.symm, h.lls.symm⟩
  have := h.frame.symm
  constructor
  · exact this.height
  · exact this.length
  · exact this.gradient
  · exact this.topX
  · exact this.topY
  · exact this.botX
  · exact this.botY
  · exact this.extL
  · exact this.extH
  · exact this.lim1
  · exact this.lim2
  · exact this.lim3
  · exact this.lim4
  · rfl
  · rfl
  · exact this.slices
  · exact this.iterations
  · exact this.minFailureDist
  · exact this.tolerance
  · exact this.maxIterations
  · exact this.individual

/-- C94: in ground without friction the water does not matter. Two slopes that differ only in the water table
and the factor on its pressure have the same factor of safety of either method on every circle, and an analysis
does the same for both: the same exception or the same planes with the same values in the same order. -/
theorem C94_water_no_matter (s t : Slope ℝ) (rs : Reachable s) (rt : Reachable t) (h : OtherWater s t)
    (hφ : Frictionless s) (ws : WaterBelowCrest s) (wt : WaterBelowCrest t) :
    (∀ cx cy r a b, t.ordinary cx cy r a b = s.ordinary cx cy r a b) ∧
    (∀ cx cy r a b, t.bishop cx cy r a b = s.bishop cx cy r a b) ∧
    ∀ m : Option ℝ, (t.analyseSlope m).2 = (s.analyseSlope m).2 ∧
      ((s.analyseSlope m).2 = .ok () →
        (t.analyseSlope m).1.search = (s.analyseSlope m).1.search ∧
        (t.analyseSlope m).1.getMinFos = (s.analyseSlope m).1.getMinFos) := by
  have hφ' : Frictionless t := by unfold Frictionless; rw [h.materials]; exact hφ
  have h1 := h.pair rs rt hφ ws wt
  have h2 := h.symm.pair rt rs hφ' wt ws
  have ho : ∀ cx cy r a b, t.ordinary cx cy r a b = s.ordinary cx cy r a b := fun cx cy r a b =>
    (h1.ordinary cx cy r a b).antisymm (h2.ordinary cx cy r a b)
  have hb : ∀ cx cy r a b, t.bishop cx cy r a b = s.bishop cx cy r a b := by
    intro cx cy r a b
    have hi : t.maxIterations = s.maxIterations := h.frame.maxIterations
    rw [clay_bishop rs hφ, clay_bishop rt hφ', h1.bishopEnds, hi]
    simp only [ho]
  refine ⟨ho, hb, fun m => ?_⟩
  have hp : t.entryExitPlanes = s.entryExitPlanes := by
    have : ({ t with waterRL := s.waterRL, waterH := s.waterH } : Slope ℝ).entryExitPlanes = t.entryExitPlanes := by
      set_option smartUnfolding false in rfl
    rw [← this]
    exact h.frame.entryExitPlanes (by rw [← h.udls]) (by rw [← h.lls])
  obtain ⟨a1, a2⟩ := analyse_congr hp h.frame.individual (fun cx cy r => hb cx cy r none none) m
  refine ⟨a1, fun ho => ⟨a2 ho, ?_⟩⟩
  unfold Slope.getMinFos
  rw [a2 ho]

/-- The example of the other files in clay: friction angle 0, cohesion 5. -/
theorem exClay_frictionless (c : ℝ) : Frictionless (exOf (exFric 0 c)) := by
  intro l hl
  obtain rfl : l = _ := List.mem_singleton.mp hl
  change |(0 : ℝ)| = 0
  exact abs_zero

/-- A case of C94: clay, dry and with water up to the crest. The circle of the example has a value. -/
example : OtherWater (exOf (exFric 0 5)) (exWet (exFric 0 5)) ∧ Reachable (exOf (exFric 0 5)) ∧
    Reachable (exWet (exFric 0 5)) ∧ Frictionless (exOf (exFric 0 5)) ∧ WaterBelowCrest (exOf (exFric 0 5)) ∧
    WaterBelowCrest (exWet (exFric 0 5)) ∧ (exWet (exFric 0 5)).waterRL = some 9 ∧
    ∃ F, (exWet (exFric 0 5)).ordinary 9 (35 / 3) (17 / 3) (some (4, 9)) (some (9, 6)) = .ok F := by
  have hc := exFric_constructed 0 5 le_rfl
  have hd : (exFric 0 5).depth ≤ 9 := by simp [exFric]; norm_num
  have g := exWet_ground hc hd
  refine ⟨⟨by constructor <;> rfl, rfl, rfl, rfl⟩, (exOf_ground hc hd).reach, g.reach, exClay_frictionless 5,
    ?_, ?_, exWet_RL _, ⟨_, g.ordinary (by norm_num [exFric]) (exWet_waterX hc hd)⟩⟩
  · intro z hz; cases hz
  · intro z hz
    rw [exWet_RL] at hz
    cases hz
    rw [g.topY]

/-- C94 for the calls: in ground without friction `set_water_table` changes neither the factor of safety of any
circle nor what an analysis does. -/
theorem C94_set_water_table (s t : Slope ℝ) (rs : Reachable s) (d : PyVal ℝ) (e : s.setWaterTable d = (t, .ok ()))
    (hφ : Frictionless s) (ws : WaterBelowCrest s) :
    (∀ cx cy r a b, t.ordinary cx cy r a b = s.ordinary cx cy r a b) ∧
    (∀ cx cy r a b, t.bishop cx cy r a b = s.bishop cx cy r a b) ∧
    ∀ m : Option ℝ, (t.analyseSlope m).2 = (s.analyseSlope m).2 ∧
      ((s.analyseSlope m).2 = .ok () →
        (t.analyseSlope m).1.search = (s.analyseSlope m).1.search ∧
        (t.analyseSlope m).1.getMinFos = (s.analyseSlope m).1.getMinFos) := by
  have rt : Reachable t := by
    have := Reachable.call rs (.setWaterTable s d)
    rwa [e] at this
  have hz : ∀ z, t.waterRL = some z → z ≤ s.topY := by
    have h0 : 0 ≤ s.topY := by
      have g := rs.wf.geo
      have h1 := g.topY; have h2 := g.extH3; have h3 := g.hgt
      rw [h1]; linarith
    intro z hz
    unfold Slope.setWaterTable at e
    split at e
    · cases e; cases hz
    · split at e
      · cases e
      · rename_i hv
        cases e
        have : z = max 0 (s.topY - d.get!) := by simpa [Slope.resetResults] using hz.symm
        rw [this]
        refine max_le h0 ?_
        have : 0 ≤ d.get! := by
          cases d <;> simp [assertPositiveNumber, PyCmp.ltb, PyVal.get!] at hv ⊢ <;> exact hv
        linarith
  obtain ⟨rl, wd, rfl⟩ := setWaterTable_frame e
  exact C94_water_no_matter s _ rs rt ⟨by constructor <;> rfl, rfl, rfl, rfl⟩ hφ ws hz

/-- Where a plane is. -/
def Plane.place (p : Plane ℝ) : ℝ × ℝ × ℝ × (ℝ × ℝ) × (ℝ × ℝ) := (p.cx, p.cy, p.radius, p.lc, p.rc)

theorem Stronger.clayPair {s t : Slope ℝ} (h : Stronger s t) (rs : Reachable s) (rt : Reachable t)
    (hφ : Frictionless s) (ws : ∃ w, s.waterX = .ok w) : ClayPair s t := by
  have hw : t.waterX = s.waterX := by
    unfold Slope.waterX Slope.getExternalX
    rw [h.waterRL, h.gradient, h.topX, h.topY, h.botX, h.botY, h.extL, h.extH]
  refine ⟨?_, h.materials, h.udls, h.lls, hφ, rs, rt, ws, by rw [hw]; exact ws⟩
  have : ({ t with waterRL := s.waterRL, waterH := s.waterH } : Slope ℝ) = t := by
    rw [← h.waterRL, ← h.waterH]
  rw [this]
  exact h.toSameFrame

/-- What Bishop's method does to a circle when cohesions are raised. -/
theorem ClayPair.bishop {s t : Slope ℝ} (h : ClayPair s t) (cx cy r : ℝ) :
    s.bishop cx cy r none none = .error (.raise .nonreal) ∨
      ERel (· ≤ ·) (s.bishop cx cy r none none) (t.bishop cx cy r none none) := by
  have hφ' : Frictionless t := by
    intro l' hl'
    obtain ⟨i, hi, e⟩ := List.mem_iff_getElem.mp hl'
    have hlen := h.materials.length_eq
    have := (List.forall₂_iff_get.mp h.materials).2 i (by omega) (by omega)
    rw [List.get_eq_getElem, List.get_eq_getElem, e] at this
    rw [this.2.2.1]
    exact h.clay _ (List.getElem_mem _)
  have hi : t.maxIterations = s.maxIterations := h.frame.maxIterations
  rw [clay_bishop h.rs h.clay, clay_bishop h.rt hφ', h.bishopEnds, hi]
  cases s.bishopEnds cx cy r none none with
  | error e => exact .inr rfl
  | ok q =>
    have ho := h.ordinary cx cy r (some q.1) (some q.2)
    cases e1 : s.ordinary cx cy r (some q.1) (some q.2) <;>
      cases e2 : t.ordinary cx cy r (some q.1) (some q.2) <;> rw [e1, e2] at ho <;> try exact ho.elim
    · right; simp only [bind, Except.bind, e1, e2]; exact ho
    · rename_i F F'
      simp only [bind, Except.bind, e1, e2]
      by_cases h0 : s.maxIterations.toNat ≠ 0 ∧ F = 0
      · rw [if_pos h0]; exact .inl rfl
      · right
        rw [if_neg h0]
        have : ¬ (s.maxIterations.toNat ≠ 0 ∧ F' = 0) := by
          rintro ⟨h1, h2⟩
          refine h0 ⟨h1, le_antisymm (by rw [← h2]; exact ho) ?_⟩
          obtain ⟨_, _, h3, h4, hm, hin, _, _, _, hdr, hFe⟩ := ordinary_spec h.rs e1
          have hx : q.1.1 < q.2.1 := by norm_num at h4; linarith
          rw [hFe]
          refine div_nonneg (Finset.sum_nonneg fun i hi => ?_) hdr.le
          obtain ⟨a1, a2, _, a4, _, _, a7⟩ :=
            slice_facts (cy := cy) h.rs hm h3 hx (hin i (Finset.mem_range.mp hi))
          refine add_nonneg (mul_nonneg a2 (div_nonneg a1.le a4.le)) (mul_nonneg (le_max_left _ _) (a7 ?_))
          intro l hl
          rw [h.clay l hl]
          norm_num
        rw [if_neg this]
        exact ho

/-- C95: in ground without friction raising cohesions does not lower what an analysis reports. If the analysis
of `s` succeeds, so does the one of `t`, with the same circles; each has a factor of safety at least as high, and
so has the most critical one. -/
theorem C95_cohesion_clay (s t : Slope ℝ) (rs : Reachable s) (rt : Reachable t) (h : Stronger s t)
    (hφ : Frictionless s) (ws : WaterBelowCrest s) (a : Slope ℝ) (ha : s.analyseSlope none = (a, .ok ())) :
    ∃ b, t.analyseSlope none = (b, .ok ()) ∧
      (b.search.map Plane.place).Perm (a.search.map Plane.place) ∧
      (∀ p ∈ a.search, ∃ q ∈ b.search, q.place = p.place ∧
        ∃ F F', p.fos = some (some F) ∧ q.fos = some (some F') ∧ F ≤ F') ∧
      ∀ F, a.getMinFos = .ok F → ∃ x x', F = some x ∧ b.getMinFos = .ok (some x') ∧ x ≤ x' := by
  have hp := h.clayPair rs rt hφ (ws.ok rs)
  obtain ⟨ps, h1, h2, -⟩ := analyseSlope_ok ha
  have h1' : Analysed t ps := by
    have e : t.entryExitPlanes = s.entryExitPlanes :=
      h.toSameFrame.entryExitPlanes (by rw [h.udls]) (by rw [h.lls])
    unfold Analysed
    rw [h.individual, e]
    exact h1
  have hb : ∀ p ∈ ps, ERel (· ≤ ·) (s.bishop p.cx p.cy p.radius none none)
      (t.bishop p.cx p.cy p.radius none none) := fun p hp' =>
    (hp.bishop p.cx p.cy p.radius).resolve_left (h2 p hp' _)
  have h2' : ∀ p ∈ ps, ∀ e, ¬ FosRaises t p e := by
    intro p hp' e he
    have := hb p hp'
    unfold FosRaises at he
    rw [he] at this
    cases e1 : s.bishop p.cx p.cy p.radius none none with
    | ok x => rw [e1] at this; exact this
    | error x =>
      rw [e1] at this
      have : Stop.raise e = x := this
      exact h2 p hp' e (by unfold FosRaises; rw [e1, this])
  have hbt := analyseSlope_of h1' h2' none
  obtain ⟨ps1, k1, k2, k3, k4, k5⟩ := C24_results_partial (by simp) ha
  obtain ⟨ps2, l1, l2, l3, l4, l5⟩ := C24_results_partial (by simp) hbt
  cases h1.unique k1
  cases h1'.unique l1
  have hW : ps.filter (Wanted t none) = ps.filter (Wanted s none) := by
    apply List.filter_congr
    intro p hp'
    have := hb p hp'
    unfold Wanted
    cases e1 : s.bishop p.cx p.cy p.radius none none <;>
      cases e2 : t.bishop p.cx p.cy p.radius none none <;> rw [e1, e2] at this <;>
      first | rfl | exact this.elim
  rw [hW] at l2
  refine ⟨_, hbt, ?_, ?_, ?_⟩
  · have e1 := l2.map Plane.place
    have e2 := k2.map Plane.place
    rw [List.map_map] at e1 e2
    exact e1.trans e2.symm
  · intro p hp'
    obtain ⟨p0, m1, rfl⟩ := List.mem_map.mp (k2.mem_iff.mp hp')
    refine ⟨withFos t p0, l2.mem_iff.mpr (List.mem_map.mpr ⟨p0, m1, rfl⟩), rfl, ?_⟩
    have m2 := hb p0 (List.mem_filter.mp m1).1
    have m3 := (List.mem_filter.mp m1).2
    unfold Wanted at m3
    cases e1 : s.bishop p0.cx p0.cy p0.radius none none with
    | error e => rw [e1] at m3; cases m3
    | ok F =>
      cases e2 : t.bishop p0.cx p0.cy p0.radius none none with
      | error e => rw [e1, e2] at m2; exact m2.elim
      | ok F' =>
        rw [e1, e2] at m2
        exact ⟨F, F', by simp [withFos, fosOf, e1], by simp [withFos, fosOf, e2], m2⟩
  · intro F hF
    have hne : a.search ≠ [] := by
      intro c
      rw [(k4 c).1] at hF
      cases hF
    have hne' : (t.analysedTo none ps).search ≠ [] := by
      intro c
      rw [c] at l2
      have e := l2.length_eq
      have e' := k2.length_eq
      simp only [List.length_map] at e e'
      rw [← e] at e'
      exact hne (List.length_eq_zero_iff.mp e')
    obtain ⟨p, m1, x, m2, m3, _, _, m4⟩ := k5 hne
    obtain ⟨p', n1, x', n2, n3, _⟩ := l5 hne'
    rw [m3] at hF
    cases hF
    refine ⟨x, x', rfl, n3, ?_⟩
    have := hb p' n1
    cases e1 : s.bishop p'.cx p'.cy p'.radius none none with
    | error e => rw [e1, n2] at this; exact this.elim
    | ok y =>
      rw [e1, n2] at this
      exact (m4 p' n1 y e1).trans this

/-- The example with cohesion 8 instead of 5. -/
noncomputable def exFirm : Slope ℝ :=
  { exReady with materials := [mkLayer exSlope.extH 0 { exMat 2 with cohesion := 8 }] }

theorem exFirm_constructed : Material.Constructed ({ exMat 2 with cohesion := 8 } : Material ℝ) := by
  refine ⟨fun _ => false, .num 20, .num 0, .num 8, .num 2, .none, .none, ?_⟩
  rw [(C01_material _ _ _ _ _ _ _).1 20 0 8 2 "" ""
    ⟨rfl, by norm_num, by norm_num, rfl, by norm_num, rfl, rfl⟩ rfl rfl]
  simp [exMat]

theorem exFirm_reachable : Reachable exFirm := by
  have hd : ({ exMat 2 with cohesion := 8 } : Material ℝ).depth ≤ 9 := by
    simp [exMat]; norm_num
  have g := exOf_ground exFirm_constructed hd
  have e : (exOf { exMat 2 with cohesion := 8 }).addSingleCircularPlane 9 (35 / 3) (17 / 3) = (exFirm, .ok ()) := by
    unfold Slope.addSingleCircularPlane
    rw [g.intersections']
    simp only
    rw [setSize_nodup (by simp)]
    rfl
  have := Reachable.call g.reach (.addSingleCircularPlane _ 9 (35 / 3) (17 / 3))
  rwa [e] at this

/-- A case of C95: cohesion 5 and cohesion 8; the analysis succeeds with one circle. -/
example : Stronger exReady exFirm ∧ Reachable exReady ∧ Reachable exFirm ∧ Frictionless exReady ∧
    WaterBelowCrest exReady ∧ (exReady.analyseSlope none).2 = .ok () ∧
    (exReady.analyseSlope none).1.getMinFos = .ok (some exFos) := by
  refine ⟨⟨by constructor <;> rfl, ?_, rfl, rfl⟩, exReady_reachable, exFirm_reachable, ?_, ?_, ?_, exMinFos⟩
  · refine .cons ⟨rfl, ?_, rfl, rfl⟩ .nil
    change (5 : ℝ) ≤ 8
    norm_num
  · intro l hl
    obtain rfl : l = _ := List.mem_singleton.mp hl
    rfl
  · intro z hz; cases hz
  · rw [exAnalyse none]

end PySlope
