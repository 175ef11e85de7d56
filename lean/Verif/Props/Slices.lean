import Verif.Lemmas.Loads
import Verif.Lemmas.Weight
import Verif.Lemmas.Forces
import Verif.Props.Materials
import Verif.Props.Loads
import Verif.Spec.ExampleCircle

/-! # Properties C35 to C39: the slices of a circle

`s.sliceRows cx cy r xl xr` are the slices of the circle with centre `(cx, cy)` and radius `r`
between the abscissas `xl` and `xr` of its end points: `.ok rows` when the calculation goes on with
them. A slice `q` has the centre `q.x`, the bottom `q.yb` and the top `q.yt`. -/

namespace PySlope

/-! ## C35 -/

/-- C35: there are as many slices as the option says; slice `i` reaches from `xl + i w` to
`xl + (i + 1) w` with the same width `w = (xr - xl) / slices` for all, the last ends at `xr`, and
every abscissa from `xl` up to `xr` is over exactly one of them. The bottom of a slice is on the
lower half of the circle, the top on the ground (or at the bottom, where the ground is lower), and
the sine and cosine of its base are those of the tangent of the circle at its centre. -/
theorem C35_slices_tile (s : Slope ℝ) (r : Reachable s) {cx cy rad xl xr : ℝ} (h : xl < xr)
    {rows : List (Row ℝ)} (e : s.sliceRows cx cy rad xl xr = .ok rows) :
    let w := (xr - xl) / s.slices
    0 < w ∧ (rows.length : Int) = s.slices ∧ xl + rows.length * w = xr ∧
    (∀ (i : ℕ) (q : Row ℝ), rows[i]? = some q →
      q.x - w / 2 = xl + i * w ∧ q.x + w / 2 = xl + (i + 1) * w ∧
      OnCircle cx cy rad (q.x, q.yb) ∧ q.yb < cy ∧
      (∀ y, s.getExternalY q.x = some y → q.yt = max y q.yb) ∧
      q.sinA = (cx - q.x) / |rad| ∧ q.cosA = (cy - q.yb) / |rad|) ∧
    ∀ x, xl ≤ x → x < xr →
      ∃! i : ℕ, ∃ q : Row ℝ, rows[i]? = some q ∧ q.x - w / 2 ≤ x ∧ x < q.x + w / 2 := by
  intro w
  have hsl : 10 ≤ s.slices := r.wf.sl.1
  have hn : (0 : ℝ) < s.slices := by
    have : (0 : Int) < s.slices := by omega
    exact_mod_cast this
  have hw : 0 < w := div_pos (by linarith) hn
  obtain ⟨rfl, hin⟩ := sliceRows_ok (by omega) e
  have hlen : (s.rowsAt cx cy rad xl xr).length = s.slices.toNat := by simp [Slope.rowsAt]
  have hcast : ((s.slices.toNat : ℕ) : ℝ) = s.slices := by
    have : ((s.slices.toNat : ℕ) : Int) = s.slices := by omega
    exact_mod_cast this
  have hget : ∀ i q, (s.rowsAt cx cy rad xl xr)[i]? = some q ↔
      i < s.slices.toNat ∧ q = s.rowAt cx cy rad (centre xl xr s.slices i) := by
    intro i q
    unfold Slope.rowsAt
    rw [List.getElem?_map]
    by_cases hi : i < s.slices.toNat
    · rw [List.getElem?_range hi]
      simp [hi, eq_comm]
    · rw [List.getElem?_eq_none (by simpa using hi)]
      simp [hi]
  refine ⟨hw, by rw [hlen]; omega, ?_, ?_, ?_⟩
  · rw [hlen, hcast]
    change xl + s.slices * ((xr - xl) / s.slices) = xr
    field_simp; ring
  · intro i q hq
    obtain ⟨hi, rfl⟩ := (hget i q).mp hq
    obtain ⟨e1, e2⟩ := centre_edges xl xr s.slices i
    have hlt := hin i hi
    have hs : 0 < √(rad ^ 2 - (centre xl xr s.slices i - cx) ^ 2) :=
      Real.sqrt_pos.mpr (by linarith)
    refine ⟨e1, e2, ?_, ?_, ?_, rfl, ?_⟩
    · unfold OnCircle
      simp only [Slope.rowAt]
      have : cy - √(rad ^ 2 - (centre xl xr s.slices i - cx) ^ 2) - cy =
        -√(rad ^ 2 - (centre xl xr s.slices i - cx) ^ 2) := by ring
      rw [this, neg_sq, Real.sq_sqrt (by linarith)]; ring
    · simp only [Slope.rowAt]; linarith
    · intro y hy
      simp only [Slope.rowAt] at hy ⊢
      congr 1
      unfold Slope.getExternalY at hy
      unfold Slope.sliceTop
      by_cases c0 : centre xl xr s.slices i < (@OfNat.ofNat ℝ 0 (Lit.natLit 0)) ∨
        s.extL < centre xl xr s.slices i
      · rw [if_pos c0] at hy; cases hy
      · rw [if_neg c0] at hy
        split_ifs at hy ⊢ <;> exact Option.some.inj hy
    · simp only [Slope.rowAt]
      congr 1; ring
  · intro x h1 h2
    obtain ⟨i, ⟨hi, h3, h4⟩, huniq⟩ := slice_of (n := s.slices.toNat) hw h1 (by
      rw [hcast]
      have : s.slices * w = xr - xl := by
        change s.slices * ((xr - xl) / s.slices) = xr - xl
        field_simp
      linarith)
    refine ⟨i, ⟨_, (hget i _).mpr ⟨hi, rfl⟩, ?_, ?_⟩, ?_⟩
    · rw [show (s.rowAt cx cy rad (centre xl xr s.slices i)).x - w / 2 = _ from
        (centre_edges xl xr s.slices i).1]; exact h3
    · rw [show (s.rowAt cx cy rad (centre xl xr s.slices i)).x + w / 2 = _ from
        (centre_edges xl xr s.slices i).2]; exact h4
    · rintro j ⟨q, hq, h5, h6⟩
      obtain ⟨hj, rfl⟩ := (hget j q).mp hq
      apply huniq j
      refine ⟨hj, ?_, ?_⟩
      · rw [show (s.rowAt cx cy rad (centre xl xr s.slices j)).x - w / 2 = _ from
          (centre_edges xl xr s.slices j).1] at h5
        exact h5
      · rw [show (s.rowAt cx cy rad (centre xl xr s.slices j)).x + w / 2 = _ from
          (centre_edges xl xr s.slices j).2] at h6
        exact h6

/-- The slices of the example. -/
theorem exRows : exSoil.sliceRows 9 (35 / 3) (17 / 3) 4 9 =
    .ok (exSoil.rowsAt 9 (35 / 3) (17 / 3) 4 9) := by
  apply sliceRows_eq _ (by norm_num)
  intro i hi
  obtain ⟨h1, h2⟩ := exCentre (by simpa using hi)
  change (centre 4 9 25 i - 9) ^ 2 < (17 / 3 : ℝ) ^ 2
  nlinarith

/-- A case of C35: the example has 25 slices of width 0.2. -/
example : (exSoil.rowsAt 9 (35 / 3) (17 / 3) 4 9).length = 25 ∧ ((9 : ℝ) - 4) / exSoil.slices = 0.2 := by
  have := (C35_slices_tile exSoil exSoil_reachable (by norm_num) exRows).2.1
  rw [exSoil_slices] at this
  refine ⟨by exact_mod_cast this, by norm_num⟩

/-! ## C36 and C37 -/

/-- What a slice weighs: the soil, the part of every distributed load over the slice, and the line
loads over the slice. -/
theorem C36_slice_loads (s : Slope ℝ) (w : ℝ) (q : Row ℝ) :
    s.rowWeight w q = s.stripWeight w q.yt q.yb +
      (s.udls.map fun u => common (q.x - w / 2) (q.x + w / 2) u.left u.right * u.load.magnitude).sum +
      (s.lls.map fun l => if q.x - w / 2 ≤ l.coord ∧ l.coord < q.x + w / 2 then l.load.magnitude
        else 0).sum := rowWeight_eq s w q

/-- C36: for every distributed load the parts given to the slices add up to its magnitude times the
length it has in common with the span. -/
theorem C36_udl_conserved (s : Slope ℝ) (r : Reachable s) {cx cy rad xl xr : ℝ} (h : xl < xr)
    {rows : List (Row ℝ)} (e : s.sliceRows cx cy rad xl xr = .ok rows) :
    let w := (xr - xl) / s.slices
    ∀ u ∈ s.udls,
      (rows.map fun q => common (q.x - w / 2) (q.x + w / 2) u.left u.right * u.load.magnitude).sum =
        u.load.magnitude * common xl xr u.left u.right := by
  intro w u _
  have hsl : 10 ≤ s.slices := r.wf.sl.1
  have hn : (0 : ℝ) < s.slices := by
    have : (0 : Int) < s.slices := by omega
    exact_mod_cast this
  have hw : 0 < w := div_pos (by linarith) hn
  have hcast : ((s.slices.toNat : ℕ) : ℝ) = s.slices := by
    have : ((s.slices.toNat : ℕ) : Int) = s.slices := by omega
    exact_mod_cast this
  obtain ⟨rfl, _⟩ := sliceRows_ok (by omega) e
  rw [List.sum_map_mul_right, mul_comm]
  congr 1
  unfold Slope.rowsAt
  rw [List.map_map]
  have : ∀ i : ℕ, ((fun q : Row ℝ => common (q.x - w / 2) (q.x + w / 2) u.left u.right) ∘
      fun i => s.rowAt cx cy rad (centre xl xr s.slices i)) i =
      common (xl + i * w) (xl + (i + 1) * w) u.left u.right := by
    intro i
    obtain ⟨e1, e2⟩ := centre_edges xl xr s.slices i
    simp only [Function.comp]
    rw [show (s.rowAt cx cy rad (centre xl xr s.slices i)).x - w / 2 = _ from e1,
      show (s.rowAt cx cy rad (centre xl xr s.slices i)).x + w / 2 = _ from e2]
  rw [List.map_congr_left (fun i _ => this i), common_tile _ _ _ _ hw.le]
  congr 1
  rw [hcast]
  change xl + s.slices * ((xr - xl) / s.slices) = xr
  field_simp; ring

/-- The example with `Udl(20, offset=1, length=2)` and `LineLoad(20, offset=1)`. -/
noncomputable def exLoaded : Slope ℝ :=
  { exSoil with udls := [placeUdl exSoil.topX (exUdl 1)], lls := [placeLl exSoil.topX (exLl 1)],
                udlMax := .num 20 }

theorem exLoaded_eq : ((exSoil.setUdls [some (exUdl 1)]).1.setLls [some (exLl 1)]) =
    (exLoaded, .ok ()) := by
  have h1 : ¬ exSoil.minExtL < (exUdl 1).minLength := by
    rw [minLength_some (l := 2) rfl (by norm_num)]
    have : exSoil.minExtL = 10 := rfl
    rw [this]
    simp only [exUdl]; norm_num
  have h2 : exSoil.setUdls [some (exUdl 1)] =
      ({ exSoil with udls := [placeUdl exSoil.topX (exUdl 1)], udlMax := .num 20 }, .ok ()) := by
    unfold Slope.setUdls Slope.forEach
    rw [addUdl_eq exSoil_reachable.sane exSoil_reachable.wf.geo _ (by simp [exUdl]), if_neg h1]
    simp only [Out.andThen, Slope.forEach, Slope.updateUdlCoordinates]
    rfl
  have r := exSoil_reachable.call (.setUdls exSoil [some (exUdl 1)] (by
    intro u hu; simp at hu; subst hu; exact exUdl_constructed _))
  rw [h2] at r ⊢
  unfold Slope.setLls Slope.forEach
  rw [addLl_eq r.sane r.wf.geo _ (by simp [exLl]), if_neg (by
    change ¬ (10 : ℝ) < |1| * 3
    norm_num)]
  simp only [Out.andThen, Slope.forEach, Slope.updateLlCoordinates]
  rfl

theorem exLoaded_reachable : Reachable exLoaded := by
  have := (exSoil_reachable.call (.setUdls exSoil [some (exUdl 1)] (by
    intro u hu; simp at hu; subst hu; exact exUdl_constructed _))).call
    (.setLls _ [some (exLl 1)] (by
    intro u hu; simp at hu; subst hu; exact exLl_constructed _))
  rwa [exLoaded_eq] at this

theorem exLoaded_rows : exLoaded.sliceRows 9 (35 / 3) (17 / 3) 4 9 =
    .ok (exSoil.rowsAt 9 (35 / 3) (17 / 3) 4 9) := exRows

/-- A case of C36: a load of 20 from 3 to 5 over the span from 4 to 9 gives 20 × 1. -/
example : ∀ u ∈ exLoaded.udls, u.left = 3 ∧ u.right = 5 ∧
    u.load.magnitude * common 4 9 u.left u.right = 20 := by
  intro u hu
  simp only [exLoaded, List.mem_singleton, exSoil_topX] at hu
  subst hu
  have h1 : (placeUdl 6 (exUdl 1)).left = 3 := by simp [placeUdl, exUdl]; norm_num
  have h2 : (placeUdl 6 (exUdl 1)).right = 5 := by simp [placeUdl, exUdl]; norm_num
  have h3 : (placeUdl 6 (exUdl 1)).load.magnitude = 20 := rfl
  refine ⟨h1, h2, ?_⟩
  rw [h1, h2, h3]
  norm_num [common]

/-- C37: a line load over the span is over exactly one slice, whose weight it is added to
(`C36_slice_loads`); one left of the span, or at its right end or beyond, is over none. -/
theorem C37_line_load_once (s : Slope ℝ) (r : Reachable s) {cx cy rad xl xr : ℝ} (h : xl < xr)
    {rows : List (Row ℝ)} (e : s.sliceRows cx cy rad xl xr = .ok rows) :
    let w := (xr - xl) / s.slices
    ∀ l ∈ s.lls,
      (xl ≤ l.coord → l.coord < xr →
        ∃! i : ℕ, ∃ q : Row ℝ, rows[i]? = some q ∧ q.x - w / 2 ≤ l.coord ∧ l.coord < q.x + w / 2) ∧
      (l.coord < xl ∨ xr ≤ l.coord →
        ∀ q ∈ rows, ¬ (q.x - w / 2 ≤ l.coord ∧ l.coord < q.x + w / 2)) := by
  intro w l _
  obtain ⟨hw, _, hend, h1, h2⟩ := C35_slices_tile s r h e
  refine ⟨h2 l.coord, ?_⟩
  rintro hout q hq ⟨h3, h4⟩
  obtain ⟨i, hi⟩ := List.mem_iff_getElem?.mp hq
  obtain ⟨e1, e2, _⟩ := h1 i q hi
  have hi' : i < rows.length := by
    by_contra hcon
    rw [List.getElem?_eq_none (by omega)] at hi; cases hi
  have hi2 : (i : ℝ) + 1 ≤ rows.length := by exact_mod_cast hi'
  have hi0 : (0 : ℝ) ≤ i := Nat.cast_nonneg i
  change q.x - (xr - xl) / s.slices / 2 ≤ l.coord at h3
  change l.coord < q.x + (xr - xl) / s.slices / 2 at h4
  rw [e1] at h3; rw [e2] at h4
  rcases hout with ho | ho
  · nlinarith
  · nlinarith

theorem sum_swap {α β : Type} (as : List α) (bs : List β) (f : α → β → ℝ) :
    (as.map fun a => (bs.map fun b => f a b).sum).sum =
      (bs.map fun b => (as.map fun a => f a b).sum).sum := by
  induction as with
  | nil => simp
  | cons a as ih => simp only [List.map_cons, List.sum_cons, ih, List.sum_map_add]

theorem sum_one {α : Type} (rows : List α) (P : α → Prop) [DecidablePred P] (m : ℝ)
    (h : ∃! i : ℕ, ∃ q, rows[i]? = some q ∧ P q) :
    (rows.map fun q => if P q then m else 0).sum = m := by
  induction rows with
  | nil => obtain ⟨i, ⟨q, hq, _⟩, _⟩ := h; simp at hq
  | cons a rows ih =>
    obtain ⟨i, ⟨q, hq, hp⟩, hu⟩ := h
    rw [List.map_cons, List.sum_cons]
    by_cases ha : P a
    · have h0 : (0 : ℕ) = i := hu 0 ⟨a, rfl, ha⟩
      rw [if_pos ha, add_eq_left]
      apply List.sum_eq_zero
      intro x hx
      obtain ⟨b, hb, rfl⟩ := List.mem_map.mp hx
      rw [if_neg]
      intro hpb
      obtain ⟨j, hj⟩ := List.mem_iff_getElem?.mp hb
      have : j + 1 = i := hu (j + 1) ⟨b, by simpa using hj, hpb⟩
      omega
    · rw [if_neg ha, zero_add]
      cases i with
      | zero => simp at hq; subst hq; exact absurd hp ha
      | succ i =>
        refine ih ⟨i, ⟨q, by simpa using hq, hp⟩, ?_⟩
        rintro j ⟨b, hb, hpb⟩
        have : j + 1 = i + 1 := hu (j + 1) ⟨b, by simpa using hb, hpb⟩
        omega

/-- C36 and C37 together: all slices weigh what the soil over the circle weighs, plus for every
distributed load its magnitude times its length over the span, plus every line load over the
span once. -/
theorem C36_C37_total_weight (s : Slope ℝ) (r : Reachable s) {cx cy rad xl xr : ℝ} (h : xl < xr)
    {rows : List (Row ℝ)} (e : s.sliceRows cx cy rad xl xr = .ok rows) :
    let w := (xr - xl) / s.slices
    (rows.map fun q => s.rowWeight w q).sum =
      (rows.map fun q => s.stripWeight w q.yt q.yb).sum +
      (s.udls.map fun u => u.load.magnitude * common xl xr u.left u.right).sum +
      (s.lls.map fun l => if xl ≤ l.coord ∧ l.coord < xr then l.load.magnitude else 0).sum := by
  intro w
  have hu := C36_udl_conserved s r h e
  have hl := C37_line_load_once s r h e
  simp only [rowWeight_eq, List.sum_map_add]
  rw [sum_swap rows s.udls, sum_swap rows s.lls]
  congr 1
  · congr 1
    congr 1
    apply List.map_congr_left
    exact hu
  · congr 1
    apply List.map_congr_left
    intro l hlm
    obtain ⟨h1, h2⟩ := hl l hlm
    by_cases hc : xl ≤ l.coord ∧ l.coord < xr
    · rw [if_pos hc]
      exact sum_one _ _ _ (h1 hc.1 hc.2)
    · rw [if_neg hc]
      apply List.sum_eq_zero
      intro x hx
      obtain ⟨q, hq, rfl⟩ := List.mem_map.mp hx
      rw [if_neg]
      apply h2 _ q hq
      by_cases hc' : l.coord < xl
      · exact .inl hc'
      · right
        by_contra hc2
        exact hc ⟨not_lt.mp hc', not_le.mp hc2⟩

/-- A case of C37: the line load of the example is at 5, over the span. -/
example : ∀ l ∈ exLoaded.lls, l.coord = 5 ∧ (4 : ℝ) ≤ l.coord ∧ l.coord < 9 := by
  intro l hl
  simp only [exLoaded, List.mem_singleton, exSoil_topX] at hl
  subst hl
  have h : (placeLl 6 (exLl 1)).coord = 5 := by simp [placeLl, exLl]; norm_num
  rw [h]; norm_num

/-! ## C38 -/

/-- The bottoms of the layers come from top to bottom. -/
theorem Reachable.ordered {s : Slope ℝ} (r : Reachable s) :
    s.materials.Pairwise (fun a b => b.rl < a.rl) := by
  induction r with
  | init e =>
    rw [new_eq] at e
    split at e
    · cases e
    · cases e; exact List.Pairwise.nil
  | @call s t r c ih =>
    rcases call_materials r.wf c with h | h
    · exact ih.sublist h
    · have w := (r.call c).wf.mats
      refine w.imp_of_mem ?_
      intro a b ha hb hab
      rw [(h a ha).1, (h b hb).1]; linarith

/-- What the constructor guarantees of a material. -/
theorem Material.Constructed.facts {m : Material ℝ} (h : Material.Constructed m) :
    1 ≤ m.unitWeight ∧ m.unitWeight ≤ 50 ∧ 0 ≤ m.frictionAngle ∧ 0 ≤ m.cohesion ∧ 0 ≤ m.depth ∧
      m.tanPhi = Real.tan (m.frictionAngle * (Real.pi / 180)) := by
  obtain ⟨ic, uw, phi, c, d, n, col, e⟩ := h
  obtain ⟨c1, c2, c3⟩ := C01_material ic uw phi c d n col
  by_cases ha : ∃ u f c' d', MaterialArgs uw phi c d u f c' d'
  · obtain ⟨u, f, c', d', ha⟩ := ha
    cases hn : n.given with
    | none => rw [c3 ⟨u, f, c', d', ha⟩ (.inl hn)] at e; cases e
    | some n' =>
      cases hc : col.given with
      | none => rw [c3 ⟨u, f, c', d', ha⟩ (.inr hc)] at e; cases e
      | some col' =>
        rw [c1 u f c' d' n' col' ha hn hc] at e
        cases e
        obtain ⟨_, h1, h2, _, h3, _, _⟩ := ha
        exact ⟨h1, h2, h3, abs_nonneg _, abs_nonneg _, rfl⟩
  · rw [c2 ha] at e; cases e

theorem unitWeightAt_nonneg {s : Slope ℝ} (r : Reachable s) (y : ℝ) :
    0 ≤ unitWeightAt s.materials y := by
  unfold unitWeightAt
  cases h : layerAt s.materials y with
  | none => exact le_refl _
  | some l =>
    have hm : l ∈ s.materials := by
      unfold layerAt at h
      rcases Option.or_eq_some_iff.mp h with h1 | ⟨_, h1⟩
      · exact List.mem_of_find?_eq_some h1
      · exact List.mem_of_getLast? h1
    have := (r.sane.mat l.mat (List.mem_map_of_mem hm)).facts.1
    simp only; linarith

/-- Splitting a layer does not change the unit weight anywhere. -/
theorem unitWeightAt_split (pre : List (Layer ℝ)) (l l' : Layer ℝ) (post : List (Layer ℝ))
    (hu : l'.mat.unitWeight = l.mat.unitWeight) (hl : l.rl < l'.rl) (y : ℝ) :
    unitWeightAt (pre ++ l' :: l :: post) y = unitWeightAt (pre ++ l :: post) y := by
  induction pre with
  | nil =>
    simp only [List.nil_append]
    by_cases h : l'.rl < y
    · rw [unitWeightAt_above h, unitWeightAt_above (hl.trans h), hu]
    · rw [unitWeightAt_below (by simp) (not_lt.mp h)]
  | cons a pre ih =>
    simp only [List.cons_append]
    by_cases h : a.rl < y
    · rw [unitWeightAt_above h, unitWeightAt_above h]
    · rw [unitWeightAt_below (by simp) (not_lt.mp h), unitWeightAt_below (by simp) (not_lt.mp h), ih]

theorem stripColumn_zero (ls : List (Layer ℝ)) {yt yb : ℝ} (top : ℝ) (h : min yt top ≤ yb)
    (hs : ls.Pairwise (fun a b => b.rl < a.rl)) (hy : yt ≤ yb) :
    stripColumn yt yb top ls = 0 := by
  induction ls generalizing top with
  | nil => exact lit_zero
  | cons l ls ih =>
    cases ls with
    | nil =>
      simp only [stripColumn, clip0_real, pyMin_real]
      rw [max_eq_right (by linarith), mul_zero]
    | cons l' ls =>
      simp only [stripColumn, clip0_real, pyMin_real, pyMax_real]
      have := le_max_left yb l.rl
      rw [max_eq_right (by linarith), mul_zero, zero_add]
      exact ih l.rl ((min_le_left _ _).trans hy) (List.pairwise_cons.mp hs).2

theorem sliceTop_le {s : Slope ℝ} (g : Geo s) (x : ℝ) : s.sliceTop x ≤ s.extH := by
  have h1 := g.hgt
  have h2 : 0 < s.length := by have := g.len; norm_num at this ⊢; linarith
  unfold Slope.sliceTop
  split_ifs with c1 c2
  · rw [g.topY]
  · rw [g.botY]; linarith
  · push Not at c1
    have : 0 ≤ (x - s.topX) * s.gradient := by
      rw [g.grad]; exact mul_nonneg (by linarith) (by positivity)
    rw [g.topY]; linarith

/-- C38: the weight of the soil in a slice is its width times the unit weight of the ground
(`unitWeightAt`) added up from its bottom to its top. -/
theorem C38_weight_of_the_soil (s : Slope ℝ) (r : Reachable s) {cx cy rad xl xr : ℝ}
    {rows : List (Row ℝ)} (e : s.sliceRows cx cy rad xl xr = .ok rows) :
    ∀ q ∈ rows, ∀ w, q.yb ≤ q.yt ∧
      s.stripWeight w q.yt q.yb = w * ∫ y in q.yb..q.yt, unitWeightAt s.materials y := by
  intro q hq w
  have hsl : 10 ≤ s.slices := r.wf.sl.1
  obtain ⟨rfl, _⟩ := sliceRows_ok (by omega) e
  obtain ⟨i, _, rfl⟩ := List.mem_map.mp hq
  generalize hx : centre xl xr s.slices i = x
  have hy : (s.rowAt cx cy rad x).yb ≤ (s.rowAt cx cy rad x).yt := le_max_right _ _
  refine ⟨hy, ?_⟩
  have ht := sliceTop_le r.wf.geo x
  unfold Slope.stripWeight
  rw [mul_comm]
  congr 1
  by_cases hc : (s.rowAt cx cy rad x).yb ≤ s.extH
  · have h2 : (s.rowAt cx cy rad x).yt ≤ s.extH := max_le ht hc
    rw [stripColumn_integral _ r.ordered hy _ (.inr h2), min_eq_left h2, max_eq_right hy]
  · push Not at hc
    have h2 : (s.rowAt cx cy rad x).yt = (s.rowAt cx cy rad x).yb :=
      max_eq_right (ht.trans hc.le)
    rw [h2, intervalIntegral.integral_same]
    exact stripColumn_zero _ _ (min_le_left _ _) r.ordered (le_refl _)

/-- The weight of a column is not negative, is the sum of the weights of its parts when it is cut at
a level `m`, and does not change when a layer `l` is split at a level: `l'` has the same unit weight
and its bottom is above that of `l` and below those above. -/
theorem C38_weight_laws (s : Slope ℝ) (r : Reachable s) {w yt m yb : ℝ} (hw : 0 ≤ w) (h1 : yb ≤ m)
    (h2 : m ≤ yt) (h3 : yt ≤ s.extH) :
    0 ≤ s.stripWeight w yt yb ∧
    s.stripWeight w yt yb = s.stripWeight w yt m + s.stripWeight w m yb ∧
    ∀ pre l l' post, s.materials = pre ++ l :: post → l'.mat.unitWeight = l.mat.unitWeight →
      l.rl < l'.rl → (∀ a ∈ pre, l'.rl < a.rl) →
      ({ s with materials := pre ++ l' :: l :: post } : Slope ℝ).stripWeight w yt yb =
        s.stripWeight w yt yb := by
  have hs := r.ordered
  have key : ∀ {a b : ℝ}, a ≤ b → b ≤ s.extH → s.stripWeight w b a =
      (∫ y in a..b, unitWeightAt s.materials y) * w := by
    intro a b ha hb
    unfold Slope.stripWeight
    rw [stripColumn_integral _ hs ha _ (.inr hb), min_eq_left hb, max_eq_right ha]
  refine ⟨?_, ?_, ?_⟩
  · rw [key (h1.trans h2) h3]
    refine mul_nonneg (intervalIntegral.integral_nonneg (h1.trans h2) ?_) hw
    intro y _
    exact unitWeightAt_nonneg r y
  · rw [key (h1.trans h2) h3, key h2 h3, key h1 (h2.trans h3), ← add_mul, add_comm]
    rw [intervalIntegral.integral_add_adjacent_intervals] <;> exact unitWeightAt_integrable _ _ _
  · intro pre l l' post hm hu hl hp
    rw [key (h1.trans h2) h3]
    unfold Slope.stripWeight
    simp only
    have hs' : (pre ++ l' :: l :: post).Pairwise (fun a b => b.rl < a.rl) := by
      rw [hm, List.pairwise_append] at hs
      obtain ⟨a, b, c⟩ := hs
      rw [List.pairwise_append]
      refine ⟨a, ?_, ?_⟩
      · rw [List.pairwise_cons]
        refine ⟨?_, b⟩
        intro q hq
        rcases List.mem_cons.mp hq with rfl | hq
        · exact hl
        · exact ((List.pairwise_cons.mp b).1 q hq).trans hl
      · intro q hq q' hq'
        rcases List.mem_cons.mp hq' with rfl | hq'
        · exact hp q hq
        · exact c q hq q' hq'
    rw [stripColumn_integral _ hs' (h1.trans h2) _ (.inr h3), min_eq_left h3,
      max_eq_right (h1.trans h2)]
    congr 1
    apply intervalIntegral.integral_congr
    intro y _
    rw [hm]
    exact unitWeightAt_split pre l l' post hu hl y

/-! ## C39 -/

theorem strengthLoop_skip {yb : ℝ} {pre post : List (Layer ℝ)} (h : ∀ q ∈ pre, yb ≤ q.rl)
    {c t : ℝ} : strengthLoop yb (pre ++ post) (c, t, false) = strengthLoop yb post (c, t, false) := by
  induction pre with
  | nil => rfl
  | cons q pre ih =>
    rw [List.cons_append, strengthLoop]
    have := h q (by simp)
    simp only [not_lt.mpr this, decide_false, Bool.and_false, Bool.false_eq_true, if_false]
    exact ih (fun q hq => h q (List.mem_cons_of_mem _ hq))

theorem strengthLoop_done {yb : ℝ} {ls : List (Layer ℝ)} {c t : ℝ} :
    strengthLoop yb ls (c, t, true) = (c, t, true) := by
  induction ls with
  | nil => rfl
  | cons q ls ih => rw [strengthLoop]; simpa using ih

theorem layer_exists (ls : List (Layer ℝ)) (hne : ls ≠ []) (y : ℝ) :
    ∃ pre l post, ls = pre ++ l :: post ∧ (∀ q ∈ pre, y ≤ q.rl) ∧ (l.rl < y ∨ post = []) := by
  induction ls with
  | nil => exact absurd rfl hne
  | cons a ls ih =>
    by_cases h : a.rl < y
    · exact ⟨[], a, ls, rfl, by simp, .inl h⟩
    · by_cases hl : ls = []
      · subst hl; exact ⟨[], a, [], rfl, by simp, .inr rfl⟩
      · obtain ⟨pre, l, post, rfl, h2, h3⟩ := ih hl
        refine ⟨a :: pre, l, post, rfl, ?_, h3⟩
        intro q hq
        rcases List.mem_cons.mp hq with rfl | hq
        · exact not_lt.mp h
        · exact h2 q hq

/-- C39: every slice takes cohesion and friction of one layer of the ground: the uppermost one whose
bottom is below the base of the slice, and when there is none, the last one. The friction used is
the tangent of the friction angle of that layer. -/
theorem C39_strength_at_the_base (s : Slope ℝ) (r : Reachable s) (yb : ℝ) :
    (s.materials = [] → s.rowStrength yb = none) ∧
    (s.materials ≠ [] → ∃ pre l post, s.materials = pre ++ l :: post ∧
      (∀ q ∈ pre, yb ≤ q.rl) ∧ (l.rl < yb ∨ post = []) ∧
      s.rowStrength yb = some (l.mat.cohesion, Real.tan (l.mat.frictionAngle * (Real.pi / 180))) ∧
      layerAt s.materials yb = some l ∧ s.getMaterialAtDepth yb = .ok l) := by
  refine ⟨rowStrength_none.mpr, ?_⟩
  intro hne
  obtain ⟨pre, l, post, h1, h2, h3⟩ := layer_exists s.materials hne yb
  have ht : l.mat.tanPhi = Real.tan (l.mat.frictionAngle * (Real.pi / 180)) := by
    have hm : l ∈ s.materials := by rw [h1]; simp
    exact (r.sane.mat l.mat (List.mem_map_of_mem hm)).facts.2.2.2.2.2
  have hfind : pre.find? (fun l => decide (l.rl < yb)) = none := by
    rw [List.find?_eq_none]
    intro q hq
    simpa using h2 q hq
  refine ⟨pre, l, post, h1, h2, h3, ?_, ?_, ?_⟩
  · rw [← ht]
    unfold Slope.rowStrength
    rw [h1, List.getLast?_append, List.getLast?_cons]
    simp only [Option.some_or]
    rw [strengthLoop_skip h2]
    unfold strengthLoop
    by_cases h : l.rl < yb
    · simp only [Bool.not_false, h, decide_true, Bool.and_self, if_true]
      rw [strengthLoop_done]
    · have hp : post = [] := h3.resolve_left h
      subst hp
      simp [h, strengthLoop]
  · unfold layerAt
    rw [h1, List.find?_append, hfind, List.find?_cons, List.getLast?_append, List.getLast?_cons]
    by_cases h : l.rl < yb
    · simp [h]
    · have hp : post = [] := h3.resolve_left h
      subst hp
      simp [h]
  · unfold Slope.getMaterialAtDepth
    rw [h1, List.find?_append, hfind, List.find?_cons, List.getLast?_append, List.getLast?_cons]
    by_cases h : l.rl < yb
    · simp [h]
    · have hp : post = [] := h3.resolve_left h
      subst hp
      simp [h]

/-- The example with a second material down to 5. -/
noncomputable def exTwo : Slope ℝ :=
  { exSoil with materials := [mkLayer exSoil.extH 0 (exMat 2), mkLayer exSoil.extH 1 (exMat 5)] }

theorem exTwo_eq : exSoil.setMaterials ([exMat 5].map some) = (exTwo, .ok ()) := by
  have e : exSoil.allMats [exMat 5] = [exMat 2, exMat 5] := by
    change sortByKey Material.depth [exMat 5, exMat 2] = _
    have e' : sortByKey Material.depth [exMat 2, exMat 5] = [exMat 2, exMat 5] := by
      unfold sortByKey pySort
      apply List.mergeSort_of_pairwise
      simp [exMat]
      norm_num
    obtain ⟨h1, h2⟩ := sort_perm (List.Perm.swap (exMat 2) (exMat 5) [])
    rw [h2 (by rw [h1, e']; simp [exMat]), e']
  rw [setMaterials_eq exSoil_reachable.wf.geo [exMat 5] 5 (by rw [e]; simp [exMat]), e,
    if_pos (by simp [exMat])]
  have : exSoil.deepen 5 = exSoil := by
    unfold Slope.deepen
    rw [if_neg]
    simp; norm_num
  rw [this]
  rfl

/-- A case of C39 with a choice: layers with bottoms at 7 and 4, and bases above and below 7. -/
theorem exTwo_reachable : Reachable exTwo := by
  have := Reachable.call exSoil_reachable (.setMaterials exSoil [some (exMat 5)] (by
    intro m hm; simp at hm; subst hm; exact exMat_constructed _))
  rwa [show [some (exMat 5)] = [exMat 5].map some from rfl, exTwo_eq] at this

example : exTwo.materials.map Layer.rl = [7, 4] ∧ exTwo.materials ≠ [] := by
  simp [exTwo, mkLayer, exMat]
  norm_num

end PySlope
