import Verif.Lemmas.LimitEnds
import Verif.Lemmas.Ieee
import Verif.Props.Ieee
import Verif.Props.Sensitivity
import Verif.Spec.ExampleDynamic

/-! # C110: rounding errors

Floating point arithmetic rounds every result. The model of the code is read at an arbitrary arithmetic whose errors are
at most `ε`, on a configuration whose numbers are off by at most `ε` (`Spec/Rounding.lean`). -/

namespace PySlope
open Filter Topology Finset

theorem better_of {K : ℕ → Type} [∀ n, PyNum (K n)] {val : ∀ n, K n → ℝ}
    (h : ∀ n : ℕ, Accurate (1 / ((n : ℝ) + 1)) (val n)) : Better val (fun n => 1 / ((n : ℝ) + 1)) :=
  ⟨h, tendsto_one_div_add_atTop_nhds_zero_nat⟩

theorem lim_absurd {K : ℕ → Type} [∀ n, PyNum (K n)] {val : ∀ n, K n → ℝ} {R : ∀ n, K n} {F δ : ℝ} (hδ : 0 < δ)
    (h : Lim val R F) {f : ∀ n, Calc (K n)} (e : ∀ᶠ n in atTop, f n = .ok (R n))
    (c : ∀ n, ∀ F', f n = .ok F' → δ < |val n F' - F|) : False := by
  have := (h.sub_const F).abs
  rw [sub_self, abs_zero] at this
  obtain ⟨n, h1, h2⟩ := (e.and (this.eventually (gt_mem_nhds hδ))).exists
  exact absurd (c n _ h1) (not_lt.mpr h2.le)

/-- **C110** (the ordinary method). The factor of safety of a circle between two given end points is a continuous
function of the rounding: away from coincidences, however small `δ`, there is an `ε` such that every arithmetic with errors
at most `ε` gives a number, on every configuration, circle and end points within `ε`, and this number is within `δ` of the
exact one. -/
theorem C110_ordinary (s : Slope ℝ) (rs : Reachable s) (cx cy r : ℝ) (l q : ℝ × ℝ) (F : ℝ)
    (e : s.ordinary cx cy r (some l) (some q) = .ok F) (nt : NoTies s cx cy r l.1 q.1) (δ : ℝ) (hδ : 0 < δ) :
    ∃ ε > 0, ∀ (K : Type) [PyNum K] (val : K → ℝ), Accurate ε val → ∀ t : Slope K, Close ε val s t →
      ∀ (cx' cy' r' : K) (l' q' : K × K), |val cx' - cx| ≤ ε → |val cy' - cy| ≤ ε → |val r' - r| ≤ ε →
        |val l'.1 - l.1| ≤ ε → |val q'.1 - q.1| ≤ ε →
        ∃ F', t.ordinary cx' cy' r' (some l') (some q') = .ok F' ∧ |val F' - F| ≤ δ := by
  by_contra hc
  push Not at hc
  choose K I val acc t C cx' cy' r' l' q' h1 h2 h3 h4 h5 h6 using
    fun n : ℕ => hc (1 / ((n : ℝ) + 1)) Nat.one_div_pos_of_nat
  have B := better_of acc
  obtain ⟨Φ, R, _, k1, k2, _⟩ := B.ordinary rs C e nt (B.of_close h1) (B.of_close h2) (B.of_close h3) (B.of_close h4)
    (B.of_close h5)
  exact lim_absurd hδ k1 k2 h6

/-- **C110** (Bishop's method). The same for the value the code reports for a circle, with no coincidence in the
iteration either. -/
theorem C110_given_ends (s : Slope ℝ) (rs : Reachable s) (cx cy r : ℝ) (l q : ℝ × ℝ) (F : ℝ)
    (e : s.bishop cx cy r (some l) (some q) = .ok F) (nt : NoTiesBishop s cx cy r l.1 q.1) (δ : ℝ) (hδ : 0 < δ) :
    ∃ ε > 0, ∀ (K : Type) [PyNum K] (val : K → ℝ), Accurate ε val → ∀ t : Slope K, Close ε val s t →
      ∀ (cx' cy' r' : K) (l' q' : K × K), |val cx' - cx| ≤ ε → |val cy' - cy| ≤ ε → |val r' - r| ≤ ε →
        |val l'.1 - l.1| ≤ ε → |val q'.1 - q.1| ≤ ε →
        ∃ F', t.bishop cx' cy' r' (some l') (some q') = .ok F' ∧ |val F' - F| ≤ δ := by
  by_contra hc
  push Not at hc
  choose K I val acc t C cx' cy' r' l' q' h1 h2 h3 h4 h5 h6 using
    fun n : ℕ => hc (1 / ((n : ℝ) + 1)) Nat.one_div_pos_of_nat
  have B := better_of acc
  obtain ⟨R, k1, k2⟩ := B.bishop rs C e nt (B.of_close h1) (B.of_close h2) (B.of_close h3) (B.of_close h4)
    (B.of_close h5)
  exact lim_absurd hδ k1 k2 h6

/-- **C110** (a circle). The same with the end points computed too, as for the circles of the search: from the same
circle, the arithmetic finds the same crossings up to rounding, and the same factor of safety. -/
theorem C110_circle (s : Slope ℝ) (rs : Reachable s) (cx cy r F : ℝ) (e : s.bishop cx cy r none none = .ok F)
    (ne : NoTiesEnds s cx cy r)
    (nt : ∀ l q, FirstCrossings s cx cy r l q → NoTiesBishop s cx cy r l.1 q.1) (δ : ℝ) (hδ : 0 < δ) :
    ∃ ε > 0, ∀ (K : Type) [PyNum K] (val : K → ℝ), Accurate ε val → ∀ t : Slope K, Close ε val s t →
      ∀ cx' cy' r' : K, |val cx' - cx| ≤ ε → |val cy' - cy| ≤ ε → |val r' - r| ≤ ε →
        ∃ F', t.bishop cx' cy' r' none none = .ok F' ∧ |val F' - F| ≤ δ := by
  by_contra hc
  push Not at hc
  choose K I val acc t C cx' cy' r' h1 h2 h3 h6 using
    fun n : ℕ => hc (1 / ((n : ℝ) + 1)) Nat.one_div_pos_of_nat
  have B := better_of acc
  obtain ⟨l, q, F0, k1, k2, _⟩ := bishop_spec rs e
  have fc := (bishopEnds_first rs.wf.geo k1).2
  obtain ⟨L, Q, j1, j2, j3⟩ := B.bishopEnds rs.wf.geo C ne (B.of_close h1) (B.of_close h2) (B.of_close h3) k1
  rw [bishop_ends k1] at e
  obtain ⟨R, m1, m2⟩ := B.bishop rs C e (nt l q fc) (B.of_close h1) (B.of_close h2) (B.of_close h3) j1 j2
  refine lim_absurd hδ m1 (f := fun n => (t n).bishop (cx' n) (cy' n) (r' n) none none) ?_ h6
  filter_upwards [j3, m2] with n w1 w2
  rw [bishop_ends w1, w2]

theorem Accurate.mono {K : Type} [PyNum K] {val : K → ℝ} {ε ε' : ℝ} (h : Accurate ε val) (l : ε ≤ ε') : Accurate ε' val := by
  have key : ∀ {x y : ℝ}, 0 ≤ y → x ≤ ε * y → x ≤ ε' * y := fun hy hx => hx.trans (mul_le_mul_of_nonneg_right l hy)
  exact ⟨h.lt, h.le, h.neg, fun a b => key (abs_nonneg _) (h.add a b), fun a b => key (abs_nonneg _) (h.sub a b),
    fun a b => key (abs_nonneg _) (h.mul a b), fun a b hb => key (abs_nonneg _) (h.div a b hb),
    fun n => key (Nat.cast_nonneg n) (h.nat n), fun m e d => key (abs_nonneg _) (h.lit m e d),
    fun a ha => key (Real.sqrt_nonneg _) (h.sqrt a ha), fun a => (h.sin a).trans l, fun a => (h.cos a).trans l,
    fun a => (h.atan a).trans l⟩

theorem Close.mono {K : Type} {val : K → ℝ} {ε ε' : ℝ} {s : Slope ℝ} {t : Slope K} (h : Close ε val s t) (l : ε ≤ ε') :
    Close ε' val s t := by
  refine ⟨h.topX.trans l, h.topY.trans l, h.botX.trans l, h.botY.trans l, h.extL.trans l, h.extH.trans l, h.gradient.trans l,
    h.waterH.trans l, h.tolerance.trans l, h.slices, h.maxIterations, ?_, ?_, ?_, ?_⟩
  · exact h.materials.imp fun a b ⟨h1, h2, h3, h4⟩ => ⟨h1.trans l, h2.trans l, h3.trans l, h4.trans l⟩
  · exact h.udls.imp fun a b ⟨h1, h2, h3⟩ => ⟨h1.trans l, h2.trans l, h3.trans l⟩
  · exact h.lls.imp fun a b ⟨h1, h2⟩ => ⟨h1.trans l, h2.trans l⟩
  · have := h.water
    generalize s.waterRL = x at this
    generalize t.waterRL = y at this
    cases this with
    | none => exact .none
    | some h => exact .some (h.trans l)

theorem forall2_right {α β : Type} {R : α → β → Prop} {l : List α} {m : List β} (h : List.Forall₂ R l m) :
    ∀ b ∈ m, ∃ a ∈ l, R a b := by
  induction h with
  | nil => simp
  | cons h _ ih =>
    intro b hb
    rcases List.mem_cons.mp hb with rfl | hb
    · exact ⟨_, List.mem_cons_self, h⟩
    · obtain ⟨a, h1, h2⟩ := ih b hb
      exact ⟨a, List.mem_cons_of_mem _ h1, h2⟩

theorem forall2_left {α β : Type} {R : α → β → Prop} {l : List α} {m : List β} (h : List.Forall₂ R l m) :
    ∀ a ∈ l, ∃ b ∈ m, R a b := by
  induction h with
  | nil => simp
  | cons h _ ih =>
    intro b hb
    rcases List.mem_cons.mp hb with rfl | hb
    · exact ⟨_, List.mem_cons_self, h⟩
    · obtain ⟨a, h1, h2⟩ := ih b hb
      exact ⟨a, List.mem_cons_of_mem _ h1, h2⟩

/-- What is reported for circles that all have a value: one of the values, and none is less. -/
theorem report_least {K : Type} [PyNum K] {val : K → ℝ} (hlt : ∀ a b : K, a < b ↔ val a < val b) {t : Slope K}
    (hne : t.individual ≠ []) (f : Plane K → K) (hf : ∀ p ∈ t.individual, t.bishop p.cx p.cy p.radius none none = .ok (f p)) :
    (t.analyseSlope none).2 = .ok () ∧ ∃ p ∈ t.individual, (t.analyseSlope none).1.getMinFos = .ok (some (f p)) ∧
      ∀ q ∈ t.individual, val (f p) ≤ val (f q) := by
  have e : t.fillFos t.individual = (t.individual.map fun p => { p with fos := some (some (f p)) }, none) := by
    generalize t.individual = ps at hf
    induction ps with
    | nil => rfl
    | cons p ps ih =>
      unfold Slope.fillFos
      rw [hf p List.mem_cons_self, ih fun q hq => hf q (List.mem_cons_of_mem _ hq)]
      rfl
  have e2 : t.analyseSlope none = ({ t with
      search := tidySearch none (t.individual.map fun p => { p with fos := some (some (f p)) })
      individual := t.individual.map fun p => { p with fos := some (some (f p)) } }, .ok ()) := by
    unfold Slope.analyseSlope
    split
    · simp only [e]
    · rename_i h
      exact absurd h hne
  refine ⟨by rw [e2], ?_⟩
  have e3 : tidySearch none (t.individual.map fun p => { p with fos := some (some (f p)) }) =
      (t.individual.mergeSort fun a b => !decide (f b < f a)).map fun p => { p with fos := some (some (f p)) } := by
    unfold tidySearch
    simp only
    rw [List.filter_eq_self.mpr]
    · unfold pySort
      refine (List.map_mergeSort ?_).symm
      intro a _ b _
      rfl
    · intro p hp
      obtain ⟨q, -, rfl⟩ := List.mem_map.mp hp
      rfl
  have perm := List.mergeSort_perm t.individual fun a b => !decide (f b < f a)
  have sorted := List.pairwise_mergeSort (le := fun a b : Plane K => !decide (f b < f a))
    (by intro a b c
        simp only [Bool.not_eq_true', decide_eq_false_iff_not, hlt, not_lt]
        intro h1 h2; exact h1.trans h2)
    (by intro a b
        simp only [Bool.or_eq_true, Bool.not_eq_true', decide_eq_false_iff_not, hlt, not_lt]
        exact le_total _ _) t.individual
  rw [e2]
  unfold Slope.getMinFos
  simp only [e3]
  cases hl : t.individual.mergeSort fun a b => !decide (f b < f a) with
  | nil =>
    rw [hl] at perm
    exact absurd perm.symm.eq_nil hne
  | cons p rest =>
    rw [hl] at perm sorted
    refine ⟨p, perm.mem_iff.mp List.mem_cons_self, rfl, ?_⟩
    intro q hq
    rcases List.mem_cons.mp (perm.mem_iff.mpr hq) with rfl | h
    · exact le_rfl
    · have := (List.pairwise_cons.mp sorted).1 q h
      simpa only [Bool.not_eq_true', decide_eq_false_iff_not, hlt, not_lt] using this

/-- What is reported for circles each of which has close values is close. -/
theorem report_close (s : Slope ℝ) (hne : s.individual ≠ []) (f : Plane ℝ → ℝ)
    (hf : ∀ p ∈ s.individual, s.bishop p.cx p.cy p.radius none none = .ok (f p)) (δ : ℝ)
    (circle : ∀ p ∈ s.individual, ∃ ε > 0, ∀ (K : Type) [PyNum K] (val : K → ℝ), Accurate ε val → ∀ t : Slope K, Close ε val s t →
        ∀ cx' cy' r' : K, |val cx' - p.cx| ≤ ε → |val cy' - p.cy| ≤ ε → |val r' - p.radius| ≤ ε →
        ∃ F', t.bishop cx' cy' r' none none = .ok F' ∧ |val F' - f p| ≤ δ) :
    ∃ F, (s.analyseSlope none).1.getMinFos = .ok (some F) ∧
    ∃ ε > 0, ∀ (K : Type) [PyNum K] (val : K → ℝ), Accurate ε val → ∀ t : Slope K, Close ε val s t →
      List.Forall₂ (fun p p' => |val p'.cx - p.cx| ≤ ε ∧ |val p'.cy - p.cy| ≤ ε ∧ |val p'.radius - p.radius| ≤ ε)
        s.individual t.individual →
      (t.analyseSlope none).2 = .ok () ∧ ∃ F', (t.analyseSlope none).1.getMinFos = .ok (some F') ∧ |val F' - F| ≤ δ := by
  classical
  obtain ⟨-, p0, m0, r0, l0⟩ := report_least (val := id) (fun _ _ => Iff.rfl) hne f hf
  refine ⟨f p0, r0, ?_⟩
  have step : ∀ ps : List (Plane ℝ), (∀ p ∈ ps, p ∈ s.individual) →
      ∃ ε > 0, ∀ p ∈ ps, ∀ (K : Type) [PyNum K] (val : K → ℝ), Accurate ε val → ∀ t : Slope K, Close ε val s t →
        ∀ cx' cy' r' : K, |val cx' - p.cx| ≤ ε → |val cy' - p.cy| ≤ ε → |val r' - p.radius| ≤ ε →
        ∃ F', t.bishop cx' cy' r' none none = .ok F' ∧ |val F' - f p| ≤ δ := by
    intro ps
    induction ps with
    | nil => intro _; exact ⟨1, one_pos, by simp⟩
    | cons p ps ih =>
      intro h
      obtain ⟨ε1, h1, k1⟩ := ih fun q hq => h q (List.mem_cons_of_mem _ hq)
      have hp := h p List.mem_cons_self
      obtain ⟨ε2, h2, k2⟩ := circle p hp
      refine ⟨min ε1 ε2, lt_min h1 h2, ?_⟩
      intro q hq K _ val acc t c cx' cy' r' a1 a2 a3
      have m1 : min ε1 ε2 ≤ ε1 := min_le_left _ _
      have m2 : min ε1 ε2 ≤ ε2 := min_le_right _ _
      rcases List.mem_cons.mp hq with rfl | hq
      · exact k2 K val (acc.mono m2) t (c.mono m2) cx' cy' r' (a1.trans m2) (a2.trans m2) (a3.trans m2)
      · exact k1 q hq K val (acc.mono m1) t (c.mono m1) cx' cy' r' (a1.trans m1) (a2.trans m1) (a3.trans m1)
  obtain ⟨ε, hε, h⟩ := step s.individual fun _ hp => hp
  refine ⟨ε, hε, ?_⟩
  intro K _ val acc t c hpl
  have hv' : ∀ p' ∈ t.individual, ∃ F', t.bishop p'.cx p'.cy p'.radius none none = .ok F' ∧
      ∃ p ∈ s.individual, |val F' - f p| ≤ δ := by
    intro p' hp'
    obtain ⟨p, hp, a1, a2, a3⟩ := forall2_right hpl p' hp'
    obtain ⟨F', h1, h2⟩ := h p hp K val acc t c _ _ _ a1 a2 a3
    exact ⟨F', h1, p, hp, h2⟩
  have hv2 : ∀ p ∈ s.individual, ∃ p' ∈ t.individual, ∃ F', t.bishop p'.cx p'.cy p'.radius none none = .ok F' ∧
      |val F' - f p| ≤ δ := by
    intro p hp
    obtain ⟨p', hp', a1, a2, a3⟩ := forall2_left hpl p hp
    obtain ⟨F', h1, h2⟩ := h p hp K val acc t c _ _ _ a1 a2 a3
    exact ⟨p', hp', F', h1, h2⟩
  have : Nonempty K := ⟨t.extL⟩
  choose! f' hf' near using hv'
  have hne' : t.individual ≠ [] := by
    intro e
    rw [e, List.forall₂_nil_right_iff] at hpl
    exact hne hpl
  obtain ⟨q1, p1, m1, r1, l1⟩ := report_least acc.lt hne' f' hf'
  refine ⟨q1, f' p1, r1, ?_⟩
  obtain ⟨p, hp, near1⟩ := near p1 m1
  obtain ⟨p', hp', F', hF', near2⟩ := hv2 p0 m0
  rw [hf' p' hp'] at hF'
  injection hF' with hF'
  subst hF'
  have b1 := l1 p' hp'
  have b2 : f p0 ≤ f p := l0 p hp
  rw [abs_le] at near1 near2 ⊢
  constructor <;> linarith

/-- **C110** (what is reported). The factor of safety that `analyse_slope` and `get_min_FOS` report for circles added one
by one is as close to the exact one as one likes, if no circle has a coincidence and the errors are small enough. Which
circle is reported as the critical one may differ when two are nearly equal; the value does not. -/
theorem C110_report (s : Slope ℝ) (rs : Reachable s) (hne : s.individual ≠ [])
    (hv : ∀ p ∈ s.individual, ∃ F, s.bishop p.cx p.cy p.radius none none = .ok F)
    (ne : ∀ p ∈ s.individual, NoTiesEnds s p.cx p.cy p.radius)
    (nt : ∀ p ∈ s.individual, ∀ l q, FirstCrossings s p.cx p.cy p.radius l q →
      NoTiesBishop s p.cx p.cy p.radius l.1 q.1) (δ : ℝ) (hδ : 0 < δ) :
    ∃ F, (s.analyseSlope none).1.getMinFos = .ok (some F) ∧
    ∃ ε > 0, ∀ (K : Type) [PyNum K] (val : K → ℝ), Accurate ε val → ∀ t : Slope K, Close ε val s t →
      List.Forall₂ (fun p p' => |val p'.cx - p.cx| ≤ ε ∧ |val p'.cy - p.cy| ≤ ε ∧ |val p'.radius - p.radius| ≤ ε)
        s.individual t.individual →
      (t.analyseSlope none).2 = .ok () ∧ ∃ F', (t.analyseSlope none).1.getMinFos = .ok (some F') ∧ |val F' - F| ≤ δ := by
  classical
  choose! f hf using hv
  exact report_close s hne f hf δ fun p hp => C110_circle s rs p.cx p.cy p.radius (f p) (hf p hp) (ne p hp) (nt p hp) δ hδ

/-- A circle that has a value, added to a slope without circles: its value is reported. -/
theorem add_report {K : Type} [PyNum K] {t : Slope K} (hi : t.individual = []) {cx cy r F : K}
    (h : t.bishop cx cy r none none = .ok F) :
    (t.addSingleCircularPlane cx cy r).2 = .ok () ∧
    ((t.addSingleCircularPlane cx cy r).1.analyseSlope none).2 = .ok () ∧
    ((t.addSingleCircularPlane cx cy r).1.analyseSlope none).1.getMinFos = .ok (some F) := by
  have he : ∃ l q rest, t.circleExternalIntersection cx cy r = .ok (l :: q :: rest) ∧ ¬ setSize (l :: q :: rest) < 2 := by
    have h' := h
    unfold Slope.bishop Slope.bishopEnds at h'
    cases hc : t.circleExternalIntersection cx cy r with
    | error x => rw [hc] at h'; cases h'
    | ok is =>
      rw [hc] at h'
      simp only at h'
      split at h'
      · cases h'
      · rename_i hs
        rcases is with _ | ⟨a, _ | ⟨b, is⟩⟩
        · cases h'
        · cases h'
        · exact ⟨a, b, is, rfl, hs⟩
  obtain ⟨l, q, rest, hc, hs⟩ := he
  have e : t.addSingleCircularPlane cx cy r = ({ t with
      individual := [{ lc := l, rc := q, cx := cx, cy := cy, radius := r, fos := none }], search := [] }, .ok ()) := by
    unfold Slope.addSingleCircularPlane
    rw [hc]
    simp only [if_neg hs]
    rw [hi]
    rfl
  have hb : ({ t with individual := [{ lc := l, rc := q, cx := cx, cy := cy, radius := r, fos := none }], search := [] } :
      Slope K).bishop cx cy r none none = .ok F := h
  rw [e]
  refine ⟨rfl, ?_⟩
  unfold Slope.analyseSlope
  simp only [Slope.fillFos, hb, toFos]
  refine ⟨trivial, ?_⟩
  have : tidySearch none [({ lc := l, rc := q, cx := cx, cy := cy, radius := r, fos := some (some F) } : Plane K)] =
      [{ lc := l, rc := q, cx := cx, cy := cy, radius := r, fos := some (some F) }] := by
    unfold tidySearch pySort
    simp [Plane.fosVal]
  unfold Slope.getMinFos
  rw [this]

/-- **C110** (the report on one circle). `add_single_circular_plane`, `analyse_slope` and `get_min_FOS` with rounding
errors give what they give without, up to `δ`. -/
theorem C110_one_circle (s : Slope ℝ) (rs : Reachable s) (hi : s.individual = []) (cx cy r F : ℝ)
    (e : s.bishop cx cy r none none = .ok F) (ne : NoTiesEnds s cx cy r)
    (nt : ∀ l q, FirstCrossings s cx cy r l q → NoTiesBishop s cx cy r l.1 q.1) (δ : ℝ) (hδ : 0 < δ) :
    ((s.addSingleCircularPlane cx cy r).1.analyseSlope none).1.getMinFos = .ok (some F) ∧
    ∃ ε > 0, ∀ (K : Type) [PyNum K] (val : K → ℝ), Accurate ε val → ∀ t : Slope K, Close ε val s t → t.individual = [] →
      ∀ cx' cy' r' : K, |val cx' - cx| ≤ ε → |val cy' - cy| ≤ ε → |val r' - r| ≤ ε →
        (t.addSingleCircularPlane cx' cy' r').2 = .ok () ∧
        ((t.addSingleCircularPlane cx' cy' r').1.analyseSlope none).2 = .ok () ∧
        ∃ F', ((t.addSingleCircularPlane cx' cy' r').1.analyseSlope none).1.getMinFos = .ok (some F') ∧ |val F' - F| ≤ δ := by
  refine ⟨(add_report hi e).2.2, ?_⟩
  obtain ⟨ε, hε, h⟩ := C110_circle s rs cx cy r F e ne nt δ hδ
  refine ⟨ε, hε, ?_⟩
  intro K _ val acc t c ht cx' cy' r' a1 a2 a3
  obtain ⟨F', h1, h2⟩ := h K val acc t c cx' cy' r' a1 a2 a3
  obtain ⟨k1, k2, k3⟩ := add_report ht h1
  exact ⟨k1, k2, F', k3, h2⟩

/-- **C110** (double precision). The arithmetic of IEEE 754 (without overflow and underflow) is one of those: `+ - * /`
and the square root have errors of at most `2^-53`, and so the arithmetic has those of its library. -/
theorem C110_double (A : Machine) (ε : ℝ) (h : 1 / 2 ^ 53 ≤ ε)
    (hs : ∀ x : F64 A, |(PyNum.sin x).val - Real.sin x.val| ≤ ε) (hc : ∀ x : F64 A, |(PyNum.cos x).val - Real.cos x.val| ≤ ε)
    (ha : ∀ x : F64 A, |(PyNum.atan x).val - Real.arctan x.val| ≤ ε) : Accurate ε (F64.val (A := A)) := by
  have key : ∀ x : ℝ, |A.rnd x - x| ≤ ε * |x| := by
    intro x
    have := A.rounds.error x
    rw [abs_sub_comm]
    refine this.trans ?_
    rw [div_eq_mul_one_div, mul_comm]
    exact mul_le_mul_of_nonneg_right h (abs_nonneg x)
  refine ⟨fun _ _ => Iff.rfl, fun _ _ => Iff.rfl, fun _ => rfl, fun _ _ => key _, fun _ _ => key _, fun _ _ => key _,
    fun _ _ _ => key _, fun n => ?_, fun _ _ _ => key _, fun a _ => ?_, hs, hc, ha⟩
  · have := key n
    rwa [Nat.abs_cast] at this
  · have := key √a.val
    rwa [abs_of_nonneg (Real.sqrt_nonneg _)] at this

/-- A case of C110_double: the machine whose library rounds correctly. -/
example : Accurate (1 / 2 ^ 51) (F64.val (A := exMachine)) := by
  have key : ∀ x : ℝ, |x| ≤ 4 → |round53 x - x| ≤ 1 / 2 ^ 51 := by
    intro x hx
    have := round53_roundsToEven.error x
    rw [abs_sub_comm]
    refine this.trans ?_
    rw [div_le_div_iff₀ (by positivity) (by positivity)]
    have : (2 : ℝ) ^ 53 = 4 * 2 ^ 51 := by norm_num
    nlinarith [show (0 : ℝ) < 2 ^ 51 by positivity]
  refine C110_double exMachine _ (by gcongr <;> norm_num) (fun x => key _ ?_) (fun x => key _ ?_) (fun x => key _ ?_)
  · exact (Real.abs_sin_le_one _).trans (by norm_num)
  · exact (Real.abs_cos_le_one _).trans (by norm_num)
  · have h1 := Real.arctan_lt_pi_div_two x.val
    have h2 := Real.neg_pi_div_two_lt_arctan x.val
    have := Real.pi_le_four
    change |Real.arctan x.val| ≤ 4
    rw [abs_le]; constructor <;> linarith

/-- An arithmetic that is always off: every result is multiplied by `1 + ε`. -/
structure Off (ε : ℝ) where
  val : ℝ

noncomputable instance (ε : ℝ) : PyNum (Off ε) where
  add a b := ⟨(a.val + b.val) * (1 + ε)⟩
  sub a b := ⟨(a.val - b.val) * (1 + ε)⟩
  mul a b := ⟨a.val * b.val * (1 + ε)⟩
  div a b := ⟨a.val / b.val * (1 + ε)⟩
  neg a := ⟨-a.val⟩
  lt a b := a.val < b.val
  le a b := a.val ≤ b.val
  natCast n := ⟨n * (1 + ε)⟩
  ofScientific m s e := ⟨(OfScientific.ofScientific m s e : ℝ) * (1 + ε)⟩
  decLt := fun a b => inferInstanceAs (Decidable ((a.val : ℝ) < b.val))
  decLe := fun a b => inferInstanceAs (Decidable ((a.val : ℝ) ≤ b.val))
  sqrt a := ⟨√a.val * (1 + ε)⟩
  sin a := ⟨Real.sin a.val + ε⟩
  cos a := ⟨Real.cos a.val + ε⟩
  tan a := ⟨Real.tan a.val⟩
  atan a := ⟨Real.arctan a.val + ε⟩
  pi := ⟨Real.pi⟩
  floor a := ⌊a.val⌋

/-- There are such arithmetics for every bound on the errors. -/
theorem off_accurate {ε : ℝ} (h : 0 < ε) : Accurate ε (Off.val (ε := ε)) := by
  have key : ∀ x : ℝ, |x * (1 + ε) - x| ≤ ε * |x| := by
    intro x
    rw [show x * (1 + ε) - x = ε * x by ring, abs_mul, abs_of_pos h]
  have key2 : ∀ x : ℝ, |x + ε - x| ≤ ε := by
    intro x
    rw [add_sub_cancel_left, abs_of_pos h]
  refine ⟨fun _ _ => Iff.rfl, fun _ _ => Iff.rfl, fun _ => rfl, fun _ _ => key _, fun _ _ => key _, fun _ _ => key _,
    fun _ _ _ => key _, fun n => ?_, fun _ _ _ => key _, fun a _ => ?_, fun _ => key2 _, fun _ => key2 _, fun _ => key2 _⟩
  · have := key n
    rwa [Nat.abs_cast] at this
  · have := key √a.val
    rwa [abs_of_nonneg (Real.sqrt_nonneg _)] at this

theorem cut_noTies : NoTies (cutOf (exFric 0 100)) 32 36 10 22 24 := by
  refine ⟨by norm_num, by norm_num, ?_, ?_, ?_⟩
  · intro i hi l hl
    obtain rfl : l = _ := List.mem_singleton.mp hl
    change cutSlope.extH - 2 ≠ _
    have hsl : ((cutOf (exFric 0 100)).slices : ℝ) = 25 := by
      change ((25 : ℤ) : ℝ) = 25; norm_num
    rw [cutSlope_extH, hsl]
    intro h
    have hs : √((10 : ℝ) ^ 2 - (22 + ((i : ℝ) + 1 / 2) * ((24 - 22) / 25) - 32) ^ 2) = 2 := by linarith
    rw [Real.sqrt_eq_iff_mul_self_eq_of_pos (by norm_num)] at hs
    have h2 : ((249 - 2 * (i : ℝ))) ^ 2 = 60000 := by nlinarith
    have h3 : (249 - 2 * (i : ℤ)) ^ 2 = 60000 := by exact_mod_cast h2
    have h4 := congrArg (· % 2) h3
    simp only [pow_two] at h4
    have : ((249 - 2 * (i : ℤ)) * (249 - 2 * (i : ℤ))) % 2 = 1 := by
      rw [Int.mul_emod]; have : (249 - 2 * (i : ℤ)) % 2 = 1 := by omega
      rw [this]; rfl
    omega
  · intro i _ l hl
    cases hl
  · intro z hz
    cases hz

theorem clay_iterate (k : ℕ) : (bishopRhs 25 (sliceOf (cutOf (exFric 0 100)) 32 36 10 22 24))^[k]
    (fellenius 25 (sliceOf (cutOf (exFric 0 100)) 32 36 10 22 24)) = clayFos := by
  rw [clay_fellenius]
  exact Function.iterate_fixed clay_rhs k

theorem cut_noTiesBishop : NoTiesBishop (cutOf (exFric 0 100)) 32 36 10 22 24 := by
  refine ⟨cut_noTies, ?_, ?_, ?_⟩
  · intro k _
    change (bishopRhs 25 _)^[k] (fellenius 25 _) ≠ 0
    rw [clay_iterate]
    exact clayFos_pos.ne'
  · intro k _ i hi
    have hi' : i < 25 := hi
    rw [cut_slice hi']
    simp only [Slice.tan, abs_zero, zero_mul, Real.tan_zero, mul_zero, zero_div, add_zero]
    exact (cutCos_pos hi').ne'
  · intro k _
    change |(bishopRhs 25 _)^[k + 1] (fellenius 25 _) - (bishopRhs 25 _)^[k] (fellenius 25 _)| ≠ (0.005 : ℝ)
    rw [clay_iterate, clay_iterate]
    norm_num

theorem cut_noTiesEnds (m) : NoTiesEnds (cutOf m) 32 36 10 := by
  have hh : (cutOf m).height = 12 := rfl
  have hl : (cutOf m).length = 2 / 25 := rfl
  refine ⟨?_, ?_, ?_, ?_, ?_, ?_, ?_, ?_, fun p q h1 h2 => ?_⟩
  on_goal 9 =>
    rcases (cut_crossing _ _).mp h1 with rfl | rfl <;> rcases (cut_crossing _ _).mp h2 with rfl | rfl <;> norm_num
  all_goals
    simp only [OnCircle, hh, hl, cut_topX, cut_topY, cut_botX, cut_botY, cut_extL]
    norm_num

/-- The same attributes in another arithmetic. -/
noncomputable def Slope.through {K : Type} (f : ℝ → K) (s : Slope ℝ) : Slope K where
  minExtH := f s.minExtH
  minExtL := f s.minExtL
  extBoundary := none
  height := f s.height
  length := f s.length
  gradient := f s.gradient
  topX := f s.topX
  topY := f s.topY
  botX := f s.botX
  botY := f s.botY
  extL := f s.extL
  extH := f s.extH
  lim1 := f s.lim1
  lim2 := f s.lim2
  lim3 := f s.lim3
  lim4 := f s.lim4
  materials := s.materials.map fun l =>
    { mat := { unitWeight := f l.mat.unitWeight, frictionAngle := f l.mat.frictionAngle, cohesion := f l.mat.cohesion,
               depth := f l.mat.depth, tanPhi := f l.mat.tanPhi, name := l.mat.name, userColor := l.mat.userColor }
      rl := f l.rl, color := l.color }
  udls := s.udls.map fun u =>
    { load := { magnitude := f u.load.magnitude, offset := f u.load.offset, length := u.load.length.map f,
                color := u.load.color, dynamic := u.load.dynamic }
      left := f u.left, right := f u.right }
  lls := s.lls.map fun u =>
    { load := { magnitude := f u.load.magnitude, offset := f u.load.offset, color := u.load.color,
                dynamic := u.load.dynamic }
      coord := f u.coord }
  udlMax := .unset
  waterRL := s.waterRL.map f
  waterDepth := s.waterDepth.map f
  waterH := f s.waterH
  slices := s.slices
  iterations := s.iterations
  minFailureDist := f s.minFailureDist
  tolerance := f s.tolerance
  maxIterations := s.maxIterations
  search := []
  individual := []
  dynResults := []

/-- There are configurations within `ε` in every arithmetic that has numbers within `ε`. -/
theorem close_through {K : Type} {ε : ℝ} {val : K → ℝ} {f : ℝ → K} (h : ∀ x, |val (f x) - x| ≤ ε) (s : Slope ℝ) :
    Close ε val s (s.through f) := by
  refine ⟨h _, h _, h _, h _, h _, h _, h _, h _, h _, rfl, rfl, ?_, ?_, ?_, ?_⟩
  · exact List.forall₂_map_right_iff.mpr (List.forall₂_same.mpr fun l _ => ⟨h _, h _, h _, h _⟩)
  · exact List.forall₂_map_right_iff.mpr (List.forall₂_same.mpr fun l _ => ⟨h _, h _, h _⟩)
  · exact List.forall₂_map_right_iff.mpr (List.forall₂_same.mpr fun l _ => ⟨h _, h _⟩)
  · unfold Slope.through
    cases s.waterRL with
    | none => exact .none
    | some z => exact .some (h z)

/-- A case of C110: a circle in the clay cut, whose exact factor of safety is `clayFos`, has no coincidences. An arithmetic
whose results are all wrong by the factor `1 + ε` gives a factor of safety as near to it as one likes. -/
example (δ : ℝ) (hδ : 0 < δ) : ∃ ε > 0, ∃ F', ((cutOf (exFric 0 100)).through (fun x => (⟨x + ε⟩ : Off ε))).bishop ⟨32⟩ ⟨36⟩ ⟨10⟩
    none none = .ok F' ∧ |F'.val - clayFos| ≤ δ := by
  have rs := cutOf_reachable (φ := 0) (c := 100) le_rfl
  obtain ⟨F, hF, -⟩ := cut_bishop (φ := 0) (c := 100) le_rfl (by norm_num) (by norm_num)
  obtain ⟨ε, hε, h⟩ := C110_circle _ rs 32 36 10 F hF (cut_noTiesEnds _) (fun l q hl => by
    obtain ⟨rfl, rfl⟩ := cut_first _ hl
    exact cut_noTiesBishop) δ hδ
  have e : F = clayFos := by
    obtain ⟨l, q, h1, h2⟩ := C41_converged_or_out_of_turns _ rs hF
    obtain ⟨rfl, rfl⟩ := cut_first _ h1
    exact cut_clay h2
  subst e
  refine ⟨ε, hε, ?_⟩
  refine h (Off ε) Off.val (off_accurate hε) _ (close_through (fun x => ?_) _) ⟨32⟩ ⟨36⟩ ⟨10⟩ ?_ ?_ ?_
  · change |x + ε - x| ≤ ε
    rw [add_sub_cancel_left, abs_of_pos hε]
  all_goals (simp; exact hε.le)

/-- The hypotheses of C110 for the whole report: the clay cut with the circle twice. -/
example : ∃ s : Slope ℝ, Reachable s ∧ s.individual.length = 2 ∧
    (∀ p ∈ s.individual, ∃ F, s.bishop p.cx p.cy p.radius none none = .ok F) ∧
    (∀ p ∈ s.individual, NoTiesEnds s p.cx p.cy p.radius) ∧
    ∀ p ∈ s.individual, ∀ l q, FirstCrossings s p.cx p.cy p.radius l q → NoTiesBishop s p.cx p.cy p.radius l.1 q.1 := by
  have rs := cutOf_reachable (φ := 0) (c := 100) le_rfl
  obtain ⟨F, hF, -⟩ := cut_bishop (φ := 0) (c := 100) le_rfl (by norm_num) (by norm_num)
  have hc : ∀ s : Slope ℝ, s.circleExternalIntersection = (cutOf (exFric 0 100)).circleExternalIntersection →
      s.addSingleCircularPlane 32 36 10 = ({ s with
        individual := s.individual ++ [⟨(22, 36), (24, 30), 32, 36, 10, none⟩], search := [] }, .ok ()) := by
    intro s hs
    unfold Slope.addSingleCircularPlane
    rw [hs, intersections_two rs.wf.geo (cut_crossing _) (by norm_num)]
    simp only
    rw [setSize_nodup (by simp)]
    rfl
  have e1 := hc _ rfl
  have e2 := hc ((cutOf (exFric 0 100)).addSingleCircularPlane 32 36 10).1 (by rw [e1]; rfl)
  have r1 := Reachable.call rs (.addSingleCircularPlane _ 32 36 10)
  have r2 := Reachable.call r1 (.addSingleCircularPlane _ 32 36 10)
  rw [e1] at e2 r2
  rw [e2] at r2
  refine ⟨_, r2, rfl, ?_⟩
  refine ⟨?_, ?_, ?_⟩ <;>
  · intro p hp
    have hp : p ∈ [(⟨(22, 36), (24, 30), 32, 36, 10, none⟩ : Plane ℝ), ⟨(22, 36), (24, 30), 32, 36, 10, none⟩] := hp
    have hp : p = ⟨(22, 36), (24, 30), 32, 36, 10, none⟩ := by simpa using hp
    subst hp
    first
    | exact ⟨F, hF⟩
    | (have h := cut_noTiesEnds (exFric 0 100)
       exact ⟨h.face, h.crest, h.toe, h.line, h.left_corner, h.crest_corner, h.toe_corner, h.right_corner, h.gap⟩)
    | (intro l q hl
       obtain ⟨rfl, rfl⟩ := cut_first (exFric 0 100) hl
       have h := cut_noTiesBishop
       exact ⟨⟨h.centre_x, h.centre_y, h.base, h.load, h.water⟩, h.value, h.denominator, h.stop⟩)

/-- The clay cut with a line load `o` from the crest. -/
noncomputable def cutL (o : ℝ) : Slope ℝ :=
  { cutOf (exFric 0 100) with lls := [placeLl (cutOf (exFric 0 100)).topX (dynLl o)] }

theorem cutL_reachable {o : ℝ} (ho : |o| ≤ 10 / 3) : Reachable (cutL o) := by
  have := Reachable.call (cutOf_reachable (φ := 0) (c := 100) le_rfl) (.setLls _ [some (dynLl o)] (by
    intro u hu; simp at hu; subst hu; exact dynLl_constructed o))
  rw [setLl_small (s := cutOf (exFric 0 100)) (dynLl o) (by norm_num [dynLl])
    (by change |o| * 3 ≤ 10; linarith) (by intro p hp; cases hp)] at this
  exact this

theorem cutL_coord {o : ℝ} (h0 : 0 ≤ o) (h1 : o ≤ 10 / 3) :
    (placeLl (cutOf (exFric 0 100)).topX (dynLl o)).coord = 599 / 25 - o := by
  unfold placeLl dynLl
  simp only
  rw [cut_topX, abs_of_nonneg h0, pyMax_real, lit_zero, max_eq_right (by linarith)]

theorem cutL_slice {o : ℝ} (h0 : 0 ≤ o) (h1 : o ≤ 10 / 3) {i : ℕ} (hi : i < 25) :
    sliceOf (cutL o) 32 36 10 22 24 i =
      { b := 2 / 25, u := 0, c := 100, φ := 0, sin := cutSin i, cos := cutCos i
        W := 16 * cutCos i + if 22 + i * (2 / 25) ≤ 599 / 25 - o ∧ 599 / 25 - o < 22 + (i + 1) * (2 / 25) then 100 else 0 } := by
  have e := cut_slice (φ := 0) (c := 100) hi
  have hb : ((24 : ℝ) - 22) / ((cutL o).slices : ℝ) = 2 / 25 := by
    change ((24 : ℝ) - 22) / ((25 : ℤ) : ℝ) = _
    norm_num
  have key : sliceOf (cutL o) 32 36 10 22 24 i = { sliceOf (cutOf (exFric 0 100)) 32 36 10 22 24 i with
      W := (sliceOf (cutOf (exFric 0 100)) 32 36 10 22 24 i).W +
        if 22 + i * (2 / 25) ≤ 599 / 25 - o ∧ 599 / 25 - o < 22 + (i + 1) * (2 / 25) then 100 else 0 } := by
    unfold sliceOf
    simp only
    unfold weightOn
    rw [hb]
    rw [show ((24 : ℝ) - 22) / ((cutOf (exFric 0 100)).slices : ℝ) = 2 / 25 from hb]
    rw [show (cutL o).lls = [placeLl (cutOf (exFric 0 100)).topX (dynLl o)] from rfl,
      show (cutOf (exFric 0 100)).lls = [] from rfl]
    simp only [List.map_cons, List.map_nil, List.sum_cons, List.sum_nil, add_zero, cutL_coord h0 h1]
    rfl
  rw [key, e]
  norm_num

/-- The factor of safety of the clay cut with the load. -/
theorem cutL_bishop {o : ℝ} (h0 : 0 ≤ o) (h1 : o ≤ 10 / 3) : (cutL o).bishop 32 36 10 none none =
    .ok ((∑ i ∈ range 25, 8 / cutCos i) / ((∑ i ∈ range 25, 16 * cutCos i * cutSin i) + ∑ i ∈ range 25,
      (if 22 + (i : ℝ) * (2 / 25) ≤ 599 / 25 - o ∧ 599 / 25 - o < 22 + (i + 1) * (2 / 25) then 100 else 0) * cutSin i)) := by
  have rs := cutL_reachable (o := o) (by rwa [abs_of_nonneg h0])
  have hc : ∀ p, Crossing (cutL o) 32 36 10 p ↔ p = (22, 36) ∨ p = (24, 30) := cut_crossing (exFric 0 100)
  obtain ⟨l, rt, _, _, he⟩ := bishopEnds_of rs.wf.geo (cx := 32) (cy := 36) (r := 10) ((hc _).mpr (.inl rfl))
    ((hc _).mpr (.inr rfl)) (by norm_num)
  obtain ⟨rfl, rfl⟩ := cut_first (exFric 0 100) (bishopEnds_first rs.wf.geo he).2
  obtain ⟨F, hF, h2, h3⟩ := bishop_of_cut rs
    (by intro l hl
        obtain rfl : l = _ := List.mem_singleton.mp hl
        change |(0 : ℝ)| ≤ 90; norm_num)
    (.inl rfl) (by intro z hz; cases hz) (by change [_] ≠ []; simp)
    (.inl (by intro l hl
              obtain rfl : l = _ := List.mem_singleton.mp hl
              change (0 : ℝ) < |100|; norm_num))
    (by norm_num) he (cut_cuts (exFric 0 100))
  rw [h2]
  congr 1
  obtain ⟨hd, k, f, _, k0, ks, rfl, _, _⟩ := h3
  change 0 < driving 25 _ at hd
  change f 0 = fellenius 25 _ at k0
  change ∀ i < k, f (i + 1) = bishopRhs 25 _ (f i) at ks
  have dr : driving 25 (sliceOf (cutL o) 32 36 10 22 24) = (∑ i ∈ range 25, 16 * cutCos i * cutSin i) + ∑ i ∈ range 25,
      (if 22 + (i : ℝ) * (2 / 25) ≤ 599 / 25 - o ∧ 599 / 25 - o < 22 + (i + 1) * (2 / 25) then 100 else 0) * cutSin i := by
    unfold driving
    rw [← sum_add_distrib]
    apply sum_congr rfl
    intro i hi
    rw [cutL_slice h0 h1 (mem_range.mp hi)]
    ring
  rw [← dr]
  have np : 0 < ∑ i ∈ range 25, 8 / cutCos i := by
    apply sum_pos
    · intro i hi
      have := cutCos_pos (mem_range.mp hi)
      positivity
    · exact ⟨0, by simp⟩
  have e0 : fellenius 25 (sliceOf (cutL o) 32 36 10 22 24) =
      (∑ i ∈ range 25, 8 / cutCos i) / driving 25 (sliceOf (cutL o) 32 36 10 22 24) := by
    unfold fellenius
    congr 1
    apply sum_congr rfl
    intro i hi
    rw [cutL_slice h0 h1 (mem_range.mp hi)]
    simp only [Slice.tan, zero_mul, Real.tan_zero, mul_zero, add_zero]
    ring
  have e1 : ∀ x, x ≠ 0 → bishopRhs 25 (sliceOf (cutL o) 32 36 10 22 24) x =
      (∑ i ∈ range 25, 8 / cutCos i) / driving 25 (sliceOf (cutL o) 32 36 10 22 24) := by
    intro x hx
    unfold bishopRhs
    rw [if_neg hx]
    congr 1
    apply sum_congr rfl
    intro i hi
    rw [cutL_slice h0 h1 (mem_range.mp hi)]
    simp only [Slice.tan, zero_mul, Real.tan_zero, mul_zero, add_zero, zero_div]
    ring
  have : ∀ i ≤ k, f i = (∑ i ∈ range 25, 8 / cutCos i) / driving 25 (sliceOf (cutL o) 32 36 10 22 24) := by
    intro i
    induction i with
    | zero => intro _; rw [k0, e0]
    | succ i ih =>
      intro hi
      rw [ks i (by omega), ih (by omega), e1 _ (div_pos np hd).ne']
  exact this k le_rfl

/-- **C110** (coincidences do matter). A line load exactly over the left end of a circle: the exact factor of safety has
the load on the first slice, and with the load any distance further from the crest, however small, the load is off the
mass and the factor of safety is larger by a fixed amount. -/
theorem C110_tie : ∃ (s : Slope ℝ) (cx cy r F : ℝ), Reachable s ∧ s.bishop cx cy r none none = .ok F ∧
    ∃ δ > 0, ∀ ε > 0, ∃ t : Slope ℝ, Reachable t ∧ Close ε id s t ∧
      ∃ F', t.bishop cx cy r none none = .ok F' ∧ F + δ ≤ F' := by
  have np : 0 < ∑ i ∈ range 25, 8 / cutCos i := by
    apply sum_pos
    · intro i hi
      have := cutCos_pos (mem_range.mp hi)
      positivity
    · exact ⟨0, by simp⟩
  have dp := cut_driving_pos
  have s0 : (∑ i ∈ range 25, (if 22 + (i : ℝ) * (2 / 25) ≤ 599 / 25 - 49 / 25 ∧
      599 / 25 - 49 / 25 < 22 + ((i : ℝ) + 1) * (2 / 25) then (100 : ℝ) else 0) * cutSin i) = 100 * cutSin 0 := by
    rw [sum_eq_single 0]
    · rw [if_pos]
      norm_num
    · intro i _ hi
      rw [if_neg, zero_mul]
      rintro ⟨h, -⟩
      have : (1 : ℝ) ≤ i := by exact_mod_cast Nat.one_le_iff_ne_zero.mpr hi
      linarith
    · simp
  have s1 : ∀ o : ℝ, 49 / 25 < o → (∑ i ∈ range 25, (if 22 + (i : ℝ) * (2 / 25) ≤ 599 / 25 - o ∧
      599 / 25 - o < 22 + ((i : ℝ) + 1) * (2 / 25) then (100 : ℝ) else 0) * cutSin i) = 0 := by
    intro o ho
    apply sum_eq_zero
    intro i _
    rw [if_neg, zero_mul]
    rintro ⟨h, -⟩
    have : (0 : ℝ) ≤ i := Nat.cast_nonneg i
    linarith
  have b0 := cutL_bishop (o := 49 / 25) (by norm_num) (by norm_num)
  rw [s0] at b0
  refine ⟨cutL (49 / 25), 32, 36, 10, _, cutL_reachable (by rw [abs_of_pos] <;> norm_num), b0,
    (∑ i ∈ range 25, 8 / cutCos i) / (∑ i ∈ range 25, 16 * cutCos i * cutSin i) -
      (∑ i ∈ range 25, 8 / cutCos i) / ((∑ i ∈ range 25, 16 * cutCos i * cutSin i) + 100 * cutSin 0), ?_, ?_⟩
  · have := cutSin_pos (i := 0) (by norm_num)
    rw [gt_iff_lt, sub_pos]
    apply div_lt_div_of_pos_left np dp
    linarith
  · intro ε hε
    have hm : 0 < min ε 1 := lt_min hε one_pos
    have hm1 : min ε 1 ≤ 1 := min_le_right _ _
    have hme : min ε 1 ≤ ε := min_le_left _ _
    have b1 := cutL_bishop (o := 49 / 25 + min ε 1) (by linarith) (by linarith)
    rw [s1 _ (by linarith), add_zero] at b1
    have z' : ∀ x : ℝ, |id x - x| ≤ ε := fun x => by
      change |x - x| ≤ ε
      rw [sub_self, abs_zero]; exact hε.le
    refine ⟨cutL (49 / 25 + min ε 1), cutL_reachable (by rw [abs_of_pos] <;> linarith), ?_, _, b1, by linarith⟩
    refine ⟨z' (cutL 0).topX, z' (cutL 0).topY, z' (cutL 0).botX, z' (cutL 0).botY, z' (cutL 0).extL, z' (cutL 0).extH,
      z' (cutL 0).gradient, z' (cutL 0).waterH, z' (cutL 0).tolerance, rfl, rfl, ?_, .nil, ?_, .none⟩
    · exact List.forall₂_same.mpr fun l _ => ⟨z' _, z' _, z' _, z' _⟩
    · refine .cons ⟨z' 100, ?_⟩ .nil
      have a1 : 0 ≤ 49 / 25 + min ε 1 := by linarith
      have a2 : 49 / 25 + min ε 1 ≤ 10 / 3 := by linarith
      rw [cutL_coord (o := 49 / 25) (by norm_num) (by norm_num), cutL_coord a1 a2]
      rw [id, show 599 / 25 - (49 / 25 + min ε 1) - (599 / 25 - 49 / 25) = -min ε 1 by ring, abs_neg, abs_of_pos hm]
      exact hme

end PySlope
