import Verif.Spec.Args
import Verif.Spec.Example
import Verif.Lemmas.StableCalls

/-! # C19-C22, C53, C54: water and analysis options -/

namespace PySlope

/-! ## C19 -/

/-- The water level is at crest level minus the depth set (not below 0); none if none is set. -/
def WaterAgrees (s : Slope ℝ) : Prop :=
  s.waterRL = s.waterDepth.map (fun d => max 0 (s.topY - d))

theorem call_water {s t : Slope ℝ} (w : WF s) (c : Call s t) :
    (t.waterRL = s.waterRL ∧ t.waterDepth = s.waterDepth) ∨ WaterAgrees t := by
  have S := stable_water s.waterRL s.waterDepth
  rcases S.call w ⟨rfl, rfl⟩ c with h | ⟨d, rfl⟩ | rfl | ⟨ms, rfl⟩ | ⟨m, d, a, rfl⟩ | ⟨a, h, rfl⟩ |
    ⟨a, b, c', d, e, rfl⟩ | ⟨l1, l2, l3, l4, rfl⟩
  · exact .inl h
  · unfold Slope.setWaterTable
    split
    · exact .inr rfl
    · split
      · exact .inl ⟨rfl, rfl⟩
      · right; simp [WaterAgrees, Slope.resetResults]
  · exact .inr rfl
  · exact .inl (S.setMaterials ⟨rfl, rfl⟩ (fun _ _ h => h) ms)
  · exact .inl ⟨rfl, rfl⟩
  · left; unfold Slope.updateWaterAnalysisOptions
    split
    · exact ⟨rfl, rfl⟩
    · split <;> exact ⟨rfl, rfl⟩
  · obtain ⟨_, _, _, _, _, _, _, h⟩ := updateAnalysisOptions_rest s a b c' d e
    rw [h]; exact .inl ⟨rfl, rfl⟩
  · exact .inl ⟨rfl, rfl⟩

/-- C19 (partial): `set_water_table(d)` for a number `d ≥ 0` records `d` and puts the water at crest
level minus `d`, not below 0; `None` removes it; anything else raises `ValueError` and changes
nothing. From a state whose water level agrees (in particular a new slope), it agrees after any
history of calls that leaves the crest level alone. Missing: a call that changes the crest level
leaves the water where it was (`C19_water_stale`). -/
theorem C19_water_level_partial :
    (∀ (s : Slope ℝ) (v : PyVal ℝ) (d : ℝ), v.asNum = some d → 0 ≤ d →
      (s.setWaterTable v).2 = .ok () ∧ (s.setWaterTable v).1.waterDepth = some d ∧
      (s.setWaterTable v).1.waterRL = some (max 0 (s.topY - d)) ∧
      (s.setWaterTable v).1.topY = s.topY) ∧
    (∀ s : Slope ℝ, (s.setWaterTable .none).1.waterDepth = none ∧
      (s.setWaterTable .none).1.waterRL = none ∧ s.removeWaterTable = s.setWaterTable .none) ∧
    (∀ (s : Slope ℝ) (v : PyVal ℝ), ¬ v.isNone → (∀ d, v.asNum = some d → d < 0) →
      s.setWaterTable v = (s, .error .valueError)) ∧
    (∀ s t : Slope ℝ, Reachable s → WaterAgrees s →
      Relation.ReflTransGen (fun a b => Call a b ∧ b.topY = a.topY) s t → WaterAgrees t) ∧
    (∀ h a l (s : Slope ℝ), Slope.new h a l = .ok s →
      WaterAgrees s ∧ s.waterDepth = none) := by
  refine ⟨?_, fun s => ⟨rfl, rfl, rfl⟩, ?_, ?_, ?_⟩
  · intro s v d hv hd
    rcases v with x | x | _ | _ <;> simp [PyVal.asNum] at hv <;> subst hv <;>
      simp [Slope.setWaterTable, assertPositiveNumber, PyCmp.ltb, not_lt.mpr hd, PyVal.get!,
        Slope.resetResults]
  · intro s v hn hv
    rcases v with x | x | _ | _
    · have := hv x rfl
      simp [Slope.setWaterTable, assertPositiveNumber, PyCmp.ltb, this]
    · have := hv x rfl
      simp [Slope.setWaterTable, assertPositiveNumber, PyCmp.ltb, this]
    · exact absurd trivial hn
    · rfl
  · intro s t r h hist
    have : Reachable t ∧ WaterAgrees t := by
      induction hist with
      | refl => exact ⟨r, h⟩
      | tail _ c ih =>
        obtain ⟨r', h'⟩ := ih
        refine ⟨r'.call c.1, ?_⟩
        rcases call_water r'.wf c.1 with ⟨h1, h2⟩ | hs
        · unfold WaterAgrees at h' ⊢
          rw [c.2, h1, h2]; exact h'
        · exact hs
    exact this.2
  · intro h a l s e
    rw [new_eq] at e
    split at e
    · cases e
    · cases e
      exact ⟨rfl, rfl⟩

/-- A history as in C19: water set at 2 m on the example, then a line load near the crest. -/
example : ∃ s t : Slope ℝ, Reachable s ∧ WaterAgrees s ∧ s.waterRL = some 7 ∧
    Call s t ∧ t.topY = s.topY := by
  refine ⟨(exSlope.setWaterTable (.num 2)).1, _, exSlope_reachable.call (.setWaterTable _ _), ?_,
    ?_, .removeIndividualPlanes _, rfl⟩
  · obtain ⟨_, h1, h2, h3⟩ := C19_water_level_partial.1 exSlope (.num 2) 2 rfl (by norm_num)
    unfold WaterAgrees
    rw [h1, h2, h3]; rfl
  · rw [(C19_water_level_partial.1 exSlope (.num 2) 2 rfl (by norm_num)).2.2.1]
    norm_num

/-- C19 is violated: after `set_water_table(2)` and then a new boundary with another height, the
water level is not at crest level minus 2. -/
theorem C19_water_stale :
    ∃ s : Slope ℝ, Reachable s ∧ s.waterDepth = some 2 ∧ 2 < s.topY ∧
      s.waterRL ≠ some (s.topY - 2) ∧ ¬ WaterAgrees s := by
  have e : (((exSlope.setWaterTable (.num 2)).1.setExternalBoundary (.num 6) (.num 30)
      (.num 3)).1) = ((exSlope.setWaterTable (.num 2)).1).withGeo 6 (max 3 0.001) := by
    rw [setExternalBoundary_len _ _ _ (by norm_num) (by norm_num) (by norm_num)]
  obtain ⟨_, h1, h2, h3⟩ := C19_water_level_partial.1 exSlope (.num 2) 2 rfl (by norm_num)
  have ht : (((exSlope.setWaterTable (.num 2)).1).withGeo 6 (max 3 0.001)).topY = 18 := by
    change max (max (3 * 6) (exSlope.setWaterTable (.num 2)).1.minExtH)
      (5 * (max 3 0.001) / 2) = (18 : ℝ)
    have : (exSlope.setWaterTable (.num 2)).1.minExtH = 6 := by
      simp [Slope.setWaterTable, assertPositiveNumber, PyCmp.ltb, Slope.resetResults,
        not_lt.mpr (zero_le_two (α := ℝ))]
    rw [this]; norm_num
  have hw : (((exSlope.setWaterTable (.num 2)).1).withGeo 6 (max 3 0.001)).waterRL = some 7 := by
    change (exSlope.setWaterTable (.num 2)).1.waterRL = some 7
    rw [h2]; norm_num
  have hd : (((exSlope.setWaterTable (.num 2)).1).withGeo 6 (max 3 0.001)).waterDepth = some 2 := h1
  refine ⟨_, (exSlope_reachable.call (.setWaterTable _ (.num 2))).call
    (.setExternalBoundary _ (.num 6) (.num 30) (.num 3)), ?_⟩
  rw [e]
  refine ⟨hd, by rw [ht]; norm_num, ?_, ?_⟩
  · rw [hw, ht]; norm_num
  · unfold WaterAgrees
    rw [hw, hd, ht]; norm_num

/-! ## C20, C53 -/

/-- The square of the cosine of the slope angle. -/
noncomputable def slopeCosSq (s : Slope ℝ) : ℝ := Real.cos (Real.arctan (s.height / s.length)) ^ 2

/-- C20: the factor on the water pressure is in [0,1] in every reachable state. The automatic factor
is the squared cosine of the slope angle, that is `length² / (length² + height²)`; a new slope has
it; a number given is clamped to [0,1]; anything else raises `ValueError` and changes nothing. -/
theorem C20_water_factor (s : Slope ℝ) (r : Reachable s) :
    (0 ≤ s.waterH ∧ s.waterH ≤ 1) ∧
    (∀ h, (s.updateWaterAnalysisOptions true h).2 = .ok () ∧
      (s.updateWaterAnalysisOptions true h).1.waterH = slopeCosSq s) ∧
    slopeCosSq s = s.length ^ 2 / (s.length ^ 2 + s.height ^ 2) ∧
    (∀ x, (s.updateWaterAnalysisOptions false (.num x)).2 = .ok () ∧
      (s.updateWaterAnalysisOptions false (.num x)).1.waterH = max 0 (min x 1)) ∧
    (∀ v : PyVal ℝ, v.asPlain = none →
      s.updateWaterAnalysisOptions false v = (s, .error .valueError)) ∧
    (∀ h a l s', Slope.new h a l = .ok s' → s'.waterH = slopeCosSq s') := by
  refine ⟨r.wf.wh, ?_, ?_, ?_, ?_, ?_⟩
  · intro h
    refine ⟨rfl, ?_⟩
    unfold Slope.updateWaterAnalysisOptions
    rw [if_pos rfl]
    simp only [Slope.resetResults, sq_real, r.wf.geo.grad]
    rfl
  · have hl := r.wf.geo.lenPos
    unfold slopeCosSq
    rw [Real.cos_sq_arctan]
    field_simp
  · intro x
    refine ⟨rfl, ?_⟩
    simp only [Slope.updateWaterAnalysisOptions, Slope.resetResults, assertNumber, PyVal.get!,
      lit_zero, lit_one, Bool.false_eq_true, if_false]
    by_cases h1 : 1 < x
    · rw [if_pos h1, min_eq_right h1.le]; norm_num
    · rw [if_neg h1]
      push Not at h1
      by_cases h0 : x < 0
      · rw [if_pos h0, min_eq_left h1, max_eq_left h0.le]
      · rw [if_neg h0, min_eq_left h1, max_eq_right (not_lt.mp h0)]
  · intro v hv
    rcases v with x | x | _ | _ <;> simp [PyVal.asPlain] at hv <;> rfl
  · intro h a l s' e
    rw [new_eq] at e
    split at e
    · cases e
    · cases e
      simp [slopeCosSq, freshSlope]
      rfl

/-- A case of C20: the example at 45 degrees has factor 1/2. -/
example : exSlope.waterH = 1 / 2 := by
  have h := C20_water_factor exSlope exSlope_reachable
  rw [h.2.2.2.2.2 _ _ _ _ exSlope_new, h.2.2.1]
  norm_num

theorem call_waterH {s t : Slope ℝ} (w : WF s) (c : Call s t) :
    t.waterH = s.waterH ∨ (∃ a v, t = (s.updateWaterAnalysisOptions a v).1) := by
  have S := stable_waterH s.waterH
  rcases S.call w rfl c with h | ⟨d, rfl⟩ | rfl | ⟨ms, rfl⟩ | ⟨m, d, a, rfl⟩ | ⟨a, h, rfl⟩ |
    ⟨a, b, c', d, e, rfl⟩ | ⟨l1, l2, l3, l4, rfl⟩
  · exact .inl h
  · left; unfold Slope.setWaterTable
    split
    · rfl
    · split <;> rfl
  · exact .inl rfl
  · exact .inl (S.setMaterials rfl (fun _ _ h => h) ms)
  · exact .inl rfl
  · exact .inr ⟨a, h, rfl⟩
  · obtain ⟨_, _, _, _, _, _, _, h⟩ := updateAnalysisOptions_rest s a b c' d e
    rw [h]; exact .inl rfl
  · exact .inl rfl

/-- A call other than `update_water_analysis_options(auto=False, ...)`. -/
def CallNotManual (a b : Slope ℝ) : Prop :=
  Call a b ∧ ∀ v, (a.updateWaterAnalysisOptions false v).1 ≠ b ∨
    (a.updateWaterAnalysisOptions true v).1 = b

/-- C53 (partial): from a state whose factor is the automatic one (in particular a new slope) it
stays the automatic one for the current angle, through every call that keeps the angle and does not
set it by hand. Missing: a call that changes the angle leaves the factor of the old angle
(`C53_factor_stale`). -/
theorem C53_auto_factor_partial (s t : Slope ℝ) (r : Reachable s) (h : s.waterH = slopeCosSq s)
    (hist : Relation.ReflTransGen
      (fun a b => CallNotManual a b ∧ b.height / b.length = a.height / a.length) s t) :
    t.waterH = slopeCosSq t := by
  have : Reachable t ∧ t.waterH = slopeCosSq t := by
    induction hist with
    | refl => exact ⟨r, h⟩
    | tail _ c ih =>
      obtain ⟨r', h'⟩ := ih
      obtain ⟨⟨c1, c2⟩, c3⟩ := c
      refine ⟨r'.call c1, ?_⟩
      rename_i b c _
      have e1 : slopeCosSq c = slopeCosSq b := by unfold slopeCosSq; rw [c3]
      rw [e1]
      have auto : ∀ v, (b.updateWaterAnalysisOptions true v).1.waterH = slopeCosSq b :=
        fun v => ((C20_water_factor b r').2.1 v).2
      rcases call_waterH r'.wf c1 with hw | ⟨a, v, rfl⟩
      · rw [hw]; exact h'
      · cases a
        · rcases c2 v with h0 | h0
          · exact absurd rfl h0
          · rw [← h0]; exact auto v
        · exact auto v
  exact this.2

/-- A history as in C53. -/
example : ∃ t : Slope ℝ, CallNotManual exSlope t ∧
    t.height / t.length = exSlope.height / exSlope.length ∧ exSlope.waterH = slopeCosSq exSlope := by
  refine ⟨_, ⟨.setWaterTable _ (.num 2), fun v => .inl ?_⟩, ?_,
    (C20_water_factor exSlope exSlope_reachable).2.2.2.2.2 _ _ _ _ exSlope_new⟩
  · intro e
    have h := (C19_water_level_partial.1 exSlope (.num 2) 2 rfl (by norm_num)).2.1
    rw [← e] at h
    have h2 : (exSlope.updateWaterAnalysisOptions false v).1.waterDepth = none := by
      unfold Slope.updateWaterAnalysisOptions
      simp only [Bool.false_eq_true, if_false]
      split <;> rfl
    rw [h2] at h; cases h
  · simp [Slope.setWaterTable, assertPositiveNumber, PyCmp.ltb, Slope.resetResults,
      not_lt.mpr (zero_le_two (α := ℝ))]

/-- C53 is violated: a new slope has the automatic factor, and after a new boundary with another
angle it still has the factor of the old angle. -/
theorem C53_factor_stale :
    ∃ s t : Slope ℝ, Slope.new (.num 3) (.num 30) (.num 3) = .ok s ∧ s.waterH = slopeCosSq s ∧
      (s.setExternalBoundary (.num 6) (.num 30) (.num 3)) = (t, .ok ()) ∧
      t.waterH ≠ slopeCosSq t := by
  refine ⟨exSlope, _, exSlope_new,
    (C20_water_factor exSlope exSlope_reachable).2.2.2.2.2 _ _ _ _ exSlope_new,
    setExternalBoundary_len _ _ _ (by norm_num) (by norm_num) (by norm_num), ?_⟩
  have h := (C20_water_factor exSlope exSlope_reachable)
  have h1 : exSlope.waterH = 1 / 2 := by
    rw [h.2.2.2.2.2 _ _ _ _ exSlope_new, h.2.2.1]; norm_num
  change exSlope.waterH ≠ Real.cos (Real.arctan (6 / (max 3 0.001))) ^ 2
  rw [h1, Real.cos_sq_arctan]
  norm_num

/-! ## C21 -/

/-- C21: slices are in [10, 500] and iterations in [500, 100000] in every reachable state;
`update_analysis_options` takes the nearest value in range, and keeps the old one for `None` or 0. -/
theorem C21_options_in_range (s : Slope ℝ) (r : Reachable s) :
    (10 ≤ s.slices ∧ s.slices ≤ 500) ∧ (500 ≤ s.iterations ∧ s.iterations ≤ 100000) ∧
    ∀ (n i : Option Int) (f t : Option ℝ) (m : Option Int),
      (s.updateAnalysisOptions n i f t m).2 = .ok () ∧
      (∀ k, n = some k → k ≠ 0 →
        (s.updateAnalysisOptions n i f t m).1.slices = max 10 (min 500 k)) ∧
      ((n = none ∨ n = some 0) → (s.updateAnalysisOptions n i f t m).1.slices = s.slices) ∧
      (∀ k, i = some k → k ≠ 0 →
        (s.updateAnalysisOptions n i f t m).1.iterations = max 500 (min 100000 k)) ∧
      ((i = none ∨ i = some 0) →
        (s.updateAnalysisOptions n i f t m).1.iterations = s.iterations) ∧
      (s.updateAnalysisOptions n i f t m).1.tolerance = t.getD s.tolerance ∧
      (s.updateAnalysisOptions n i f t m).1.maxIterations = m.getD s.maxIterations ∧
      (s.updateAnalysisOptions n i f t m).1.minFailureDist =
        (f.map (fun d => min d (s.extL * 0.9))).getD s.minFailureDist := by
  refine ⟨r.wf.sl, r.wf.it, fun n i f t m => ⟨rfl, ?_, ?_, ?_, ?_, ?_, ?_, ?_⟩⟩
  · rintro k rfl hk
    rw [max_comm]
    rcases i with _ | i <;> rcases f with _ | _ <;> rcases t with _ | _ <;> rcases m with _ | _ <;>
      simp only [Slope.updateAnalysisOptions, Slope.resetResults, if_neg hk] <;>
      (repeat' split) <;> rfl
  · intro h
    rcases h with rfl | rfl <;> rcases i with _ | i <;> rcases f with _ | _ <;>
      rcases t with _ | _ <;> rcases m with _ | _ <;>
      simp only [Slope.updateAnalysisOptions, Slope.resetResults, if_true] <;>
      (repeat' split) <;> rfl
  · rintro k rfl hk
    rw [max_comm, min_comm]
    rcases n with _ | n <;> rcases f with _ | _ <;> rcases t with _ | _ <;> rcases m with _ | _ <;>
      simp only [Slope.updateAnalysisOptions, Slope.resetResults, if_neg hk]
  · intro h
    rcases h with rfl | rfl <;> rcases n with _ | n <;> rcases f with _ | _ <;>
      rcases t with _ | _ <;> rcases m with _ | _ <;>
      simp only [Slope.updateAnalysisOptions, Slope.resetResults, if_true] <;>
      (repeat' split) <;> rfl
  · rcases n with _ | n <;> rcases i with _ | i <;> rcases f with _ | _ <;>
      rcases t with _ | _ <;> rcases m with _ | _ <;>
      simp only [Slope.updateAnalysisOptions, Slope.resetResults] <;> (repeat' split) <;> rfl
  · rcases n with _ | n <;> rcases i with _ | i <;> rcases f with _ | _ <;>
      rcases t with _ | _ <;> rcases m with _ | _ <;>
      simp only [Slope.updateAnalysisOptions, Slope.resetResults] <;> (repeat' split) <;> rfl
  · rcases n with _ | n <;> rcases i with _ | i <;> rcases f with _ | _ <;>
      rcases t with _ | _ <;> rcases m with _ | _ <;>
      simp only [Slope.updateAnalysisOptions, Slope.resetResults, pyMin_real, Option.map] <;>
      (repeat' split) <;> rfl

/-- A case of C21: 7 slices become 10. -/
example : ((exSlope.updateAnalysisOptions (some 7) none none none none).1).slices = 10 := by
  rw [((C21_options_in_range exSlope exSlope_reachable).2.2 _ _ _ _ _).2.1 7 rfl (by norm_num)]
  norm_num

/-! ## C22, C54 -/

/-- C22: the limits are ordered, on their side of the crest and in the model in every reachable
state. `set_analysis_limits` either sets new limits or raises and changes nothing; given four
numbers, it sets them cut to their side and to the model, unless one is negative or a pair is then
not in order: in that case it raises `ValueError`. -/
theorem C22_limits_ordered (s : Slope ℝ) (r : Reachable s) :
    (0 ≤ s.lim1 ∧ s.lim1 < s.lim2 ∧ s.lim2 ≤ s.topX ∧ s.topX ≤ s.lim3 ∧ s.lim3 < s.lim4 ∧
      s.lim4 ≤ s.extL) ∧
    (∀ a b c d e, (s.setAnalysisLimits a b c d).2 = .error e →
      (s.setAnalysisLimits a b c d).1 = s) ∧
    (∀ l r lr rl : ℝ, 0 ≤ l → 0 ≤ r → 0 ≤ lr → 0 ≤ rl → l < min lr s.topX →
      max rl s.topX < min r s.extL →
      s.setAnalysisLimits (.num l) (.num r) (.num lr) (.num rl) =
        ({ s with lim1 := l, lim2 := min lr s.topX, lim3 := max rl s.topX, lim4 := min r s.extL,
                  search := [] }, .ok ())) ∧
    (∀ l r lr rl : ℝ, (l < 0 ∨ r < 0 ∨ lr < 0 ∨ rl < 0 ∨ min lr s.topX ≤ l ∨
        min r s.extL ≤ max rl s.topX) →
      s.setAnalysisLimits (.num l) (.num r) (.num lr) (.num rl) = (s, .error .valueError)) := by
  have w := r.wf
  refine ⟨⟨w.l1, w.l12, w.l2, w.l3, w.l34, w.l4⟩, ?_, ?_, ?_⟩
  · intro a b c d e h
    rcases WFS.setAnalysisLimits_rest s a b c d with ⟨_, _, _, _, e'⟩ | ⟨_, e'⟩
    · rw [e'] at h; cases h
    · rw [e']
  · intro l r lr rl h1 h2 h3 h4 h5 h6
    have h : ¬ (min lr s.topX ≤ l ∨ min r s.extL ≤ max rl s.topX) := by
      push Not; exact ⟨h5, h6⟩
    simp [Slope.setAnalysisLimits, assertPositiveNumber, assertStrictlyPositiveNumber, PyCmp.ltb,
      PyVal.get!, bind, Except.bind, pure, Except.pure, not_lt.mpr h1, not_lt.mpr h2, not_lt.mpr h3,
      not_lt.mpr h4, max_eq_left h1, Slope.resetResults]
    rw [if_neg (by simpa using h)]
  · intro l r lr rl h
    simp only [Slope.setAnalysisLimits, assertPositiveNumber, assertStrictlyPositiveNumber,
      PyCmp.ltb, PyVal.get!, bind, Except.bind, pure, Except.pure, lit_zero, decide_eq_true_eq,
      pyMax_real, pyMin_real]
    by_cases h1 : l < 0
    · simp [h1]
    by_cases h2 : lr < 0
    · simp [h1, h2]
    by_cases h3 : r < 0
    · simp [h1, h2, h3]
    by_cases h4 : rl < 0
    · simp [h1, h2, h3, h4]
    simp only [h1, h2, h3, h4, if_false, false_or] at h ⊢
    rw [max_eq_left (not_lt.mp h1), if_pos h]
    rfl

/-- A case of C22: limits 1, 14, 5, 7 on the example (crest at 6, length 15). -/
example : ((exSlope.setAnalysisLimits (.num 1) (.num 14) (.num 5) (.num 7)).1).lim4 = 14 := by
  rw [(C22_limits_ordered exSlope exSlope_reachable).2.2.1 1 14 5 7 (by norm_num) (by norm_num)
    (by norm_num) (by norm_num) (by norm_num) (by norm_num)]
  norm_num

/-- C54 (partial): each of `left_x`, `right_x`, `left_x_right` given alone and in order with the
others is set, and the others stay. Missing: `right_x_left` (`C54_right_x_left_alone_raises`). -/
theorem C54_single_limit_partial (s : Slope ℝ) (r : Reachable s) :
    (∀ x, 0 ≤ x → x < s.lim2 → s.setAnalysisLimits (.num x) .none .none .none =
      ({ s with lim1 := x, search := [] }, .ok ())) ∧
    (∀ x, s.lim3 < x → s.setAnalysisLimits .none (.num x) .none .none =
      ({ s with lim4 := min x s.extL, search := [] }, .ok ())) ∧
    (∀ x, s.lim1 < x → s.setAnalysisLimits .none .none (.num x) .none =
      ({ s with lim2 := min x s.topX, search := [] }, .ok ())) := by
  have w := r.wf
  have h1 := w.l1; have h2 := w.l12; have h3 := w.l2; have h4 := w.l3; have h5 := w.l34
  have h6 := w.l4
  have p3 : ¬ s.lim3 < 0 := by push Not; linarith
  refine ⟨?_, ?_, ?_⟩
  · intro x hx hx2
    have : ¬ (s.lim2 ≤ x ∨ s.lim4 ≤ s.lim3) := by push Not; exact ⟨hx2, h5⟩
    simp [Slope.setAnalysisLimits, assertPositiveNumber, PyCmp.ltb, PyVal.get!, bind,
      Except.bind, pure, Except.pure, not_lt.mpr hx, max_eq_left hx, min_eq_left h3, min_eq_left h6,
      max_eq_left h4, Slope.resetResults, if_neg this]
  · intro x hx
    have : ¬ (s.lim2 ≤ s.lim1 ∨ min x s.extL ≤ s.lim3) := by
      push Not; exact ⟨h2, lt_min hx (lt_of_lt_of_le h5 h6)⟩
    simp [Slope.setAnalysisLimits, assertStrictlyPositiveNumber, PyCmp.ltb, PyVal.get!, bind,
      Except.bind, pure, Except.pure, p3, max_eq_left h1, min_eq_left h3,
      max_eq_left h4, Slope.resetResults]
    rw [if_neg (by simpa using this)]
  · intro x hx
    have hx0 : ¬ x < 0 := by push Not; linarith
    have : ¬ (min x s.topX ≤ s.lim1 ∨ s.lim4 ≤ s.lim3) := by
      push Not; exact ⟨lt_min hx (lt_of_lt_of_le h2 h3), h5⟩
    simp [Slope.setAnalysisLimits, assertStrictlyPositiveNumber, PyCmp.ltb, PyVal.get!, bind,
      Except.bind, pure, Except.pure, hx0, max_eq_left h1, min_eq_left h6,
      max_eq_left h4, Slope.resetResults]
    rw [if_neg (by simpa using this)]

/-- The hypotheses of C54 on the example (limits 0, 6, 6, 15). -/
example : (0 : ℝ) ≤ 1 ∧ 1 < exSlope.lim2 ∧ exSlope.lim3 < 14 ∧ exSlope.lim1 < 5 := by
  have e2 : exSlope.lim2 = exSlope.topX := rfl
  have e3 : exSlope.lim3 = exSlope.topX := rfl
  have e1 : exSlope.lim1 = 0 := rfl
  rw [e2, e3, e1]; norm_num

/-- C54 is violated: `set_analysis_limits(right_x_left=x)` raises `ValueError` for every argument
other than `None`, in every state. -/
theorem C54_right_x_left_alone_raises (s : Slope ℝ) (v : PyVal ℝ) (h : ¬ v.isNone) :
    s.setAnalysisLimits .none .none .none v = (s, .error .valueError) := by
  rcases v with x | x | _ | _
  · rfl
  · rfl
  · exact absurd trivial h
  · rfl

end PySlope
