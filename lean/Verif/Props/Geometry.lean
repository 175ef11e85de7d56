import Verif.Spec.Args
import Verif.Spec.Example

/-! # C03-C08: the boundary and the ground surface -/

namespace PySlope

/-! ## Accepted inputs -/

/-- The documented input of `set_external_boundary`, with "positive" read as the code reads it
(0 allowed): a number for the height; an angle that is `None` or in (0, 90]; a length that is
`None` or not negative; and not both of angle and length `None`. -/
def AcceptedBoundary (h a l : PyVal ℝ) : Prop :=
  (∃ H, h.asNum = some H ∧ 0 ≤ H) ∧
  (a.isNone ∨ ∃ A, a.asNum = some A ∧ 0 < A ∧ A ≤ 90) ∧
  (l.isNone ∨ ∃ L, l.asNum = some L ∧ 0 ≤ L) ∧
  (l.isNone → ¬ a.isNone)

theorem lit90 (x : ℝ) : ((@OfNat.ofNat ℝ 90 (Lit.natLit 90)) < x) ↔ 90 < x := Iff.rfl

/-- The length the code works with. -/
noncomputable def boundaryLength (h a l : PyVal ℝ) : ℝ :=
  max (match l.asNum with
    | some x => x
    | none => h.get! / Real.tan (a.get! * (Real.pi / 180))) 0.001

/-- Outcome of the three validators of `set_external_boundary` on a number. -/
theorem strict_eq (x : ℝ) : (assertStrictlyPositiveNumber (@OfNat.ofNat ℝ 0 (Lit.natLit 0)) (.num x) =
    if 0 ≤ x then .ok () else .error .valueError) ∧
    (assertStrictlyPositiveNumber (@OfNat.ofNat ℝ 0 (Lit.natLit 0)) (.numSub x) =
    if 0 ≤ x then .ok () else .error .valueError) := by
  simp only [assertStrictlyPositiveNumber, PyCmp.ltb, lit_zero, decide_eq_true_eq]
  by_cases h : 0 ≤ x
  · simp [h, not_lt.mpr h]
  · simp [h, not_le.mp h]

theorem positive_eq (x : ℝ) : (assertPositiveNumber (@OfNat.ofNat ℝ 0 (Lit.natLit 0)) (.num x) =
    if 0 ≤ x then .ok () else .error .valueError) ∧
    (assertPositiveNumber (@OfNat.ofNat ℝ 0 (Lit.natLit 0)) (.numSub x) =
    if 0 ≤ x then .ok () else .error .valueError) := strict_eq x

theorem range_eq (x : ℝ) : (assertRange (.num x) (@OfNat.ofNat ℝ 0 (Lit.natLit 0))
      (@OfNat.ofNat ℝ 90 (Lit.natLit 90)) true false =
    if 0 < x ∧ x ≤ 90 then .ok () else .error .valueError) ∧
    (assertRange (.numSub x) (@OfNat.ofNat ℝ 0 (Lit.natLit 0))
      (@OfNat.ofNat ℝ 90 (Lit.natLit 90)) true false =
    if 0 < x ∧ x ≤ 90 then .ok () else .error .valueError) := by
  simp only [assertRange, PyCmp.ltb, PyCmp.eqb, lit_zero, decide_eq_true_eq, pyEq_real,
    Bool.true_and, Bool.false_and, Bool.false_eq_true, if_false, lit90, and_self]
  by_cases h1 : x < 0
  · rw [if_pos h1, if_neg (by rintro ⟨a, _⟩; linarith)]
  · rw [if_neg h1]
    by_cases h2 : 90 < x
    · rw [if_pos h2, if_neg (by rintro ⟨_, a⟩; linarith)]
    · rw [if_neg h2]
      by_cases h3 : x = 0
      · rw [if_pos h3, if_neg (by rintro ⟨a, _⟩; linarith)]
      · rw [if_neg h3, if_pos ⟨lt_of_le_of_ne (not_lt.mp h1) (Ne.symm h3), not_lt.mp h2⟩]

theorem boundaryInputs_accepted {h a l : PyVal ℝ} (A : AcceptedBoundary h a l) :
    boundaryInputs h a l = .ok (h.get!, boundaryLength h a l) := by
  obtain ⟨⟨H, h1, h2⟩, h3, h4, h5⟩ := A
  rcases h with x | x | _ | _ <;> rcases a with y | y | _ | _ <;>
    rcases l with z | z | _ | _ <;>
    simp only [PyVal.asNum, PyVal.isNone, Option.some.injEq, reduceCtorEq, false_and,
      exists_false, or_self, false_or, not_true, not_false_iff, true_or, imp_false,
      exists_eq_left', or_false] at h1 h3 h4 h5 <;>
    subst h1 <;>
    simp only [boundaryInputs, (strict_eq _).1, (strict_eq _).2, (positive_eq _).1,
      (positive_eq _).2, (range_eq _).1, (range_eq _).2, h2, h3, h4, if_true, and_self, true_and,
      bind, Except.bind, pure, Except.pure] <;>
    first
      | rfl
      | (rw [pyMax_real]; rfl)
      | (simp only [PyVal.truthy, pyEq_real, lit_zero, h3.1.ne', decide_false, Bool.not_false,
          Bool.not_true, Bool.false_eq_true, if_false, pyMax_real, radians_real]; rfl)

theorem boundaryInputs_rejected {h a l : PyVal ℝ} (A : ¬ AcceptedBoundary h a l) :
    ∃ e, boundaryInputs h a l = .error e ∧ (¬ h.isNone → e = .valueError) := by
  rcases h with x | x | _ | _ <;> rcases a with y | y | _ | _ <;>
    rcases l with z | z | _ | _ <;>
    simp only [AcceptedBoundary, PyVal.asNum, PyVal.isNone, Option.some.injEq, reduceCtorEq,
      false_and, exists_false, or_self, false_or, not_true, not_false_iff, true_or, imp_false,
      exists_eq_left', or_false, true_and, and_false, and_true, imp_true_iff] at A <;>
    simp only [boundaryInputs, (strict_eq _).1, (strict_eq _).2, (positive_eq _).1,
      (positive_eq _).2, (range_eq _).1, (range_eq _).2, bind, Except.bind, pure, Except.pure,
      PyVal.isNone] <;>
    (try by_cases c1 : 0 ≤ x) <;> (try by_cases c2 : 0 < y ∧ y ≤ 90) <;>
    (try by_cases c3 : 0 ≤ z) <;>
    (try simp only [c1, if_true, if_false]) <;> (try simp only [c2, if_true, if_false]) <;>
    (try simp only [c3, if_true, if_false]) <;>
    simp_all [throw, throwThe, MonadExceptOf.throw, assertStrictlyPositiveNumber,
      assertPositiveNumber, assertRange, PyVal.truthy] <;>
    exact ⟨.typeError, by rw [if_neg c2.1.ne']⟩

theorem boundaryInputs_iff (h a l : PyVal ℝ) :
    (∃ r, boundaryInputs h a l = .ok r) ↔ AcceptedBoundary h a l := by
  constructor
  · rintro ⟨r, hr⟩
    by_contra hA
    obtain ⟨e, he, _⟩ := boundaryInputs_rejected hA
    rw [he] at hr; cases hr
  · intro hA
    exact ⟨_, boundaryInputs_accepted hA⟩

/-! ## C03 -/

/-- What the English property C03 asks of the object after an accepted boundary. -/
structure WellFormedModel (minL minH h l : ℝ) (t : Slope ℝ) : Prop where
  height : t.height = h
  length : t.length = l
  minL : minL ≤ t.extL
  minH : minH ≤ t.extH
  /-- the ground left of the crest is as long as the ground right of the toe -/
  centred : t.topX = t.extL - t.botX
  dx : t.botX - t.topX = l
  dy : t.topY - t.botY = h
  top : t.topY = t.extH
  left : 0 < t.topX
  crestToe : t.topX < t.botX
  right : t.botX < t.extL
  bottom : 0 < t.botY
  below : t.botY ≤ t.topY
  outline : t.extBoundary = some [(0, 0), (0, t.topY), (t.topX, t.topY), (t.botX, t.botY),
    (t.extL, t.botY), (t.extL, 0), (0, 0)]

/-- C03: after an accepted `set_external_boundary`, whatever the object was before, the model is
well formed; the length is the one given, or `height / tan(angle)`, at least 0.001. -/
theorem C03_boundary_wellformed (s : Slope ℝ) (h a l : PyVal ℝ)
    (ok : (s.setExternalBoundary h a l).2 = .ok ()) :
    ∃ H L, h.asNum = some H ∧
      (∀ x, l.asNum = some x → L = max x 0.001) ∧
      (∀ x, l.isNone → a.asNum = some x →
        L = max (H / Real.tan (x * (Real.pi / 180))) 0.001) ∧
      WellFormedModel s.minExtL s.minExtH H L (s.setExternalBoundary h a l).1 := by
  unfold Slope.setExternalBoundary at ok ⊢
  cases e : boundaryInputs h a l with
  | error x => rw [e] at ok; cases ok
  | ok HL =>
    obtain ⟨H, L⟩ := HL
    obtain ⟨h1, h2⟩ := boundaryInputs_ok e
    have hA := (boundaryInputs_iff h a l).mp ⟨_, e⟩
    obtain ⟨eH, eL⟩ : H = h.get! ∧ L = boundaryLength h a l := by
      have := (boundaryInputs_accepted hA).symm.trans e
      simp at this
      exact ⟨this.1.symm, this.2.symm⟩
    have hL : (0 : ℝ) < L := by norm_num at h2 ⊢; linarith
    simp only [applyBoundary_eq s _ _ hL]
    have hT := totL_ge s H L
    have hT2 : s.minExtL ≤ totL s H L := (le_max_right _ _).trans (le_max_left _ _)
    have hH2 : s.minExtH ≤ totH s H L := (le_max_right _ _).trans (le_max_left _ _)
    have hH3 : 3 * H ≤ totH s H L := (le_max_left _ _).trans (le_max_left _ _)
    have hH5 : 5 * L / 2 ≤ totH s H L := le_max_right _ _
    refine ⟨H, L, ?_, ?_, ?_, ⟨rfl, rfl, hT2, hH2, ?_, ?_, ?_, rfl, ?_, ?_, ?_, ?_, ?_, rfl⟩⟩
    · obtain ⟨x, hx, _⟩ := hA.1
      rw [eH]
      cases h <;> simp_all [PyVal.asNum, PyVal.get!]
    · intro x hx
      rw [eL, boundaryLength, hx]
    · intro x hn hx
      have hl : l.asNum = none := by cases l <;> simp_all [PyVal.asNum, PyVal.isNone]
      have ha : a.get! = x := by cases a <;> simp_all [PyVal.asNum, PyVal.get!]
      rw [eL, boundaryLength, hl, ha, eH]
    · change (totL s H L - L) / 2 = totL s H L - ((totL s H L - L) / 2 + L); ring
    · change (totL s H L - L) / 2 + L - (totL s H L - L) / 2 = L; ring
    · change totH s H L - (totH s H L - H) = H; ring
    · change 0 < (totL s H L - L) / 2; linarith
    · change (totL s H L - L) / 2 < (totL s H L - L) / 2 + L; linarith
    · change (totL s H L - L) / 2 + L < totL s H L; linarith
    · change 0 < totH s H L - H; linarith
    · change totH s H L - H ≤ totH s H L; linarith

/-- The hypothesis of C03 is met: `set_external_boundary(3, 30, 3)` is accepted. -/
example : (exSlope.setExternalBoundary (.num 3) (.num 30) (.num 3)).2 = .ok () := by
  rw [setExternalBoundary_len _ _ _ (by norm_num) (by norm_num) (by norm_num)]

/-! ## C05 -/

/-- C05 (partial): an input outside `AcceptedBoundary` raises and changes nothing, and the
exception is `ValueError` unless the height is `None`. Missing: the documentation asks for a
strictly positive height, and a height of 0 is accepted (`C05_height_zero_accepted`). -/
theorem C05_rejected_unchanged_partial (s : Slope ℝ) (h a l : PyVal ℝ) :
    (AcceptedBoundary h a l → (s.setExternalBoundary h a l).2 = .ok ()) ∧
    (¬ AcceptedBoundary h a l → (s.setExternalBoundary h a l).1 = s ∧
      ∃ e, (s.setExternalBoundary h a l).2 = .error e ∧ (¬ h.isNone → e = .valueError)) := by
  unfold Slope.setExternalBoundary
  constructor
  · intro hA
    obtain ⟨⟨H, L⟩, e⟩ := (boundaryInputs_iff h a l).mpr hA
    have h2 := (boundaryInputs_ok e).2
    have hL : (0 : ℝ) < L := by norm_num at h2 ⊢; linarith
    simp only [e, applyBoundary_eq s _ _ hL]
  · intro hA
    obtain ⟨e, he, hv⟩ := boundaryInputs_rejected hA
    simp only [he]
    exact ⟨trivial, e, rfl, hv⟩

/-- A rejected input exists: a negative height. -/
example : ¬ AcceptedBoundary (.num (-1)) (.num 30) .none := by
  intro ⟨⟨H, h1, h2⟩, _⟩
  simp [PyVal.asNum] at h1; subst h1; norm_num at h2

/-- C05 is violated: `Slope(height=0, length=1)` is accepted, although a strictly positive height
is documented. -/
theorem C05_height_zero_accepted :
    ∃ s : Slope ℝ, Slope.new (.num 0) (.num 30) (.num 1) = .ok s ∧ s.height = 0 := by
  rw [new_eq]
  obtain ⟨⟨H, L⟩, e⟩ := (boundaryInputs_iff (.num 0) (.num 30) (.num 1)).mpr
    ⟨⟨0, rfl, le_refl _⟩, .inr ⟨30, rfl, by norm_num⟩, .inr ⟨1, rfl, by norm_num⟩, fun h => h.elim⟩
  rw [e]
  refine ⟨_, rfl, ?_⟩
  have := C03_boundary_wellformed Slope.blank (.num 0) (.num 30) (.num 1)
    (((C05_rejected_unchanged_partial _ _ _ _).1) ⟨⟨0, rfl, le_refl _⟩, .inr ⟨30, rfl, by norm_num⟩,
      .inr ⟨1, rfl, by norm_num⟩, fun h => h.elim⟩)
  obtain ⟨H', L', h1, _, _, h2⟩ := this
  have h3 := h2.height
  simp only [Slope.setExternalBoundary, e] at h3
  rw [applyBoundary_eq] at h3
  · change H = H' at h3
    change H = 0
    simp [PyVal.asNum] at h1
    rw [h3, ← h1]
  · have h2 := (boundaryInputs_ok e).2
    norm_num at h2 ⊢; linarith

/-! ## C04 -/

/-- C04: a slope given by an angle in (0, 90) is the slope given by the length
`height / tan(angle)`, and unless that length is below 0.001 its gradient is `tan(angle)`. -/
theorem C04_angle_is_length (s : Slope ℝ) (h a b : ℝ) (hh : 0 ≤ h) (ha : 0 < a ∧ a < 90)
    (hb : 0 < b ∧ b ≤ 90) :
    s.setExternalBoundary (.num h) (.num a) .none =
      s.setExternalBoundary (.num h) (.num b)
        (.num (h / Real.tan (a * (Real.pi / 180)))) ∧
    (0.001 ≤ h / Real.tan (a * (Real.pi / 180)) →
      (s.setExternalBoundary (.num h) (.num a) .none).1.gradient =
        Real.tan (a * (Real.pi / 180))) := by
  have hpi := Real.pi_pos
  have htan : 0 < Real.tan (a * (Real.pi / 180)) := by
    apply Real.tan_pos_of_pos_of_lt_pi_div_two
    · have := ha.1; positivity
    · nlinarith [ha.2]
  have hl : 0 ≤ h / Real.tan (a * (Real.pi / 180)) := div_nonneg hh htan.le
  have e : boundaryInputs (.num h) (.num a) .none =
      .ok (h, max (h / Real.tan (a * (Real.pi / 180))) 0.001) := by
    have h90 : ¬ ((@OfNat.ofNat ℝ 90 (Lit.natLit 90)) < a) := not_lt.mpr ha.2.le
    simp [boundaryInputs, assertStrictlyPositiveNumber, assertRange,
      PyCmp.ltb, PyCmp.eqb, bind, Except.bind, pure, Except.pure, PyVal.get!, PyVal.truthy,
      not_lt.mpr hh, not_lt.mpr ha.1.le, ha.1.ne', h90]
    rfl
  have e2 : s.setExternalBoundary (.num h) (.num a) .none =
      (s.withGeo h (max (h / Real.tan (a * (Real.pi / 180))) 0.001), .ok ()) := by
    unfold Slope.setExternalBoundary
    rw [e]
    exact applyBoundary_eq _ _ _ (lt_of_lt_of_le (by norm_num) (le_max_right _ _))
  refine ⟨by rw [e2, setExternalBoundary_len _ _ _ hh hb hl], fun hc => ?_⟩
  rw [e2, max_eq_left hc]
  change h / (h / Real.tan _) = _
  have hpos : 0 < h := by
    rcases hh.lt_or_eq with h0 | h0
    · exact h0
    · subst h0; norm_num at hc
  field_simp

/-- The hypotheses of C04 are met by a slope 3 m high at 45 degrees. -/
example : (0 : ℝ) ≤ 3 ∧ ((0 : ℝ) < 45 ∧ (45 : ℝ) < 90) ∧
    (0.001 : ℝ) ≤ 3 / Real.tan (45 * (Real.pi / 180)) := by
  have : (45 : ℝ) * (Real.pi / 180) = Real.pi / 4 := by ring
  rw [this, Real.tan_pi_div_four]
  norm_num

/-! ## C06 -/

/-- C06: on every reachable slope the ground level exists exactly over [0, L], is the crest level
up to the crest, the toe level from the toe, a straight line between, and never rises. -/
theorem C06_ground_profile (s : Slope ℝ) (r : Reachable s) :
    (∀ x, (s.getExternalY x).isSome ↔ 0 ≤ x ∧ x ≤ s.extL) ∧
    (∀ x, 0 ≤ x → x ≤ s.topX → s.getExternalY x = some s.topY) ∧
    (∀ x, s.botX ≤ x → x ≤ s.extL → s.getExternalY x = some s.botY) ∧
    (∀ x, s.topX ≤ x → x ≤ s.botX →
      s.getExternalY x = some (s.topY - (x - s.topX) * (s.height / s.length))) ∧
    (∀ x x' y y', x ≤ x' → s.getExternalY x = some y → s.getExternalY x' = some y' → y' ≤ y) := by
  have g := r.wf.geo
  have hl := g.lenPos
  have hh := g.hgt
  have h5 := g.extL5
  have ht := g.topX
  have hb := g.botX
  have hb2 := g.botY
  have ht2 := g.topY
  have hgr := g.grad
  have hg0 : 0 ≤ s.gradient := by rw [hgr]; positivity
  have hgl : s.gradient * s.length = s.height := by rw [hgr]; field_simp
  have h0 : 0 < s.topX := by linarith
  have hbL : s.botX < s.extL := by linarith
  unfold Slope.getExternalY
  simp only [lit_zero]
  refine ⟨?_, ?_, ?_, ?_, ?_⟩
  · intro x
    split
    · rename_i h
      constructor
      · intro h'; cases h'
      · rintro ⟨a, b⟩; rcases h with h | h <;> linarith
    · rename_i h
      push Not at h
      constructor
      · intro _; exact h
      · intro _; split
        · rfl
        · split <;> rfl
  · intro x a b
    rw [if_neg (by push Not; exact ⟨a, by linarith⟩), if_pos b]
  · intro x a b
    rw [if_neg (by push Not; exact ⟨by linarith, b⟩), if_neg (by linarith), if_pos a]
  · intro x a b
    rw [if_neg (by push Not; exact ⟨by linarith, by linarith⟩)]
    rw [← hgr]
    split
    · have : x = s.topX := by linarith
      subst this; simp
    · split
      · have : x = s.botX := by linarith
        subst this
        congr 1
        rw [hb2, ht2, hb]; linear_combination hgl
      · rfl
  · intro x x' y y' hx e e'
    split at e
    · cases e
    · split at e'
      · cases e'
      · have face : ∀ z, z < s.botX → s.botY ≤ s.topY - (z - s.topX) * s.gradient := by
          intro z hz
          have : (z - s.topX) * s.gradient ≤ s.length * s.gradient :=
            mul_le_mul_of_nonneg_right (by linarith) hg0
          linarith
        have face2 : ∀ z, s.topX < z → s.topY - (z - s.topX) * s.gradient ≤ s.topY := by
          intro z hz
          have : 0 ≤ (z - s.topX) * s.gradient := mul_nonneg (by linarith) hg0
          linarith
        (repeat' split at e) <;> (repeat' split at e') <;>
          simp only [Option.some.injEq] at e e' <;> subst e <;> subst e'
        · exact le_refl _
        · linarith
        · exact face2 _ (by linarith)
        · linarith
        · exact le_refl _
        · linarith
        · linarith
        · exact face _ (by linarith)
        · have : (x - s.topX) * s.gradient ≤ (x' - s.topX) * s.gradient :=
            mul_le_mul_of_nonneg_right (by linarith) hg0
          linarith

example : Reachable exSlope := exSlope_reachable
example : exSlope.getExternalY 8 = some 7 := by
  rw [(C06_ground_profile _ exSlope_reachable).2.2.2.1] <;> simp <;> norm_num

/-! ## C07 -/

/-- C07: on the face of a reachable slope of positive height, going from a level to an abscissa
and back, or from an abscissa to a level and back, ends where it began. -/
theorem C07_face_inverse (s : Slope ℝ) (r : Reachable s) (hpos : 0 < s.height) :
    (∀ x, s.topX ≤ x → x ≤ s.botX →
      ∃ y, s.getExternalY x = some y ∧ s.getExternalX y = .ok (some x)) ∧
    (∀ y, s.botY ≤ y → y ≤ s.topY →
      ∃ x, s.topX ≤ x ∧ x ≤ s.botX ∧ s.getExternalX y = .ok (some x) ∧
        s.getExternalY x = some y) := by
  have g := r.wf.geo
  have hl := g.lenPos
  have ht2 := g.topY
  have hb := g.botX
  have hb2 := g.botY
  have hg0 : 0 < s.gradient := by rw [g.grad]; positivity
  have hgl : s.gradient * s.length = s.height := by rw [g.grad]; field_simp
  have prof := (C06_ground_profile s r).2.2.2.1
  have hX : ∀ y, s.botY ≤ y → y ≤ s.topY →
      s.getExternalX y = .ok (some (s.topX + (s.topY - y) / s.gradient)) := by
    intro y h1 h2
    unfold Slope.getExternalX
    rw [if_neg (not_lt.mpr h1)]
    split
    · simp [pyDiv, hg0.ne', bind, Except.bind, pure, Except.pure]
    · have hy : y = s.topY := by linarith
      subst hy
      have : s.topY ≠ s.botY := by intro h; linarith
      simp [this]
  constructor
  · intro x h1 h2
    refine ⟨_, prof x h1 h2, ?_⟩
    rw [← g.grad]
    have h3 : (x - s.topX) * s.gradient ≤ s.length * s.gradient :=
      mul_le_mul_of_nonneg_right (by linarith) hg0.le
    have h4 : 0 ≤ (x - s.topX) * s.gradient := mul_nonneg (by linarith) hg0.le
    rw [hX _ (by linarith) (by linarith)]
    congr 2
    field_simp
    ring
  · intro y h1 h2
    have q0 : 0 ≤ (s.topY - y) / s.gradient := div_nonneg (by linarith) hg0.le
    have q1 : (s.topY - y) / s.gradient ≤ s.length := by
      rw [div_le_iff₀ hg0]; linarith
    refine ⟨_, by linarith, by linarith, hX y h1 h2, ?_⟩
    rw [prof _ (by linarith) (by linarith), ← g.grad]
    congr 1
    field_simp
    ring

example : Reachable exSlope ∧ 0 < exSlope.height := ⟨exSlope_reachable, by simp⟩

/-! ## C08 -/

/-- C08: `update_boundary_options`, whether or not it raises, keeps the height, length and
gradient and the loads in their order; the right end of a distributed load keeps its distance
from the crest, its left end too unless it is cut by the model edge (or the load is continuous, to
the edge by definition), and so do the line loads. -/
theorem C08_enlarging_keeps_slope (s : Slope ℝ) (r : Reachable s) (l h : PyVal ℝ) :
    let t := (s.updateBoundaryOptions l h).1
    t.height = s.height ∧ t.length = s.length ∧ t.gradient = s.gradient ∧
    t.topY - t.botY = s.topY - s.botY ∧ t.botX - t.topX = s.botX - s.topX ∧
    List.Forall₂ (fun p q => q.load = p.load ∧ t.topX - q.right = s.topX - p.right ∧
      (p.load.length ≠ none → 0 < p.left → 0 < q.left → t.topX - q.left = s.topX - p.left))
      s.udls t.udls ∧
    List.Forall₂ (fun p q => q.load = p.load ∧
      (0 < p.coord → 0 < q.coord → t.topX - q.coord = s.topX - p.coord)) s.lls t.lls := by
  have w := r.wf
  have wt : WF (s.updateBoundaryOptions l h).1 := w.updateBoundaryOptions l h
  have key : ∀ t : Slope ℝ, WF t → t.height = s.height → t.length = s.length →
      t.udls.map PUdl.load = s.udls.map PUdl.load → t.lls.map PLl.load = s.lls.map PLl.load →
      t.height = s.height ∧ t.length = s.length ∧ t.gradient = s.gradient ∧
      t.topY - t.botY = s.topY - s.botY ∧ t.botX - t.topX = s.botX - s.topX ∧
      List.Forall₂ (fun p q => q.load = p.load ∧ t.topX - q.right = s.topX - p.right ∧
        (p.load.length ≠ none → 0 < p.left → 0 < q.left → t.topX - q.left = s.topX - p.left))
        s.udls t.udls ∧
      List.Forall₂ (fun p q => q.load = p.load ∧
        (0 < p.coord → 0 < q.coord → t.topX - q.coord = s.topX - p.coord)) s.lls t.lls := by
    intro t wt eh el eu ell
    have hu : t.udls = s.udls.map (fun p => placeUdl t.topX p.load) := by
      have := map_place_udl wt
      rw [← this]
      have h2 := congrArg (List.map (placeUdl t.topX)) eu
      rwa [List.map_map, List.map_map] at h2
    have hll : t.lls = s.lls.map (fun p => placeLl t.topX p.load) := by
      have := map_place_ll wt
      rw [← this]
      have h2 := congrArg (List.map (placeLl t.topX)) ell
      rwa [List.map_map, List.map_map] at h2
    refine ⟨eh, el, ?_, ?_, ?_, ?_, ?_⟩
    · rw [wt.geo.grad, w.geo.grad, eh, el]
    · rw [wt.geo.botY, w.geo.botY, wt.geo.topY, w.geo.topY, eh]; ring
    · rw [wt.geo.botX, w.geo.botX, el]; ring
    · rw [hu, List.forall₂_map_right_iff]
      rw [List.forall₂_same]
      intro p hp
      refine ⟨rfl, ?_, ?_⟩
      · rw [w.udl p hp]; simp [placeUdl]
      · intro hne h1 h2
        rw [w.udl p hp] at h1 ⊢
        simp only [placeUdl] at h1 h2 ⊢
        cases hlen : p.load.length with
        | none => exact absurd hlen hne
        | some len =>
          simp only [hlen, pyEq_real, pyMax_real, lit_zero] at h1 h2 ⊢
          by_cases h0 : len = 0
          · simp [h0] at h1
          · simp only [h0, decide_false, Bool.false_eq_true, if_false] at h1 h2 ⊢
            have a1 := (lt_max_iff.mp h1).resolve_left (lt_irrefl _)
            have a2 := (lt_max_iff.mp h2).resolve_left (lt_irrefl _)
            rw [max_eq_right a1.le, max_eq_right a2.le]; ring
    · rw [hll, List.forall₂_map_right_iff]
      rw [List.forall₂_same]
      intro p hp
      refine ⟨rfl, ?_⟩
      intro h1 h2
      rw [w.ll p hp] at h1 ⊢
      simp only [placeLl, pyMax_real, lit_zero] at h1 h2 ⊢
      have a1 := (lt_max_iff.mp h1).resolve_left (lt_irrefl _)
      have a2 := (lt_max_iff.mp h2).resolve_left (lt_irrefl _)
      rw [max_eq_right a1.le, max_eq_right a2.le]; ring
  intro t
  obtain ⟨mL, mH, _, e | ⟨x, e⟩⟩ := updateBoundaryOptions_form w.geo l h
  · refine key t wt ?_ ?_ ?_ ?_ <;>
      simp [t, e, Slope.withGeo, List.map_map, Function.comp_def, placeUdl, placeLl]
  · refine key t wt ?_ ?_ ?_ ?_ <;> simp [t, e]

/-- A case of C08: the box of the example grows to 30 by 20 and keeps its slope. -/
example : (exSlope.updateBoundaryOptions (.num 30) (.num 20)).1.extL = 30 ∧
    (exSlope.updateBoundaryOptions (.num 30) (.num 20)).1.topX = 13.5 := by
  rw [updateBoundaryOptions_LH exSlope_reachable.wf.geo _ _ (by norm_num) (by norm_num)]
  have : totL { exSlope with minExtL := 30, minExtH := 20 } exSlope.height exSlope.length = 30 := by
    simp only [totL, exSlope_height, exSlope_length]; norm_num
  constructor
  · exact this
  · change (totL _ _ _ - exSlope.length) / 2 = _
    rw [this]; simp; norm_num

end PySlope
