import Verif.Lemmas.Slices

/-! # Closed form of the two methods over the reals -/

namespace PySlope

/-- Weight, water and strength of one slice. -/
noncomputable def Slope.forceAt (s : Slope ℝ) (w : ℝ) (water : Option (ℝ × ℝ)) (ct : ℝ × ℝ)
    (q : Row ℝ) : SliceForces ℝ :=
  { W := s.rowWeight w q, u := s.waterHead water q, c := ct.1, tanPhi := ct.2,
    cosA := q.cosA, sinA := q.sinA }

theorem rowStrength_none {s : Slope ℝ} {yb : ℝ} : s.rowStrength yb = none ↔ s.materials = [] := by
  unfold Slope.rowStrength
  cases h : s.materials.getLast? with
  | none => simpa using h
  | some l => simp; intro h'; rw [h'] at h; cases h

/-- Strength at the base of a slice, with a dummy when there is no material. -/
noncomputable def Slope.strengthAt (s : Slope ℝ) (yb : ℝ) : ℝ × ℝ := (s.rowStrength yb).getD (0, 0)

theorem rowStrength_some {s : Slope ℝ} (h : s.materials ≠ []) (yb : ℝ) :
    s.rowStrength yb = some (s.strengthAt yb) := by
  unfold Slope.strengthAt
  cases e : s.rowStrength yb with
  | none => exact absurd (rowStrength_none.mp e) h
  | some x => rfl

/-- Forces on the slices. -/
noncomputable def Slope.forcesAt (s : Slope ℝ) (w : ℝ) (water : Option (ℝ × ℝ))
    (rows : List (Row ℝ)) : List (SliceForces ℝ) :=
  rows.map fun q => s.forceAt w water (s.strengthAt q.yb) q

theorem sliceForces_eq {s : Slope ℝ} (hm : s.materials ≠ []) {water} (hw : s.waterX = .ok water)
    (w : ℝ) (rows : List (Row ℝ)) :
    s.sliceForces w rows = .ok (s.forcesAt w water rows) := by
  unfold Slope.sliceForces
  rw [hw]
  simp only [bind, Except.bind]
  apply mapM_ok
  intro q _
  rw [rowStrength_some hm]
  rfl

theorem sliceForces_ok {s : Slope ℝ} {w : ℝ} {rows : List (Row ℝ)} {fs}
    (e : s.sliceForces w rows = .ok fs) :
    ∃ water, s.waterX = .ok water ∧ fs = s.forcesAt w water rows ∧
      (rows ≠ [] → s.materials ≠ []) := by
  have e' := e
  unfold Slope.sliceForces at e
  cases hw : s.waterX with
  | error x => rw [hw] at e; cases e
  | ok water =>
    rw [hw] at e
    simp only [bind, Except.bind] at e
    refine ⟨water, rfl, ?_⟩
    by_cases hm : s.materials = []
    · cases rows with
      | nil => cases e; exact ⟨rfl, fun h => absurd rfl h⟩
      | cons q rows =>
        obtain ⟨b, hb⟩ := mapM_ok_mem e q (by simp)
        rw [rowStrength_none.mpr hm] at hb
        cases hb
    · refine ⟨?_, fun _ => hm⟩
      rw [sliceForces_eq hm hw] at e'
      cases e'; rfl

/-- Without a material a circle with slices never gets a number. -/
theorem sliceForces_noMaterial {s : Slope ℝ} (hm : s.materials = []) {w : ℝ} {rows : List (Row ℝ)}
    (hr : rows ≠ []) {water} (hw : s.waterX = .ok water) :
    s.sliceForces w rows = .error .retNone := by
  cases rows with
  | nil => exact absurd rfl hr
  | cons q rows =>
    unfold Slope.sliceForces
    rw [hw]
    simp only [bind, Except.bind, List.mapM_cons]
    rw [rowStrength_none.mpr hm]

/-- The width of the slices between two abscissas. -/
noncomputable def Slope.width (s : Slope ℝ) (xl xr : ℝ) : ℝ := (xr - xl) / s.slices

/-- The slices with their forces. -/
noncomputable def Slope.forces (s : Slope ℝ) (water : Option (ℝ × ℝ)) (cx cy r xl xr : ℝ) :
    List (SliceForces ℝ) :=
  s.forcesAt (s.width xl xr) water (s.rowsAt cx cy r xl xr)

/-- Ordinary factor of safety of a list of slices. -/
noncomputable def ordinaryFos (w : ℝ) (fs : List (SliceForces ℝ)) : ℝ :=
  (fs.map (ordinaryTerm w)).sum / (fs.map fun f => f.W * f.sinA).sum

theorem drivingSum_real (fs : List (SliceForces ℝ)) :
    drivingSum fs = (fs.map fun f => f.W * f.sinA).sum := lsum_real _

/-- When the ordinary method gives a number, and which. -/
theorem ordinary_ok {s : Slope ℝ} (hn : 2 ≤ s.slices) {cx cy r F : ℝ} {l rt : ℝ × ℝ}
    (e : s.ordinary cx cy r (some l) (some rt) = .ok F) :
    0 ≤ cx ∧ 0 ≤ cy ∧ 0 ≤ r ∧ 1e-6 < rt.1 - l.1 ∧
    (∀ i < s.slices.toNat, (centre l.1 rt.1 s.slices i - cx) ^ 2 < r ^ 2) ∧
    s.materials ≠ [] ∧
    ∃ water, s.waterX = .ok water ∧ 0 < drivingSum (s.forces water cx cy r l.1 rt.1) ∧
      F = ordinaryFos (s.width l.1 rt.1) (s.forces water cx cy r l.1 rt.1) := by
  unfold Slope.ordinary at e
  by_cases h0 : cx < 0 ∨ cy < 0 ∨ r < 0
  · rw [if_pos (by simpa using h0)] at e; cases e
  rw [if_neg (by simpa using h0)] at e
  push Not at h0
  simp only [Slope.ordinaryEnds, bind, Except.bind, pure, Except.pure, ofInt_real] at e
  by_cases h1 : rt.1 - l.1 ≤ 1e-6
  · rw [if_pos h1] at e; cases e
  rw [if_neg h1] at e
  push Not at h1
  cases hr : s.sliceRows cx cy r l.1 rt.1 with
  | error x => rw [hr] at e; cases e
  | ok rows =>
    rw [hr] at e
    obtain ⟨rfl, hin⟩ := sliceRows_ok hn hr
    simp only at e
    cases hf : s.sliceForces ((rt.1 - l.1) / s.slices) (s.rowsAt cx cy r l.1 rt.1) with
    | error x => rw [hf] at e; cases e
    | ok fs =>
      rw [hf] at e
      obtain ⟨water, hw, rfl, hm⟩ := sliceForces_ok hf
      simp only [lit_zero] at e
      refine ⟨h0.1, h0.2.1, h0.2.2, h1, hin, hm ?_, water, hw, ?_⟩
      · intro hh
        have := congrArg List.length hh
        simp [Slope.rowsAt] at this
        omega
      · by_cases hd : drivingSum (s.forcesAt ((rt.1 - l.1) / s.slices) water
            (s.rowsAt cx cy r l.1 rt.1)) ≤ 0
        · rw [if_pos hd] at e; cases e
        · rw [if_neg hd] at e
          push Not at hd
          refine ⟨hd, ?_⟩
          cases e
          rw [lsum_real, drivingSum_real]
          rfl

/-- The ordinary method on a circle in order. -/
theorem ordinary_eq {s : Slope ℝ} (hn : 2 ≤ s.slices) {cx cy r : ℝ} {l rt : ℝ × ℝ}
    (h0 : 0 ≤ cx ∧ 0 ≤ cy ∧ 0 ≤ r) (h1 : 1e-6 < rt.1 - l.1)
    (hin : ∀ i < s.slices.toNat, (centre l.1 rt.1 s.slices i - cx) ^ 2 < r ^ 2)
    (hm : s.materials ≠ []) {water} (hw : s.waterX = .ok water) :
    s.ordinary cx cy r (some l) (some rt) =
      if drivingSum (s.forces water cx cy r l.1 rt.1) ≤ 0 then .error .retNone
      else .ok (ordinaryFos (s.width l.1 rt.1) (s.forces water cx cy r l.1 rt.1)) := by
  unfold Slope.ordinary
  have h0' : ¬ (cx < 0 ∨ cy < 0 ∨ r < 0) := by push Not; exact h0
  rw [if_neg (by simpa using h0')]
  simp only [Slope.ordinaryEnds, bind, Except.bind, pure, Except.pure, ofInt_real]
  rw [if_neg (not_le.mpr h1)]
  rw [sliceRows_eq s hn cx cy r _ _ hin]
  simp only
  rw [sliceForces_eq hm hw]
  simp only [lit_zero]
  change (if drivingSum (s.forces water cx cy r l.1 rt.1) ≤ 0 then _ else _) = _
  by_cases hd : drivingSum (s.forces water cx cy r l.1 rt.1) ≤ 0
  · rw [if_pos hd, if_pos hd]; rfl
  · rw [if_neg hd, if_neg hd]
    rw [lsum_real]
    unfold ordinaryFos
    rw [← drivingSum_real]
    rfl

/-- Bishop given its end points. -/
theorem bishop_ok {s : Slope ℝ} (hn : 2 ≤ s.slices) {cx cy r F : ℝ} {l rt : Option (ℝ × ℝ)}
    (e : s.bishop cx cy r l rt = .ok F) :
    ∃ l' rt' water F0, s.bishopEnds cx cy r l rt = .ok (l', rt') ∧
      s.ordinary cx cy r (some l') (some rt') = .ok F0 ∧ s.waterX = .ok water ∧
      bishopLoop (s.width l'.1 rt'.1) s.tolerance (s.forces water cx cy r l'.1 rt'.1)
        s.maxIterations.toNat F0 = .ok F := by
  unfold Slope.bishop at e
  cases he : s.bishopEnds cx cy r l rt with
  | error x => rw [he] at e; cases e
  | ok lr =>
    obtain ⟨l', rt'⟩ := lr
    rw [he] at e
    simp only [bind, Except.bind] at e
    cases ho : s.ordinary cx cy r (some l') (some rt') with
    | error x => rw [ho] at e; cases e
    | ok F0 =>
      rw [ho] at e
      obtain ⟨_, _, _, _, hin, hm, water, hw, _, _⟩ := ordinary_ok hn ho
      simp only [ofInt_real] at e
      rw [sliceRows_eq s hn cx cy r _ _ hin] at e
      simp only at e
      rw [sliceForces_eq hm hw] at e
      exact ⟨l', rt', water, F0, rfl, ho, hw, e⟩

theorem bishop_eq {s : Slope ℝ} (hn : 2 ≤ s.slices) {cx cy r F0 : ℝ} {l rt : Option (ℝ × ℝ)}
    {l' rt' : ℝ × ℝ} (he : s.bishopEnds cx cy r l rt = .ok (l', rt'))
    (ho : s.ordinary cx cy r (some l') (some rt') = .ok F0) {water} (hw : s.waterX = .ok water) :
    s.bishop cx cy r l rt = bishopLoop (s.width l'.1 rt'.1) s.tolerance
      (s.forces water cx cy r l'.1 rt'.1) s.maxIterations.toNat F0 := by
  unfold Slope.bishop
  rw [he]
  simp only [bind, Except.bind]
  rw [ho]
  obtain ⟨_, _, _, _, hin, hm, _⟩ := ordinary_ok hn ho
  simp only [ofInt_real]
  rw [sliceRows_eq s hn cx cy r _ _ hin]
  simp only
  rw [sliceForces_eq hm hw]
  rfl

end PySlope
