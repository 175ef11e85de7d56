import Verif.Lemmas.Real

/-! # Closed form of the boundary methods at `ℝ` -/

namespace PySlope

/-- Model height for a slope height and length. -/
noncomputable def totH (s : Slope ℝ) (h l : ℝ) : ℝ := max (max (3 * h) s.minExtH) (5 * l / 2)
/-- Model length for a slope height and length. -/
noncomputable def totL (s : Slope ℝ) (h l : ℝ) : ℝ := max (max (5 * l) s.minExtL) (4 * h)

/-- What `applyBoundary` leaves. -/
noncomputable def Slope.withGeo (s : Slope ℝ) (h l : ℝ) : Slope ℝ :=
  let H := totH s h l
  let L := totL s h l
  let dx := (L - l) / 2
  { s with
    extBoundary := some [(0, 0), (0, H), (dx, H), (dx + l, H - h), (L, H - h), (L, 0), (0, 0)]
    length := l, height := h, gradient := h / l
    topX := dx, topY := H, botX := dx + l, botY := H - h, extL := L, extH := H
    udls := s.udls.map (fun p => placeUdl dx p.load)
    lls := s.lls.map (fun p => placeLl dx p.load)
    lim1 := 0, lim2 := dx, lim3 := dx, lim4 := L
    search := [] }

theorem removeAnalysisLimits_eq (s : Slope ℝ) (h0 : 0 < s.topX) (h1 : s.topX < s.extL) :
    s.removeAnalysisLimits =
      ({ s with lim1 := 0, lim2 := s.topX, lim3 := s.topX, lim4 := s.extL, search := [] },
        .ok ()) := by
  have a : ¬ s.topX < 0 := not_lt.mpr h0.le
  have b : ¬ s.extL < 0 := not_lt.mpr (h0.trans h1).le
  simp [Slope.removeAnalysisLimits, Slope.setAnalysisLimits, Out.andThen, Slope.resetResults,
    assertPositiveNumber, assertStrictlyPositiveNumber, PyCmp.ltb, PyVal.get!, a, b,
    not_le.mpr h0, not_le.mpr h1, bind, Except.bind, pure, Except.pure]

/-- The state `applyBoundary` builds before the limits are reset. -/
noncomputable def Slope.preGeo (s : Slope ℝ) (h l : ℝ) : Slope ℝ :=
  { s.withGeo h l with
    lim1 := s.lim1, lim2 := s.lim2, lim3 := s.lim3, lim4 := s.lim4, search := s.search }

theorem applyBoundary_pre (s : Slope ℝ) (h l : ℝ) :
    s.applyBoundary h l =
      (s.preGeo h l).removeAnalysisLimits.andThen fun s _ => (s.resetResults, .ok ()) := by
  unfold Slope.applyBoundary
  simp only [pyMax_real, lit_zero]
  rfl

theorem totL_ge (s : Slope ℝ) (h l : ℝ) : 5 * l ≤ totL s h l :=
  (le_max_left _ _).trans (le_max_left _ _)

theorem applyBoundary_eq (s : Slope ℝ) (h l : ℝ) (hl : 0 < l) :
    s.applyBoundary h l = (s.withGeo h l, .ok ()) := by
  have hL := totL_ge s h l
  rw [applyBoundary_pre, removeAnalysisLimits_eq]
  · rfl
  · change 0 < (totL s h l - l) / 2
    linarith
  · change (totL s h l - l) / 2 < totL s h l
    linarith

end PySlope
