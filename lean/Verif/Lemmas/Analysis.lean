import Verif.Spec.Results
import Verif.Spec.Ops
import Verif.Lemmas.Real

/-! # What an analysis reads and writes -/

namespace PySlope

variable {K : Type} [PyNum K]

/-- `t` differs from `s` only in attributes no analysis reads. -/
structure SameSetup (s t : Slope K) : Prop where
  gradient : t.gradient = s.gradient
  topX : t.topX = s.topX
  topY : t.topY = s.topY
  botX : t.botX = s.botX
  botY : t.botY = s.botY
  extL : t.extL = s.extL
  extH : t.extH = s.extH
  lim1 : t.lim1 = s.lim1
  lim2 : t.lim2 = s.lim2
  lim3 : t.lim3 = s.lim3
  lim4 : t.lim4 = s.lim4
  materials : t.materials = s.materials
  udls : t.udls = s.udls
  lls : t.lls = s.lls
  waterRL : t.waterRL = s.waterRL
  waterH : t.waterH = s.waterH
  slices : t.slices = s.slices
  iterations : t.iterations = s.iterations
  minFailureDist : t.minFailureDist = s.minFailureDist
  tolerance : t.tolerance = s.tolerance
  maxIterations : t.maxIterations = s.maxIterations

namespace SameSetup
variable {s t : Slope K} (h : SameSetup s t)
include h

theorem getExternalY : t.getExternalY = s.getExternalY := by
  funext x
  unfold Slope.getExternalY
  rw [h.gradient, h.topX, h.topY, h.botX, h.botY, h.extL]

theorem getExternalX : t.getExternalX = s.getExternalX := by
  funext x
  unfold Slope.getExternalX
  rw [h.gradient, h.topX, h.topY, h.botX, h.botY, h.extL, h.extH]

theorem circleExternalIntersection :
    t.circleExternalIntersection = s.circleExternalIntersection := by
  funext x y z
  unfold Slope.circleExternalIntersection
  rw [h.topX, h.topY, h.botX, h.botY, h.extL]

theorem planeLoop (b c C : K) (num todo : Nat) (l r : K × K) :
    t.planeLoop b c C num todo l r = s.planeLoop b c C num todo l r := by
  induction todo generalizing l r with
  | zero => rfl
  | succ n ih =>
    unfold Slope.planeLoop
    simp only [h.circleExternalIntersection, ih]

theorem generatePlanes : t.generatePlanes = s.generatePlanes := by
  funext l r n
  unfold Slope.generatePlanes
  simp only [h.planeLoop]

theorem planesFrom (l : K × K) (num : Nat) (rs) : t.planesFrom l num rs = s.planesFrom l num rs := by
  induction rs with
  | nil => rfl
  | cons a rs ih =>
    rcases a with ⟨x, _ | y⟩
    · rfl
    · unfold Slope.planesFrom
      simp only [h.generatePlanes, h.minFailureDist, ih]

theorem planesAll (num : Nat) (rs ls) : t.planesAll num rs ls = s.planesAll num rs ls := by
  induction ls with
  | nil => rfl
  | cons a ls ih =>
    unfold Slope.planesAll
    simp only [h.planesFrom, ih]

theorem entryPoints : t.entryPoints = s.entryPoints := by
  unfold Slope.entryPoints
  rw [h.iterations, h.lls, h.udls, h.lim1, h.lim2, h.topY]

theorem exitPoints : t.exitPoints = s.exitPoints := by
  unfold Slope.exitPoints Slope.rightCoords
  rw [h.iterations, h.lim3, h.lim4, h.getExternalY]

theorem entryExitPlanes : t.entryExitPlanes = s.entryExitPlanes := by
  unfold Slope.entryExitPlanes
  simp only [h.entryPoints, h.exitPoints, h.iterations, h.planesAll]

theorem sliceRows : t.sliceRows = s.sliceRows := by
  funext a b c d e
  have hr : t.row = s.row := by
    funext a b c d
    unfold Slope.row Slope.sliceTop
    rw [h.gradient, h.topX, h.topY, h.botX, h.botY]
  unfold Slope.sliceRows
  rw [h.slices, hr]

theorem sliceForces : t.sliceForces = s.sliceForces := by
  funext w rows
  have hw : t.rowWeight = s.rowWeight := by
    funext a b
    unfold Slope.rowWeight Slope.stripWeight
    rw [h.extH, h.materials, h.udls, h.lls]
  have hx : t.waterX = s.waterX := by
    unfold Slope.waterX
    rw [h.waterRL, h.getExternalX]
  have hh : t.waterHead = s.waterHead := by
    funext a b
    unfold Slope.waterHead
    rw [h.botX, h.waterH]
  have hs : t.rowStrength = s.rowStrength := by
    funext a
    unfold Slope.rowStrength
    rw [h.materials]
  unfold Slope.sliceForces
  rw [hw, hx, hh, hs]

theorem ordinary : t.ordinary = s.ordinary := by
  funext a b c d e
  have he : t.ordinaryEnds = s.ordinaryEnds := by
    funext a b c d e
    unfold Slope.ordinaryEnds
    rw [h.circleExternalIntersection]
  unfold Slope.ordinary
  rw [he, h.slices, h.sliceRows, h.sliceForces]

theorem bishop : t.bishop = s.bishop := by
  funext a b c d e
  have he : t.bishopEnds = s.bishopEnds := by
    funext a b c d e
    unfold Slope.bishopEnds
    rw [h.circleExternalIntersection]
  unfold Slope.bishop
  rw [he, h.slices, h.sliceRows, h.sliceForces, h.ordinary, h.tolerance, h.maxIterations]

theorem fillFos (ps : List (Plane K)) : t.fillFos ps = s.fillFos ps := by
  induction ps with
  | nil => rfl
  | cons p ps ih =>
    unfold Slope.fillFos
    rw [h.bishop, ih]

end SameSetup

theorem fosOf_some {s : Slope K} {p : Plane K} {x : K} : fosOf s p = some x ↔
    s.bishop p.cx p.cy p.radius none none = .ok x := by
  unfold fosOf
  cases s.bishop p.cx p.cy p.radius none none with
  | ok y => simp
  | error e => simp

/-- The fate of the loop over the planes: it ends with every plane filled in, or it stops at the
first plane that raises. -/
theorem fillFos_cases (s : Slope K) (ps : List (Plane K)) :
    (s.fillFos ps = (ps.map (withFos s), none) ∧ ∀ p ∈ ps, ∀ e, ¬ FosRaises s p e) ∨
    ∃ pre p post e, ps = pre ++ p :: post ∧ FosRaises s p e ∧ (∀ q ∈ pre, ∀ e, ¬ FosRaises s q e) ∧
      s.fillFos ps = (pre.map (withFos s) ++ p :: post, some e) := by
  induction ps with
  | nil => left; exact ⟨rfl, by simp⟩
  | cons p ps ih =>
    cases hb : s.bishop p.cx p.cy p.radius none none with
    | ok x =>
      have hw : withFos s p = { p with fos := some (some x) } := by
        unfold withFos; rw [fosOf_some.mpr hb]
      have hn : ∀ e, ¬ FosRaises s p e := by intro e h; unfold FosRaises at h; rw [hb] at h; cases h
      have e1 : s.fillFos (p :: ps) =
          (withFos s p :: (s.fillFos ps).1, (s.fillFos ps).2) := by
        rw [Slope.fillFos]
        simp only [toFos, hb, hw]
      rcases ih with ⟨h1, h2⟩ | ⟨pre, q, post, e, rfl, h2, h3, h4⟩
      · left
        rw [e1, h1]
        refine ⟨rfl, ?_⟩
        intro q hq
        rcases List.mem_cons.mp hq with rfl | hq
        · exact hn
        · exact h2 q hq
      · right
        refine ⟨p :: pre, q, post, e, rfl, h2, ?_, ?_⟩
        · intro q' hq'
          rcases List.mem_cons.mp hq' with rfl | hq'
          · exact hn
          · exact h3 q' hq'
        · rw [e1, h4]; rfl
    | error st =>
      cases st with
      | retNone =>
        have hw : withFos s p = { p with fos := some none } := by
          unfold withFos fosOf; rw [hb]
        have hn : ∀ e, ¬ FosRaises s p e := by
          intro e h; unfold FosRaises at h; rw [hb] at h; cases h
        have e1 : s.fillFos (p :: ps) =
            (withFos s p :: (s.fillFos ps).1, (s.fillFos ps).2) := by
          rw [Slope.fillFos]
          simp only [toFos, hb, hw]
        rcases ih with ⟨h1, h2⟩ | ⟨pre, q, post, e, rfl, h2, h3, h4⟩
        · left
          rw [e1, h1]
          refine ⟨rfl, ?_⟩
          intro q hq
          rcases List.mem_cons.mp hq with rfl | hq
          · exact hn
          · exact h2 q hq
        · right
          refine ⟨p :: pre, q, post, e, rfl, h2, ?_, ?_⟩
          · intro q' hq'
            rcases List.mem_cons.mp hq' with rfl | hq'
            · exact hn
            · exact h3 q' hq'
          · rw [e1, h4]; rfl
      | raise e =>
        right
        refine ⟨[], p, ps, e, rfl, hb, by simp, ?_⟩
        rw [Slope.fillFos]
        simp only [toFos, hb]
        rfl

/-- Writing the factor of safety again changes nothing. -/
theorem withFos_withFos (s : Slope K) (p : Plane K) : withFos s (withFos s p) = withFos s p := rfl

theorem SameSetup.fosOf {s t : Slope K} (h : SameSetup s t) (p : Plane K) :
    fosOf t p = PySlope.fosOf s p := by
  unfold PySlope.fosOf; rw [h.bishop]

theorem SameSetup.withFos {s t : Slope K} (h : SameSetup s t) :
    withFos t = PySlope.withFos s := by
  funext p
  unfold PySlope.withFos; rw [h.fosOf]

theorem andThen_ok {α β : Type} {o : Out K α} {f : Slope K → α → Out K β} {t : Slope K} {b : β}
    (h : o.andThen f = (t, .ok b)) : ∃ s a, o = (s, .ok a) ∧ f s a = (t, .ok b) := by
  obtain ⟨s, r⟩ := o
  cases r with
  | ok a => exact ⟨s, a, rfl, h⟩
  | error e => cases h

end PySlope
