import Verif.Lemmas.Boundary
import Verif.Lemmas.Sort
import Verif.Spec.Reachable

/-! # An invariant of every reachable state -/

namespace PySlope

/-- Well-formed geometry. -/
structure Geo (s : Slope ℝ) : Prop where
  bnd : s.extBoundary.isSome
  hgt : 0 ≤ s.height
  len : 0.001 ≤ s.length
  grad : s.gradient = s.height / s.length
  topX : s.topX = (s.extL - s.length) / 2
  topY : s.topY = s.extH
  botX : s.botX = s.topX + s.length
  botY : s.botY = s.extH - s.height
  extL5 : 5 * s.length ≤ s.extL
  extL4 : 4 * s.height ≤ s.extL
  extH3 : 3 * s.height ≤ s.extH
  extH5 : 5 * s.length / 2 ≤ s.extH

/-- The invariant. -/
structure WF (s : Slope ℝ) : Prop where
  geo : Geo s
  l1 : 0 ≤ s.lim1
  l12 : s.lim1 < s.lim2
  l2 : s.lim2 ≤ s.topX
  l3 : s.topX ≤ s.lim3
  l34 : s.lim3 < s.lim4
  l4 : s.lim4 ≤ s.extL
  sl : 10 ≤ s.slices ∧ s.slices ≤ 500
  it : 500 ≤ s.iterations ∧ s.iterations ≤ 100000
  wh : 0 ≤ s.waterH ∧ s.waterH ≤ 1
  udl : ∀ p ∈ s.udls, p = placeUdl s.topX p.load
  ll : ∀ p ∈ s.lls, p = placeLl s.topX p.load
  mats : s.materials.Pairwise (fun a b => a.mat.depth < b.mat.depth)

theorem andThen_inv {K : Type} {α β : Type} {I : Slope K → Prop} (o : Out K α)
    (f : Slope K → α → Out K β) (h : I o.1) (hf : ∀ s a, I s → I (f s a).1) :
    I (o.andThen f).1 := by
  obtain ⟨s, r⟩ := o
  cases r with
  | ok a => exact hf s a h
  | error e => exact h

theorem forEach_inv {K : Type} {α : Type} {I : Slope K → Prop} (f : Slope K → α → Out K Unit)
    (hf : ∀ s a, I s → I (f s a).1) (l : List α) (s : Slope K) (h : I s) :
    I (Slope.forEach f l s).1 := by
  induction l generalizing s with
  | nil => exact h
  | cons a l ih => exact andThen_inv _ _ (hf s a h) (fun s _ hs => ih s hs)

theorem WF.withGeo {s : Slope ℝ} {h l : ℝ} (hh : 0 ≤ h) (hl : 0.001 ≤ l)
    (sl : 10 ≤ s.slices ∧ s.slices ≤ 500) (it : 500 ≤ s.iterations ∧ s.iterations ≤ 100000)
    (wh : 0 ≤ s.waterH ∧ s.waterH ≤ 1)
    (mats : s.materials.Pairwise (fun a b => a.mat.depth < b.mat.depth)) :
    WF (s.withGeo h l) := by
  have hL := totL_ge s h l
  have hpos : (0 : ℝ) < l := by norm_num at hl ⊢; linarith
  have hL4 : 4 * h ≤ totL s h l := le_max_right _ _
  have hH3 : 3 * h ≤ totH s h l := (le_max_left _ _).trans (le_max_left _ _)
  have hH5 : 5 * l / 2 ≤ totH s h l := le_max_right _ _
  refine ⟨⟨rfl, hh, hl, rfl, rfl, rfl, rfl, rfl, hL, hL4, hH3, hH5⟩, le_refl _, ?_, le_refl _,
    le_refl _, ?_, le_refl _, sl, it, wh, ?_, ?_, mats⟩
  · change (0 : ℝ) < (totL s h l - l) / 2; linarith
  · change (totL s h l - l) / 2 < totL s h l; linarith
  · intro p hp
    obtain ⟨q, _, rfl⟩ := List.mem_map.mp hp; rfl
  · intro p hp
    obtain ⟨q, _, rfl⟩ := List.mem_map.mp hp; rfl

theorem boundaryInputs_ok {h a l : PyVal ℝ} {H L : ℝ} (e : boundaryInputs h a l = .ok (H, L)) :
    0 ≤ H ∧ 0.001 ≤ L := by
  rcases h with x | x | _ | _ <;> rcases a with y | y | _ | _ <;> rcases l with z | z | _ | _ <;>
    simp [boundaryInputs, assertStrictlyPositiveNumber, assertPositiveNumber, assertRange,
      PyCmp.ltb, PyCmp.eqb, bind, Except.bind, pure, Except.pure, PyVal.get!, PyVal.truthy,
      throw, throwThe, MonadExceptOf.throw] at e <;>
    (repeat' split at e) <;> simp_all <;> obtain ⟨rfl, rfl⟩ := e <;> simp_all

theorem WF.setExternalBoundary {s : Slope ℝ} (w : WF s) (h a l : PyVal ℝ) :
    WF (s.setExternalBoundary h a l).1 := by
  unfold Slope.setExternalBoundary
  split
  · exact w
  · rename_i H L e
    obtain ⟨h1, h2⟩ := boundaryInputs_ok e
    have : (0 : ℝ) < L := by norm_num at h2 ⊢; linarith
    rw [applyBoundary_eq _ _ _ this]
    exact WF.withGeo h1 h2 w.sl w.it w.wh w.mats

end PySlope
