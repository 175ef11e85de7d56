import Verif.Props.Steady
import Verif.Props.RoundingDynamicCase

/-! # Small changes of what is entered, in a dynamic analysis (C115) -/

namespace PySlope

/-- **C115** (proved part). The same for a dynamic analysis: if no coincidence is met, the code it returns does not change and
the offsets and factors of safety it finds are continuous in everything that is entered and in the critical factor of
safety. Missing: analyses with a coincidence. -/
theorem C115_dynamic_partial (h a l : PyVal ℝ) (p : ProperBoundary h a l) (s0 : Slope ℝ) (e0 : Slope.new h a l = .ok s0)
    (ops : List (Op ℝ)) (valid : ∀ o ∈ ops, o.Valid) (nt : NoTiesRun ops s0) (crit : ℝ)
    (nd : NoTiesDynamic (runAll ops s0) crit) (δ : ℝ) (hδ : 0 < δ) :
    ∃ ε > 0, ∀ (h' a' l' : PyVal ℝ) (ops' : List (Op ℝ)) (crit' : ℝ), CloseVal ε id h h' → CloseVal ε id a a' →
      CloseVal ε id l l' → List.Forall₂ (CloseOp ε id) ops ops' → |crit' - crit| ≤ ε →
      ∃ t0 code, Slope.new h' a' l' = .ok t0 ∧ NoRaise ops' t0 ∧ ((runAll ops s0).analyseDynamic crit false).2 = .ok code ∧
        ((runAll ops' t0).analyseDynamic crit' false).2 = .ok code ∧
        ∃ r, r.Perm ((runAll ops' t0).analyseDynamic crit' false).1.dynResults ∧
          List.Forall₂ (fun e e' => |e'.1 - e.1| ≤ δ ∧ |e'.2 - e.2| ≤ δ)
            ((runAll ops s0).analyseDynamic crit false).1.dynResults r := by
  obtain ⟨ε, hε, key⟩ := C116_dynamic h a l p s0 e0 ops valid nt crit nd δ hδ
  exact ⟨ε, hε, key ℝ id (accurate_id hε.le) (accurateTan_id hε.le) fun _ => rfl⟩

/-- A case: the height, the load and the critical factor of safety of the case of C116 are changed a little. -/
example (δ : ℝ) (hδ : 0 < δ) : ∃ ε > 0, ∀ e, 0 ≤ e → e ≤ ε → ∃ t0, Slope.new (.num (3 + e)) (.num 30) (.num 3) = .ok t0 ∧
    ((runAll [.setMaterials [some (exFric 0 kC)], .addSingleCircularPlane 8 (41 / 4) (13 / 4), .setLls [some (dynLl e)]]
      t0).analyseDynamic (1.995 - e) false).2 = .ok none := by
  have main := C115_dynamic_partial (.num 3) (.num 30) (.num 3) ⟨⟨3, rfl, by norm_num⟩, ⟨30, rfl, by norm_num, by norm_num⟩,
    .inr ⟨_, rfl, by norm_num⟩⟩ exSlope exSlope_new kOps kOps_valid kOps_noTies 1.995
  rw [kOps_run] at main
  obtain ⟨ε, hε, h⟩ := main kDynamic δ hδ
  refine ⟨ε, hε, fun e h0 he => ?_⟩
  have same : ∀ x : ℝ, |id x - x| ≤ ε := fun x => by simpa using hε.le
  have plus : ∀ x : ℝ, |id (x + e) - x| ≤ ε := fun x => by simpa [abs_of_nonneg h0] using he
  obtain ⟨t0, code, h1, -, h2, h3, -⟩ := h (.num (3 + e)) (.num 30) (.num 3)
    [.setMaterials [some (exFric 0 kC)], .addSingleCircularPlane 8 (41 / 4) (13 / 4), .setLls [some (dynLl e)]] (1.995 - e)
    (plus _) (same _) (same _)
    (.cons (.cons (.some ⟨same _, same _, same _, same _⟩) .nil) (.cons ⟨same _, same _, same _⟩ (.cons (.cons (.some
      ⟨same _, by change abs (abs e - abs (0 : ℝ)) ≤ ε; rwa [abs_of_nonneg h0, abs_zero, sub_zero, abs_of_nonneg h0], rfl⟩) .nil) .nil)))
    (by rw [sub_sub_cancel_left, abs_neg, abs_of_nonneg h0]; exact he)
  rw [kResult.1] at h2
  injection h2 with h2
  subst h2
  exact ⟨t0, h1, h3⟩

end PySlope
