import Verif.Props.LastLater

/-! # C131: a bound on the factor of safety only cuts the list of results short -/

namespace PySlope

/-- The results with a bound are the beginning of the results without. -/
theorem tidySearch_bound {b : ℝ} (hb : b ≠ 0) (ps : List (Plane ℝ)) :
    ∃ rest, tidySearch none ps = tidySearch (some b) ps ++ rest ∧
      (∀ p ∈ tidySearch (some b) ps, ∃ F, p.fos = some (some F) ∧ F ≤ b) ∧
      ∀ p ∈ rest, ∃ F, p.fos = some (some F) ∧ b < F := by
  have hk : ∀ p : Plane ℝ, p.fosVal.isSome = true → p.fos = some (some (fosKey p)) := by
    intro p hp
    unfold fosKey Plane.fosVal at *
    rcases hf : p.fos with _ | _ | x
    · rw [hf] at hp; cases hp
    · rw [hf] at hp; cases hp
    · rfl
  have e0 : tidySearch none ps = sortByKey fosKey (ps.filter (fun p => p.fosVal.isSome)) := by
    rw [tidySearch_eq]
    exact List.filter_eq_self.mpr fun _ _ => rfl
  have hs := sortByKey_sorted fosKey (ps.filter (fun p => p.fosVal.isSome))
  have hm : ∀ p ∈ sortByKey fosKey (ps.filter (fun p => p.fosVal.isSome)), p.fos = some (some (fosKey p)) := by
    intro p hp
    rw [← e0] at hp
    exact hk p (mem_tidySearch hp).2
  rw [e0, tidySearch_eq]
  generalize sortByKey fosKey (ps.filter (fun p => p.fosVal.isSome)) = l at hs hm
  have kb : ∀ p, keeps (some b) p = decide (fosKey p ≤ b) := fun p => by simp [keeps, hb]
  induction l with
  | nil => exact ⟨[], rfl, by simp, by simp⟩
  | cons p l ih =>
    rw [List.pairwise_cons] at hs
    by_cases hp : fosKey p ≤ b
    · obtain ⟨rest, h1, h2, h3⟩ := ih hs.2 fun q hq => hm q (List.mem_cons_of_mem _ hq)
      have hf : (p :: l).filter (keeps (some b)) = p :: l.filter (keeps (some b)) :=
        List.filter_cons_of_pos (by rw [kb]; simpa using hp)
      rw [hf]
      refine ⟨rest, by rw [List.cons_append, ← h1], ?_, h3⟩
      intro q hq
      rcases List.mem_cons.mp hq with rfl | hq
      · exact ⟨_, hm q (by simp), hp⟩
      · exact h2 q hq
    · have above : ∀ q ∈ p :: l, b < fosKey q := by
        intro q hq
        rcases List.mem_cons.mp hq with rfl | hq
        · exact not_le.mp hp
        · exact (not_le.mp hp).trans_le (hs.1 q hq)
      have hf : (p :: l).filter (keeps (some b)) = [] :=
        List.filter_eq_nil_iff.mpr fun q hq => by rw [kb]; simpa using above q hq
      rw [hf]
      exact ⟨p :: l, rfl, by simp, fun q hq => ⟨_, hm q hq, above q hq⟩⟩

theorem analyse_outcome {K : Type} [PyNum K] (s : Slope K) (m m' : Option K) :
    (s.analyseSlope m).2 = (s.analyseSlope m').2 := by
  unfold Slope.analyseSlope
  split
  · simp only
    split <;> rfl
  · split
    · rfl
    · simp only
      split <;> rfl

/-- C131: with a bound other than 0 an analysis raises or ends as it does without, and if it ends, its results are the
beginning of those without: the ones not above the bound, in the same order. -/
theorem C131_bound (s : Slope ℝ) (b : ℝ) (hb : b ≠ 0) :
    (s.analyseSlope (some b)).2 = (s.analyseSlope none).2 ∧
    ((s.analyseSlope none).2 = .ok () →
      ∃ rest, (s.analyseSlope none).1.search = (s.analyseSlope (some b)).1.search ++ rest ∧
        (∀ p ∈ (s.analyseSlope (some b)).1.search, ∃ F, p.fos = some (some F) ∧ F ≤ b) ∧
        ∀ p ∈ rest, ∃ F, p.fos = some (some F) ∧ b < F) := by
  refine ⟨analyse_outcome s _ _, fun ok => ?_⟩
  obtain ⟨ps, h1, h2, -⟩ := analyseSlope_ok (s := s) (t := (s.analyseSlope none).1) (m := none) (Prod.ext rfl ok)
  rw [analyseSlope_of h1 h2, analyseSlope_of h1 h2]
  exact tidySearch_bound hb _

/-- Specification: a result with a factor of safety that compares as not above `b`. -/
def NotAbove {K : Type} [PyNum K] (b : K) (p : Plane K) : Bool :=
  match p.fos with
  | some (some F) => decide (F ≤ b)
  | _ => false

/-- C131: in any arithmetic, NaN and rounding included, the results with a bound that does not compare equal to 0 are
those of the results without it that have a factor of safety not above the bound, in the same order. -/
theorem C131_any_arithmetic {K : Type} [PyNum K] (s : Slope K) (b : K)
    (hb : pyEq b (@OfNat.ofNat K 0 (Lit.natLit 0)) = false) :
    (s.analyseSlope (some b)).2 = (s.analyseSlope none).2 ∧
    ((s.analyseSlope none).2 = .ok () → (s.analyseSlope (some b)).1.search =
      (s.analyseSlope none).1.search.filter (NotAbove b)) := by
  refine ⟨analyse_outcome s _ _, fun ok => ?_⟩
  obtain ⟨ps, h1, h2, -⟩ := analyseSlope_ok (s := s) (t := (s.analyseSlope none).1) (m := none) (Prod.ext rfl ok)
  rw [analyseSlope_of h1 h2, analyseSlope_of h1 h2]
  change tidySearch (some b) _ = List.filter _ (tidySearch none _)
  unfold tidySearch
  simp only [hb, Bool.false_eq_true, if_false]
  congr 1
  funext p
  unfold Plane.fosVal NotAbove
  rcases p.fos with _ | _ | x <;> rfl

/-- C131: the least factor of safety is the same with a bound it does not exceed; with any other bound there is none. -/
theorem C131_min (s : Slope ℝ) (b : ℝ) (hb : b ≠ 0) (F : ℝ) (ok : (s.analyseSlope none).2 = .ok ())
    (h : (s.analyseSlope none).1.getMinFos = .ok (some F)) :
    (F ≤ b → (s.analyseSlope (some b)).1.getMinFos = .ok (some F) ∧
      (s.analyseSlope (some b)).1.getMinFosCircle = (s.analyseSlope none).1.getMinFosCircle ∧
      (s.analyseSlope (some b)).1.getMinFosEndPoints = (s.analyseSlope none).1.getMinFosEndPoints) ∧
    (b < F → (s.analyseSlope (some b)).1.getMinFos = .error .indexError) := by
  obtain ⟨rest, h1, h2, h3⟩ := (C131_bound s b hb).2 ok
  clear ok
  unfold Slope.getMinFos Slope.getMinFosCircle Slope.getMinFosEndPoints at *
  rw [h1] at h ⊢
  generalize (s.analyseSlope (some b)).1.search = r at h h2 ⊢
  rcases r with _ | ⟨p, l⟩
  · refine ⟨fun hF => ?_, fun _ => rfl⟩
    rcases rest with _ | ⟨p, l⟩
    · cases h
    · obtain ⟨G, hG, hlt⟩ := h3 p (by simp)
      simp only [List.nil_append, hG, Except.ok.injEq, Option.some.injEq] at h
      exact absurd hF (not_le.mpr (h ▸ hlt))
  · refine ⟨fun _ => ⟨h, rfl, rfl⟩, fun hF => ?_⟩
    obtain ⟨G, hG, hle⟩ := h2 p (by simp)
    simp only [List.cons_append, hG, Except.ok.injEq, Option.some.injEq] at h
    exact absurd hF (not_lt.mpr (h ▸ hle))

/-- A case: one circle, and bounds above and below its factor of safety. -/
example : (exReady.analyseSlope none).1.search ≠ [] ∧
    (exReady.analyseSlope (some (exFos + 1))).1.getMinFos = .ok (some exFos) ∧
    (exReady.analyseSlope (some (-1))).1.getMinFos = .error .indexError ∧
    (exReady.analyseSlope (some (-1))).1.analyseSlope none = exReady.analyseSlope none := by
  have h0 : 0 < exFos := exFos_pos
  have ok : (exReady.analyseSlope none).2 = .ok () := by rw [exAnalyse]
  refine ⟨by rw [exAnalyse_search]; simp, ?_, ?_, C25_analysing_twice _ _ _⟩
  · exact ((C131_min exReady (exFos + 1) (by positivity) exFos ok exMinFos).1 (by linarith)).1
  · exact (C131_min exReady (-1) (by norm_num) exFos ok exMinFos).2 (by linarith)

/-- … and the results with the bound above it are a filtered list that is not empty. -/
example : (exReady.analyseSlope (some (exFos + 1))).1.search ≠ [] ∧
    (exReady.analyseSlope (some (exFos + 1))).1.search =
      (exReady.analyseSlope none).1.search.filter (NotAbove (exFos + 1)) := by
  have h0 : 0 < exFos := exFos_pos
  have ok : (exReady.analyseSlope none).2 = .ok () := by rw [exAnalyse]
  refine ⟨fun h => ?_, (C131_any_arithmetic exReady (exFos + 1) ?_).2 ok⟩
  · have := ((C131_min exReady (exFos + 1) (by positivity) exFos ok exMinFos).1 (by linarith)).1
    unfold Slope.getMinFos at this
    rw [h] at this
    cases this
  · rw [pyEq_real, lit_zero]
    simpa using (show exFos + 1 ≠ 0 by positivity)

end PySlope
