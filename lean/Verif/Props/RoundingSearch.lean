import Verif.Lemmas.LimitSearch
import Verif.Props.RoundingCalls

/-! # A whole search with rounding errors (C112) -/

namespace PySlope
open Filter Topology Lit

/-- What a search reports is what is reported for its circles, added one by one. -/
theorem search_report {K : Type} [PyNum K] {t : Slope K} (hi : t.individual = []) {ps : List (Plane K)}
    (h : t.entryExitPlanes = .ok ps) (hne : ps ≠ []) :
    (t.analyseSlope none).2 = (({ t with individual := ps } : Slope K).analyseSlope none).2 ∧
    (t.analyseSlope none).1.getMinFos = (({ t with individual := ps } : Slope K).analyseSlope none).1.getMinFos := by
  have same : SameSetup t { t with individual := ps } := by constructor <;> rfl
  unfold Slope.analyseSlope
  rw [hi, h]
  cases hp : ps with
  | nil => exact absurd hp hne
  | cons p rest =>
    simp only []
    rw [← hp, same.fillFos]
    cases (t.fillFos ps).2 <;> exact ⟨rfl, rfl⟩

/-- **C112**. The same search, run with rounding errors and with numbers that were rounded before, does not raise and
reports the same factor of safety up to `δ`, if the errors are small enough: a slope, any configuration of it by calls
without coincidences, no circle added, and no coincidence in the search. -/
theorem C112_search (h a l : PyVal ℝ) (p : ProperBoundary h a l) (s0 : Slope ℝ) (e0 : Slope.new h a l = .ok s0)
    (ops : List (Op ℝ)) (valid : ∀ o ∈ ops, o.Valid) (nt : NoTiesRun ops s0) (none_added : (runAll ops s0).individual = [])
    (ns : NoTiesSearch (runAll ops s0)) (ps : List (Plane ℝ)) (hs : (runAll ops s0).entryExitPlanes = .ok ps) (hne : ps ≠ [])
    (hv : ∀ p ∈ ps, ∃ F, (runAll ops s0).bishop p.cx p.cy p.radius none none = .ok F)
    (ne : ∀ p ∈ ps, NoTiesEnds (runAll ops s0) p.cx p.cy p.radius)
    (nb : ∀ p ∈ ps, ∀ l q, FirstCrossings (runAll ops s0) p.cx p.cy p.radius l q →
      NoTiesBishop (runAll ops s0) p.cx p.cy p.radius l.1 q.1) (δ : ℝ) (hδ : 0 < δ) :
    ∃ F, ((runAll ops s0).analyseSlope none).1.getMinFos = .ok (some F) ∧
    ∃ ε > 0, ∀ (K : Type) [PyNum K] (val : K → ℝ), Accurate ε val → AccurateTan ε val →
      ∀ (h' a' l' : PyVal K) (ops' : List (Op K)), CloseVal ε val h h' → CloseVal ε val a a' → CloseVal ε val l l' →
      List.Forall₂ (CloseOp ε val) ops ops' →
      ∃ t0, Slope.new h' a' l' = .ok t0 ∧ NoRaise ops' t0 ∧ ((runAll ops' t0).analyseSlope none).2 = .ok () ∧
        ∃ F', ((runAll ops' t0).analyseSlope none).1.getMinFos = .ok (some F') ∧ |val F' - F| ≤ δ := by
  have rs0 : Reachable s0 := .init e0
  have rs := reachable_runAll rs0 valid
  classical
  choose! f hf using hv
  have same : SameSetup (runAll ops s0) { runAll ops s0 with individual := ps } := by constructor <;> rfl
  obtain ⟨F, hF, ε0, hε0, key⟩ := report_close { runAll ops s0 with individual := ps } hne f
    (fun p hp => by rw [same.bishop]; exact hf p hp) δ fun p hp => by
      obtain ⟨ε, hε, k⟩ := C110_circle _ rs p.cx p.cy p.radius (f p) (hf p hp) (ne p hp) (nb p hp) δ hδ
      exact ⟨ε, hε, fun K _ val acc t c => k K val acc t
        ⟨c.1, c.2, c.3, c.4, c.5, c.6, c.7, c.8, c.9, c.10, c.11, c.12, c.13, c.14, c.15⟩⟩
  refine ⟨F, (search_report none_added hs hne).2.trans hF, ?_⟩
  by_contra hc
  push Not at hc
  choose K I val acc acct h' a' l' ops' ch ca cl co bad using
    fun n : ℕ => hc (1 / ((n : ℝ) + 1)) Nat.one_div_pos_of_nat
  have B := better_of acc
  obtain ⟨S, s, k1, k2, k3⟩ := B.built acct p ch ca cl
  rw [e0] at k1
  injection k1 with k1
  subst k1
  obtain ⟨m1, g, m2⟩ := B.runAll acct k3 rs0 valid co nt
  obtain ⟨P, r1, r2⟩ := B.search rs.wf.geo m1 ns hs
  have m3 := r1.near (P := fun n p p' => |val n p'.cx - p.cx| ≤ ε0 ∧ |val n p'.cy - p.cy| ≤ ε0 ∧
    |val n p'.radius - p.radius| ≤ ε0) (fun x y r => by
      filter_upwards [r.cx.near hε0, r.cy.near hε0, r.radius.near hε0] with n a b c
      exact ⟨a, b, c⟩)
  have m4 := m1.individual.near (P := fun n (_ : Plane ℝ) (_ : Plane (K n)) => True) (fun _ _ _ => .of_forall fun _ => trivial)
  obtain ⟨n, w1, w2, w3, w4, w5, w6, w7⟩ := (k2.and (m2.and ((m1.close hε0).and (m3.and
    ((B.zero.eventually (gt_mem_nhds hε0)).and (r2.and m4)))))).exists
  rw [none_added, List.forall₂_nil_left_iff] at w7
  have hne' : P n ≠ [] := by
    intro e
    rw [e, List.forall₂_nil_right_iff] at w4
    exact hne w4
  obtain ⟨v1, F', v2, v3⟩ := key (K n) (val n) ((acc n).mono w5.le) { runAll (ops' n) (S n) with individual := P n }
    ⟨w3.1, w3.2, w3.3, w3.4, w3.5, w3.6, w3.7, w3.8, w3.9, w3.10, w3.11, w3.12, w3.13, w3.14, w3.15⟩ w4
  obtain ⟨x1, x2⟩ := search_report w7 w6 hne'
  exact absurd (bad n (S n) w1 w2 (x1.trans v1) F' (x2.trans v2)) (not_lt.mpr v3)

end PySlope
