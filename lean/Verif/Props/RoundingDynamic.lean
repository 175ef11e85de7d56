import Verif.Lemmas.LimitDynamic

/-! # Dynamic analysis with rounding errors (C116) -/

namespace PySlope
open Filter Topology Lit

/-- A dynamic analysis after its first offset. -/
theorem analyseDynamic_first {K : Type} [PyNum K] {s s1 : Slope K} {m F1 o : K} (crit : K)
    (hm : maxOffset s.topX s.udls s.length = .ok m)
    (h1 : ({ s with dynResults := [] } : Slope K).tryOffset 0 = (s1, .ok F1)) (ho : m - 0.01 = o) :
    s.analyseDynamic crit false = if crit < F1 then (s1, .ok (some 0)) else
      (s1.tryOffset o).andThen fun s fos => if fos < crit then (s, .ok (some 1)) else
        (s.dynLoop crit false 10 o 0 0).andThen fun s _ => (s.sortDynResults, .ok none) := by
  unfold Slope.analyseDynamic
  simp only [hm]
  rw [h1, andThen_goes, ho]

namespace Better
variable {K : ℕ → Type} [∀ n, PyNum (K n)] {val : ∀ n, K n → ℝ} {e : ℕ → ℝ} (B : Better val e)
include B

/-- The greatest offset. -/
theorem maxOffset {x' : ∀ n, K n} {x : ℝ} (hx : Lim val x' x) (L : List ((∀ n, PUdl (K n)) × PUdl ℝ)) :
    (∀ p ∈ L, LimPUdl val p.1 p.2) → (∀ p ∈ L, p.2.load.dynamic = true → p.2.load.length ≠ none) →
    ∀ {m' : ∀ n, K n} {m : ℝ}, Lim val m' m →
    PySlope.maxOffset x (L.map Prod.snd) m =
      .ok (((L.map Prod.snd).filter (·.load.dynamic)).foldl (fun m p => max m (x - p.load.length.getD 0)) m) ∧
    ∃ o' : ∀ n, K n, (∀ᶠ n in atTop, PySlope.maxOffset (x' n) (L.map fun p => p.1 n) (m' n) = .ok (o' n)) ∧
      Lim val o' (((L.map Prod.snd).filter (·.load.dynamic)).foldl (fun m p => max m (x - p.load.length.getD 0)) m) := by
  induction L with
  | nil => intro _ _ m' m hm; exact ⟨rfl, m', .of_forall fun n => rfl, hm⟩
  | cons p L ih =>
    intro h1 h2 m' m hm
    have hp := (h1 p List.mem_cons_self).load
    have ih := @ih (fun q hq => h1 q (List.mem_cons_of_mem _ hq)) (fun q hq => h2 q (List.mem_cons_of_mem _ hq))
    cases hd : p.2.load.dynamic with
    | false =>
      obtain ⟨i1, o', i2, i3⟩ := ih hm
      rw [List.map_cons, List.filter_cons_of_neg (by rw [hd]; exact Bool.false_ne_true)]
      refine ⟨?_, o', ?_, i3⟩
      · unfold PySlope.maxOffset
        rw [if_neg (by rw [hd]; exact Bool.false_ne_true)]
        exact i1
      · filter_upwards [hp.dynamic, i2] with n k1 k2
        rw [List.map_cons]
        unfold PySlope.maxOffset
        rw [if_neg (by rw [k1, hd]; exact Bool.false_ne_true)]
        exact k2
    | true =>
      rcases hp.length with ⟨h, -⟩ | ⟨g, a, ha, hg, hl⟩
      · exact absurd h (h2 p List.mem_cons_self hd)
      · obtain ⟨i1, o', i2, i3⟩ := ih (B.pyMax hm (B.sub hx hl))
        rw [List.map_cons, List.filter_cons_of_pos (by rw [hd]), List.foldl_cons, ha]
        refine ⟨?_, o', ?_, i3⟩
        · unfold PySlope.maxOffset
          rw [if_pos hd, ha]
          simp only
          rw [pyMax_real]
          exact i1
        · filter_upwards [hp.dynamic, hg, i2] with n k1 k2 k3
          rw [List.map_cons]
          unfold PySlope.maxOffset
          rw [if_pos (by rw [k1, hd]), k2]
          exact k3

/-- A dynamic analysis. -/
theorem analyseDynamic (fl : ∀ n, AccurateFloor (val n)) {S : ∀ n, Slope (K n)} {s : Slope ℝ} (b : LimSlope val S s)
    (rs : Reachable s) {c' : ∀ n, K n} {crit : ℝ} (hc : Lim val c' crit) (nt : NoTiesDynamic s crit) :
    ∃ code d, (s.analyseDynamic crit false).2 = .ok code ∧ (s.analyseDynamic crit false).1.dynResults.Perm d ∧
      ∃ D : ∀ n, List (K n × K n), LimList (LimPair val) D d ∧
        ∀ᶠ n in atTop, ((S n).analyseDynamic (c' n) false).2 = .ok code ∧
          ((S n).analyseDynamic (c' n) false).1.dynResults.Perm (D n) := by
  obtain ⟨fin, first, turns⟩ := nt
  obtain ⟨L, l1, l2, l3⟩ := b.udls
  obtain ⟨m1, o', m2, m3⟩ := B.maxOffset b.topX L l3 (fun p hp => fin p.2 (by rw [l2]; exact List.mem_map_of_mem hp)) b.length
  rw [← l2] at m1 m3
  have far' := B.sub m3 (B.sci 1 true 2)
  change Lim val _ (farthest s) at far'
  have b0 : LimSlope val (fun n => { S n with dynResults := [] }) { s with dynResults := [] } := { b with dynResults := LimList.nil }
  obtain ⟨s1, F1, af1, t1, ⟨r1, d1, rs1, hs1⟩, S1, F1', b1, hF1, ev1⟩ :=
    B.tryOffset b0 (t := s) (d := []) rs rfl B.zero' (by simp) first
  obtain ⟨ne1, more⟩ := turns s1 F1 af1
  have real := analyseDynamic_first crit m1 (by rw [show (@OfNat.ofNat ℝ 0 (Lit.natLit 0)) = 0 from lit_zero]; exact t1) (o := farthest s) rfl
  have mach : ∀ᶠ n in atTop, (S n).analyseDynamic (c' n) false = if c' n < F1' n then (S1 n, .ok (some 0)) else
      ((S1 n).tryOffset (o' n - 0.01)).andThen fun s fos => if fos < c' n then (s, .ok (some 1)) else
        (s.dynLoop (c' n) false 10 (o' n - 0.01) 0 0).andThen fun s _ => (s.sortDynResults, .ok none) := by
    filter_upwards [m2, l1, ev1] with n k1 k2 k3
    exact analyseDynamic_first _ (by rw [k2]; exact k1) k3.1 rfl
  rcases lt_or_gt_of_ne ne1 with c | c
  · obtain ⟨f0, nt2, more⟩ := more c
    have fresh2 : ∀ e ∈ s1.dynResults, e.1 ≠ farthest s := by
      intro e he
      rw [af1.2] at he
      simp only [List.nil_append, List.mem_singleton] at he
      rw [he]
      exact f0.symm
    obtain ⟨s2, F2, af2, t2, ⟨r2, d2, rs2, hs2⟩, S2, F2', b2, hF2, ev2⟩ := B.tryOffset b1 rs1 hs1 far' fresh2 nt2
    obtain ⟨ne2, more⟩ := more s2 F2 af2
    rw [if_neg c.not_gt, t2, andThen_goes] at real
    rcases lt_or_gt_of_ne ne2 with c2 | c2
    · rw [if_pos c2] at real
      refine ⟨some 1, s2.dynResults, by rw [real], by rw [real], _, b2.dynResults, ?_⟩
      filter_upwards [mach, ev2, B.not_lt hc hF1 c, B.lt hF2 hc c2] with n k1 k2 k3 k4
      rw [k1, if_neg k3, k2.1, andThen_goes, if_pos k4]
      exact ⟨rfl, .refl _⟩
    · rw [if_neg c2.not_gt] at real
      have dy2 : s2.dynResults = [((0 : ℝ), F1)] ++ [(farthest s, F2)] := by rw [af2.2, af1.2]; rfl
      have z0 : (@OfNat.ofNat ℝ 0 (Lit.natLit 0)) = 0 := lit_zero
      have el : dictGet s2.dynResults (farthest s) = .ok F2 := by
        rw [dy2]
        refine dictGet_new (fun e he => ?_) (by rw [pyEq_real]; exact decide_eq_true rfl)
        rw [List.mem_singleton] at he
        rw [he, pyEq_real]
        exact decide_eq_false f0.symm
      have er : dictGet s2.dynResults (@OfNat.ofNat ℝ 0 (Lit.natLit 0)) = .ok F1 := by
        rw [dy2, z0]
        refine dictGet_old (dictGet_new (d := []) (by simp) (by rw [pyEq_real]; exact decide_eq_true rfl))
      have z' : Lim val (fun n => (@OfNat.ofNat (K n) 0 (Lit.natLit 0))) (@OfNat.ofNat ℝ 0 (Lit.natLit 0)) := by
        rw [z0]; exact B.zero'
      have ml : ∀ᶠ n in atTop, dictGet (S2 n).dynResults (o' n - 0.01) = .ok (F2' n) := by
        filter_upwards [ev2] with n k
        rw [k.2.1]
        exact dictGet_new k.2.2 (B.pyEq_refl n _)
      have mr : ∀ᶠ n in atTop, dictGet (S2 n).dynResults (@OfNat.ofNat (K n) 0 (Lit.natLit 0)) = .ok (F1' n) := by
        filter_upwards [ev1, ev2] with n k k'
        rw [k'.2.1, k.2.1]
        exact dictGet_old (dictGet_new (d := []) (by simp) (B.pyEq_refl n _))
      obtain ⟨s3, w1, S3, w2, w3⟩ := B.dynLoop fl hc 10 b2 rs2 hs2 far' hF2 z' hF1 z' el er ml mr (by rw [z0]; exact f0) c c2
        (by rw [z0]; exact more c2)
      rw [w1, andThen_goes] at real
      refine ⟨none, s3.dynResults, by rw [real], by rw [real]; exact sortByKey_perm _ _, _, w2.dynResults, ?_⟩
      filter_upwards [mach, ev2, B.not_lt hc hF1 c, B.not_lt hF2 hc c2, w3] with n k1 k2 k3 k4 k5
      rw [k1, if_neg k3, k2.1, andThen_goes, if_neg k4, k5, andThen_goes]
      exact ⟨rfl, sortByKey_perm _ _⟩
  · rw [if_pos c] at real
    refine ⟨some 0, s1.dynResults, by rw [real], by rw [real], _, b1.dynResults, ?_⟩
    filter_upwards [mach, B.lt hc hF1 c] with n k1 k2
    rw [k1, if_pos k2]
    exact ⟨rfl, .refl _⟩

end Better

/-- **C116**. The same dynamic analysis, run with rounding errors and with numbers that were rounded before, does not raise,
returns the same code and finds the same offsets and factors of safety up to `δ` (they may be listed in another order), if
the errors are small enough: a slope, any configuration of it by calls without coincidences, circles added one by one or
searched for, and no coincidence in the dynamic analysis. -/
theorem C116_dynamic (h a l : PyVal ℝ) (p : ProperBoundary h a l) (s0 : Slope ℝ) (e0 : Slope.new h a l = .ok s0)
    (ops : List (Op ℝ)) (valid : ∀ o ∈ ops, o.Valid) (nt : NoTiesRun ops s0) (crit : ℝ)
    (nd : NoTiesDynamic (runAll ops s0) crit) (δ : ℝ) (hδ : 0 < δ) :
    ∃ ε > 0, ∀ (K : Type) [PyNum K] (val : K → ℝ), Accurate ε val → AccurateTan ε val → AccurateFloor val →
      ∀ (h' a' l' : PyVal K) (ops' : List (Op K)) (crit' : K), CloseVal ε val h h' → CloseVal ε val a a' → CloseVal ε val l l' →
      List.Forall₂ (CloseOp ε val) ops ops' → |val crit' - crit| ≤ ε →
      ∃ t0 code, Slope.new h' a' l' = .ok t0 ∧ NoRaise ops' t0 ∧
        ((runAll ops s0).analyseDynamic crit false).2 = .ok code ∧ ((runAll ops' t0).analyseDynamic crit' false).2 = .ok code ∧
        ∃ r, r.Perm ((runAll ops' t0).analyseDynamic crit' false).1.dynResults ∧
          List.Forall₂ (fun e e' => |val e'.1 - e.1| ≤ δ ∧ |val e'.2 - e.2| ≤ δ)
            ((runAll ops s0).analyseDynamic crit false).1.dynResults r := by
  have rs0 : Reachable s0 := .init e0
  have rs := reachable_runAll rs0 valid
  by_contra hc
  push Not at hc
  choose K I val acc acct fl h' a' l' ops' crit' ch ca cl co cc bad using
    fun n : ℕ => hc (1 / ((n : ℝ) + 1)) Nat.one_div_pos_of_nat
  have B := better_of acc
  obtain ⟨S, s, k1, k2, k3⟩ := B.built acct p ch ca cl
  rw [e0] at k1
  injection k1 with k1
  subst k1
  obtain ⟨m1, -, m2⟩ := B.runAll acct k3 rs0 valid co nt
  obtain ⟨code', d, x1, x2, D, x3, x4⟩ := B.analyseDynamic fl m1 rs (B.of_close cc) nd
  have m3 := x3.near (P := fun n e e' => |val n e'.1 - e.1| ≤ δ ∧ |val n e'.2 - e.2| ≤ δ) (fun x y r => by
      filter_upwards [r.fst.near hδ, r.snd.near hδ] with n a b
      exact ⟨a, b⟩)
  obtain ⟨n, w1, w2, w3, w4⟩ := (k2.and (m2.and (x4.and m3))).exists
  obtain ⟨r, y1, y2⟩ := List.perm_comp_forall₂ x2 w4
  exact bad n (S n) code' w1 w2 x1 w3.1 r (y2.trans w3.2.symm) y1

end PySlope
