import Verif.Lemmas.LimitScript

/-! # The calls that configure a slope, in arithmetics whose rounding errors go to zero: every call -/

namespace PySlope
open Filter Topology Lit

theorem setExternalBoundary_real {s : Slope ℝ} {h a l : ℝ} (ph : 0 < h) (pa : 0 < a ∧ a < 90) (pl : 0 < l) :
    s.setExternalBoundary (.num h) (.num a) (.num l) = s.applyBoundary h (PySlope.pyMax l 0.001) := by
  unfold Slope.setExternalBoundary
  rw [boundaryInputs_of]
  · rw [lit_zero]; exact ph.not_gt
  · rw [lit_zero]; exact pa.1.not_gt
  · rw [lit_real]; exact_mod_cast pa.2.not_gt
  · rw [lit_zero, pyEq_real]; simpa using pa.1.ne'
  · rw [lit_zero]; exact pl.not_gt

namespace Better
variable {K : ℕ → Type} [∀ n, PyNum (K n)] {val : ∀ n, K n → ℝ} {e : ℕ → ℝ} (B : Better val e)
include B

theorem irrefl (n : ℕ) (x : K n) : ¬ x < x := fun h => lt_irrefl _ (((B.acc n).lt _ _).mp h)

theorem ofNat' (m : ℕ) : Lim val (fun n => (@OfNat.ofNat (K n) m (Lit.natLit m))) (@OfNat.ofNat ℝ m (Lit.natLit m)) := B.ofNat m

theorem placeUdl {f : ∀ n, Udl (K n)} {u : Udl ℝ} {tx : ∀ n, K n} {x : ℝ} (h : LimUdl val f u) (k : Lim val tx x) :
    LimPUdl val (fun n => PySlope.placeUdl (tx n) (f n)) (PySlope.placeUdl x u) where
  load := h
  right := B.sub k h.offset
  left := by
    unfold PySlope.placeUdl
    simp only
    rcases h.length with ⟨a, b⟩ | ⟨g, y, a, b, c⟩
    · rw [a, lit_zero]
      exact B.zero'.congr (b.mono fun n hn => by simp only at hn; rw [hn])
    · have hy := h.pos y a
      rw [a]
      simp only
      rw [if_neg (by rw [lit_zero, pyEq_real]; simpa using hy.ne'), pyMax_real, lit_zero]
      refine (B.pyMax B.zero' (B.sub (B.sub k h.offset) c)).congr ?_
      filter_upwards [b, B.not_eq c B.zero' hy.ne'] with n h1 h2
      rw [h1]
      simp only
      rw [if_neg (by rw [h2]; exact Bool.false_ne_true)]

theorem placeLl {f : ∀ n, LineLoad (K n)} {u : LineLoad ℝ} {tx : ∀ n, K n} {x : ℝ} (h : LimLl val f u) (k : Lim val tx x) :
    LimPLl val (fun n => PySlope.placeLl (tx n) (f n)) (PySlope.placeLl x u) where
  load := h
  coord := by
    unfold PySlope.placeLl
    rw [pyMax_real, lit_zero]
    exact B.pyMax B.zero' (B.sub k h.offset)

/-- `applyBoundary`. -/
theorem applyBoundary {S : ∀ n, Slope (K n)} {s : Slope ℝ} (b : LimBase val S s) {h' l' : ∀ n, K n} {h l : ℝ}
    (hh : Lim val h' h) (hl : Lim val l' l) (ph : 0 < h) (pl : 0 < l) :
    Goes val (fun n => (S n).applyBoundary (h' n) (l' n)) (s.applyBoundary h l) := by
  have L3 := B.ofNat' 3
  have L5 := B.ofNat' 5
  have L4 := B.ofNat' 4
  have L2 := B.ofNat' 2
  have z2 : (@OfNat.ofNat ℝ 2 (Lit.natLit 2)) ≠ 0 := by rw [lit_real]; norm_num
  have eH : Lim val (fun n => ((S n).bounded (h' n) (l' n)).extH) (totH s h l) := by
    have := B.pyMax (B.pyMax (B.mul L3 hh) b.minExtH) (B.div (B.mul L5 hl) L2 z2)
    exact this
  have eL : Lim val (fun n => ((S n).bounded (h' n) (l' n)).extL) (totL s h l) :=
    B.pyMax (B.pyMax (B.mul L5 hl) b.minExtL) (B.mul L4 hh)
  have tX : Lim val (fun n => ((S n).bounded (h' n) (l' n)).topX) ((totL s h l - l) / 2) := by
    have := B.div (B.sub eL hl) L2 z2
    exact this
  have hL := totL_ge s h l
  have p1 : 0 < (totL s h l - l) / 2 := by linarith
  have p2 : (totL s h l - l) / 2 < totL s h l := by linarith
  have p3 : 0 < totL s h l := by linarith
  refine Goes.of (T := fun n => (S n).bounded (h' n) (l' n)) (s := s.withGeo h l) ?_ ?_ (applyBoundary_eq s h l pl)
  · exact {
      minExtH := b.minExtH, minExtL := b.minExtL, minPos := b.minPos
      materials := b.materials
      udls := b.udls.map fun x y r => B.placeUdl r.load tX
      lls := b.lls.map fun x y r => B.placeLl r.load tX
      waterRL := b.waterRL, waterH := b.waterH, tolerance := b.tolerance, slices := b.slices
      maxIterations := b.maxIterations, individual := b.individual
      iterations := b.iterations, minFailureDist := b.minFailureDist, dynResults := b.dynResults
      lim1 := B.zero', lim2 := tX, lim3 := tX, lim4 := eL, limPos := p1
      height := hh, length := hl, hpos := ph, lpos := pl
      gradient := B.div hh hl pl.ne'
      topX := tX, topY := eH, botX := B.add tX hl, botY := B.sub eH hh, extL := eL, extH := eH
      topPos := p1, topLt := p2
      extPos := lt_of_lt_of_le (by linarith : (0 : ℝ) < 3 * h) ((le_max_left _ _).trans (le_max_left _ _))
      there := .of_forall fun n => rfl, there' := rfl }
  · filter_upwards [B.not_lt tX B.zero' p1, B.not_lt eL B.zero' p3, B.not_le tX B.zero' p1, B.not_le eL tX p2] with n a1 a2 a3 a4
    exact applyBoundary_of (B.irrefl n _) a1 a2 a3 a4

theorem setExternalBoundary {S : ∀ n, Slope (K n)} {s : Slope ℝ} (b : LimBase val S s) {h' a' l' : ∀ n, K n} {h a l : ℝ}
    (hh : Lim val h' h) (ha : Lim val a' a) (hl : Lim val l' l) (ph : 0 < h) (pa : 0 < a ∧ a < 90) (pl : 0 < l) :
    Goes val (fun n => (S n).setExternalBoundary (.num (h' n)) (.num (a' n)) (.num (l' n)))
      (s.setExternalBoundary (.num h) (.num a) (.num l)) := by
  have e := setExternalBoundary_real (s := s) ph pa pl
  rw [e]
  have := B.applyBoundary b hh (B.pyMax hl (B.sci 1 true 3)) ph (lt_of_lt_of_le pl (le_max_left _ _))
  rw [pyMax_real]
  refine this.congr ?_
  have h90 : Lim val (fun n => (90 : K n)) 90 := B.ofNat 90
  filter_upwards [B.not_lt hh B.zero' ph, B.not_lt ha B.zero' pa.1, B.not_lt h90 ha pa.2, B.not_eq ha B.zero' pa.1.ne',
    B.not_lt hl B.zero' pl] with n a1 a2 a3 a4 a5
  unfold Slope.setExternalBoundary
  rw [boundaryInputs_of a1 a2 a3 a4 a5]

end Better

/-- Arguments that may be left out. -/
def LimArg {K : ℕ → Type} (val : ∀ n, K n → ℝ) (v : ∀ n, PyVal (K n)) (w : PyVal ℝ) : Prop :=
  (w = .none ∧ ∀ n, v n = .none) ∨ ∃ (x : ∀ n, K n) (a : ℝ), w = .num a ∧ (∀ n, v n = .num (x n)) ∧ Lim val x a ∧ 0 < a

section generic
variable {K : Type} [PyNum K]

/-- The number, or another one if it is left out. -/
def PyVal.numOr (d : K) : PyVal K → K
  | .num x => x
  | _ => d

/-- A number that is positive, or nothing. -/
def PyVal.Fine (v : PyVal K) : Prop := v = .none ∨ ∃ x, v = .num x ∧ pyEq x 0 = false ∧ ¬ x < 0

theorem updateBoundaryOptions_of {s : Slope K} {v w : PyVal K} (hv : v.Fine) (hw : w.Fine) (hs : s.extBoundary.isSome) :
    s.updateBoundaryOptions v w =
      (({ s with minExtH := w.numOr s.minExtH, minExtL := v.numOr s.minExtL } : Slope K).setExternalBoundary (.num s.height)
        (.num 30) (.num s.length)).andThen fun s _ => (s.resetResults, .ok ()) := by
  obtain ⟨b, hb⟩ := Option.isSome_iff_exists.mp hs
  cases s
  simp only at hb
  subst hb
  unfold Slope.updateBoundaryOptions
  rcases hv with rfl | ⟨x, rfl, x1, x2⟩ <;> rcases hw with rfl | ⟨y, rfl, y1, y2⟩ <;>
    simp [PyVal.truthy, assertStrictlyPositiveNumber, PyCmp.ltb, PyVal.get!, PyVal.numOr, Out.andThen, *]

end generic

section
variable {K : ℕ → Type} [∀ n, PyNum (K n)] {val : ∀ n, K n → ℝ} {S : ∀ n, Slope (K n)} {s : Slope ℝ}

theorem LimSlope.resetResults (h : LimSlope val S s) : LimSlope val (fun n => (S n).resetResults) s.resetResults :=
  { h with }

theorem LimSlope.reset (h : LimSlope val S s) : Goes val (fun n => ((S n).resetResults, .ok ())) (s.resetResults, .ok ()) :=
  ⟨h.resetResults, .of_forall fun _ => rfl, rfl⟩

theorem LimSlope.same (h : LimSlope val S s) : Goes val (fun n => (S n, .ok ())) (s, .ok ()) :=
  ⟨h, .of_forall fun _ => rfl, rfl⟩

end

namespace Better
variable {K : ℕ → Type} [∀ n, PyNum (K n)] {val : ∀ n, K n → ℝ} {e : ℕ → ℝ} (B : Better val e)
include B

theorem fine {v : ∀ n, PyVal (K n)} {w : PyVal ℝ} (h : LimArg val v w) : w.Fine ∧ (∀ᶠ n in atTop, (v n).Fine) := by
  rcases h with ⟨rfl, h⟩ | ⟨x, a, rfl, h, hx, pa⟩
  · exact ⟨.inl rfl, .of_forall fun n => .inl (h n)⟩
  · refine ⟨.inr ⟨a, rfl, ?_, ?_⟩, ?_⟩
    · rw [lit_zero, pyEq_real]; simpa using pa.ne'
    · rw [lit_zero]; exact pa.not_gt
    · filter_upwards [B.not_lt hx B.zero' pa, B.not_eq hx B.zero' pa.ne'] with n a b
      exact .inr ⟨x n, h n, b, a⟩

omit B in
theorem numOr {v : ∀ n, PyVal (K n)} {w : PyVal ℝ} (h : LimArg val v w) {d : ∀ n, K n} {c : ℝ} (hd : Lim val d c) :
    Lim val (fun n => (v n).numOr (d n)) (w.numOr c) := by
  rcases h with ⟨rfl, h⟩ | ⟨x, a, rfl, h, hx, -⟩
  · exact hd.congr (.of_forall fun n => by rw [h n]; rfl)
  · exact hx.congr (.of_forall fun n => by rw [h n]; rfl)

theorem updateBoundaryOptions {S : ∀ n, Slope (K n)} {s : Slope ℝ} (b : LimSlope val S s) {v w : ∀ n, PyVal (K n)}
    {v' w' : PyVal ℝ} (hv : LimArg val v v') (hw : LimArg val w w') :
    Goes val (fun n => (S n).updateBoundaryOptions (v n) (w n)) (s.updateBoundaryOptions v' w') := by
  rw [updateBoundaryOptions_of (B.fine hv).1 (B.fine hw).1 b.there']
  have base : LimBase val (fun n => { S n with minExtH := (w n).numOr (S n).minExtH, minExtL := (v n).numOr (S n).minExtL })
      { s with minExtH := w'.numOr s.minExtH, minExtL := v'.numOr s.minExtL } :=
    { b with
      minExtH := numOr hw b.minExtH
      minExtL := numOr hv b.minExtL
      minPos := by
        rcases hv with ⟨rfl, -⟩ | ⟨x, a, rfl, -, -, pa⟩
        · exact b.minPos
        · exact pa }
  have h30 : Lim val (fun n => (30 : K n)) (@OfNat.ofNat ℝ 30 (Lit.natLit 30)) := B.ofNat 30
  have h1 := B.setExternalBoundary base b.height h30 b.length b.hpos (by rw [lit_real]; norm_num) b.lpos
  refine (h1.andThen (f := fun n s _ => (s.resetResults, .ok ())) (g := fun s _ => (s.resetResults, .ok ()))
    fun k => k.reset).congr ?_
  filter_upwards [(B.fine hv).2, (B.fine hw).2, b.there] with n a1 a2 a3
  exact updateBoundaryOptions_of a1 a2 a3

omit B in
theorem updateBoundaryOptions_min {s : Slope ℝ} {v w : PyVal ℝ} (hv : v.Fine) (hw : w.Fine) (hs : s.extBoundary.isSome)
    (hp : 0 < s.height) (lp : 0 < s.length) : (s.updateBoundaryOptions v w).1.minExtL = v.numOr s.minExtL := by
  rw [updateBoundaryOptions_of hv hw hs, setExternalBoundary_real hp (by rw [lit_real]; norm_num) lp,
    applyBoundary_eq _ _ _ (by rw [pyMax_real]; exact lt_of_lt_of_le lp (le_max_left _ _))]
  rfl

theorem minLength {f : ∀ n, Udl (K n)} {u : Udl ℝ} (h : LimUdl val f u) :
    Lim val (fun n => (f n).minLength) u.minLength := by
  unfold Udl.minLength
  refine B.mul (B.add h.offset ?_) (B.sci 25 true 1)
  rcases h.length with ⟨a, b⟩ | ⟨g, y, a, b, c⟩
  · rw [a]
    exact (B.ofNat' 3).congr (b.mono fun n hn => by simp only at hn; rw [hn])
  · have hy := h.pos y a
    rw [a]
    simp only
    rw [if_neg (by rw [lit_zero, pyEq_real]; simpa using hy.ne')]
    refine c.congr ?_
    filter_upwards [b, B.not_eq c B.zero' hy.ne'] with n h1 h2
    rw [h1]
    simp only
    rw [if_neg (by rw [h2]; exact Bool.false_ne_true)]

/-- One turn of the loop of `set_udls`. -/
theorem addUdl {S : ∀ n, Slope (K n)} {s : Slope ℝ} (b : LimSlope val S s) {f : ∀ n, Udl (K n)} {u : Udl ℝ}
    (h : LimUdl val f u) (pm : 0 < u.magnitude) (ne : s.minExtL ≠ u.minLength) :
    Goes val (fun n => (S n).addUdl (some (f n))) (s.addUdl (some u)) ∧
      ((s.addUdl (some u)).1.minExtL = s.minExtL ∨ (s.addUdl (some u)).1.minExtL = u.minLength) := by
  have hm := B.minLength h
  have b' : LimSlope val (fun n => { S n with udls := (S n).udls ++ [PySlope.placeUdl (S n).topX (f n)] })
      { s with udls := s.udls ++ [PySlope.placeUdl s.topX u] } :=
    { b with udls := b.udls.append (.one (B.placeUdl h b.topX)) }
  rcases lt_or_gt_of_ne ne with c | c
  · have e : s.addUdl (some u) = ({ s with udls := s.udls ++ [PySlope.placeUdl s.topX u] } : Slope ℝ).updateBoundaryOptions
        (.num u.minLength) .none := by
      unfold Slope.addUdl
      simp only
      rw [if_pos (by rw [lit_zero]; exact pm), if_pos c]
    have pl : 0 < u.minLength := b.minPos.trans c
    have G := B.updateBoundaryOptions b' (.inr ⟨_, _, rfl, fun n => rfl, hm, pl⟩) (.inl ⟨rfl, fun n => rfl⟩)
    rw [e]
    refine ⟨G.congr ?_, .inr ?_⟩
    · filter_upwards [B.lt B.zero' h.magnitude pm, B.lt b.minExtL hm c] with n a1 a2
      unfold Slope.addUdl
      simp only
      rw [if_pos a1, if_pos a2]
    · exact updateBoundaryOptions_min (.inr ⟨_, rfl, by rw [lit_zero, pyEq_real]; simpa using pl.ne', by
        rw [lit_zero]; exact pl.not_gt⟩) (.inl rfl) b.there' b.hpos b.lpos
  · have e : s.addUdl (some u) = ({ s with udls := s.udls ++ [PySlope.placeUdl s.topX u] }, .ok ()) := by
      unfold Slope.addUdl
      simp only
      rw [if_pos (by rw [lit_zero]; exact pm), if_neg c.not_gt]
    rw [e]
    refine ⟨b'.same.congr ?_, .inl rfl⟩
    filter_upwards [B.lt B.zero' h.magnitude pm, B.not_lt b.minExtL hm c] with n a1 a2
    unfold Slope.addUdl
    simp only
    rw [if_pos a1, if_neg a2]

/-- One turn of the loop of `set_lls`. -/
theorem addLl {S : ∀ n, Slope (K n)} {s : Slope ℝ} (b : LimSlope val S s) {f : ∀ n, LineLoad (K n)} {u : LineLoad ℝ}
    (h : LimLl val f u) (pm : 0 < u.magnitude) (ne : s.minExtL ≠ u.offset * 3) :
    Goes val (fun n => (S n).addLl (some (f n))) (s.addLl (some u)) ∧
      ((s.addLl (some u)).1.minExtL = s.minExtL ∨ (s.addLl (some u)).1.minExtL = u.offset * 3) := by
  have hm := B.mul h.offset (B.ofNat' 3)
  have b' : LimSlope val (fun n => { S n with lls := (S n).lls ++ [PySlope.placeLl (S n).topX (f n)] })
      { s with lls := s.lls ++ [PySlope.placeLl s.topX u] } :=
    { b with lls := b.lls.append (.one (B.placeLl h b.topX)) }
  rcases lt_or_gt_of_ne ne with c | c
  · have e : s.addLl (some u) = ({ s with lls := s.lls ++ [PySlope.placeLl s.topX u] } : Slope ℝ).updateBoundaryOptions
        (.num (u.offset * 3)) .none := by
      unfold Slope.addLl
      simp only
      rw [if_pos (by rw [lit_zero]; exact pm), if_pos c]
    have pl : 0 < u.offset * 3 := b.minPos.trans c
    have G := B.updateBoundaryOptions b' (.inr ⟨_, _, rfl, fun n => rfl, hm, pl⟩) (.inl ⟨rfl, fun n => rfl⟩)
    rw [e]
    refine ⟨G.congr ?_, .inr ?_⟩
    · filter_upwards [B.lt B.zero' h.magnitude pm, B.lt b.minExtL hm c] with n a1 a2
      unfold Slope.addLl
      simp only
      rw [if_pos a1, if_pos a2]
    · exact updateBoundaryOptions_min (.inr ⟨_, rfl, by rw [lit_zero, pyEq_real]; simpa using pl.ne', by
        rw [lit_zero]; exact pl.not_gt⟩) (.inl rfl) b.there' b.hpos b.lpos
  · have e : s.addLl (some u) = ({ s with lls := s.lls ++ [PySlope.placeLl s.topX u] }, .ok ()) := by
      unfold Slope.addLl
      simp only
      rw [if_pos (by rw [lit_zero]; exact pm), if_neg c.not_gt]
    rw [e]
    refine ⟨b'.same.congr ?_, .inl rfl⟩
    filter_upwards [B.lt B.zero' h.magnitude pm, B.not_lt b.minExtL hm c] with n a1 a2
    unfold Slope.addLl
    simp only
    rw [if_pos a1, if_neg a2]

omit B in
/-- A loop over calls. -/
theorem forEach {X : ℕ → Type} {Y : Type} {f : ∀ n, Slope (K n) → X n → Out (K n) Unit} {g : Slope ℝ → Y → Out ℝ Unit}
    {m : Y → ℝ} (L : List ((∀ n, X n) × Y))
    (step : ∀ p ∈ L, ∀ (S : ∀ n, Slope (K n)) (s : Slope ℝ), LimSlope val S s → s.minExtL ≠ m p.2 →
      Goes val (fun n => f n (S n) (p.1 n)) (g s p.2) ∧
        ((g s p.2).1.minExtL = s.minExtL ∨ (g s p.2).1.minExtL = m p.2)) :
    ∀ (S : ∀ n, Slope (K n)) (s : Slope ℝ), LimSlope val S s → (s.minExtL :: L.map fun p => m p.2).Nodup →
      Goes val (fun n => Slope.forEach (f n) (L.map fun p => p.1 n) (S n)) (Slope.forEach g (L.map Prod.snd) s) := by
  induction L with
  | nil => intro S s b _; exact b.same
  | cons p L ih =>
    intro S s b nd
    rw [List.map_cons, List.nodup_cons, List.mem_cons, not_or, List.nodup_cons] at nd
    obtain ⟨G, hm⟩ := step p List.mem_cons_self S s b nd.1.1
    refine G.andThen (f := fun n s _ => Slope.forEach (f n) (L.map fun p => p.1 n) s)
      (g := fun s _ => Slope.forEach g (L.map Prod.snd) s) fun k => ?_
    refine ih (fun q hq => step q (List.mem_cons_of_mem _ hq)) _ _ k ?_
    rw [List.nodup_cons]
    refine ⟨?_, nd.2.2⟩
    rcases hm with hm | hm <;> rw [hm]
    · exact nd.1.2
    · exact nd.2.1

omit B in
/-- Optional objects. -/
theorem _root_.PySlope.optList {X : ℕ → Type} {Y : Type} {P : ∀ n, Y → X n → Prop} {R : (∀ n, X n) → Y → Prop} {Q : Y → Prop}
    (hR : ∀ (x : ∀ n, X n) y, Q y → (∀ n, P n y (x n)) → R x y) {s : List (Option Y)} :
    ∀ {S : ∀ n, List (Option (X n))}, (∀ n, List.Forall₂ (Option.Rel (P n)) s (S n)) → (∀ y, some y ∈ s → Q y) →
      ∃ L : List ((∀ n, Option (X n)) × Option Y), S = (fun n => L.map fun p => p.1 n) ∧ s = L.map Prod.snd ∧
        ∀ p ∈ L, (p.2 = none ∧ ∀ n, p.1 n = none) ∨ ∃ f u, p.2 = some u ∧ (∀ n, p.1 n = some (f n)) ∧ R f u ∧ Q u := by
  induction s with
  | nil =>
    intro S h _
    exact ⟨[], funext fun n => List.forall₂_nil_left_iff.mp (h n), rfl, by simp⟩
  | cons y s ih =>
    intro S h q
    choose x T hx hT e using fun n => List.forall₂_cons_left_iff.mp (h n)
    obtain ⟨L, a, rfl, c⟩ := ih hT fun y hy => q y (List.mem_cons_of_mem _ hy)
    refine ⟨(x, y) :: L, funext fun n => ?_, rfl, ?_⟩
    · rw [e n, List.map_cons, congrFun a n]
    · intro p hp
      rcases List.mem_cons.mp hp with rfl | hp
      · cases y with
        | none =>
          refine .inl ⟨rfl, fun n => ?_⟩
          have := hx n
          cases hz : x n with
          | none => exact hz
          | some z => rw [hz] at this; cases this
        | some u =>
          have : ∀ n, ∃ z, x n = some z ∧ P n u z := by
            intro n
            have := hx n
            revert this
            cases x n with
            | none => intro h; cases h
            | some z => intro h; cases h with | some h => exact ⟨z, rfl, h⟩
          choose f h1 h2 using this
          have qu := q u List.mem_cons_self
          exact .inr ⟨f, u, rfl, h1, hR f u qu h2, qu⟩
      · exact c p hp

omit B in
theorem reset_of {S : ∀ n, Slope (K n)} {s : Slope ℝ} (b : LimSlope val S s) {O : ∀ n, Out (K n) Unit} {o : Out ℝ Unit}
    (h : ∀ n, O n = ((S n).resetResults, .ok ())) (h' : o = (s.resetResults, .ok ())) : Goes val O o := by
  rw [h']
  exact b.reset.congr (.of_forall h)

theorem setUdls {S : ∀ n, Slope (K n)} {s : Slope ℝ} (b : LimSlope val S s) {us' : ∀ n, List (UdlArg (K n))} {us : List (UdlArg ℝ)}
    (c : ∀ n, List.Forall₂ (Option.Rel (CloseUdl (e n) (val n))) us (us' n))
    (nt : (∀ u, some u ∈ us → 0 < u.magnitude ∧ (∀ x, u.length = some x → 0 < x)) ∧
      (s.minExtL :: us.map fun u => u.elim 0 Udl.minLength).Nodup) :
    Goes val (fun n => (S n).setUdls (us' n)) (s.setUdls us) := by
  obtain ⟨L, e1, e2, hL⟩ := optList (R := LimUdl val) (fun x y q h => by
    have hl : LimOpt val (fun n => (x n).length) y.length := by
      cases hy : y.length with
      | none =>
        refine .inl ⟨rfl, .of_forall fun n => ?_⟩
        have := (h n).2.2.1
        rw [hy] at this
        cases hz : (x n).length with
        | none => exact hz
        | some z => rw [hz] at this; cases this
      | some a =>
        have : ∀ n, ∃ z, (x n).length = some z ∧ |val n z - a| ≤ e n := by
          intro n
          have := (h n).2.2.1
          rw [hy] at this
          revert this
          cases (x n).length with
          | none => intro h; cases h
          | some z => intro h; cases h with | some h => exact ⟨z, rfl, h⟩
        choose f h1 h2 using this
        exact .inr ⟨f, a, rfl, .of_forall h1, B.of_close h2⟩
    exact ⟨B.of_close fun n => (h n).1, B.of_close fun n => (h n).2.1, hl, q.2, .of_forall fun n => (h n).2.2.2⟩) c nt.1
  subst e1 e2
  rw [List.map_map] at nt
  have G := forEach (val := val) (f := fun n => Slope.addUdl (K := K n)) (g := Slope.addUdl) (m := fun u => u.elim 0 Udl.minLength) L
    (fun p hp S s b ne => by
      rcases hL p hp with ⟨h1, h2⟩ | ⟨f, u, h1, h2, h3, h4⟩
      · rw [h1]
        exact ⟨b.same.congr (.of_forall fun n => by rw [h2]; rfl), .inl rfl⟩
      · rw [h1] at ne ⊢
        obtain ⟨k1, k2⟩ := B.addUdl b h3 h4.1 ne
        exact ⟨k1.congr (.of_forall fun n => by rw [h2]), k2⟩) S s b nt.2
  unfold Slope.setUdls
  refine G.andThen (f := fun n (s : Slope (K n)) _ => (({ s.updateUdlCoordinates with
    udlMax := maxMagnitude s.updateUdlCoordinates.udls s.updateUdlCoordinates.udlMax } : Slope (K n)).resetResults, .ok ()))
    (g := fun (s : Slope ℝ) _ => (({ s.updateUdlCoordinates with
    udlMax := maxMagnitude s.updateUdlCoordinates.udls s.updateUdlCoordinates.udlMax } : Slope ℝ).resetResults, .ok ())) fun k => ?_
  refine ⟨?_, .of_forall fun n => rfl, rfl⟩
  exact { k with udls := k.udls.map fun x y r => B.placeUdl r.load k.topX }

theorem setLls {S : ∀ n, Slope (K n)} {s : Slope ℝ} (b : LimSlope val S s) {us' : ∀ n, List (Option (LineLoad (K n)))}
    {us : List (Option (LineLoad ℝ))} (c : ∀ n, List.Forall₂ (Option.Rel (CloseLl (e n) (val n))) us (us' n))
    (nt : (∀ u, some u ∈ us → 0 < u.magnitude) ∧
      (s.minExtL :: us.map fun u => u.elim 0 fun u => u.offset * 3).Nodup) :
    Goes val (fun n => (S n).setLls (us' n)) (s.setLls us) := by
  obtain ⟨L, e1, e2, hL⟩ := optList (R := LimLl val) (fun x y q h =>
    ⟨B.of_close fun n => (h n).1, B.of_close fun n => (h n).2.1, .of_forall fun n => (h n).2.2⟩) c nt.1
  subst e1 e2
  rw [List.map_map] at nt
  have G := forEach (val := val) (f := fun n => Slope.addLl (K := K n)) (g := Slope.addLl)
    (m := fun u => u.elim 0 fun u => u.offset * 3) L
    (fun p hp S s b ne => by
      rcases hL p hp with ⟨h1, h2⟩ | ⟨f, u, h1, h2, h3, h4⟩
      · rw [h1]
        exact ⟨b.same.congr (.of_forall fun n => by rw [h2]; rfl), .inl rfl⟩
      · rw [h1] at ne ⊢
        obtain ⟨k1, k2⟩ := B.addLl b h3 h4 ne
        exact ⟨k1.congr (.of_forall fun n => by rw [h2]), k2⟩) S s b nt.2
  unfold Slope.setLls
  refine G.andThen (f := fun n (s : Slope (K n)) _ => (s.updateLlCoordinates.resetResults, .ok ()))
    (g := fun (s : Slope ℝ) _ => (s.updateLlCoordinates.resetResults, .ok ())) fun k => ?_
  refine ⟨?_, .of_forall fun n => rfl, rfl⟩
  exact { k with lls := k.lls.map fun x y r => B.placeLl r.load k.topX }

/-- The layers. -/
theorem mkLayers {x : ∀ n, K n} {a : ℝ} (hx : Lim val x a) (L : List ((∀ n, Material (K n)) × Material ℝ))
    (h : ∀ p ∈ L, LimMat val p.1 p.2) (i : ℕ) :
    LimList (LimLayer val) (fun n => PySlope.mkLayers (x n) i (L.map fun p => p.1 n)) (PySlope.mkLayers a i (L.map Prod.snd)) := by
  induction L generalizing i with
  | nil => exact LimList.nil
  | cons p L ih =>
    have hp := h p List.mem_cons_self
    exact (LimList.one (R := LimLayer val) (x := fun n => mkLayer (x n) i (p.1 n)) (y := mkLayer a i p.2)
      ⟨hp, B.sub hx hp.depth⟩).append (ih (fun q hq => h q (List.mem_cons_of_mem _ hq)) (i + 1))

omit B in
/-- A call to `set_materials`, step by step. -/
theorem _root_.PySlope.setMaterials_of {K : Type} [PyNum K] {s : Slope K} {args : List (Option (Material K))} {ms D : List (Material K)}
    {q : Material K} (h1 : args.any (·.isNone) = false)
    (h2 : pySort (fun a b => decide (Material.depth a < Material.depth b)) (args.filterMap id ++ s.materials.map Layer.mat) = ms)
    (h3 : ms = D ++ [q]) (h4 : setSizeNum (ms.map Material.depth) = (ms.map Material.depth).length) :
    s.setMaterials args = ((if s.extH < q.depth then s.updateBoundaryOptions .none (.num q.depth) else (s, .ok ()) : Out K Unit).andThen
      fun s _ => (({ s with materials := PySlope.mkLayers s.extH 0 ms } : Slope K).resetResults, .ok ())) := by
  unfold Slope.setMaterials
  rw [h1, if_neg Bool.false_ne_true]
  unfold sortByKey
  simp only
  rw [h2]
  have : (ms.map Material.depth).getLast? = some q.depth := by rw [h3]; simp
  rw [this]
  simp only
  congr 1
  funext s u
  rw [h4, if_neg (lt_irrefl _)]

theorem setMaterials {S : ∀ n, Slope (K n)} {s : Slope ℝ} (b : LimSlope val S s) {ms' : ∀ n, List (Option (Material (K n)))}
    {ms : List (Option (Material ℝ))} (c : ∀ n, List.Forall₂ (Option.Rel (CloseMaterial (e n) (val n))) ms (ms' n))
    (nt : none ∉ ms ∧ (s.extH :: (ms.filterMap id ++ s.materials.map Layer.mat).map Material.depth).Nodup)
    (ok : (s.setMaterials ms).2 = .ok ()) :
    Goes val (fun n => (S n).setMaterials (ms' n)) (s.setMaterials ms) := by
  obtain ⟨L0, e1, e2, hL0⟩ := optList (R := LimMat val) (Q := fun _ => True) (fun x y _ h =>
    ⟨B.of_close fun n => (h n).1, B.of_close fun n => (h n).2.1, B.of_close fun n => (h n).2.2.1,
      B.of_close fun n => (h n).2.2.2⟩) c fun _ _ => trivial
  -- the arguments are materials
  obtain ⟨LA, hA1, hA2, hA3⟩ : ∃ LA : List ((∀ n, Material (K n)) × Material ℝ),
      (∀ n, ms' n = LA.map fun p => some (p.1 n)) ∧ ms = LA.map (fun p => some p.2) ∧ ∀ p ∈ LA, LimMat val p.1 p.2 := by
    have nn : none ∉ L0.map Prod.snd := by rw [← e2]; exact nt.1
    clear nt ok c
    subst e1 e2
    induction L0 with
    | nil => exact ⟨[], fun n => rfl, rfl, by simp⟩
    | cons p L0 ih =>
      obtain ⟨LA, a1, a2, a3⟩ := ih (fun p hp => hL0 p (List.mem_cons_of_mem _ hp)) fun h => nn (List.mem_cons_of_mem _ h)
      rcases hL0 p List.mem_cons_self with ⟨h1, -⟩ | ⟨f, u, h1, h2, h3, -⟩
      · exact absurd (by rw [List.map_cons, h1]; exact List.mem_cons_self) nn
      · refine ⟨(f, u) :: LA, fun n => ?_, ?_, ?_⟩
        · have a1 := a1 n
          simp only at a1 ⊢
          rw [List.map_cons, List.map_cons, a1, h2 n]
        · rw [List.map_cons, List.map_cons, a2, h1]
        · intro q hq
          rcases List.mem_cons.mp hq with rfl | hq
          · exact h3
          · exact a3 q hq
  obtain ⟨M, hM1, hM2, hM3⟩ := b.materials.map (R' := LimMat val) (f := fun n => Layer.mat) (g := Layer.mat) fun x y r => r.mat
  have fm : ∀ (X : Type) (l : List ((∀ n, Material (K n)) × Material ℝ)) (f : (∀ n, Material (K n)) × Material ℝ → X),
      (l.map fun p => some (f p)).filterMap id = l.map f := by
    intro X l f
    rw [List.filterMap_map]
    exact congrFun (List.filterMap_eq_map (f := f)) l
  have anyN : ∀ (X : Type) (l : List ((∀ n, Material (K n)) × Material ℝ)) (f : (∀ n, Material (K n)) × Material ℝ → X),
      (l.map fun p => some (f p)).any (·.isNone) = false := by
    intro X l f
    rw [List.any_eq_false]
    intro x hx
    obtain ⟨p, -, rfl⟩ := List.mem_map.mp hx
    simp
  have er : ms.filterMap id ++ s.materials.map Layer.mat = (LA ++ M).map Prod.snd := by
    rw [hA2, fm, hM2, List.map_append]
  have en : ∀ᶠ n in atTop, (ms' n).filterMap id ++ (S n).materials.map Layer.mat = (LA ++ M).map fun p => p.1 n := by
    filter_upwards [hM1] with n hn
    rw [hA1, fm, hn, List.map_append]
  have hL : ∀ p ∈ LA ++ M, LimMat val p.1 p.2 := by
    intro p hp
    rcases List.mem_append.mp hp with hp | hp
    · exact hA3 p hp
    · exact hM3 p hp
  rw [er, List.map_map, List.nodup_cons] at nt
  generalize LA ++ M = L at er en hL nt
  have inj : ∀ p ∈ L, ∀ q ∈ L, p.2.depth = q.2.depth → p = q := fun p hp q hq h =>
    List.inj_on_of_nodup_map nt.2.2 hp hq h
  obtain ⟨L', pm, k1, k2⟩ := pySort_limList (f := fun n a b => decide (Material.depth a < Material.depth b))
    (g := fun a b => decide (Material.depth a < Material.depth b)) (L := L) (fun p hp q hq => by
      by_cases h : p.2.depth = q.2.depth
      · obtain rfl := inj p hp q hq h
        refine .of_forall fun n => ?_
        rw [decide_eq_false (lt_irrefl _), decide_eq_false (B.irrefl n _)]
      · rcases lt_or_gt_of_ne h with h | h
        · filter_upwards [B.lt (hL p hp).depth (hL q hq).depth h] with n hn
          rw [decide_eq_true hn, decide_eq_true h]
        · filter_upwards [B.not_lt (hL p hp).depth (hL q hq).depth h] with n hn
          rw [decide_eq_false hn, decide_eq_false h.not_gt])
  have hL' : ∀ p ∈ L', LimMat val p.1 p.2 := fun p hp => hL p (pm.mem_iff.mp hp)
  have ndL' : (L'.map fun p => p.2.depth).Nodup := (pm.map _).nodup_iff.mpr nt.2.2
  rcases List.eq_nil_or_concat' L' with rfl | ⟨D, q, rfl⟩
  · exfalso
    unfold Slope.setMaterials sortByKey at ok
    rw [er, k1, hA2, anyN, if_neg Bool.false_ne_true] at ok
    simp at ok
  have sz : ∀ᶠ n in atTop, setSizeNum (((D ++ [q]).map fun p => p.1 n).map Material.depth) =
      (((D ++ [q]).map fun p => p.1 n).map Material.depth).length := by
    have pw := List.pairwise_map.mp ndL'
    have : ∀ᶠ n in atTop, ∀ a ∈ D ++ [q], ∀ c ∈ D ++ [q], a.2.depth ≠ c.2.depth →
        pyEq (c.1 n).depth (a.1 n).depth = false ∧ pyEq (a.1 n).depth (c.1 n).depth = false := by
      refine eventually_list fun a ha => eventually_list fun c hc => ?_
      by_cases h : a.2.depth = c.2.depth
      · exact .of_forall fun n k => absurd h k
      · filter_upwards [B.not_eq (hL' c hc).depth (hL' a ha).depth (Ne.symm h), B.not_eq (hL' a ha).depth (hL' c hc).depth h]
          with n h1 h2
        exact fun _ => ⟨h1, h2⟩
    filter_upwards [this] with n hn
    apply setSizeNum_of
    rw [List.map_map, List.pairwise_map]
    exact pw.imp_of_mem fun ha hc h => hn _ ha _ hc h
  have sz' : setSizeNum (((D ++ [q]).map Prod.snd).map Material.depth) = (((D ++ [q]).map Prod.snd).map Material.depth).length := by
    apply setSizeNum_of
    rw [List.map_map, List.pairwise_map]
    refine (List.pairwise_map.mp ndL').imp fun {a c} h => ?_
    rw [pyEq_real, pyEq_real]
    exact ⟨decide_eq_false (Ne.symm h), decide_eq_false h⟩
  have hq := hL' q (by simp)
  have neq : s.extH ≠ q.2.depth := by
    intro h
    exact nt.2.1 (h ▸ List.mem_map.mpr ⟨q, pm.mem_iff.mp (by simp), rfl⟩)
  rw [setMaterials_of (by rw [hA2, anyN]) (by rw [er]; exact k1) (List.map_append (f := Prod.snd) (l₁ := D) (l₂ := [q])) sz']
  have G : Goes val (fun n => (if (S n).extH < (q.1 n).depth then (S n).updateBoundaryOptions .none (.num (q.1 n).depth) else
      (S n, .ok ()) : Out (K n) Unit)) (if s.extH < q.2.depth then s.updateBoundaryOptions .none (.num q.2.depth) else (s, .ok ())) := by
    rcases lt_or_gt_of_ne neq with h | h
    · rw [if_pos h]
      refine (B.updateBoundaryOptions b (.inl ⟨rfl, fun n => rfl⟩)
        (.inr ⟨_, _, rfl, fun n => rfl, hq.depth, b.extPos.trans h⟩)).congr ?_
      filter_upwards [B.lt b.extH hq.depth h] with n hn
      rw [if_pos hn]
    · rw [if_neg h.not_gt]
      refine b.same.congr ?_
      filter_upwards [B.not_lt b.extH hq.depth h] with n hn
      rw [if_neg hn]
  have R := G.andThen (f := fun n (s : Slope (K n)) _ =>
      (({ s with materials := PySlope.mkLayers s.extH 0 ((D ++ [q]).map fun p => p.1 n) } : Slope (K n)).resetResults, .ok ()))
    (g := fun (s : Slope ℝ) _ =>
      (({ s with materials := PySlope.mkLayers s.extH 0 ((D ++ [q]).map Prod.snd) } : Slope ℝ).resetResults, .ok ())) fun k => by
    refine ⟨?_, .of_forall fun n => rfl, rfl⟩
    exact { k with materials := B.mkLayers k.extH _ hL' 0 }
  refine R.congr ?_
  filter_upwards [en, k2, sz] with n h1 h2 h3
  exact setMaterials_of (by rw [hA1, anyN]) (by rw [h1]; exact h2) (List.map_append (l₁ := D) (l₂ := [q])) h3

end Better
end PySlope
