import Verif.Lemmas.LimitFos
import Verif.Props.Fos

/-! # The end points of a circle in arithmetics whose rounding errors go to zero -/

namespace PySlope
open Filter Topology Lit

section circleLine
variable {K : Type} [PyNum K]

/-- The parts of `circleLine`. -/
def clDx (T B : K × K) (cx : K) : K := (B.1 - cx) - (T.1 - cx)
def clDy (T B : K × K) (cy : K) : K := (B.2 - cy) - (T.2 - cy)
def clDr (T B : K × K) (cx cy : K) : K := PyNum.sqrt (sq (clDx T B cx) + sq (clDy T B cy))
def clD (T B : K × K) (cx cy : K) : K := (T.1 - cx) * (B.2 - cy) - (B.1 - cx) * (T.2 - cy)
def clDisc (T B : K × K) (cx cy r : K) : K :=
  pyAbs (sq r * sq (clDr T B cx cy)) - pyAbs (sq (clD T B cx cy))
def clM (T B : K × K) (cy : K) : K := if clDy T B cy < 0 then -1 else 1
def clP1 (T B : K × K) (cx cy r : K) : K × K :=
  ((clD T B cx cy * clDy T B cy + clM T B cy * clDx T B cx * PyNum.sqrt (clDisc T B cx cy r)) / sq (clDr T B cx cy) + cx,
   (-(clD T B cx cy * clDx T B cx) + pyAbs (clDy T B cy) * PyNum.sqrt (clDisc T B cx cy r)) / sq (clDr T B cx cy) + cy)
def clP2 (T B : K × K) (cx cy r : K) : K × K :=
  ((clD T B cx cy * clDy T B cy - clM T B cy * clDx T B cx * PyNum.sqrt (clDisc T B cx cy r)) / sq (clDr T B cx cy) + cx,
   (-(clD T B cx cy * clDx T B cx) - pyAbs (clDy T B cy) * PyNum.sqrt (clDisc T B cx cy r)) / sq (clDr T B cx cy) + cy)

theorem circleLine_none {T B : K × K} {cx cy r : K} (h : clDisc T B cx cy r < 0) : circleLine T B cx cy r = .ok [] := by
  unfold circleLine
  exact if_pos h

theorem circleLine_two {T B : K × K} {cx cy r : K} (h1 : ¬ clDisc T B cx cy r < 0) (h2 : pyEq (sq (clDr T B cx cy)) 0 = false)
    (h3 : pyEq (clDisc T B cx cy r) 0 = false) :
    circleLine T B cx cy r = .ok [clP1 T B cx cy r, clP2 T B cx cy r] := by
  unfold circleLine
  refine (if_neg h1).trans ?_
  refine (if_neg (by rw [Bool.not_eq_true]; exact h2)).trans ?_
  exact if_neg (by rw [Bool.not_eq_true]; exact h3)

end circleLine

/-- Points, one for every natural number, and a point. -/
structure Pt (K : ℕ → Type) where
  seq : ∀ n, K n × K n
  lim : ℝ × ℝ

/-- The points go to the point. -/
structure LimPt {K : ℕ → Type} (val : ∀ n, K n → ℝ) (p : Pt K) : Prop where
  fst : Lim val (fun n => (p.seq n).1) p.lim.1
  snd : Lim val (fun n => (p.seq n).2) p.lim.2

theorem eventually_list {α : Type} {l : List α} {P : α → ℕ → Prop} (h : ∀ a ∈ l, ∀ᶠ n in atTop, P a n) :
    ∀ᶠ n in atTop, ∀ a ∈ l, P a n := (eventually_all_finite (List.finite_toSet l)).mpr h

/-- Sorting with comparisons that agree in the end. -/
theorem pySort_lim {K : ℕ → Type} {f : ∀ n, K n × K n → K n × K n → Bool} {g : ℝ × ℝ → ℝ × ℝ → Bool} {L : List (Pt K)}
    (h : ∀ a ∈ L, ∀ b ∈ L, ∀ᶠ n in atTop, f n (a.seq n) (b.seq n) = g a.lim b.lim) :
    ∃ L' : List (Pt K), L'.Perm L ∧ pySort g (L.map Pt.lim) = L'.map Pt.lim ∧
      ∀ᶠ n in atTop, pySort (f n) (L.map fun p => p.seq n) = L'.map fun p => p.seq n := by
  refine ⟨L.mergeSort (fun a b => !(g b.lim a.lim)), List.mergeSort_perm _ _, ?_, ?_⟩
  · unfold pySort
    refine (List.map_mergeSort ?_).symm
    intro a _ b _
    rfl
  · filter_upwards [eventually_list fun a ha => eventually_list fun b hb => h a ha b hb] with n hn
    unfold pySort
    exact (List.map_mergeSort fun a ha b hb => by rw [hn b hb a ha]).symm

namespace Better
variable {K : ℕ → Type} [∀ n, PyNum (K n)] {val : ∀ n, K n → ℝ} {e : ℕ → ℝ} (B : Better val e)
include B

theorem pyEq_self (n : ℕ) (x : K n) : pyEq x x = true := by
  unfold pyEq
  have : x ≤ x := ((B.acc n).le _ _).mpr le_rfl
  rw [decide_eq_true this]; rfl

theorem lt_self (n : ℕ) (x : K n) : decide (x < x) = false :=
  decide_eq_false fun h => lt_irrefl _ (((B.acc n).lt _ _).mp h)

theorem lt_ev {x y : ∀ n, K n} {a b : ℝ} (hx : Lim val x a) (hy : Lim val y b) (h : a ≠ b) :
    ∀ᶠ n in atTop, decide (x n < y n) = decide (a < b) := by
  rcases lt_or_gt_of_ne h with c | c
  · filter_upwards [B.lt hx hy c] with n hn
    rw [decide_eq_true hn, decide_eq_true c]
  · filter_upwards [B.not_lt hx hy c] with n hn
    rw [decide_eq_false hn, decide_eq_false (_root_.not_lt.mpr c.le)]

theorem le_ev {x y : ∀ n, K n} {a b : ℝ} (hx : Lim val x a) (hy : Lim val y b) (h : a ≠ b) :
    ∀ᶠ n in atTop, decide (x n ≤ y n) = decide (a ≤ b) := by
  rcases lt_or_gt_of_ne h with c | c
  · filter_upwards [B.le hx hy c] with n hn
    rw [decide_eq_true hn, decide_eq_true c.le]
  · filter_upwards [B.not_le hx hy c] with n hn
    rw [decide_eq_false hn, decide_eq_false (_root_.not_le.mpr c)]

theorem pairLt_ev {p q : Pt K} (hp : LimPt val p) (hq : LimPt val q) (h : p = q ∨ p.lim.1 ≠ q.lim.1) :
    ∀ᶠ n in atTop, pairLt (p.seq n) (q.seq n) = pairLt p.lim q.lim := by
  rcases h with rfl | h
  · refine .of_forall fun n => ?_
    unfold pairLt
    rw [B.pyEq_self n, if_pos rfl, B.lt_self n, pyEq_real, decide_eq_true rfl, if_pos rfl]
    exact (decide_eq_false (lt_irrefl _)).symm
  · filter_upwards [B.not_eq hp.fst hq.fst h, B.lt_ev hp.fst hq.fst h] with n h1 h2
    unfold pairLt
    rw [h1, h2, pyEq_real, decide_eq_false h]
    rfl

theorem fstLt_ev {p q : Pt K} (hp : LimPt val p) (hq : LimPt val q) (h : p = q ∨ p.lim.1 ≠ q.lim.1) :
    ∀ᶠ n in atTop, decide ((p.seq n).1 < (q.seq n).1) = decide (p.lim.1 < q.lim.1) := by
  rcases h with rfl | h
  · refine .of_forall fun n => ?_
    rw [B.lt_self n, decide_eq_false (lt_irrefl _)]
  · exact B.lt_ev hp.fst hq.fst h

theorem pyAbs' {x : ∀ n, K n} {a : ℝ} (hx : Lim val x a) : Lim val (fun n => PySlope.pyAbs (x n)) (PySlope.pyAbs a) := by
  rw [pyAbs_real]; exact B.pyAbs hx

theorem sq' {x : ∀ n, K n} {a : ℝ} (hx : Lim val x a) : Lim val (fun n => PySlope.sq (x n)) (PySlope.sq a) := B.mul hx hx

/-- The crossings of a circle with a line. -/
theorem circleLine {top bot : ∀ n, K n × K n} {T U : ℝ × ℝ} (h1 : Lim val (fun n => (top n).1) T.1)
    (h2 : Lim val (fun n => (top n).2) T.2) (h3 : Lim val (fun n => (bot n).1) U.1) (h4 : Lim val (fun n => (bot n).2) U.2)
    {cx cy r : ∀ n, K n} {a b p : ℝ} (hcx : Lim val cx a) (hcy : Lim val cy b) (hr : Lim val r p) (hTU : T.1 < U.1)
    (hdy : U.2 < T.2 ∨ (U.2 = T.2 ∧ ∀ n, (bot n).2 = (top n).2)) (hd : clDisc T U a b p ≠ 0) :
    ∃ L : List (Pt K), (∀ q ∈ L, LimPt val q) ∧ (∀ q ∈ L, ∀ q' ∈ L, q = q' ∨ q.lim.1 ≠ q'.lim.1) ∧
      PySlope.circleLine T U a b p = .ok (L.map Pt.lim) ∧
      ∀ᶠ n in atTop, PySlope.circleLine (top n) (bot n) (cx n) (cy n) (r n) = .ok (L.map fun q => q.seq n) := by
  have tx := B.sub h1 hcx
  have ty := B.sub h2 hcy
  have bx := B.sub h3 hcx
  have by' := B.sub h4 hcy
  have dx : Lim val (fun n => clDx (top n) (bot n) (cx n)) (clDx T U a) := B.sub bx tx
  have dy : Lim val (fun n => clDy (top n) (bot n) (cy n)) (clDy T U b) := B.sub by' ty
  have dx0 : clDx T U a ≠ 0 := by
    unfold clDx
    intro h; linarith
  have s2 := B.add (B.sq' dx) (B.sq' dy)
  have s2pos : 0 < PySlope.sq (clDx T U a) + PySlope.sq (clDy T U b) := by
    rw [sq_real, sq_real]
    have := pow_pos (abs_pos.mpr dx0) 2
    rw [sq_abs] at this
    have := sq_nonneg (clDy T U b)
    linarith
  have dr : Lim val (fun n => clDr (top n) (bot n) (cx n) (cy n)) (clDr T U a b) := B.sqrt s2 s2pos
  have dr0 : 0 < clDr T U a b := Real.sqrt_pos.mpr s2pos
  have dr2 := B.sq' dr
  have dr20 : PySlope.sq (clDr T U a b) ≠ 0 := by rw [sq_real]; positivity
  have D : Lim val (fun n => clD (top n) (bot n) (cx n) (cy n)) (clD T U a b) := B.sub (B.mul tx by') (B.mul bx ty)
  have disc : Lim val (fun n => clDisc (top n) (bot n) (cx n) (cy n) (r n)) (clDisc T U a b p) :=
    B.sub (B.pyAbs' (B.mul (B.sq' hr) dr2)) (B.pyAbs' (B.sq' D))
  rcases lt_or_gt_of_ne hd with k | k
  · refine ⟨[], by simp, by simp, circleLine_none (by rw [lit_zero]; exact k), ?_⟩
    filter_upwards [B.lt disc B.zero' k] with n hn
    exact circleLine_none hn
  · have rt : Lim val (fun n => PyNum.sqrt (clDisc (top n) (bot n) (cx n) (cy n) (r n))) (PyNum.sqrt (clDisc T U a b p)) :=
      B.sqrt disc k
    have m : Lim val (fun n => clM (top n) (bot n) (cy n)) (clM T U b) ∧ clM T U b ≠ 0 := by
      rcases hdy with h | ⟨h, h'⟩
      · have hneg : clDy T U b < 0 := by unfold clDy; linarith
        have e0 : clM T U b = -1 := by unfold clM; rw [lit_zero, if_pos hneg, lit_one]
        rw [e0]
        refine ⟨?_, by norm_num⟩
        have := B.neg (B.ofNat 1)
        rw [Nat.cast_one] at this
        exact ite_pos (B.lt dy B.zero' hneg) this
      · have h0 : clDy T U b = 0 := by unfold clDy; rw [h]; ring
        have e0 : clM T U b = 1 := by unfold clM; rw [h0, lit_zero, if_neg (lt_irrefl _), lit_one]
        rw [e0]
        refine ⟨?_, by norm_num⟩
        have := B.ofNat 1
        rw [Nat.cast_one] at this
        refine ite_neg (.of_forall fun n => ?_) this
        intro hc
        have hc := ((B.acc n).lt _ _).mp hc
        rw [B.val_zero] at hc
        unfold clDy at hc
        rw [h' n] at hc
        have := (B.acc n).sub ((top n).2 - cy n) ((top n).2 - cy n)
        rw [sub_self, abs_zero, mul_zero, sub_zero] at this
        have := abs_eq_zero.mp (le_antisymm this (abs_nonneg _))
        rw [this] at hc
        exact lt_irrefl _ hc
    have P1 : LimPt val ⟨fun n => clP1 (top n) (bot n) (cx n) (cy n) (r n), clP1 T U a b p⟩ :=
      ⟨B.add (B.div (B.add (B.mul D dy) (B.mul (B.mul m.1 dx) rt)) dr2 dr20) hcx,
       B.add (B.div (B.add (B.neg (B.mul D dx)) (B.mul (B.pyAbs' dy) rt)) dr2 dr20) hcy⟩
    have P2 : LimPt val ⟨fun n => clP2 (top n) (bot n) (cx n) (cy n) (r n), clP2 T U a b p⟩ :=
      ⟨B.add (B.div (B.sub (B.mul D dy) (B.mul (B.mul m.1 dx) rt)) dr2 dr20) hcx,
       B.add (B.div (B.sub (B.neg (B.mul D dx)) (B.mul (B.pyAbs' dy) rt)) dr2 dr20) hcy⟩
    have rt0 : √(clDisc T U a b p) ≠ 0 := (Real.sqrt_pos.mpr k).ne'
    have hne : (clP1 T U a b p).1 ≠ (clP2 T U a b p).1 := by
      unfold clP1 clP2
      intro h
      change (_ + _ * √(clDisc T U a b p)) / _ + _ = (_ - _ * √(clDisc T U a b p)) / _ + _ at h
      have h := add_right_cancel h
      rw [div_left_inj' dr20] at h
      have : clM T U b * clDx T U a * √(clDisc T U a b p) = 0 := by linarith
      exact mul_ne_zero (mul_ne_zero m.2 dx0) rt0 this
    refine ⟨[⟨fun n => clP1 (top n) (bot n) (cx n) (cy n) (r n), clP1 T U a b p⟩,
      ⟨fun n => clP2 (top n) (bot n) (cx n) (cy n) (r n), clP2 T U a b p⟩], ?_, ?_, ?_, ?_⟩
    · intro q hq
      rcases List.mem_cons.mp hq with rfl | hq
      · exact P1
      · obtain rfl := List.mem_singleton.mp hq
        exact P2
    · intro q hq q' hq'
      rcases List.mem_cons.mp hq with rfl | hq <;> rcases List.mem_cons.mp hq' with rfl | hq'
      · exact .inl rfl
      · obtain rfl := List.mem_singleton.mp hq'
        exact .inr hne
      · obtain rfl := List.mem_singleton.mp hq
        exact .inr hne.symm
      · obtain rfl := List.mem_singleton.mp hq
        obtain rfl := List.mem_singleton.mp hq'
        exact .inl rfl
    · exact circleLine_two (by rw [lit_zero]; exact _root_.not_lt.mpr k.le) (by rw [pyEq_real, lit_zero]; exact decide_eq_false dr20)
        (by rw [pyEq_real, lit_zero]; exact decide_eq_false hd)
    · filter_upwards [B.not_lt disc B.zero' k, B.not_eq dr2 B.zero' dr20, B.not_eq disc B.zero' hd] with n k1 k2 k3
      exact circleLine_two k1 k2 k3

/-- Dropping close points. -/
theorem dropClose {L : List (Pt K)} (hL : ∀ q ∈ L, LimPt val q) {x : ∀ n, K n} {a : ℝ} (hx : Lim val x a)
    (h0 : ∀ q ∈ L, |q.lim.1 - a| ≠ 0.01) (h : ∀ q ∈ L, ∀ q' ∈ L, |q.lim.1 - q'.lim.1| ≠ 0.01) :
    ∃ L' : List (Pt K), L'.Sublist L ∧ PySlope.dropClose a (L.map Pt.lim) = L'.map Pt.lim ∧
      ∀ᶠ n in atTop, PySlope.dropClose (x n) (L.map fun q => q.seq n) = L'.map fun q => q.seq n := by
  induction L generalizing x a with
  | nil => exact ⟨[], List.Sublist.refl _, rfl, .of_forall fun n => rfl⟩
  | cons q L ih =>
    have hq := hL q List.mem_cons_self
    obtain ⟨L', i1, i2, i3⟩ := ih (fun q hq => hL q (List.mem_cons_of_mem _ hq)) hq.fst
      (fun q' hq' => h q' (List.mem_cons_of_mem _ hq') q List.mem_cons_self)
      (fun q hq q' hq' => h q (List.mem_cons_of_mem _ hq) q' (List.mem_cons_of_mem _ hq'))
    have hab := B.pyAbs (B.sub hq.fst hx)
    have hne := h0 q List.mem_cons_self
    have hsci := B.sci 1 true 2
    by_cases k : (0.01 : ℝ) < |q.lim.1 - a|
    · refine ⟨q :: L', i1.cons_cons q, ?_, ?_⟩
      · rw [List.map_cons]
        unfold PySlope.dropClose
        rw [pyAbs_real, if_pos k, i2]
        rfl
      · filter_upwards [i3, B.lt hsci hab k] with n k1 k2
        rw [List.map_cons]
        unfold PySlope.dropClose
        rw [if_pos k2, k1]
        rfl
    · refine ⟨L', i1.cons q, ?_, ?_⟩
      · rw [List.map_cons]
        unfold PySlope.dropClose
        rw [pyAbs_real, if_neg k, i2]
      · filter_upwards [i3, B.not_lt hsci hab (lt_of_le_of_ne (_root_.not_lt.mp k) hne)] with n k1 k2
        rw [List.map_cons]
        unfold PySlope.dropClose
        rw [if_neg k2, k1]

end Better
theorem clDisc_real (T U : ℝ × ℝ) (a b p : ℝ) : clDisc T U a b p =
    p ^ 2 * ((U.1 - T.1) ^ 2 + (U.2 - T.2) ^ 2) - ((T.1 - a) * (U.2 - b) - (U.1 - a) * (T.2 - b)) ^ 2 := by
  unfold clDisc clDr clD clDx clDy
  simp only [sq_real, pyAbs_real, abs_sq]
  have e1 : U.1 - a - (T.1 - a) = U.1 - T.1 := by ring
  have e2 : U.2 - b - (T.2 - b) = U.2 - T.2 := by ring
  rw [e1, e2]
  change |p ^ 2 * √((U.1 - T.1) ^ 2 + (U.2 - T.2) ^ 2) ^ 2| - _ = _
  rw [Real.sq_sqrt (by positivity), abs_of_nonneg (by positivity)]

section parts
variable {K : Type} [PyNum K]

/-- The first point of a list, if it is between two abscissas. -/
def firstIn (lo hi : K) (l : List (K × K)) : List (K × K) :=
  match l with
  | [] => []
  | p :: _ => if lo ≤ p.1 ∧ p.1 ≤ hi then [p] else []

/-- The last point of a list, if it is between two abscissas. -/
def lastIn (lo hi : K) (l : List (K × K)) : List (K × K) :=
  match l.getLast? with
  | none => []
  | some p => if lo ≤ p.1 ∧ p.1 ≤ hi then [p] else []

theorem crossings_of {s : Slope K} {cx cy r : K} {t b m : List (K × K)}
    (h1 : circleLine (0, s.topY) (s.topX, s.topY) cx cy r = .ok t)
    (h2 : circleLine (s.botX, s.botY) (s.extL, s.botY) cx cy r = .ok b)
    (h3 : circleLine (s.topX, s.topY) (s.botX, s.botY) cx cy r = .ok m) :
    s.circleExternalIntersection cx cy r = .ok (dropClose (-1) (sortByKey Prod.fst
      (firstIn 0 s.topX (pySort pairLt t) ++ lastIn s.botX s.extL (pySort pairLt b) ++
        m.filter (fun p => decide (s.topX ≤ p.1) && decide (p.1 ≤ s.botX))))) := by
  unfold Slope.circleExternalIntersection
  rw [h1, h2, h3]
  rfl

end parts

theorem setSize_fold_le {K : Type} [PyNum K] (l acc : List (K × K)) : acc.length ≤ (l.foldl (fun acc p =>
    if acc.any (fun q => pyEq p.1 q.1 && pyEq p.2 q.2) then acc else acc ++ [p]) acc).length := by
  induction l generalizing acc with
  | nil => exact le_rfl
  | cons p l ih =>
    rw [List.foldl_cons]
    refine le_trans ?_ (ih _)
    split
    · exact le_rfl
    · simp

theorem setSize_two {K : Type} [PyNum K] {p q : K × K} {l : List (K × K)} (h : pyEq q.1 p.1 = false) :
    2 ≤ setSize (p :: q :: l) := by
  unfold setSize
  have : ([p].any fun x => pyEq q.1 x.1 && pyEq q.2 x.2) = false := by simp [h]
  rw [List.foldl_cons, List.foldl_cons]
  simp only [List.any_nil, Bool.false_eq_true, if_false, List.nil_append, this]
  exact setSize_fold_le l [p, q]

theorem bishop_ends {K : Type} [PyNum K] {s : Slope K} {cx cy r : K} {l q : K × K}
    (h : s.bishopEnds cx cy r none none = .ok (l, q)) :
    s.bishop cx cy r none none = s.bishop cx cy r (some l) (some q) := by
  unfold Slope.bishop
  rw [h]
  rfl

namespace Better
variable {K : ℕ → Type} [∀ n, PyNum (K n)] {val : ∀ n, K n → ℝ} {e : ℕ → ℝ} (B : Better val e)
include B

theorem between_ev {q : Pt K} (hq : LimPt val q) {lo hi : ∀ n, K n} {a b : ℝ} (hlo : Lim val lo a) (hhi : Lim val hi b)
    (h1 : q.lim.1 ≠ a) (h2 : q.lim.1 ≠ b) :
    ∀ᶠ n in atTop, ((lo n ≤ (q.seq n).1 ∧ (q.seq n).1 ≤ hi n) ↔ (a ≤ q.lim.1 ∧ q.lim.1 ≤ b)) := by
  filter_upwards [B.le_ev hlo hq.fst h1.symm, B.le_ev hq.fst hhi h2] with n k1 k2
  rw [decide_eq_decide] at k1 k2
  rw [k1, k2]

theorem firstIn {L : List (Pt K)} (hL : ∀ q ∈ L, LimPt val q) {lo hi : ∀ n, K n} {a b : ℝ} (hlo : Lim val lo a)
    (hhi : Lim val hi b) (h : ∀ q ∈ L, q.lim.1 ≠ a ∧ q.lim.1 ≠ b) :
    ∃ I : List (Pt K), PySlope.firstIn a b (L.map Pt.lim) = I.map Pt.lim ∧
      (∀ᶠ n in atTop, PySlope.firstIn (lo n) (hi n) (L.map fun q => q.seq n) = I.map fun q => q.seq n) ∧
      (I = [] ∨ ∃ q rest, L = q :: rest ∧ I = [q] ∧ a < q.lim.1 ∧ q.lim.1 < b) := by
  cases L with
  | nil => exact ⟨[], rfl, .of_forall fun n => rfl, .inl rfl⟩
  | cons q rest =>
    obtain ⟨n1, n2⟩ := h q List.mem_cons_self
    have ev := B.between_ev (hL q List.mem_cons_self) hlo hhi n1 n2
    by_cases k : a ≤ q.lim.1 ∧ q.lim.1 ≤ b
    · refine ⟨[q], ?_, ?_, .inr ⟨q, rest, rfl, rfl, lt_of_le_of_ne k.1 n1.symm, lt_of_le_of_ne k.2 n2⟩⟩
      · exact if_pos k
      · filter_upwards [ev] with n hn
        exact if_pos (hn.mpr k)
    · refine ⟨[], if_neg k, ?_, .inl rfl⟩
      filter_upwards [ev] with n hn
      exact if_neg fun c => k (hn.mp c)

theorem lastIn {L : List (Pt K)} (hL : ∀ q ∈ L, LimPt val q) {lo hi : ∀ n, K n} {a b : ℝ} (hlo : Lim val lo a)
    (hhi : Lim val hi b) (h : ∀ q ∈ L, q.lim.1 ≠ a ∧ q.lim.1 ≠ b) :
    ∃ I : List (Pt K), PySlope.lastIn a b (L.map Pt.lim) = I.map Pt.lim ∧
      (∀ᶠ n in atTop, PySlope.lastIn (lo n) (hi n) (L.map fun q => q.seq n) = I.map fun q => q.seq n) ∧
      (I = [] ∨ ∃ q, L.getLast? = some q ∧ I = [q] ∧ a < q.lim.1 ∧ q.lim.1 < b) := by
  unfold PySlope.lastIn
  simp only [List.getLast?_map]
  cases hl : L.getLast? with
  | none => exact ⟨[], rfl, .of_forall fun n => rfl, .inl rfl⟩
  | some q =>
    have hq : q ∈ L := List.mem_of_getLast? hl
    obtain ⟨n1, n2⟩ := h q hq
    have ev := B.between_ev (hL q hq) hlo hhi n1 n2
    by_cases k : a ≤ q.lim.1 ∧ q.lim.1 ≤ b
    · refine ⟨[q], ?_, ?_, .inr ⟨q, rfl, rfl, lt_of_le_of_ne k.1 n1.symm, lt_of_le_of_ne k.2 n2⟩⟩
      · exact if_pos k
      · filter_upwards [ev] with n hn
        exact if_pos (hn.mpr k)
    · refine ⟨[], if_neg k, ?_, .inl rfl⟩
      filter_upwards [ev] with n hn
      exact if_neg fun c => k (hn.mp c)

theorem filterIn {L : List (Pt K)} (hL : ∀ q ∈ L, LimPt val q) {lo hi : ∀ n, K n} {a b : ℝ} (hlo : Lim val lo a)
    (hhi : Lim val hi b) (h : ∀ q ∈ L, q.lim.1 ≠ a ∧ q.lim.1 ≠ b) :
    ∃ I : List (Pt K), (L.map Pt.lim).filter (fun p => decide (a ≤ p.1) && decide (p.1 ≤ b)) = I.map Pt.lim ∧
      (∀ᶠ n in atTop, (L.map fun q => q.seq n).filter (fun p => decide (lo n ≤ p.1) && decide (p.1 ≤ hi n)) =
        I.map fun q => q.seq n) ∧ ∀ q ∈ I, q ∈ L ∧ a < q.lim.1 ∧ q.lim.1 < b := by
  refine ⟨L.filter (fun q => decide (a ≤ q.lim.1) && decide (q.lim.1 ≤ b)), ?_, ?_, ?_⟩
  · rw [List.filter_map]; rfl
  · filter_upwards [eventually_list fun q hq => B.between_ev (hL q hq) hlo hhi (h q hq).1 (h q hq).2] with n hn
    rw [List.filter_map]
    congr 1
    apply List.filter_congr
    intro q hq
    have := hn q hq
    simp only [Function.comp_apply, ← Bool.decide_and]
    exact decide_eq_decide.mpr this
  · intro q hq
    obtain ⟨h1, h2⟩ := List.mem_filter.mp hq
    simp only [Bool.and_eq_true, decide_eq_true_eq] at h2
    exact ⟨h1, lt_of_le_of_ne h2.1 (h q h1).1.symm, lt_of_le_of_ne h2.2 (h q h1).2⟩

/-- The crossings of a circle with the ground. -/
theorem crossings {s : Slope ℝ} (g : Geo s) {S : ∀ n, Slope (K n)} (tX : Lim val (fun n => (S n).topX) s.topX)
    (tY : Lim val (fun n => (S n).topY) s.topY) (bX : Lim val (fun n => (S n).botX) s.botX)
    (bY : Lim val (fun n => (S n).botY) s.botY) (eL : Lim val (fun n => (S n).extL) s.extL) {a b p : ℝ}
    (nt : NoTiesEnds s a b p) {cx cy r : ∀ n, K n} (hcx : Lim val cx a) (hcy : Lim val cy b) (hr : Lim val r p) :
    ∃ L : List (Pt K), (∀ q ∈ L, LimPt val q) ∧ s.circleExternalIntersection a b p = .ok (L.map Pt.lim) ∧
      ∀ᶠ n in atTop, (S n).circleExternalIntersection (cx n) (cy n) (r n) = .ok (L.map fun q => q.seq n) := by
  have g1 := g.topX_pos
  have g2 := g.botX_lt
  have g3 := g.top_lt_bot
  have hlen : 0 < s.length := lt_of_lt_of_le (by norm_num) g.len
  have gb := g.botX; have gby := g.botY; have gty := g.topY; have gh := nt.face
  -- the three lines
  obtain ⟨L1, a1, a2, a3, a4⟩ := B.circleLine (top := fun n => (@OfNat.ofNat (K n) 0 (Lit.natLit 0), (S n).topY))
    (bot := fun n => ((S n).topX, (S n).topY)) (T := (0, s.topY)) (U := (s.topX, s.topY)) B.zero' tY tX tY hcx hcy hr g1
    (.inr ⟨rfl, fun n => rfl⟩) (by
      rw [clDisc_real]
      intro h
      have : s.topX ^ 2 * (p ^ 2 - (b - s.topY) ^ 2) = 0 := by simp only at h; linear_combination h
      rcases mul_eq_zero.mp this with k | k
      · exact g1.ne' (pow_eq_zero_iff (by norm_num) |>.mp k)
      · exact nt.crest (by linarith))
  obtain ⟨L2, b1, b2, b3, b4⟩ := B.circleLine (top := fun n => ((S n).botX, (S n).botY))
    (bot := fun n => ((S n).extL, (S n).botY)) (T := (s.botX, s.botY)) (U := (s.extL, s.botY)) bX bY eL bY hcx hcy hr g2
    (.inr ⟨rfl, fun n => rfl⟩) (by
      rw [clDisc_real]
      intro h
      have : (s.extL - s.botX) ^ 2 * (p ^ 2 - (b - s.botY) ^ 2) = 0 := by simp only at h; linear_combination h
      rcases mul_eq_zero.mp this with k | k
      · have := pow_eq_zero_iff (by norm_num) |>.mp k
        linarith
      · exact nt.toe (by linarith))
  obtain ⟨L3, c1, c2, c3, c4⟩ := B.circleLine (top := fun n => ((S n).topX, (S n).topY))
    (bot := fun n => ((S n).botX, (S n).botY)) (T := (s.topX, s.topY)) (U := (s.botX, s.botY)) tX tY bX bY hcx hcy hr g3
    (.inl (by change s.botY < s.topY; linarith)) (by
      rw [clDisc_real]
      intro h
      apply nt.line
      have e1 : s.botX = s.topX + s.length := gb
      have e2 : s.botY = s.topY - s.height := by rw [gby, gty]
      simp only [e1, e2] at h
      linear_combination -h)
  obtain ⟨l1, x1, -, m1⟩ := circleLine_spec (a := (0, s.topY)) (b := (s.topX, s.topY))
    (by rw [Ne, Prod.mk.injEq]; rintro ⟨h, -⟩; linarith) a b p
  obtain ⟨l2, x2, -, m2⟩ := circleLine_spec (a := (s.botX, s.botY)) (b := (s.extL, s.botY))
    (by rw [Ne, Prod.mk.injEq]; rintro ⟨h, -⟩; linarith) a b p
  obtain ⟨l3, x3, -, m3⟩ := circleLine_spec (a := (s.topX, s.topY)) (b := (s.botX, s.botY))
    (by rw [Ne, Prod.mk.injEq]; rintro ⟨h, -⟩; linarith) a b p
  simp only [onLine_flat g1] at m1
  simp only [onLine_flat g2] at m2
  rw [a3] at x1
  rw [b3] at x2
  rw [c3] at x3
  injection x1 with x1
  injection x2 with x2
  injection x3 with x3
  -- the first and the last
  obtain ⟨L1', s1, s2, s3⟩ := pySort_lim (f := fun n => pairLt) (g := pairLt) fun q hq q' hq' =>
    B.pairLt_ev (a1 q hq) (a1 q' hq') (a2 q hq q' hq')
  obtain ⟨L2', t1, t2, t3⟩ := pySort_lim (f := fun n => pairLt) (g := pairLt) fun q hq q' hq' =>
    B.pairLt_ev (b1 q hq) (b1 q' hq') (b2 q hq q' hq')
  have on1 : ∀ q ∈ L1, OnCircle a b p q.lim ∧ q.lim.2 = s.topY := fun q hq =>
    (m1 q.lim).mp (by rw [← x1]; exact List.mem_map_of_mem hq)
  have on2 : ∀ q ∈ L2, OnCircle a b p q.lim ∧ q.lim.2 = s.botY := fun q hq =>
    (m2 q.lim).mp (by rw [← x2]; exact List.mem_map_of_mem hq)
  have on3 : ∀ q ∈ L3, OnCircle a b p q.lim ∧ OnLine (s.topX, s.topY) (s.botX, s.botY) q.lim := fun q hq =>
    (m3 q.lim).mp (by rw [← x3]; exact List.mem_map_of_mem hq)
  have corner : ∀ (q : Pt K) (x y : ℝ), OnCircle a b p q.lim → ¬ OnCircle a b p (x, y) → q.lim.2 = y → q.lim.1 ≠ x := by
    intro q x y h1 h2 h3 h4
    apply h2
    rw [← h3, ← h4]
    exact h1
  have p1 := fun q (hq : q ∈ L1') => a1 q (s1.mem_iff.mp hq)
  have p2 := fun q (hq : q ∈ L2') => b1 q (t1.mem_iff.mp hq)
  obtain ⟨I1, i1, i2, i3⟩ := B.firstIn p1 B.zero' tX (fun q hq => by
    obtain ⟨o1, o2⟩ := on1 q (s1.mem_iff.mp hq)
    exact ⟨corner q 0 s.topY o1 nt.left_corner o2, corner q s.topX s.topY o1 nt.crest_corner o2⟩)
  obtain ⟨I2, j1, j2, j3⟩ := B.lastIn p2 bX eL (fun q hq => by
    obtain ⟨o1, o2⟩ := on2 q (t1.mem_iff.mp hq)
    exact ⟨corner q s.botX s.botY o1 nt.toe_corner o2, corner q s.extL s.botY o1 nt.right_corner o2⟩)
  obtain ⟨I3, k1, k2, k3⟩ := B.filterIn c1 tX bX (fun q hq => by
    obtain ⟨o1, o2⟩ := on3 q hq
    unfold OnLine at o2
    simp only at o2
    constructor
    · intro h
      refine corner q s.topX s.topY o1 nt.crest_corner ?_ h
      rw [h, sub_self, zero_mul] at o2
      rcases mul_eq_zero.mp o2.symm with k | k <;> linarith
    · intro h
      refine corner q s.botX s.botY o1 nt.toe_corner ?_ h
      rw [h] at o2
      have : (s.botX - s.topX) * (q.lim.2 - s.botY) = 0 := by linarith
      rcases mul_eq_zero.mp this with k | k <;> linarith)
  -- all of them
  have cr1 : ∀ q ∈ I1, LimPt val q ∧ Crossing s a b p q.lim ∧ q.lim.1 < s.topX ∧ ∀ q' ∈ I1, q = q' := by
    intro q hq
    rcases i3 with h | ⟨q0, rest, h1, h2, h3, h4⟩
    · rw [h] at hq; cases hq
    · rw [h2] at hq
      obtain rfl := List.mem_singleton.mp hq
      have hm : q ∈ L1' := by rw [h1]; exact List.mem_cons_self
      obtain ⟨o1, o2⟩ := on1 q (s1.mem_iff.mp hm)
      have hl : ∃ rest, pySort pairLt l1 = q.lim :: rest := ⟨rest.map Pt.lim, by rw [← x1, s2, h1]; rfl⟩
      have := (left_crossing m1 q.lim).mp hl
      exact ⟨p1 q hm, ⟨o1, .inl ⟨o2, h3.le, h4.le, this.2.2⟩⟩, h4, fun q' hq' => by
        rw [h2] at hq'; exact (List.mem_singleton.mp hq').symm⟩
  have cr2 : ∀ q ∈ I2, LimPt val q ∧ Crossing s a b p q.lim ∧ s.botX < q.lim.1 ∧ ∀ q' ∈ I2, q = q' := by
    intro q hq
    rcases j3 with h | ⟨q0, h1, h2, h3, h4⟩
    · rw [h] at hq; cases hq
    · rw [h2] at hq
      obtain rfl := List.mem_singleton.mp hq
      have hm : q ∈ L2' := List.mem_of_getLast? h1
      obtain ⟨o1, o2⟩ := on2 q (t1.mem_iff.mp hm)
      have hl : (pySort pairLt l2).getLast? = some q.lim := by rw [← x2, t2, List.getLast?_map, h1]; rfl
      have := (right_crossing m2 q.lim).mp hl
      exact ⟨p2 q hm, ⟨o1, .inr (.inl ⟨o2, h3.le, h4.le, this.2.2⟩)⟩, h3, fun q' hq' => by
        rw [h2] at hq'; exact (List.mem_singleton.mp hq').symm⟩
  have cr3 : ∀ q ∈ I3, LimPt val q ∧ Crossing s a b p q.lim ∧ s.topX < q.lim.1 ∧ q.lim.1 < s.botX := by
    intro q hq
    obtain ⟨h1, h2, h3⟩ := k3 q hq
    obtain ⟨o1, o2⟩ := on3 q h1
    exact ⟨c1 q h1, ⟨o1, .inr (.inr ⟨o2, h2.le, h3.le⟩)⟩, h2, h3⟩
  have all : ∀ q ∈ I1 ++ I2 ++ I3, LimPt val q ∧ Crossing s a b p q.lim := by
    intro q hq
    rw [List.mem_append, List.mem_append] at hq
    rcases hq with (hq | hq) | hq
    · exact ⟨(cr1 q hq).1, (cr1 q hq).2.1⟩
    · exact ⟨(cr2 q hq).1, (cr2 q hq).2.1⟩
    · exact ⟨(cr3 q hq).1, (cr3 q hq).2.1⟩
  have diff : ∀ q ∈ I1 ++ I2 ++ I3, ∀ q' ∈ I1 ++ I2 ++ I3, q = q' ∨ q.lim.1 ≠ q'.lim.1 := by
    intro q hq q' hq'
    rw [List.mem_append, List.mem_append] at hq hq'
    rcases hq with (hq | hq) | hq <;> rcases hq' with (hq' | hq') | hq'
    · exact .inl ((cr1 q hq).2.2.2 q' hq')
    · right; have := (cr1 q hq).2.2.1; have := (cr2 q' hq').2.2.1; intro h; linarith
    · right; have := (cr1 q hq).2.2.1; have := (cr3 q' hq').2.2.1; intro h; linarith
    · right; have := (cr2 q hq).2.2.1; have := (cr1 q' hq').2.2.1; intro h; linarith
    · exact .inl ((cr2 q hq).2.2.2 q' hq')
    · right; have := (cr2 q hq).2.2.1; have := (cr3 q' hq').2.2.2; intro h; linarith
    · right; have := (cr3 q hq).2.2.1; have := (cr1 q' hq').2.2.1; intro h; linarith
    · right; have := (cr3 q hq).2.2.2; have := (cr2 q' hq').2.2.1; intro h; linarith
    · exact c2 q (k3 q hq).1 q' (k3 q' hq').1
  obtain ⟨M, u1, u2, u3⟩ := pySort_lim (f := fun n a b => decide (a.1 < b.1)) (g := fun a b => decide (a.1 < b.1))
    fun q hq q' hq' => B.fstLt_ev (all q hq).1 (all q' hq').1 (diff q hq q' hq')
  have hone : Lim val (fun n => -(@OfNat.ofNat (K n) 1 (Lit.natLit 1))) (-1) := by
    have := B.neg (B.ofNat 1)
    rwa [Nat.cast_one] at this
  obtain ⟨N, v1, v2, v3⟩ := B.dropClose (fun q hq => (all q (u1.mem_iff.mp hq)).1) hone
    (fun q hq => by
      have := (all q (u1.mem_iff.mp hq)).2.nonneg g
      rw [abs_of_nonneg (by linarith)]
      intro h; norm_num at h; linarith)
    (fun q hq q' hq' => nt.gap _ _ (all q (u1.mem_iff.mp hq)).2 (all q' (u1.mem_iff.mp hq')).2)
  refine ⟨N, fun q hq => (all q (u1.mem_iff.mp (v1.subset hq))).1, ?_, ?_⟩
  · rw [crossings_of (by rw [lit_zero]; exact a3) b3 c3, s2, t2, lit_zero, i1, j1, k1, lit_one]
    rw [← List.map_append, ← List.map_append]
    unfold sortByKey
    rw [u2, v2]
  · filter_upwards [a4, b4, c4, s3, t3, i2, j2, k2, u3, v3] with n w1 w2 w3 w4 w5 w6 w7 w8 w9 w10
    rw [crossings_of w1 w2 w3, w4, w5, w6, w7, w8]
    rw [← List.map_append, ← List.map_append]
    unfold sortByKey
    rw [w9, w10]

/-- The two end points. -/
theorem bishopEnds {s : Slope ℝ} (g : Geo s) {S : ∀ n, Slope (K n)} (C : ∀ n, Close (e n) (val n) s (S n)) {a b p : ℝ}
    (nt : NoTiesEnds s a b p) {cx cy r : ∀ n, K n} (hcx : Lim val cx a) (hcy : Lim val cy b) (hr : Lim val r p)
    {l q : ℝ × ℝ} (h : s.bishopEnds a b p none none = .ok (l, q)) :
    ∃ L Q : ∀ n, K n × K n, Lim val (fun n => (L n).1) l.1 ∧ Lim val (fun n => (Q n).1) q.1 ∧
      ∀ᶠ n in atTop, (S n).bishopEnds (cx n) (cy n) (r n) none none = .ok (L n, Q n) := by
  obtain ⟨M, h1, h2, h3⟩ := B.crossings g (B.of_close fun n => (C n).topX) (B.of_close fun n => (C n).topY)
    (B.of_close fun n => (C n).botX) (B.of_close fun n => (C n).botY) (B.of_close fun n => (C n).extL) nt hcx hcy hr
  obtain ⟨⟨rest, h4⟩, h5⟩ := bishopEnds_first g h
  have h6 := h5.2.2.1
  rw [h4] at h2
  injection h2 with h2
  match M, h2 with
  | A :: A' :: M, h2 =>
    rw [List.map_cons, List.map_cons] at h2
    injection h2 with e1 h2
    injection h2 with e2 h2
    have l1 := (h1 A (by simp)).fst
    have l2 := (h1 A' (by simp)).fst
    rw [← e1] at l1
    rw [← e2] at l2
    refine ⟨A.seq, A'.seq, l1, l2, ?_⟩
    filter_upwards [h3, B.not_eq l2 l1 (by intro h; rw [h] at h6; norm_num at h6)] with n k1 k2
    unfold Slope.bishopEnds
    rw [k1]
    have : 2 ≤ setSize ((A :: A' :: M).map fun q => q.seq n) := setSize_two k2
    simp only [if_neg (Nat.not_lt.mpr this)]
    rfl

end Better
end PySlope
