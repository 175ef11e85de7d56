import Verif.Lemmas.LimitSlices

/-! # Weight, water and strength in arithmetics whose rounding errors go to zero -/

namespace PySlope
open Filter Topology Lit

theorem seq_nil {α : Type} {β : ℕ → Type} {R : ∀ n, α → β n → Prop} {bs : ∀ n, List (β n)}
    (h : ∀ n, List.Forall₂ (R n) [] (bs n)) : bs = fun _ => [] :=
  funext fun n => List.forall₂_nil_left_iff.mp (h n)

theorem seq_cons {α : Type} {β : ℕ → Type} {R : ∀ n, α → β n → Prop} {a : α} {as : List α} {bs : ∀ n, List (β n)}
    (h : ∀ n, List.Forall₂ (R n) (a :: as) (bs n)) :
    ∃ (b : ∀ n, β n) (bs' : ∀ n, List (β n)), bs = (fun n => b n :: bs' n) ∧ (∀ n, R n a (b n)) ∧
      ∀ n, List.Forall₂ (R n) as (bs' n) := by
  choose b bs' h1 h2 h3 using fun n => List.forall₂_cons_left_iff.mp (h n)
  exact ⟨b, bs', funext h3, h1, h2⟩

theorem forall2_getLast {α β : Type} {R : α → β → Prop} {as : List α} {bs : List β} (h : List.Forall₂ R as bs) {a : α}
    (ha : as.getLast? = some a) : ∃ b, bs.getLast? = some b ∧ R a b := by
  induction h with
  | nil => cases ha
  | @cons a1 b1 as bs h1 h2 ih =>
    cases h2 with
    | nil => cases ha; exact ⟨b1, rfl, h1⟩
    | @cons a2 b2 as bs h3 h4 =>
      rw [List.getLast?_cons_cons] at ha ⊢
      exact ih ha

/-- The forces on a slice, with a dummy when there is no material. -/
def Slope.forceOf {K : Type} [PyNum K] (s : Slope K) (w : K) (water : Option (K × K)) (q : Row K) : SliceForces K :=
  { W := s.rowWeight w q, u := s.waterHead water q, c := ((s.rowStrength q.yb).getD (0, 0)).1,
    tanPhi := ((s.rowStrength q.yb).getD (0, 0)).2, cosA := q.cosA, sinA := q.sinA }

theorem sliceForces_of {K : Type} [PyNum K] {s : Slope K} (hm : s.materials ≠ []) {water} (hw : s.waterX = .ok water)
    (w : K) (rows : List (Row K)) : s.sliceForces w rows = .ok (rows.map (s.forceOf w water)) := by
  unfold Slope.sliceForces
  rw [hw]
  apply mapM_ok
  intro q _
  have : ∃ ct, s.rowStrength q.yb = some ct := by
    unfold Slope.rowStrength
    cases h : s.materials.getLast? with
    | none => exact absurd (List.getLast?_eq_none_iff.mp h) hm
    | some l => exact ⟨_, rfl⟩
  obtain ⟨ct, h⟩ := this
  unfold Slope.forceOf
  rw [h]
  rfl

/-- The numbers of a slice go to those of a slice. -/
structure LimForce {K : ℕ → Type} (val : ∀ n, K n → ℝ) (f : ∀ n, SliceForces (K n)) (p : SliceForces ℝ) : Prop where
  W : Lim val (fun n => (f n).W) p.W
  u : Lim val (fun n => (f n).u) p.u
  c : Lim val (fun n => (f n).c) p.c
  tanPhi : Lim val (fun n => (f n).tanPhi) p.tanPhi
  cosA : Lim val (fun n => (f n).cosA) p.cosA
  sinA : Lim val (fun n => (f n).sinA) p.sinA

namespace Better
variable {K : ℕ → Type} [∀ n, PyNum (K n)] {val : ∀ n, K n → ℝ} {e : ℕ → ℝ} (B : Better val e)

omit [∀ n, PyNum (K n)] in
theorem foldl {α : Type} {β : ℕ → Type} {R : ∀ n, α → β n → Prop} {f : ∀ n, K n → β n → K n} {g : ℝ → α → ℝ}
    {as : List α} (hf : ∀ a ∈ as, ∀ b : ∀ n, β n, (∀ n, R n a (b n)) → ∀ (W : ∀ n, K n) w, Lim val W w →
      Lim val (fun n => f n (W n) (b n)) (g w a))
    {bs : ∀ n, List (β n)} (h : ∀ n, List.Forall₂ (R n) as (bs n)) {W : ∀ n, K n} {w : ℝ} (hW : Lim val W w) :
    Lim val (fun n => (bs n).foldl (f n) (W n)) (as.foldl g w) := by
  induction as generalizing bs W w with
  | nil => rw [seq_nil h]; exact hW
  | cons a as ih =>
    obtain ⟨b, bs', rfl, h1, h2⟩ := seq_cons h
    exact ih (fun a ha => hf a (List.mem_cons_of_mem _ ha)) h2 (hf a List.mem_cons_self b h1 W w hW)

include B

theorem lsum {l : List ℕ} {f : ∀ n, ℕ → K n} {F : ℕ → ℝ} (h : ∀ i ∈ l, Lim val (fun n => f n i) (F i)) :
    Lim val (fun n => PySlope.lsum (l.map (f n))) (PySlope.lsum (l.map F)) := by
  have key : ∀ (l : List ℕ), (∀ i ∈ l, Lim val (fun n => f n i) (F i)) → ∀ (A : ∀ n, K n) a, Lim val A a →
      Lim val (fun n => (l.map (f n)).foldl (· + ·) (A n)) ((l.map F).foldl (· + ·) a) := by
    intro l
    induction l with
    | nil => intro _ A a hA; exact hA
    | cons i l ih =>
      intro h A a hA
      exact ih (fun j hj => h j (List.mem_cons_of_mem _ hj)) _ _ (B.add hA (h i List.mem_cons_self))
  have := key l h _ _ B.zero'
  rw [← lit_zero] at this
  exact this

theorem stripColumn {yt yb top : ∀ n, K n} {a b c : ℝ} (ht : Lim val yt a) (hb : Lim val yb b) (hc : Lim val top c)
    {as : List (Layer ℝ)} {bs : ∀ n, List (Layer (K n))} (h : ∀ n, List.Forall₂ (CloseLayer (e n) (val n)) as (bs n)) :
    Lim val (fun n => PySlope.stripColumn (yt n) (yb n) (top n) (bs n)) (PySlope.stripColumn a b c as) := by
  induction as generalizing bs top c with
  | nil =>
    rw [seq_nil h]
    have := B.zero'
    rw [← lit_zero] at this
    exact this
  | cons l as ih =>
    obtain ⟨m, bs', rfl, h1, h2⟩ := seq_cons h
    have hu := B.of_close fun n => (h1 n).1
    have hrl := B.of_close fun n => (h1 n).2.2.2
    cases as with
    | nil =>
      rw [seq_nil h2]
      have := B.mul hu (B.clip0 (B.sub (B.pyMin ht hc) hb))
      rw [← clip0_real, ← pyMin_real] at this
      exact this
    | cons l2 as =>
      have i := ih hrl h2
      obtain ⟨m2, bs2, rfl, h3, h4⟩ := seq_cons h2
      have := B.add (B.mul hu (B.clip0 (B.sub (B.pyMin ht hc) (B.pyMax hb hrl)))) i
      rw [← clip0_real, ← pyMin_real, ← pyMax_real] at this
      exact this

variable {s : Slope ℝ} {S : ∀ n, Slope (K n)} (C : ∀ n, Close (e n) (val n) s (S n)) (g : Geo s)
include C

theorem rowWeight {w : ∀ n, K n} {b : ℝ} (hw : Lim val w b) {q : ∀ n, Row (K n)} {p : Row ℝ} (hq : LimRow val q p)
    (h : ∀ l ∈ s.lls, l.coord ≠ p.x - b / 2 ∧ l.coord ≠ p.x + b / 2) :
    Lim val (fun n => (S n).rowWeight (w n) (q n)) (s.rowWeight b p) := by
  have hh := B.half C hw
  have hl := B.sub hq.x hh
  have hr := B.add hq.x hh
  have h0 := B.mul (B.stripColumn hq.yt hq.yb (B.of_close fun n => (C n).extH) fun n => (C n).materials) hw
  have h1 := foldl (R := fun n (a : PUdl ℝ) (b : PUdl (K n)) => |val n b.load.magnitude - a.load.magnitude| ≤ e n ∧ |val n b.left - a.left| ≤ e n ∧
    |val n b.right - a.right| ≤ e n)
    (f := fun n W u => W + PySlope.clip0 (PySlope.pyMin ((q n).x + w n / 2) u.right - PySlope.pyMax ((q n).x - w n / 2) u.left) * u.load.magnitude)
    (g := fun W u => W + PySlope.clip0 (PySlope.pyMin (p.x + b / 2) u.right - PySlope.pyMax (p.x - b / 2) u.left) * u.load.magnitude)
    (fun a _ u hu W w0 hW => by
      have := B.add hW (B.mul (B.clip0 (B.sub (B.pyMin hr (B.of_close fun n => (hu n).2.2)) (B.pyMax hl (B.of_close fun n => (hu n).2.1))))
        (B.of_close fun n => (hu n).1))
      rw [← clip0_real, ← pyMin_real, ← pyMax_real] at this
      exact this) (fun n => (C n).udls) h0
  exact foldl (R := fun n (a : PLl ℝ) (b : PLl (K n)) => |val n b.load.magnitude - a.load.magnitude| ≤ e n ∧ |val n b.coord - a.coord| ≤ e n)
    (f := fun n W l => if (q n).x - w n / 2 ≤ l.coord ∧ l.coord < (q n).x + w n / 2 then W + l.load.magnitude else W)
    (g := fun W l => if p.x - b / 2 ≤ l.coord ∧ l.coord < p.x + b / 2 then W + l.load.magnitude else W)
    (fun a ha l hu W w0 hW => by
      obtain ⟨n1, n2⟩ := h a ha
      have hc := B.of_close fun n => (hu n).2
      by_cases k : p.x - b / 2 ≤ a.coord ∧ a.coord < p.x + b / 2
      · rw [if_pos k]
        refine ite_pos ?_ (B.add hW (B.of_close fun n => (hu n).1))
        filter_upwards [B.le hl hc (lt_of_le_of_ne k.1 n1.symm), B.lt hc hr k.2] with n k1 k2
        exact ⟨k1, k2⟩
      · rw [if_neg k]
        refine ite_neg ?_ hW
        rw [not_and_or, _root_.not_le, _root_.not_lt] at k
        rcases k with k | k
        · filter_upwards [B.not_le hl hc k] with n k1 k2
          exact k1 k2.1
        · filter_upwards [B.not_lt hc hr (lt_of_le_of_ne k n2.symm)] with n k1 k2
          exact k1 k2.2) (fun n => (C n).lls) h1

omit C in
theorem strengthLoop {yb : ∀ n, K n} {a : ℝ} (hy : Lim val yb a)
    {as : List (Layer ℝ)} {bs : ∀ n, List (Layer (K n))} (h : ∀ n, List.Forall₂ (CloseLayer (e n) (val n)) as (bs n))
    (ht : ∀ l ∈ as, l.rl ≠ a) {c t : ∀ n, K n} {c0 t0 : ℝ} (hc : Lim val c c0) (hp : Lim val t t0) (d : Bool) :
    Lim val (fun n => (PySlope.strengthLoop (yb n) (bs n) (c n, t n, d)).1) (PySlope.strengthLoop a as (c0, t0, d)).1 ∧
    Lim val (fun n => (PySlope.strengthLoop (yb n) (bs n) (c n, t n, d)).2.1) (PySlope.strengthLoop a as (c0, t0, d)).2.1 := by
  induction as generalizing bs c t c0 t0 d with
  | nil => rw [seq_nil h]; exact ⟨hc, hp⟩
  | cons l as ih =>
    obtain ⟨m, bs', rfl, h1, h2⟩ := seq_cons h
    have hrl := B.of_close fun n => (h1 n).2.2.2
    have ht' := fun l hl => ht l (List.mem_cons_of_mem _ hl)
    cases d with
    | true => exact ih h2 ht' hc hp true
    | false =>
      rcases lt_or_gt_of_ne (ht l List.mem_cons_self) with k | k
      · have e0 : PySlope.strengthLoop a (l :: as) (c0, t0, false) = PySlope.strengthLoop a as (l.mat.cohesion, l.mat.tanPhi, true) := by
          conv_lhs => unfold PySlope.strengthLoop
          rw [if_pos (by simpa using k)]
        have i := ih h2 ht' (B.of_close fun n => (h1 n).2.1) (B.of_close fun n => (h1 n).2.2.1) true
        rw [e0]
        have ev : ∀ᶠ n in atTop, PySlope.strengthLoop (yb n) (m n :: bs' n) (c n, t n, false) =
            PySlope.strengthLoop (yb n) (bs' n) ((m n).mat.cohesion, (m n).mat.tanPhi, true) := by
          filter_upwards [B.lt hrl hy k] with n hn
          conv_lhs => unfold PySlope.strengthLoop
          rw [if_pos (by simpa using hn)]
        exact ⟨congr i.1 (ev.mono fun n hn => by rw [hn]), congr i.2 (ev.mono fun n hn => by rw [hn])⟩
      · have e0 : PySlope.strengthLoop a (l :: as) (c0, t0, false) = PySlope.strengthLoop a as (c0, t0, false) := by
          conv_lhs => unfold PySlope.strengthLoop
          rw [if_neg (by simpa using k.le)]
        have i := ih h2 ht' hc hp false
        rw [e0]
        have ev : ∀ᶠ n in atTop, PySlope.strengthLoop (yb n) (m n :: bs' n) (c n, t n, false) =
            PySlope.strengthLoop (yb n) (bs' n) (c n, t n, false) := by
          filter_upwards [B.not_lt hrl hy k] with n hn
          conv_lhs => unfold PySlope.strengthLoop
          rw [if_neg (by simpa using hn)]
        exact ⟨congr i.1 (ev.mono fun n hn => by rw [hn]), congr i.2 (ev.mono fun n hn => by rw [hn])⟩

theorem strength (hm : s.materials ≠ []) {yb : ∀ n, K n} {a : ℝ} (hy : Lim val yb a) (ht : ∀ l ∈ s.materials, l.rl ≠ a) :
    Lim val (fun n => (((S n).rowStrength (yb n)).getD (0, 0)).1) (s.strengthAt a).1 ∧
    Lim val (fun n => (((S n).rowStrength (yb n)).getD (0, 0)).2) (s.strengthAt a).2 := by
  obtain ⟨last, hlast⟩ : ∃ l, s.materials.getLast? = some l := by
    cases h : s.materials.getLast? with
    | none => exact absurd (List.getLast?_eq_none_iff.mp h) hm
    | some l => exact ⟨l, rfl⟩
  choose m h1 h2 using fun n => forall2_getLast (C n).materials hlast
  have := B.strengthLoop hy (fun n => (C n).materials) ht (B.of_close fun n => (h2 n).2.1) (B.of_close fun n => (h2 n).2.2.1) false
  unfold Slope.strengthAt Slope.rowStrength
  rw [hlast]
  simp only [h1]
  exact this

include g
theorem water {water} (hw : s.waterX = .ok water) (hz : ∀ z, s.waterRL = some z → z ≠ 0 ∧ z ≠ s.topY ∧ z ≠ s.botY) :
    ∃ W : ∀ n, Option (K n × K n), (∀ᶠ n in atTop, (S n).waterX = .ok (W n)) ∧
      ∀ (q : ∀ n, Row (K n)) (p : Row ℝ), LimRow val q p →
        (∀ z, s.waterRL = some z → p.x ≠ s.botX ∧ groundY s p.x ≠ z) →
        Lim val (fun n => (S n).waterHead (W n) (q n)) (s.waterHead water p) := by
  cases hs : s.waterRL with
  | none =>
    have hn : ∀ n, (S n).waterRL = none := fun n => by
      have := (C n).water
      rw [hs] at this
      cases h : (S n).waterRL with
      | none => rfl
      | some z => rw [h] at this; cases this
    unfold Slope.waterX at hw
    rw [hs] at hw
    cases hw
    refine ⟨fun _ => none, .of_forall fun n => by unfold Slope.waterX; rw [hn n], fun q p _ _ => ?_⟩
    have := B.zero'
    rw [← lit_zero] at this
    exact this
  | some z =>
    obtain ⟨z0, zt, zb⟩ := hz z hs
    have hn : ∀ n, ∃ y, (S n).waterRL = some y ∧ |val n y - z| ≤ e n := fun n => by
      have := (C n).water
      rw [hs] at this
      cases h : (S n).waterRL with
      | none => rw [h] at this; cases this
      | some y => rw [h] at this; cases this; exact ⟨y, rfl, by assumption⟩
    choose y hy hy' using hn
    have hY := B.of_close hy'
    have tX := B.of_close fun n => (C n).topX
    have tY := B.of_close fun n => (C n).topY
    have bX := B.of_close fun n => (C n).botX
    have bY := B.of_close fun n => (C n).botY
    have eL := B.of_close fun n => (C n).extL
    have eH := B.of_close fun n => (C n).extH
    have gr := B.of_close fun n => (C n).gradient
    have wH := B.of_close fun n => (C n).waterH
    have ev0 := B.not_eq hY B.zero' z0
    -- the head once the side is decided
    have head : ∀ (X : ∀ n, K n) (x0 : ℝ) (q : ∀ n, Row (K n)) (p : Row ℝ), LimRow val q p → Lim val X x0 →
        ((x0 < p.x ∧ p.x < s.botX) ∨ p.x < x0 ∨ s.botX < p.x) →
        Lim val (fun n => (S n).waterHead (some (y n, X n)) (q n)) (s.waterHead (some (z, x0)) p) := by
      intro X x0 q p hq hX hside
      have hd := B.mul (B.pyMax (B.sub (B.pyMin hY hq.yt) hq.yb) B.zero') (B.sci 981 true 2)
      rw [← pyMax_real, ← pyMin_real, ← lit_zero] at hd
      unfold Slope.waterHead
      rcases hside with k | k
      · simp only [decide_eq_true k.1, decide_eq_true k.2, Bool.and_self, if_true]
        refine congr (B.mul hd wH) ?_
        filter_upwards [B.lt hX hq.x k.1, B.lt hq.x bX k.2] with n k1 k2
        simp only [decide_eq_true k1, decide_eq_true k2, Bool.and_self, if_true]
      · have e0 : (decide (x0 < p.x) && decide (p.x < s.botX)) = false := by
          rw [Bool.and_eq_false_iff]
          rcases k with k | k
          · left; exact decide_eq_false (_root_.not_lt.mpr k.le)
          · right; exact decide_eq_false (_root_.not_lt.mpr k.le)
        have ev : ∀ᶠ n in atTop, (decide (X n < (q n).x) && decide ((q n).x < (S n).botX)) = false := by
          rcases k with k | k
          · filter_upwards [B.not_lt hX hq.x k] with n hn
            rw [decide_eq_false hn, Bool.false_and]
          · filter_upwards [B.not_lt hq.x bX k] with n hn
            rw [decide_eq_false hn, Bool.and_false]
        simp only [e0, Bool.false_eq_true, if_false]
        refine congr (B.mul hd (B.ofNat 1)) ?_
        filter_upwards [ev] with n hn
        simp only [hn, Bool.false_eq_true, if_false]
    have hlen : 0 < s.length := lt_of_lt_of_le (by norm_num) g.len
    have hbx := g.botX; have hby := g.botY; have hty := g.topY; have hh := g.hgt
    unfold Slope.waterX at hw
    rw [hs] at hw
    simp only [pyEq_real, lit_zero, decide_eq_true_eq, if_neg z0] at hw
    unfold Slope.getExternalX at hw
    by_cases h1 : z < s.botY
    · rw [if_pos h1] at hw
      cases hw
      refine ⟨fun n => some (y n, (S n).extL), ?_, ?_⟩
      · filter_upwards [ev0, B.lt hY bY h1] with n k1 k2
        unfold Slope.waterX Slope.getExternalX
        rw [hy n]
        simp only [k1, if_pos k2]
        rfl
      · intro q p hq hp
        refine head _ _ q p hq eL ?_
        obtain ⟨p1, _⟩ := hp z rfl
        rcases lt_or_gt_of_ne p1 with k | k
        · right; left
          have := g.extL5; have := g.topX
          linarith
        · right; right; exact k
    · rw [if_neg h1] at hw
      have h1' := lt_of_le_of_ne (_root_.not_lt.mp h1) zb.symm
      by_cases h2 : z < s.extH
      · rw [if_pos h2] at hw
        unfold pyDiv at hw
        simp only [pyEq_real, lit_zero, decide_eq_true_eq] at hw
        have hgr := g.grad
        have hh' : 0 < s.height := by linarith
        have hg0 : 0 < s.gradient := by rw [hgr]; positivity
        rw [if_neg hg0.ne'] at hw
        simp only [Bind.bind, Except.bind, Pure.pure, Except.pure] at hw
        cases hw
        have hX := B.add tX (B.div (B.sub tY hY) gr hg0.ne')
        refine ⟨fun n => some (y n, (S n).topX + ((S n).topY - y n) / (S n).gradient), ?_, ?_⟩
        · filter_upwards [ev0, B.not_lt hY bY h1', B.lt hY eH h2, B.not_eq gr B.zero' hg0.ne'] with n k1 k2 k3 k4
          unfold Slope.waterX Slope.getExternalX pyDiv
          rw [hy n]
          simp only [k1, if_neg k2, if_pos k3, k4]
          rfl
        · intro q p hq hp
          refine head _ _ q p hq hX ?_
          obtain ⟨p1, p2⟩ := hp z rfl
          rcases lt_or_gt_of_ne p1 with k | k
          · have hne : s.topX + (s.topY - z) / s.gradient ≠ p.x := by
              intro hc
              apply p2
              have : 0 < (s.topY - z) / s.gradient := div_pos (by linarith) hg0
              unfold groundY
              rw [if_neg (by linarith), if_pos (by linarith), ← hgr, ← hc, hty]
              field_simp
              ring
            rcases lt_or_gt_of_ne hne with k2 | k2
            · left; exact ⟨k2, k⟩
            · right; left; exact k2
          · right; right; exact k
      · rw [if_neg h2] at hw
        simp only [pyEq_real, decide_eq_true_eq, if_neg zb, if_neg zt] at hw
        cases hw

/-- The forces on a slice. -/
theorem force {water} {W : ∀ n, Option (K n × K n)} {w : ∀ n, K n} {b : ℝ} (hw : Lim val w b)
    (hm : s.materials ≠ []) {q : ∀ n, Row (K n)} {p : Row ℝ} (hq : LimRow val q p)
    (hl : ∀ l ∈ s.lls, l.coord ≠ p.x - b / 2 ∧ l.coord ≠ p.x + b / 2) (hb : ∀ l ∈ s.materials, l.rl ≠ p.yb)
    (hu : Lim val (fun n => (S n).waterHead (W n) (q n)) (s.waterHead water p)) :
    LimForce val (fun n => (S n).forceOf (w n) (W n) (q n)) (s.forceAt b water (s.strengthAt p.yb) p) := by
  have := B.strength C hm hq.yb hb
  exact ⟨B.rowWeight C hw hq hl, hu, this.1, this.2, hq.cosA, hq.sinA⟩

end Better
end PySlope
