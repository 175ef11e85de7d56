import Verif.Lemmas.LimitCalls

/-! # The circles of entry and exit points in arithmetics whose rounding errors go to zero -/

namespace PySlope
open Filter Topology Lit

section
variable {K : ℕ → Type}

/-- Results that in the end are lists of planes that go to the planes of a list. -/
def GoesPlanes (val : ∀ n, K n → ℝ) (O : ∀ n, Except PyErr (List (Plane (K n)))) (o : Except PyErr (List (Plane ℝ))) : Prop :=
  ∃ (S : ∀ n, List (Plane (K n))) (s : List (Plane ℝ)), LimList (LimPlane val) S s ∧ (∀ᶠ n in atTop, O n = .ok (S n)) ∧ o = .ok s

variable {val : ∀ n, K n → ℝ}

theorem GoesPlanes.nil : GoesPlanes val (fun _ => .ok []) (.ok []) := ⟨_, _, .nil, .of_forall fun _ => rfl, rfl⟩

theorem GoesPlanes.congr {O O' : ∀ n, Except PyErr (List (Plane (K n)))} {o : Except PyErr (List (Plane ℝ))}
    (h : GoesPlanes val O o) (e : ∀ᶠ n in atTop, O' n = O n) : GoesPlanes val O' o := by
  obtain ⟨S, s, h1, h2, h3⟩ := h
  exact ⟨S, s, h1, (e.and h2).mono fun n k => k.1.trans k.2, h3⟩

theorem GoesPlanes.append {O P : ∀ n, Except PyErr (List (Plane (K n)))} {o p : Except PyErr (List (Plane ℝ))}
    (h : GoesPlanes val O o) (k : GoesPlanes val P p) :
    GoesPlanes val (fun n => do let a ← O n; let b ← P n; Pure.pure (a ++ b)) (do let a ← o; let b ← p; Pure.pure (a ++ b)) := by
  obtain ⟨S, s, h1, h2, rfl⟩ := h
  obtain ⟨T, t, k1, k2, rfl⟩ := k
  refine ⟨_, _, h1.append k1, ?_, rfl⟩
  filter_upwards [h2, k2] with n a b
  rw [a, b]; rfl

end

namespace Better
variable {K : ℕ → Type} [∀ n, PyNum (K n)] {val : ∀ n, K n → ℝ} {e : ℕ → ℝ} (B : Better val e)
include B

omit B in
theorem _root_.PySlope.planeLoop_short {K : Type} [PyNum K] {s : Slope K} {β d0 C : K} {num todo : ℕ} {l q : K × K} {d r : K}
    {is : List (K × K)} (ed : d0 * ((todo + 1 : ℕ) : K) / (num : K) = d) (h0 : pyEq (2 * d) 0 = false)
    (hr : (C + PySlope.sq d) / (2 * d) = r)
    (h : s.circleExternalIntersection (circleCentre β (midCoord l q) (r - d)).1
      (circleCentre β (midCoord l q) (r - d)).2 r = .ok is) (hs : setSize is < 2) :
    s.planeLoop β d0 C num (todo + 1) l q = s.planeLoop β d0 C num todo l q := by
  subst ed hr
  rw [Slope.planeLoop]
  unfold circleRadiusFromAbcd pyDiv
  rw [h0]
  simp only [Bind.bind, Except.bind, Bool.false_eq_true, if_false]
  rw [h]
  simp only [if_pos hs]

omit B in
theorem _root_.PySlope.planeLoop_long {K : Type} [PyNum K] {s : Slope K} {β d0 C : K} {num todo : ℕ} {l q l' q' : K × K} {d r : K}
    {is : List (K × K)} (ed : d0 * ((todo + 1 : ℕ) : K) / (num : K) = d) (h0 : pyEq (2 * d) 0 = false)
    (hr : (C + PySlope.sq d) / (2 * d) = r)
    (h : s.circleExternalIntersection (circleCentre β (midCoord l q) (r - d)).1
      (circleCentre β (midCoord l q) (r - d)).2 r = .ok (l' :: q' :: is)) (hs : ¬ setSize (l' :: q' :: is) < 2) :
    s.planeLoop β d0 C num (todo + 1) l q = (do
      let a ← Except.ok [⟨l', q', (circleCentre β (midCoord l q) (r - d)).1, (circleCentre β (midCoord l q) (r - d)).2, r, none⟩]
      let b ← s.planeLoop β d0 C num todo l' q'
      Pure.pure (a ++ b)) := by
  subst ed hr
  rw [Slope.planeLoop]
  unfold circleRadiusFromAbcd pyDiv
  rw [h0]
  simp only [Bind.bind, Except.bind, Bool.false_eq_true, if_false]
  rw [h]
  simp only [if_neg hs]
  rfl

theorem planeLoop {s : Slope ℝ} (g : Geo s) {S : ∀ n, Slope (K n)} (b : LimSlope val S s) {β' C' d' : ∀ n, K n} {β C d : ℝ}
    (hβ : Lim val β' β) (hC : Lim val C' C) (hd : Lim val d' d) (pd : 0 < d) {num : ℕ} : ∀ (todo : ℕ), todo ≤ num →
    ∀ (l q : Pt K), LimPt val l → LimPt val q → NoTiesCircles s β C d num todo l.lim q.lim →
      GoesPlanes val (fun n => (S n).planeLoop (β' n) (d' n) (C' n) num todo (l.seq n) (q.seq n))
        (s.planeLoop β d C num todo l.lim q.lim) := by
  intro todo
  induction todo with
  | zero => intro _ l q _ _ _; exact .nil
  | succ k ih =>
    intro hk l q hl hq nt
    obtain ⟨n1, n2, n3⟩ := nt
    have pn : (0 : ℝ) < num := by exact_mod_cast (show 0 < num by omega)
    have pk : (0 : ℝ) < d * ((k : ℝ) + 1) / num := by positivity
    have L2 := B.ofNat' 2
    have z2 : (@OfNat.ofNat ℝ 2 (Lit.natLit 2)) ≠ 0 := by rw [lit_real]; norm_num
    have ed : d * ((k + 1 : ℕ) : ℝ) / ((num : ℕ) : ℝ) = d * ((k : ℝ) + 1) / num := by push_cast; rfl
    have ld : Lim val (fun n => d' n * ((k + 1 : ℕ) : K n) / ((num : ℕ) : K n)) (d * ((k : ℝ) + 1) / num) := by
      have := B.div (B.mul hd (B.nat (k + 1))) (B.nat num) pn.ne'
      rw [ed] at this
      exact this
    generalize hd0 : d * ((k : ℝ) + 1) / num = d0 at *
    have two : (@OfNat.ofNat ℝ 2 (Lit.natLit 2)) * d0 ≠ 0 := mul_ne_zero z2 pk.ne'
    have lr := B.div (B.add hC (B.mul ld ld)) (B.mul L2 ld) two
    have er : (C + PySlope.sq d0) / ((@OfNat.ofNat ℝ 2 (Lit.natLit 2)) * d0) = segmentRadius C d0 := by
      rw [lit_real]; unfold segmentRadius PySlope.sq; push_cast; ring_nf
    rw [show d0 * d0 = PySlope.sq d0 from rfl, er] at lr
    have lrd := B.sub lr ld
    have lx := B.add (B.div (B.add hl.fst hq.fst) L2 z2) (B.mul (B.sin hβ) lrd)
    have ly := B.add (B.div (B.add hl.snd hq.snd) L2 z2) (B.mul (B.cos hβ) lrd)
    have ec : circleCentre β (midCoord l.lim q.lim) (segmentRadius C d0 - d0) = segmentCentre β C d0 l.lim q.lim := by
      unfold circleCentre midCoord segmentCentre
      rw [lit_real]; push_cast; rfl
    have cx : Lim val (fun n => (circleCentre (β' n) (midCoord (l.seq n) (q.seq n)) ((C' n + PySlope.sq (d' n * ((k + 1 : ℕ) : K n) /
        ((num : ℕ) : K n))) / (2 * (d' n * ((k + 1 : ℕ) : K n) / ((num : ℕ) : K n))) - d' n * ((k + 1 : ℕ) : K n) / ((num : ℕ) : K n))).1)
        (segmentCentre β C d0 l.lim q.lim).1 := by rw [← ec]; exact lx
    have cy : Lim val (fun n => (circleCentre (β' n) (midCoord (l.seq n) (q.seq n)) ((C' n + PySlope.sq (d' n * ((k + 1 : ℕ) : K n) /
        ((num : ℕ) : K n))) / (2 * (d' n * ((k + 1 : ℕ) : K n) / ((num : ℕ) : K n))) - d' n * ((k + 1 : ℕ) : K n) / ((num : ℕ) : K n))).2)
        (segmentCentre β C d0 l.lim q.lim).2 := by rw [← ec]; exact ly
    obtain ⟨L, h1, h2, h3⟩ := B.crossings g b.topX b.topY b.botX b.botY b.extL n1 cx cy lr
    obtain ⟨is, k1, k2, k3, k4⟩ := intersections g (segmentCentre β C d0 l.lim q.lim).1 (segmentCentre β C d0 l.lim q.lim).2
      (segmentRadius C d0)
    rw [h2] at k1
    injection k1 with k1
    subst k1
    have ne0 : pyEq ((@OfNat.ofNat ℝ 2 (Lit.natLit 2)) * d0) (@OfNat.ofNat ℝ 0 (Lit.natLit 0)) = false := by
      rw [lit_zero, pyEq_real]; exact decide_eq_false two
    have ne1 := B.not_eq (B.mul L2 ld) B.zero' two
    have h2' := h2
    rw [← ec] at h2'
    have short : setSize (L.map Pt.lim) < 2 → (∀ n, setSize (L.map fun q => q.seq n) < 2) → NoTiesCircles s β C d num k l.lim q.lim →
        GoesPlanes val (fun n => (S n).planeLoop (β' n) (d' n) (C' n) num (k + 1) (l.seq n) (q.seq n))
          (s.planeLoop β d C num (k + 1) l.lim q.lim) := by
      intro a a' nt
      rw [planeLoop_short ed ne0 er h2' a]
      refine (ih (by omega) l q hl hq nt).congr ?_
      filter_upwards [h3, ne1] with n w1 w2
      exact planeLoop_short rfl w2 rfl w1 (a' n)
    match L, h1, h2, h2', h3, k2, k4, short with
    | [], _, _, _, _, _, k4, short =>
      refine short (by simp [setSize]) (fun n => by simp [setSize]) (n3 fun p q hp _ => ?_)
      obtain ⟨x, hx, _⟩ := k4 p hp
      cases hx
    | [A], _, _, _, _, _, k4, short =>
      refine short (by simp [setSize]) (fun n => by simp [setSize]) (n3 fun p q hp hq => ?_)
      obtain ⟨x, hx, a1, a2⟩ := k4 p hp
      obtain ⟨y, hy, b1, b2⟩ := k4 q hq
      obtain rfl := List.mem_singleton.mp hx
      obtain rfl := List.mem_singleton.mp hy
      linarith
    | A :: A' :: M, h1, h2, h2', h3, k2, _, _ =>
      have ne : A'.lim.1 ≠ A.lim.1 := by
        intro h
        have := (List.pairwise_cons.mp k2).1 A'.lim (by simp)
        rw [h] at this
        norm_num at this
      have lA := h1 A (by simp)
      have lA' := h1 A' (by simp)
      have sz : 2 ≤ setSize ((A :: A' :: M).map Pt.lim) := setSize_two (by rw [pyEq_real]; exact decide_eq_false ne)
      rw [planeLoop_long (l' := A.lim) (q' := A'.lim) ed ne0 er h2' (_root_.not_lt.mpr sz), ec]
      have named : ∀ {f : ∀ n, K n} {a : ℝ}, Lim val f a → ∃ X : ∀ n, K n, Lim val X a ∧ X = f := fun {f} _ h => ⟨f, h, rfl⟩
      obtain ⟨X, cx, eX⟩ := named cx
      obtain ⟨Y, cy, eY⟩ := named cy
      obtain ⟨R, lr, eR⟩ := named lr
      refine (GoesPlanes.append (O := fun n => .ok [⟨A.seq n, A'.seq n, X n, Y n, R n, none⟩])
        ⟨_, _, LimList.one ⟨cx, cy, lr⟩, .of_forall fun n => rfl, rfl⟩
        (ih (by omega) A A' lA lA' (n2 _ _ (firstCrossings g h2)))).congr ?_
      · filter_upwards [h3, ne1, B.not_eq lA'.fst lA.fst ne] with n w1 w2 w3
        have sz : 2 ≤ setSize ((A :: A' :: M).map fun q => q.seq n) := setSize_two w3
        rw [eX, eY, eR]
        exact planeLoop_long rfl w2 rfl w1 (_root_.not_lt.mpr sz)

theorem generatePlanes {s : Slope ℝ} (g : Geo s) {S : ∀ n, Slope (K n)} (b : LimSlope val S s) {l q : Pt K} (hl : LimPt val l)
    (hq : LimPt val q) (num : Int) (nt : NoTiesChord s l.lim q.lim num.toNat) :
    GoesPlanes val (fun n => (S n).generatePlanes (l.seq n) (q.seq n) num) (s.generatePlanes l.lim q.lim num) := by
  obtain ⟨ne, nt⟩ := nt
  have dx : q.lim.1 - l.lim.1 ≠ 0 := sub_ne_zero.mpr ne.symm
  have L2 := B.ofNat' 2
  have z2 : (@OfNat.ofNat ℝ 2 (Lit.natLit 2)) ≠ 0 := by rw [lit_real]; norm_num
  have ly := B.sub hl.snd hq.snd
  have lx := B.sub hq.fst hl.fst
  have hβ := B.atan (B.div ly lx dx)
  have cpos : 0 < Real.cos (Real.arctan ((l.lim.2 - q.lim.2) / (q.lim.1 - l.lim.1))) := Real.cos_arctan_pos _
  have p1 : 0 < (l.lim.2 - q.lim.2) * (l.lim.2 - q.lim.2) + (q.lim.1 - l.lim.1) * (q.lim.1 - l.lim.1) := by
    have := mul_self_pos.mpr dx
    nlinarith [mul_self_nonneg (l.lim.2 - q.lim.2)]
  have hh := B.div (B.sqrt (B.add (B.mul ly ly) (B.mul lx lx)) p1) L2 z2
  have eh : √((l.lim.2 - q.lim.2) * (l.lim.2 - q.lim.2) + (q.lim.1 - l.lim.1) * (q.lim.1 - l.lim.1)) / (@OfNat.ofNat ℝ 2 (Lit.natLit 2)) =
      √((l.lim.2 - q.lim.2) ^ 2 + (q.lim.1 - l.lim.1) ^ 2) / 2 := by
    rw [lit_real, pow_two, pow_two]
  have hpos : 0 < √((l.lim.2 - q.lim.2) ^ 2 + (q.lim.1 - l.lim.1) ^ 2) / 2 := by
    rw [pow_two, pow_two]; have := Real.sqrt_pos.mpr p1; linarith
  have hc1 := Real.cos_le_one (Real.arctan ((l.lim.2 - q.lim.2) / (q.lim.1 - l.lim.1)))
  have hR := B.mul (B.div hh (B.cos hβ) cpos.ne') (B.sci 11 true 1)
  rw [eh] at hh hR
  have gen : ∀ {K : Type} [PyNum K] (s : Slope K) (l q : K × K), pyEq (q.1 - l.1) 0 = false → s.generatePlanes l q num =
      s.planeLoop (PyNum.atan ((l.2 - q.2) / (q.1 - l.1)))
        (PyNum.sqrt (PySlope.sq (l.2 - q.2) + PySlope.sq (q.1 - l.1)) / 2 / PyNum.cos (PyNum.atan ((l.2 - q.2) / (q.1 - l.1))) * 1.1 -
          PyNum.sqrt (PySlope.sq (PyNum.sqrt (PySlope.sq (l.2 - q.2) + PySlope.sq (q.1 - l.1)) / 2 /
            PyNum.cos (PyNum.atan ((l.2 - q.2) / (q.1 - l.1))) * 1.1) -
            PySlope.sq (PyNum.sqrt (PySlope.sq (l.2 - q.2) + PySlope.sq (q.1 - l.1)) / 2)))
        (PySlope.sq (PyNum.sqrt (PySlope.sq (l.2 - q.2) + PySlope.sq (q.1 - l.1)) / 2)) num.toNat num.toNat l q := by
    intro K _ s l q h
    unfold Slope.generatePlanes pyDiv
    rw [h]
    rfl
  generalize hβ0 : Real.arctan ((l.lim.2 - q.lim.2) / (q.lim.1 - l.lim.1)) = β0 at *
  generalize hh0 : √((l.lim.2 - q.lim.2) ^ 2 + (q.lim.1 - l.lim.1) ^ 2) / 2 = h0 at *
  have s11 : (@OfScientific.ofScientific ℝ _ 11 true 1) = 1.1 := rfl
  have pR : h0 < h0 / Real.cos β0 * 1.1 := by
    have : h0 ≤ h0 / Real.cos β0 := by rw [le_div_iff₀ cpos]; nlinarith
    norm_num; nlinarith
  have p2 : 0 < h0 / Real.cos β0 * 1.1 * (h0 / Real.cos β0 * 1.1) - h0 * h0 := by nlinarith
  have hD := B.sub hR (B.sqrt (B.sub (B.mul hR hR) (B.mul hh hh)) p2)
  have pD : 0 < h0 / Real.cos β0 * 1.1 - √((h0 / Real.cos β0 * 1.1) ^ 2 - h0 ^ 2) := by
    rw [sub_pos, Real.sqrt_lt' (by linarith)]
    nlinarith
  have e1 : s.generatePlanes l.lim q.lim num = s.planeLoop β0 (h0 / Real.cos β0 * 1.1 - √((h0 / Real.cos β0 * 1.1) ^ 2 - h0 ^ 2))
      (h0 ^ 2) num.toNat num.toNat l.lim q.lim := by
    rw [gen _ _ _ (by rw [lit_zero, pyEq_real]; exact decide_eq_false dx)]
    have eh' : PyNum.sqrt (PySlope.sq (l.lim.2 - q.lim.2) + PySlope.sq (q.lim.1 - l.lim.1)) / (@OfNat.ofNat ℝ 2 (Lit.natLit 2)) = h0 := eh
    rw [eh']
    have : PyNum.atan ((l.lim.2 - q.lim.2) / (q.lim.1 - l.lim.1)) = β0 := hβ0
    rw [this, pow_two, pow_two]
    rfl
  rw [e1]
  refine (B.planeLoop g b hβ (C := h0 ^ 2) (by rw [pow_two]; exact B.mul hh hh) (d := h0 / Real.cos β0 * 1.1 - √((h0 / Real.cos β0 * 1.1) ^ 2 - h0 ^ 2))
    (by rw [pow_two, pow_two]; exact hD) pD num.toNat le_rfl l q hl hq nt).congr ?_
  filter_upwards [B.not_eq lx B.zero' dx] with n hn
  rw [gen _ _ _ hn]
  rfl

theorem ground {s : Slope ℝ} (g : Geo s) {S : ∀ n, Slope (K n)} (b : LimSlope val S s) {x : ∀ n, K n} {a : ℝ} (hx : Lim val x a)
    (h0 : 0 < a) (h1 : a < s.extL) : ∃ y : ∀ n, K n, Lim val y (groundY s a) ∧ s.getExternalY a = some (groundY s a) ∧
      ∀ᶠ n in atTop, (S n).getExternalY (x n) = some (y n) := by
  have key : ∀ {K : Type} [PyNum K] (s : Slope K) (x : K), ¬ x < 0 → ¬ s.extL < x → s.getExternalY x = some (s.sliceTop x) := by
    intro K _ s x h1 h2
    unfold Slope.getExternalY Slope.sliceTop
    rw [if_neg (by rintro (h | h); exacts [h1 h, h2 h])]
    split_ifs <;> rfl
  refine ⟨fun n => (S n).sliceTop (x n), ?_, ?_, ?_⟩
  · rw [← sliceTop_eq g]
    exact B.sliceTop_lim g b.topX b.topY b.botX b.botY b.gradient hx
  · rw [key s a (by rw [lit_zero]; exact h0.not_gt) h1.not_gt, sliceTop_eq g]
  · filter_upwards [B.not_lt hx B.zero' h0, B.not_lt b.extL hx h1] with n w1 w2
    exact key _ _ w1 w2

theorem entryExit {s : Slope ℝ} (g : Geo s) {S : ∀ n, Slope (K n)} (b : LimSlope val S s) {l q : ∀ n, K n} {x y : ℝ}
    (hl : Lim val l x) (hq : Lim val q y) (m : Int) (h1 : 0 < x ∧ x < s.extL) (h2 : 0 < y ∧ y < s.extL)
    (nt : NoTiesChord s (x, groundY s x) (y, groundY s y) m.toNat) :
    Goes val (fun n => (S n).addSingleEntryExitPlane (l n) (q n) m) (s.addSingleEntryExitPlane x y m) := by
  obtain ⟨l2, a1, a2, a3⟩ := B.ground g b hl h1.1 h1.2
  obtain ⟨q2, b1, b2, b3⟩ := B.ground g b hq h2.1 h2.2
  obtain ⟨P, p, k1, k2, k3⟩ := B.generatePlanes g b (l := ⟨fun n => (l n, l2 n), (x, groundY s x)⟩)
    (q := ⟨fun n => (q n, q2 n), (y, groundY s y)⟩) ⟨hl, a1⟩ ⟨hq, b1⟩ m nt
  refine Goes.of (T := fun n => { S n with individual := (S n).individual ++ P n, search := [] })
    (s := { s with individual := s.individual ++ p, search := [] }) { b with individual := b.individual.append k1 } ?_ ?_
  · filter_upwards [a3, b3, k2] with n w1 w2 w3
    unfold Slope.addSingleEntryExitPlane
    rw [w1, w2]
    simp only
    rw [w3]
    rfl
  · unfold Slope.addSingleEntryExitPlane
    rw [a2, b2]
    simp only
    rw [k3]
    rfl

end Better
end PySlope
