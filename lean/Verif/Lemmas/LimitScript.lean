import Verif.Lemmas.LimitEnds
import Verif.Spec.RoundingCalls
import Verif.Props.NotNumbers

/-! # The calls that configure a slope, in arithmetics whose rounding errors go to zero -/

namespace PySlope
open Filter Topology Lit

section generic
variable {K : Type} [PyNum K]

/-- The state `applyBoundary` leaves when nothing raises. -/
def Slope.bounded (s : Slope K) (height length : K) : Slope K :=
  let totH := pyMax (pyMax (3 * height) s.minExtH) (5 * length / 2)
  let totL := pyMax (pyMax (5 * length) s.minExtL) (4 * height)
  let dx := (totL - length) / 2
  { s with
    extBoundary := some [(0, 0), (0, totH), (dx, totH), (dx + length, totH - height), (totL, totH - height), (totL, 0), (0, 0)]
    length := length
    height := height
    gradient := height / length
    topX := dx
    topY := totH
    botX := dx + length
    botY := totH - height
    extL := totL
    extH := totH
    udls := s.udls.map fun p => placeUdl dx p.load
    lls := s.lls.map fun p => placeLl dx p.load
    lim1 := 0
    lim2 := dx
    lim3 := dx
    lim4 := totL
    search := [] }

theorem applyBoundary_of {s : Slope K} {h l : K} (h0 : ¬ (0 : K) < 0) (h1 : ¬ (s.bounded h l).topX < 0)
    (h2 : ¬ (s.bounded h l).extL < 0) (h3 : ¬ (s.bounded h l).topX ≤ 0) (h4 : ¬ (s.bounded h l).extL ≤ (s.bounded h l).topX) :
    s.applyBoundary h l = (s.bounded h l, .ok ()) := by
  unfold Slope.applyBoundary
  simp only
  rw [removeAnalysisLimits_any _ h0 (by exact h1) (by exact h2) (by exact h3) (by exact h4), andThen_any]
  rfl

theorem boundaryInputs_of {h a l : K} (n1 : ¬ h < 0) (n2 : ¬ a < 0) (n3 : ¬ 90 < a) (n4 : pyEq a 0 = false) (n5 : ¬ l < 0) :
    boundaryInputs (.num h) (.num a) (.num l) = .ok (h, pyMax l 0.001) := by
  simp [boundaryInputs, assertStrictlyPositiveNumber, assertPositiveNumber, assertRange,
    PyCmp.ltb, PyCmp.eqb, Bind.bind, Except.bind, Pure.pure, Except.pure, PyVal.get!, n1, n2, n3, n4, n5]

theorem setSizeNum_fold {l acc : List K} (h : (l ++ acc).Pairwise fun a b => pyEq b a = false ∧ pyEq a b = false) :
    (l.foldl (fun acc p => if acc.any (fun q => pyEq p q) then acc else acc ++ [p]) acc).length = l.length + acc.length := by
  induction l generalizing acc with
  | nil => simp
  | cons p l ih =>
    rw [List.foldl_cons]
    have h' := List.pairwise_cons.mp h
    have e : acc.any (fun q => pyEq p q) = false := by
      rw [List.any_eq_false]
      intro q hq
      rw [(h'.1 q (List.mem_append_right _ hq)).2]
      exact Bool.false_ne_true
    rw [e, if_neg Bool.false_ne_true, ih]
    · simp only [List.length_append, List.length_cons, List.length_nil]; omega
    · have : (p :: (l ++ acc)).Perm (l ++ (acc ++ [p])) := by
        rw [← List.append_assoc]
        exact (List.perm_append_comm (l₁ := [p]) (l₂ := l ++ acc))
      exact (this.pairwise_iff (fun {a b} k => ⟨k.2, k.1⟩)).mp h

theorem setSizeNum_of {l : List K} (h : l.Pairwise fun a b => pyEq b a = false ∧ pyEq a b = false) :
    setSizeNum l = l.length := by
  have := setSizeNum_fold (l := l) (acc := []) (by rwa [List.append_nil])
  rwa [List.length_nil, Nat.add_zero] at this

end generic

/-- Lists whose entries go to those of a list, in the end one by one. -/
def LimList {X : ℕ → Type} {Y : Type} (R : (∀ n, X n) → Y → Prop) (S : ∀ n, List (X n)) (s : List Y) : Prop :=
  ∃ L : List ((∀ n, X n) × Y), (∀ᶠ n in atTop, S n = L.map fun p => p.1 n) ∧ s = L.map Prod.snd ∧ ∀ p ∈ L, R p.1 p.2

section LimList
variable {X X' : ℕ → Type} {Y Y' : Type} {R : (∀ n, X n) → Y → Prop} {R' : (∀ n, X' n) → Y' → Prop}

theorem LimList.nil : LimList R (fun _ => []) [] := ⟨[], by simp⟩

theorem LimList.map {S : ∀ n, List (X n)} {s : List Y} (h : LimList R S s) {f : ∀ n, X n → X' n} {g : Y → Y'}
    (k : ∀ x y, R x y → R' (fun n => f n (x n)) (g y)) : LimList R' (fun n => (S n).map (f n)) (s.map g) := by
  obtain ⟨L, h1, rfl, h3⟩ := h
  refine ⟨L.map fun p => (fun n => f n (p.1 n), g p.2), ?_, ?_, ?_⟩
  · filter_upwards [h1] with n hn
    rw [hn, List.map_map, List.map_map]; rfl
  · rw [List.map_map, List.map_map]; rfl
  · intro p hp
    obtain ⟨q, hq, rfl⟩ := List.mem_map.mp hp
    exact k _ _ (h3 q hq)

theorem LimList.append {S T : ∀ n, List (X n)} {s t : List Y} (h : LimList R S s) (k : LimList R T t) :
    LimList R (fun n => S n ++ T n) (s ++ t) := by
  obtain ⟨L, h1, rfl, h3⟩ := h
  obtain ⟨M, k1, rfl, k3⟩ := k
  refine ⟨L ++ M, ?_, (List.map_append).symm, ?_⟩
  · filter_upwards [h1, k1] with n a b
    rw [a, b, List.map_append]
  · intro p hp
    rcases List.mem_append.mp hp with hp | hp
    · exact h3 p hp
    · exact k3 p hp

theorem LimList.one {x : ∀ n, X n} {y : Y} (h : R x y) : LimList R (fun n => [x n]) [y] :=
  ⟨[(x, y)], .of_forall fun _ => rfl, rfl, by simpa using h⟩

theorem LimList.congr {S T : ∀ n, List (X n)} {s : List Y} (h : LimList R S s) (e : ∀ᶠ n in atTop, T n = S n) :
    LimList R T s := by
  obtain ⟨L, h1, h2, h3⟩ := h
  exact ⟨L, (e.and h1).mono fun n h => h.1.trans h.2, h2, h3⟩

/-- Lists related one by one. -/
theorem LimList.of_forall2 {P : ∀ n, Y → X n → Prop} (hR : ∀ (x : ∀ n, X n) y, (∀ n, P n y (x n)) → R x y) {s : List Y} :
    ∀ {S : ∀ n, List (X n)}, (∀ n, List.Forall₂ (P n) s (S n)) → LimList R S s ∧ ∃ L : List ((∀ n, X n) × Y),
      S = (fun n => L.map fun p => p.1 n) ∧ s = L.map Prod.snd ∧ ∀ p ∈ L, R p.1 p.2 := by
  suffices H : ∀ {S : ∀ n, List (X n)}, (∀ n, List.Forall₂ (P n) s (S n)) → ∃ L : List ((∀ n, X n) × Y),
      S = (fun n => L.map fun p => p.1 n) ∧ s = L.map Prod.snd ∧ ∀ p ∈ L, R p.1 p.2 by
    intro S h
    obtain ⟨L, a, b, c⟩ := H h
    exact ⟨⟨L, .of_forall fun n => congrFun a n, b, c⟩, L, a, b, c⟩
  induction s with
  | nil =>
    intro S h
    exact ⟨[], funext fun n => List.forall₂_nil_left_iff.mp (h n), rfl, by simp⟩
  | cons y s ih =>
    intro S h
    choose x T hx hT e using fun n => List.forall₂_cons_left_iff.mp (h n)
    obtain ⟨L, a, rfl, c⟩ := ih hT
    refine ⟨(x, y) :: L, funext fun n => ?_, rfl, ?_⟩
    · rw [e n, List.map_cons, congrFun a n]
    · intro p hp
      rcases List.mem_cons.mp hp with rfl | hp
      · exact hR _ _ hx
      · exact c p hp

/-- Sorting lists with comparisons that agree in the end. -/
theorem pySort_limList {f : ∀ n, X n → X n → Bool} {g : Y → Y → Bool} {L : List ((∀ n, X n) × Y)}
    (h : ∀ a ∈ L, ∀ b ∈ L, ∀ᶠ n in atTop, f n (a.1 n) (b.1 n) = g a.2 b.2) :
    ∃ L' : List ((∀ n, X n) × Y), L'.Perm L ∧ pySort g (L.map Prod.snd) = L'.map Prod.snd ∧
      ∀ᶠ n in atTop, pySort (f n) (L.map fun p => p.1 n) = L'.map fun p => p.1 n := by
  refine ⟨L.mergeSort (fun a b => !(g b.2 a.2)), List.mergeSort_perm _ _, ?_, ?_⟩
  · unfold pySort
    refine (List.map_mergeSort ?_).symm
    intro a _ b _
    rfl
  · filter_upwards [eventually_list fun a ha => eventually_list fun b hb => h a ha b hb] with n hn
    unfold pySort
    exact (List.map_mergeSort fun a ha b hb => by rw [hn b hb a ha]).symm

end LimList

/-- Optional numbers that go to an optional number. -/
def LimOpt {K : ℕ → Type} (val : ∀ n, K n → ℝ) (S : ∀ n, Option (K n)) (s : Option ℝ) : Prop :=
  (s = none ∧ ∀ᶠ n in atTop, S n = none) ∨ ∃ (f : ∀ n, K n) (x : ℝ), s = some x ∧ (∀ᶠ n in atTop, S n = some (f n)) ∧ Lim val f x

section rel
variable {K : ℕ → Type} (val : ∀ n, K n → ℝ)

structure LimMat (f : ∀ n, Material (K n)) (m : Material ℝ) : Prop where
  unitWeight : Lim val (fun n => (f n).unitWeight) m.unitWeight
  cohesion : Lim val (fun n => (f n).cohesion) m.cohesion
  tanPhi : Lim val (fun n => (f n).tanPhi) m.tanPhi
  depth : Lim val (fun n => (f n).depth) m.depth

structure LimUdl (f : ∀ n, Udl (K n)) (u : Udl ℝ) : Prop where
  magnitude : Lim val (fun n => (f n).magnitude) u.magnitude
  offset : Lim val (fun n => (f n).offset) u.offset
  length : LimOpt val (fun n => (f n).length) u.length
  pos : ∀ x, u.length = some x → 0 < x
  dynamic : ∀ᶠ n in atTop, (f n).dynamic = u.dynamic

structure LimLl (f : ∀ n, LineLoad (K n)) (u : LineLoad ℝ) : Prop where
  magnitude : Lim val (fun n => (f n).magnitude) u.magnitude
  offset : Lim val (fun n => (f n).offset) u.offset
  dynamic : ∀ᶠ n in atTop, (f n).dynamic = u.dynamic

structure LimLayer (f : ∀ n, Layer (K n)) (m : Layer ℝ) : Prop where
  mat : LimMat val (fun n => (f n).mat) m.mat
  rl : Lim val (fun n => (f n).rl) m.rl

structure LimPUdl (f : ∀ n, PUdl (K n)) (u : PUdl ℝ) : Prop where
  load : LimUdl val (fun n => (f n).load) u.load
  left : Lim val (fun n => (f n).left) u.left
  right : Lim val (fun n => (f n).right) u.right

structure LimPLl (f : ∀ n, PLl (K n)) (u : PLl ℝ) : Prop where
  load : LimLl val (fun n => (f n).load) u.load
  coord : Lim val (fun n => (f n).coord) u.coord

structure LimPlane (f : ∀ n, Plane (K n)) (p : Plane ℝ) : Prop where
  cx : Lim val (fun n => (f n).cx) p.cx
  cy : Lim val (fun n => (f n).cy) p.cy
  radius : Lim val (fun n => (f n).radius) p.radius

/-- An offset and the factor of safety found for it. -/
structure LimPair (f : ∀ n, K n × K n) (p : ℝ × ℝ) : Prop where
  fst : Lim val (fun n => (f n).1) p.1
  snd : Lim val (fun n => (f n).2) p.2

/-- The parts of the configuration that are not the ground. -/
structure LimBase (S : ∀ n, Slope (K n)) (s : Slope ℝ) : Prop where
  minExtH : Lim val (fun n => (S n).minExtH) s.minExtH
  minExtL : Lim val (fun n => (S n).minExtL) s.minExtL
  minPos : 0 < s.minExtL
  materials : LimList (LimLayer val) (fun n => (S n).materials) s.materials
  udls : LimList (LimPUdl val) (fun n => (S n).udls) s.udls
  lls : LimList (LimPLl val) (fun n => (S n).lls) s.lls
  waterRL : LimOpt val (fun n => (S n).waterRL) s.waterRL
  waterH : Lim val (fun n => (S n).waterH) s.waterH
  tolerance : Lim val (fun n => (S n).tolerance) s.tolerance
  slices : ∀ᶠ n in atTop, (S n).slices = s.slices
  maxIterations : ∀ᶠ n in atTop, (S n).maxIterations = s.maxIterations
  individual : LimList (LimPlane val) (fun n => (S n).individual) s.individual
  iterations : ∀ᶠ n in atTop, (S n).iterations = s.iterations
  minFailureDist : Lim val (fun n => (S n).minFailureDist) s.minFailureDist
  dynResults : LimList (LimPair val) (fun n => (S n).dynResults) s.dynResults

/-- Configurations that go to a configuration. -/
structure LimSlope (S : ∀ n, Slope (K n)) (s : Slope ℝ) : Prop extends LimBase val S s where
  height : Lim val (fun n => (S n).height) s.height
  length : Lim val (fun n => (S n).length) s.length
  hpos : 0 < s.height
  lpos : 0 < s.length
  gradient : Lim val (fun n => (S n).gradient) s.gradient
  topX : Lim val (fun n => (S n).topX) s.topX
  topY : Lim val (fun n => (S n).topY) s.topY
  botX : Lim val (fun n => (S n).botX) s.botX
  botY : Lim val (fun n => (S n).botY) s.botY
  extL : Lim val (fun n => (S n).extL) s.extL
  extH : Lim val (fun n => (S n).extH) s.extH
  topPos : 0 < s.topX
  topLt : s.topX < s.extL
  extPos : 0 < s.extH
  lim1 : Lim val (fun n => (S n).lim1) s.lim1
  lim2 : Lim val (fun n => (S n).lim2) s.lim2
  lim3 : Lim val (fun n => (S n).lim3) s.lim3
  lim4 : Lim val (fun n => (S n).lim4) s.lim4
  limPos : 0 < s.lim3
  there : ∀ᶠ n in atTop, (S n).extBoundary.isSome
  there' : s.extBoundary.isSome

end rel

section congr
variable {K : ℕ → Type} {val : ∀ n, K n → ℝ} {S T : ∀ n, Slope (K n)} {s : Slope ℝ}

theorem Lim.congr {x y : ∀ n, K n} {a : ℝ} (h : Lim val x a) (e : ∀ᶠ n in atTop, y n = x n) : Lim val y a := Better.congr h e

theorem LimOpt.congr {x y : ∀ n, Option (K n)} {a : Option ℝ} (h : LimOpt val x a) (e : ∀ᶠ n in atTop, y n = x n) :
    LimOpt val y a := by
  rcases h with ⟨h1, h2⟩ | ⟨f, b, h1, h2, h3⟩
  · exact .inl ⟨h1, (e.and h2).mono fun n h => h.1.trans h.2⟩
  · exact .inr ⟨f, b, h1, (e.and h2).mono fun n h => h.1.trans h.2, h3⟩

theorem LimBase.congr (h : LimBase val S s) (e : ∀ᶠ n in atTop, T n = S n) : LimBase val T s where
  minExtH := h.minExtH.congr (e.mono fun n k => by rw [k])
  minExtL := h.minExtL.congr (e.mono fun n k => by rw [k])
  minPos := h.minPos
  materials := h.materials.congr (e.mono fun n k => by rw [k])
  udls := h.udls.congr (e.mono fun n k => by rw [k])
  lls := h.lls.congr (e.mono fun n k => by rw [k])
  waterRL := h.waterRL.congr (e.mono fun n k => by rw [k])
  waterH := h.waterH.congr (e.mono fun n k => by rw [k])
  tolerance := h.tolerance.congr (e.mono fun n k => by rw [k])
  slices := (e.and h.slices).mono fun n k => by rw [k.1, k.2]
  maxIterations := (e.and h.maxIterations).mono fun n k => by rw [k.1, k.2]
  individual := h.individual.congr (e.mono fun n k => by rw [k])
  iterations := (e.and h.iterations).mono fun n k => by rw [k.1, k.2]
  minFailureDist := h.minFailureDist.congr (e.mono fun n k => by rw [k])
  dynResults := h.dynResults.congr (e.mono fun n k => by rw [k])

theorem LimSlope.congr (h : LimSlope val S s) (e : ∀ᶠ n in atTop, T n = S n) : LimSlope val T s where
  toLimBase := h.toLimBase.congr e
  height := h.height.congr (e.mono fun n k => by rw [k])
  length := h.length.congr (e.mono fun n k => by rw [k])
  hpos := h.hpos
  lpos := h.lpos
  gradient := h.gradient.congr (e.mono fun n k => by rw [k])
  topX := h.topX.congr (e.mono fun n k => by rw [k])
  topY := h.topY.congr (e.mono fun n k => by rw [k])
  botX := h.botX.congr (e.mono fun n k => by rw [k])
  botY := h.botY.congr (e.mono fun n k => by rw [k])
  extL := h.extL.congr (e.mono fun n k => by rw [k])
  extH := h.extH.congr (e.mono fun n k => by rw [k])
  topPos := h.topPos
  topLt := h.topLt
  extPos := h.extPos
  lim1 := h.lim1.congr (e.mono fun n k => by rw [k])
  lim2 := h.lim2.congr (e.mono fun n k => by rw [k])
  lim3 := h.lim3.congr (e.mono fun n k => by rw [k])
  lim4 := h.lim4.congr (e.mono fun n k => by rw [k])
  limPos := h.limPos
  there := (e.and h.there).mono fun n k => by rw [k.1]; exact k.2
  there' := h.there'

/-- Outcomes that in the end do not raise and go to a state. -/
def Goes (val : ∀ n, K n → ℝ) (O : ∀ n, Out (K n) Unit) (o : Out ℝ Unit) : Prop :=
  LimSlope val (fun n => (O n).1) o.1 ∧ (∀ᶠ n in atTop, (O n).2 = .ok ()) ∧ o.2 = .ok ()

theorem Goes.of {O : ∀ n, Out (K n) Unit} {o : Out ℝ Unit} (h : LimSlope val T s) (e : ∀ᶠ n in atTop, O n = (T n, .ok ()))
    (e' : o = (s, .ok ())) : Goes val O o :=
  ⟨by rw [e']; exact h.congr (e.mono fun n k => by rw [k]), e.mono fun n k => by rw [k], by rw [e']⟩

theorem Goes.congr {O O' : ∀ n, Out (K n) Unit} {o : Out ℝ Unit} (h : Goes val O o) (e : ∀ᶠ n in atTop, O' n = O n) :
    Goes val O' o :=
  ⟨h.1.congr (e.mono fun n k => by rw [k]), (e.and h.2.1).mono fun n k => by rw [k.1]; exact k.2, h.2.2⟩

theorem Goes.andThen [∀ n, PyNum (K n)] {O : ∀ n, Out (K n) Unit} {o : Out ℝ Unit} (h : Goes val O o)
    {f : ∀ n, Slope (K n) → Unit → Out (K n) Unit} {g : Slope ℝ → Unit → Out ℝ Unit}
    (k : LimSlope val (fun n => (O n).1) o.1 → Goes val (fun n => f n (O n).1 ()) (g o.1 ())) :
    Goes val (fun n => (O n).andThen (f n)) (o.andThen g) := by
  have : o.andThen g = g o.1 () := by unfold Out.andThen; rw [h.2.2]
  rw [this]
  refine (k h.1).congr (h.2.1.mono fun n e => ?_)
  unfold Out.andThen; rw [e]

end congr
end PySlope
