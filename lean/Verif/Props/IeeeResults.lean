import Verif.Props.NotNumbersRun
import Mathlib.Data.EReal.Basic

/-! # C97: the results of an analysis in double precision

What C24 says of exact arithmetic, said of Python's floats (`X64 A`, on every machine): rounding, infinities and
NaN included. -/

namespace PySlope
open Lit X64

variable {A : Machine}

namespace X64

/-- The place of a float in the order; NaN has none. -/
noncomputable def place : X64 A → EReal
  | nan => 0
  | inf m => if m then ⊥ else ⊤
  | fin a => (a.val : EReal)

theorem place_lt {x y : X64 A} (hx : x ≠ nan) (hy : y ≠ nan) : x < y ↔ x.place < y.place := by
  rcases x with _ | m | a <;> rcases y with _ | n | b
  all_goals try exact absurd rfl hx
  all_goals try exact absurd rfl hy
  · change (m = true ∧ n = false) ↔ _
    cases m <;> cases n <;> simp [place]
  · change (m = true) ↔ _
    cases m <;> simp [place]
  · change (n = false) ↔ _
    cases n <;> simp [place]
  · change a.val < b.val ↔ _
    simp [place]

theorem place_le {x y : X64 A} (hx : x ≠ nan) (hy : y ≠ nan) : x ≤ y ↔ x.place ≤ y.place := by
  rcases x with _ | m | a <;> rcases y with _ | n | b
  all_goals try exact absurd rfl hx
  all_goals try exact absurd rfl hy
  · change (m = true ∨ n = false) ↔ _
    cases m <;> cases n <;> simp [place]
  · change (m = true) ↔ _
    cases m <;> simp [place]
  · change (n = false) ↔ _
    cases n <;> simp [place]
  · change a.val ≤ b.val ↔ _
    simp [place]

theorem zero_ne_nan : (0 : X64 A) ≠ nan := by
  obtain ⟨z, hz, _⟩ := zero_eq (A := A)
  rw [hz]; simp

theorem ofReal_nonneg {x : ℝ} (h : 0 ≤ x) : (0 : X64 A) ≤ ofReal x := by
  obtain ⟨z, hz, hz'⟩ := zero_eq (A := A)
  rw [hz]
  unfold ofReal
  split_ifs with c
  · change z.val ≤ (F64.mk x : F64 A).val
    rw [hz']
    have := A.rounds.mono h
    have h0 : A.rnd 0 = 0 := by simpa using A.rounds.exact_nat 0 (by norm_num)
    rw [h0] at this
    exact this
  · show decide (x < 0) = false
    simpa using h

/-- A quotient of a float that is not negative by one that is positive: not negative, or NaN. -/
theorem div_nonneg' {x y : X64 A} (hx : ¬ x < 0) (hy : ¬ y ≤ 0) : x / y = nan ∨ 0 ≤ x / y := by
  obtain ⟨z, hz, hz'⟩ := zero_eq (A := A)
  rw [hz] at hx hy
  rcases x with _ | m | a <;> rcases y with _ | n | b
  all_goals try (left; rfl)
  · -- infinite over finite
    change ¬ m = true at hx
    change ¬ b.val ≤ z.val at hy
    right
    rw [hz]
    show (m != decide (b.val < 0)) = false
    rw [hz'] at hy
    have : ¬ b.val < 0 := by linarith
    simp [this, hx]
  · right
    exact ofReal_nonneg le_rfl
  · change ¬ a.val < z.val at hx
    change ¬ b.val ≤ z.val at hy
    rw [hz'] at hx hy
    right
    show 0 ≤ (if b.val = 0 then _ else ofReal (a.val / b.val) : X64 A)
    rw [if_neg (by intro h; apply hy; rw [h])]
    exact ofReal_nonneg (div_nonneg (not_lt.mp hx) (not_le.mp hy).le)

end X64

/-! ## Sign -/

theorem bishopStep_nonneg {w prev x : X64 A} {fs : List (SliceForces (X64 A))} (h : bishopStep w fs prev = .ok x) :
    x = nan ∨ 0 ≤ x := by
  unfold bishopStep at h
  simp only [bind, Except.bind, pure, Except.pure, throw, throwThe, MonadExceptOf.throw] at h
  split_ifs at h with h1 h2 h3 h4 h5
  · cases h; right; exact zero_le_zero
  · cases h
    rw [not_or] at h5
    exact div_nonneg' h5.2 h5.1

theorem bishopLoop_nonneg {w tol x : X64 A} {fs : List (SliceForces (X64 A))} (n : ℕ) (prev : X64 A)
    (h : bishopLoop w tol fs (n + 1) prev = .ok x) : x = nan ∨ 0 ≤ x := by
  induction n generalizing prev with
  | zero =>
    unfold bishopLoop at h
    simp only [bind, Except.bind, pure, Except.pure] at h
    cases hs : bishopStep w fs prev with
    | error e => rw [hs] at h; cases h
    | ok F =>
      rw [hs] at h
      simp only at h
      split_ifs at h
      · cases h; exact bishopStep_nonneg hs
      · unfold bishopLoop at h
        cases h; exact bishopStep_nonneg hs
  | succ n ih =>
    unfold bishopLoop at h
    simp only [bind, Except.bind, pure, Except.pure] at h
    cases hs : bishopStep w fs prev with
    | error e => rw [hs] at h; cases h
    | ok F =>
      rw [hs] at h
      simp only at h
      split_ifs at h
      · cases h; exact bishopStep_nonneg hs
      · exact ih F h

/-- C97: with at least one iteration allowed, no analysis of a circle in floats gives a negative factor of safety:
it is NaN or at least 0. -/
theorem C97_not_negative {s : Slope (X64 A)} (hi : 1 ≤ s.maxIterations) {cx cy r x : X64 A}
    (h : s.bishop cx cy r none none = .ok x) : x = nan ∨ 0 ≤ x := by
  obtain ⟨n, hn⟩ : ∃ n, s.maxIterations.toNat = n + 1 := ⟨s.maxIterations.toNat - 1, by omega⟩
  unfold Slope.bishop at h
  rw [hn] at h
  simp only [bind, Except.bind] at h
  split at h
  · cases h
  · split at h
    · cases h
    · split at h
      · cases h
      · split at h
        · cases h
        · exact bishopLoop_nonneg n _ h

/-- C97: so every factor of safety an analysis reports, and the one `get_min_FOS` returns, is NaN or at least 0. -/
theorem C97_reported {s t : Slope (X64 A)} (hi : 1 ≤ s.maxIterations) {m : Option (X64 A)}
    (e : s.analyseSlope m = (t, .ok ())) :
    (∀ p ∈ t.search, ∃ x, p.fos = some (some x) ∧ (x = nan ∨ 0 ≤ x)) ∧
    ∀ v, t.getMinFos = .ok v → ∃ x, v = some x ∧ (x = nan ∨ 0 ≤ x) := by
  obtain ⟨ps, h1, h2, rfl⟩ := analyseSlope_ok e
  have hs : ∀ p ∈ (s.analysedTo m ps).search, ∃ x, p.fos = some (some x) ∧ (x = nan ∨ 0 ≤ x) := by
    intro p hp
    obtain ⟨hp1, hp2⟩ := mem_tidySearch (m := m) hp
    obtain ⟨q, _, rfl⟩ := List.mem_map.mp hp1
    rw [fosVal_withFos] at hp2
    obtain ⟨x, hx⟩ := Option.isSome_iff_exists.mp hp2
    exact ⟨x, by unfold withFos; rw [hx], C97_not_negative hi (fosOf_some.mp hx)⟩
  refine ⟨hs, ?_⟩
  intro v hv
  unfold Slope.getMinFos at hv
  cases hc : (s.analysedTo m ps).search with
  | nil => rw [hc] at hv; cases hv
  | cons p rest =>
    obtain ⟨x, hx, hx'⟩ := hs p (by rw [hc]; simp)
    rw [hc] at hv
    simp only [hx] at hv
    cases hv
    exact ⟨x, rfl, hx'⟩

/-! ## Order -/

/-- The place of the factor of safety of a plane. -/
noncomputable def placeOf (p : Plane (X64 A)) : EReal := (p.fosVal.getD nan).place

theorem sorted64 {l : List (Plane (X64 A))} (h : ∀ p ∈ l, ∃ x, p.fosVal = some x ∧ x ≠ nan) :
    (pySort fosLt l).Pairwise (fun p q => placeOf p ≤ placeOf q) := by
  have e := List.map_mergeSort (f := placeOf) (r := fun a b : Plane (X64 A) => !(fosLt b a))
    (s := fun a b : EReal => decide (a ≤ b)) (l := l) (by
      intro a ha b hb
      obtain ⟨x, hx, hx'⟩ := h a ha
      obtain ⟨y, hy, hy'⟩ := h b hb
      unfold fosLt placeOf
      rw [hx, hy]
      simp only [Option.getD_some]
      by_cases c : y < x
      · rw [decide_eq_true c, decide_eq_false (not_le.mpr ((place_lt hy' hx').mp c))]; rfl
      · rw [decide_eq_false c, decide_eq_true (not_lt.mp (fun c' => c ((place_lt hy' hx').mpr c')))]; rfl)
  have s := List.pairwise_mergeSort (le := fun a b : EReal => decide (a ≤ b))
    (by intro a b c; simp; exact le_trans) (by intro a b; simp; exact le_total _ _) (l.map placeOf)
  rw [← e, List.pairwise_map] at s
  unfold pySort
  exact s.imp (by intro a b hab; simpa using hab)

/-- C97: what an analysis in floats leaves, for a `max_fos` that is absent or does not equal 0, when no circle has
the factor of safety NaN. (`Analysed s ps`: the candidates; `fosOf s p`: the factor of safety of a candidate, if it
has one; `withFos s p`: the candidate with it written in.) -/
theorem C97_results {s t : Slope (X64 A)} {m : Option (X64 A)} (hm : ∀ b, m = some b → pyEq b 0 = false)
    (e : s.analyseSlope m = (t, .ok ())) (hn : ∀ ps, Analysed s ps → ∀ p ∈ ps, fosOf s p ≠ some nan) :
    ∃ ps, Analysed s ps ∧
      -- exactly the candidates with a factor of safety, not above max_fos, each as often as it was tried
      t.search.Perm ((ps.filter fun p => (fosOf s p).any fun x => m.all fun b => decide (x ≤ b)).map (withFos s)) ∧
      -- in increasing order
      t.search.Pairwise (fun p q => ∃ x y, p.fos = some (some x) ∧ q.fos = some (some y) ∧ x ≤ y) ∧
      -- the getters give the least of them
      (t.search = [] → t.getMinFos = .error .indexError ∧ t.getMinFosCircle = .error .indexError ∧
        t.getMinFosEndPoints = .error .indexError) ∧
      (t.search ≠ [] → ∃ p ∈ ps, ∃ x, fosOf s p = some x ∧ t.getMinFos = .ok (some x) ∧
        t.getMinFosCircle = .ok (p.cx, p.cy, p.radius) ∧ t.getMinFosEndPoints = .ok (p.lc, p.rc) ∧
        ∀ q ∈ ps, ∀ y, fosOf s q = some y → x ≤ y) := by
  obtain ⟨ps, h1, h2, rfl⟩ := analyseSlope_ok e
  refine ⟨ps, h1, ?_⟩
  have hn := hn ps h1
  let full := pySort fosLt ((ps.map (withFos s)).filter (fun p => p.fosVal.isSome))
  have hmem : ∀ p, p ∈ full ↔ ∃ q ∈ ps, ∃ x, fosOf s q = some x ∧ x ≠ nan ∧ p = { q with fos := some (some x) } := by
    intro p
    show p ∈ List.mergeSort _ _ ↔ _
    rw [List.mem_mergeSort, List.mem_filter, List.mem_map]
    constructor
    · rintro ⟨⟨q, hq, rfl⟩, h⟩
      rw [fosVal_withFos] at h
      obtain ⟨x, hx⟩ := Option.isSome_iff_exists.mp h
      exact ⟨q, hq, x, hx, fun c => hn q hq (by rw [hx, c]), by unfold withFos; rw [hx]⟩
    · rintro ⟨q, hq, x, hx, _, rfl⟩
      exact ⟨⟨q, hq, by unfold withFos; rw [hx]⟩, rfl⟩
  have hsort : full.Pairwise (fun p q => placeOf p ≤ placeOf q) := by
    apply sorted64
    intro p hp
    obtain ⟨q, _, x, _, hx, rfl⟩ := (hmem p).mp (List.mem_mergeSort.mpr hp)
    exact ⟨x, rfl, hx⟩
  have hperm : full.Perm ((ps.map (withFos s)).filter (fun p => p.fosVal.isSome)) := List.mergeSort_perm _ _
  let keep : Plane (X64 A) → Bool := fun p => m.all fun b => p.fosVal.any fun x => decide (x ≤ b)
  have hsearch : (s.analysedTo m ps).search = full.filter keep := by
    show tidySearch m (ps.map (withFos s)) = _
    unfold tidySearch
    cases m with
    | none =>
      show full = _
      rw [List.filter_eq_self.mpr]
      intro a _; rfl
    | some b =>
      simp only [hm b rfl, Bool.false_eq_true, if_false]
      apply List.filter_congr
      intro p hp
      obtain ⟨q, _, x, _, _, rfl⟩ := (hmem p).mp hp
      rfl
  have hsub : (full.filter keep).Pairwise (fun p q => placeOf p ≤ placeOf q) := hsort.sublist List.filter_sublist
  have hle : ∀ (q : Plane (X64 A)) (x : X64 A) (r : Plane (X64 A)) (y : X64 A), x ≠ nan → y ≠ nan →
      placeOf ({ q with fos := some (some x) } : Plane (X64 A)) ≤
        placeOf ({ r with fos := some (some y) } : Plane (X64 A)) → x ≤ y := by
    intro q x r y hx hy h
    exact (place_le hx hy).mpr h
  rw [hsearch]
  refine ⟨?_, ?_, ?_, ?_⟩
  · refine (hperm.filter keep).trans ?_
    rw [List.filter_filter, List.filter_map]
    apply List.Perm.of_eq
    congr 1
    apply List.filter_congr
    intro p _
    show (keep (withFos s p) && (fosOf s p).isSome) = _
    show ((m.all fun b => (fosOf s p).any fun x => decide (x ≤ b)) && _) = _
    cases fosOf s p <;> simp
  · rw [List.pairwise_iff_forall_sublist] at hsub ⊢
    intro a b hab
    obtain ⟨q, _, x, _, hx, rfl⟩ := (hmem a).mp (List.mem_filter.mp (hab.subset (by simp))).1
    obtain ⟨r, _, y, _, hy, rfl⟩ := (hmem b).mp (List.mem_filter.mp (hab.subset (by simp))).1
    exact ⟨x, y, rfl, rfl, hle _ _ _ _ hx hy (hsub hab)⟩
  · intro h
    unfold Slope.getMinFos Slope.getMinFosCircle Slope.getMinFosEndPoints
    rw [hsearch, h]
    exact ⟨rfl, rfl, rfl⟩
  · intro h
    cases hc : full.filter keep with
    | nil => exact absurd hc h
    | cons p rest =>
      have hp : p ∈ full.filter keep := by rw [hc]; simp
      obtain ⟨hp1, hp2⟩ := List.mem_filter.mp hp
      obtain ⟨q, hq, x, hx, hx', rfl⟩ := (hmem p).mp hp1
      refine ⟨q, hq, x, hx, ?_, ?_, ?_, ?_⟩
      · unfold Slope.getMinFos; rw [hsearch, hc]
      · unfold Slope.getMinFosCircle; rw [hsearch, hc]
      · unfold Slope.getMinFosEndPoints; rw [hsearch, hc]
      · intro r hr y hy
        have hy' : y ≠ nan := fun c => hn r hr (by rw [hy, c])
        have hrf : ({ r with fos := some (some y) } : Plane (X64 A)) ∈ full := (hmem _).mpr ⟨r, hr, y, hy, hy', rfl⟩
        by_cases hk : keep { r with fos := some (some y) } = true
        · have : ({ r with fos := some (some y) } : Plane (X64 A)) ∈ full.filter keep := List.mem_filter.mpr ⟨hrf, hk⟩
          rw [hc] at this hsub
          rcases List.mem_cons.mp this with c | c
          · have : some (some y) = some (some x) := congrArg Plane.fos c
            cases this
            exact (place_le hx' hx').mpr le_rfl
          · exact hle _ _ _ _ hx' hy' (List.rel_of_pairwise_cons hsub c)
        · cases m with
          | none => exact absurd rfl hk
          | some b =>
            change (decide (x ≤ b)) = true at hp2
            change ¬ (decide (y ≤ b)) = true at hk
            rw [decide_eq_true_eq] at hp2 hk
            have hb : b ≠ nan := fun c => le_nan x (c ▸ hp2)
            rw [place_le hx' hb] at hp2
            rw [place_le hy' hb, not_le] at hk
            exact (place_le hx' hy').mpr (hp2.trans hk.le)

/-! ## A run that meets the hypotheses -/

/-- A material with the cohesion 5 and no friction. -/
noncomputable def exClay64 : Material (X64 exMachine) :=
  { unitWeight := 20, frictionAngle := 0, cohesion := 5, depth := pyAbs 5, tanPhi := PyNum.tan (radians 0)
    name := "", userColor := none }

theorem exClay64_constructed : Material.Constructed exClay64 := by
  refine ⟨fun _ => false, .num 20, .num 0, .num 5, .num 5, .str "", .str "", ?_⟩
  have h1 : ¬ (20 : X64 exMachine) < 1 := by
    rw [one_ofReal, show (20 : X64 exMachine) = ofReal 20 from rfl, ofReal_lt (by dy) (by dy)]; norm_num
  have h2 : ¬ (50 : X64 exMachine) < 20 := by
    rw [show (50 : X64 exMachine) = ofReal 50 from rfl, show (20 : X64 exMachine) = ofReal 20 from rfl,
      ofReal_lt (by dy) (by dy)]; norm_num
  have h3 : (pyAbs 5 : X64 exMachine) = 5 := by
    rw [show (5 : X64 exMachine) = ofReal 5 from rfl, ofReal_abs (by dy)]; norm_num
  have h4 : ¬ (0 : X64 exMachine) < 0 := by
    rw [zero_ofReal, ofReal_lt Dy.zero Dy.zero]; norm_num
  simp [Material.new, assertRange, assertPositiveNumber, assertNumber, PyCmp.ltb, h1, h2, h3, h4, bind, Except.bind,
    pure, Except.pure, PyVal.get!, strArg, exClay64]

theorem exClay64_tan : Btw exClay64.tanPhi 0 0 := by
  have b0 : Btw (0 : X64 exMachine) 0 0 := by rw [zero_ofReal]; exact Btw.dy Dy.zero
  have b180 : Btw (180 : X64 exMachine) 180 180 := Btw.dy (by dy)
  have bpi : Btw (PyNum.pi : X64 exMachine) 3 4 := by
    refine ⟨exMachine.pi, rfl, ?_, ?_⟩
    · show 3 ≤ round53 Real.pi
      have h3 : round53 3 = 3 := round53_roundsToEven.exact (Dy.binary (by dy))
      rw [← h3]; exact round53_roundsToEven.mono Real.pi_gt_three.le
    · show round53 Real.pi ≤ 4
      have h4 : round53 4 = 4 := round53_roundsToEven.exact (Dy.binary (by dy))
      rw [← h4]; exact round53_roundsToEven.mono Real.pi_le_four
  have d := bpi.div b180 (lo := 0) (hi := 1) (by norm_num)
      (fun u v a b c d => by constructor <;> linarith) (by dy) (by dy)
  have m := b0.mulNonneg d (lo := 0) (hi := 0) (by norm_num) (by norm_num) (by norm_num) (by norm_num) (by dy) (by dy)
  obtain ⟨u, hu, h1, h2⟩ := m
  have hv : u.1 = 0 := le_antisymm h2 h1
  have ht : exClay64.tanPhi = fin (exMachine.tan u) := by
    show PyNum.tan (radians 0) = _
    unfold radians
    rw [hu]; rfl
  have hr : (exMachine.tan u).1 = 0 := by
    show round53 (Real.tan u.1) = 0
    rw [hv, Real.tan_zero]
    exact round53_roundsToEven.exact (Dy.binary Dy.zero)
  exact ⟨_, ht, hr.ge, hr.le⟩

/-- A sum of numbers in a range. -/
theorem lsum_Btw {d B : ℕ} (l : List (X64 A)) (h : ∀ x ∈ l, Btw x d B) (hd : Dy d) (hl : 0 < l.length)
    (hB : B * l.length < 2 ^ 43) : Btw (lsum l) d ((B * l.length : ℕ) : ℝ) := by
  have b0 : Btw (0 : X64 A) 0 ((0 : ℕ) : ℝ) := by rw [zero_ofReal]; simpa using Btw.dy Dy.zero
  have := foldl_Btw (B := B) (m := 0) (d := d) hd l
    (fun x hx => (h x hx).weaken (by positivity) le_rfl) 0 b0 (by omega)
    (Or.inr ⟨_, List.getElem_mem hl, _, h _ (List.getElem_mem hl)⟩)
  rw [Nat.zero_add] at this
  exact this

/-- What is known of the slices of the example. -/
structure ExSlice (f : SliceForces (X64 exMachine)) : Prop where
  W : Btw f.W 0 60
  cosA : Btw f.cosA (1 / 2) 1
  sinA : Btw f.sinA 0 1
  u : f.u = 0
  c : f.c = 5
  tan : Btw f.tanPhi 0 0

theorem ExSlice.ordinary {f : SliceForces (X64 exMachine)} (h : ExSlice f) :
    Btw (ordinaryTerm (ofReal (9 / 16)) f) ((2 : ℕ) : ℝ) ((10 : ℕ) : ℝ) := by
  have b0 : Btw (0 : X64 exMachine) 0 0 := by rw [zero_ofReal]; exact Btw.dy Dy.zero
  have b5 : Btw (5 : X64 exMachine) 5 5 := Btw.dy (by dy)
  have b916 : Btw (ofReal (9 / 16) : X64 exMachine) (9 / 16) (9 / 16) := Btw.dy ⟨576, by norm_num, by norm_num⟩
  have l := b916.div h.cosA (lo := 1 / 2) (hi := 2) (by norm_num)
      (fun u v a b c d => by constructor <;> linarith) dy_half (by dy)
  have cl := b5.mulNonneg l (lo := 2) (hi := 10) (by norm_num) (by norm_num) (by norm_num) (by norm_num) (by dy) (by dy)
  have ul := b0.mulNonneg l (lo := 0) (hi := 0) (by norm_num) (by norm_num) (by norm_num) (by norm_num) (by dy) (by dy)
  have wc := h.W.mulNonneg h.cosA (lo := 0) (hi := 60) (by norm_num) (by norm_num) (by norm_num) (by norm_num) (by dy) (by dy)
  have n := wc.sub ul (lo := 0) (hi := 60) (by norm_num) (by norm_num) (by dy) (by dy)
  have mx := b0.max n (lo := 0) (hi := 60) (by norm_num) (by norm_num) (by norm_num)
  have fr := mx.mulNonneg h.tan (lo := 0) (hi := 0) (by norm_num) (by norm_num) (by norm_num) (by norm_num) (by dy) (by dy)
  have := cl.add fr (lo := 2) (hi := 10) (by norm_num) (by norm_num) (by dy) (by dy)
  unfold ordinaryTerm
  rw [h.u, h.c]
  simpa using this

theorem dy_512 : Dy (1 / 512) := ⟨2, by norm_num, by norm_num⟩

theorem ExSlice.denom {f : SliceForces (X64 exMachine)} (h : ExSlice f) {F : X64 exMachine} (hF : Btw F (1 / 512) 160) :
    Btw (bishopDenom F f) (1 / 2) 1 := by
  have st := h.sinA.mulNonneg h.tan (lo := 0) (hi := 0) (by norm_num) (by norm_num) (by norm_num) (by norm_num) (by dy) (by dy)
  have q := st.div hF (lo := 0) (hi := 0) (by norm_num)
      (fun u v a b c d => by constructor <;> linarith) (by dy) (by dy)
  exact h.cosA.add q (by norm_num) (by norm_num) dy_half (by dy)

theorem ExSlice.bishop {f : SliceForces (X64 exMachine)} (h : ExSlice f) {F : X64 exMachine} (hF : Btw F (1 / 512) 160) :
    Btw (bishopTerm (ofReal (9 / 16)) F f) ((2 : ℕ) : ℝ) ((6 : ℕ) : ℝ) := by
  have b0 : Btw (0 : X64 exMachine) 0 0 := by rw [zero_ofReal]; exact Btw.dy Dy.zero
  have b5 : Btw (5 : X64 exMachine) 5 5 := Btw.dy (by dy)
  have b916 : Btw (ofReal (9 / 16) : X64 exMachine) (9 / 16) (9 / 16) := Btw.dy ⟨576, by norm_num, by norm_num⟩
  have cw := b5.mulNonneg b916 (lo := 2) (hi := 3) (by norm_num) (by norm_num) (by norm_num) (by norm_num) (by dy) (by dy)
  have u := b0.mulNonneg b916 (lo := 0) (hi := 0) (by norm_num) (by norm_num) (by norm_num) (by norm_num) (by dy) (by dy)
  have n := h.W.sub u (lo := 0) (hi := 60) (by norm_num) (by norm_num) (by dy) (by dy)
  have fr := n.mulNonneg h.tan (lo := 0) (hi := 0) (by norm_num) (by norm_num) (by norm_num) (by norm_num) (by dy) (by dy)
  have t := cw.add fr (lo := 2) (hi := 3) (by norm_num) (by norm_num) (by dy) (by dy)
  have := t.div (h.denom hF) (lo := 2) (hi := 6) (by norm_num)
      (fun u v a b c d => by constructor <;> linarith) (by dy) (by dy)
  unfold bishopTerm
  rw [h.u, h.c]
  simpa using this

/-- The iteration of the example: from a number between 1/512 and 160 to such a number. -/
theorem exLoop64 {tol : X64 exMachine} {fs : List (SliceForces (X64 exMachine))} (h : ∀ f ∈ fs, ExSlice f)
    (hl : fs.length = 16) (hd : Btw (drivingSum fs) 1 960) (n : ℕ) (F : X64 exMachine) (hF : Btw F (1 / 512) 160) :
    ∃ x, bishopLoop (ofReal (9 / 16)) tol fs n F = .ok x ∧ Btw x (1 / 512) 160 := by
  induction n generalizing F with
  | zero => exact ⟨F, rfl, hF⟩
  | succ n ih =>
    have b0 : Btw (0 : X64 exMachine) 0 0 := by rw [zero_ofReal]; exact Btw.dy Dy.zero
    have c1 : pyEq F 0 = false := by
      unfold pyEq
      rw [decide_eq_false (hF.not_le b0 (by norm_num))]; simp
    have c2 : (fs.any fun f => pyEq (bishopDenom F f) 0) = false := by
      rw [List.any_eq_false]
      intro f hf
      unfold pyEq
      rw [decide_eq_false (((h f hf).denom hF).not_le b0 (by norm_num))]; simp
    have r := lsum_Btw (d := 2) (B := 6) (fs.map (bishopTerm (ofReal (9 / 16)) F)) (by
      intro x hx
      obtain ⟨f, hf, rfl⟩ := List.mem_map.mp hx
      exact (h f hf).bishop hF) (by dy) (by simp [hl]) (by simp [hl])
    rw [List.length_map, hl] at r
    norm_num at r
    have c3 := hd.not_le b0 (by norm_num)
    have c4 := r.not_lt b0 (by norm_num)
    have q := r.div hd (lo := 1 / 512) (hi := 160) (by norm_num)
      (fun u v a b c d => by constructor <;> linarith) dy_512 (by dy)
    have hs : bishopStep (ofReal (9 / 16)) fs F =
        .ok (lsum (fs.map (bishopTerm (ofReal (9 / 16)) F)) / drivingSum fs) := by
      unfold bishopStep
      simp only [c1, c2, c3, c4, or_self, if_false, Bool.false_eq_true, bind, Except.bind, pure, Except.pure]
    unfold bishopLoop
    simp only [hs, bind, Except.bind, pure, Except.pure]
    split_ifs
    · exact ⟨_, rfl, q⟩
    · exact ih _ q

/-- The factor of safety of the circle in the material with the cohesion 5 is a number. -/
theorem exBishop64 {s : Slope (X64 exMachine)} (h : ExRun 5 s) (hm : ∃ l, s.materials = [l] ∧ l.mat = exClay64) :
    ∃ x, s.bishop (ofReal 20) (ofReal 32) (ofReal 15) none none = .ok x ∧ Btw x (1 / 512) 160 := by
  obtain ⟨rows, fs, h1, h2, h3, hw, hl, l, hl', hf⟩ := h.forces
  obtain ⟨l', e, em⟩ := hm
  rw [e] at hl'
  cases hl'
  have hs : ∀ f ∈ fs, ExSlice f := by
    intro f hf'
    obtain ⟨a, b, c, d, e, g⟩ := hf f hf'
    exact ⟨a, b, c, d, e, by rw [g, em]; exact exClay64_tan⟩
  have b0 : Btw (0 : X64 exMachine) 0 0 := by rw [zero_ofReal]; exact Btw.dy Dy.zero
  have b20 : Btw (ofReal 20 : X64 exMachine) 20 20 := Btw.dy (by dy)
  have b32 : Btw (ofReal 32 : X64 exMachine) 32 32 := Btw.dy (by dy)
  have b15 : Btw (ofReal 15 : X64 exMachine) 15 15 := Btw.dy (by dy)
  have b11 : Btw (ofReal 11 : X64 exMachine) 11 11 := Btw.dy (by dy)
  have c1 := b20.not_lt b0 (by norm_num)
  have c2 := b32.not_lt b0 (by norm_num)
  have c3 := b15.not_lt b0 (by norm_num)
  have bt : Btw (1e-6 : X64 exMachine) 0 1 :=
    Btw.ofReal (A := exMachine) (y := 1e-6) (by norm_num) (by norm_num) Dy.zero Dy.one
  have c4 := (b20.sub b11 (lo := 9) (hi := 9) (by norm_num) (by norm_num) (by dy) (by dy)).not_le bt (by norm_num)
  have c5 := h3.not_le b0 (by norm_num)
  have r := lsum_Btw (d := 2) (B := 10) (fs.map (ordinaryTerm (ofReal (9 / 16)))) (by
    intro x hx
    obtain ⟨f, hf, rfl⟩ := List.mem_map.mp hx
    exact (hs f hf).ordinary) (by dy) (by simp [hl]) (by simp [hl])
  rw [List.length_map, hl] at r
  norm_num at r
  have q := r.div h3 (lo := 1 / 512) (hi := 160) (by norm_num)
      (fun u v a b c d => by constructor <;> linarith) dy_512 (by dy)
  have ho : s.ordinary (ofReal 20) (ofReal 32) (ofReal 15) (some (ofReal 11, ofReal 20)) (some (ofReal 20, ofReal 17)) =
      .ok (lsum (fs.map (ordinaryTerm (ofReal (9 / 16)))) / drivingSum fs) := by
    unfold Slope.ordinary
    simp only [Slope.ordinaryEnds, c1, c2, c3, c4, c5, or_self, if_false, bind, Except.bind, throw, throwThe,
      MonadExceptOf.throw, pure, Except.pure, h1, h2, hw]
    rw [hw] at h2
    simp only [h2, c5, if_false]
  have he : s.bishopEnds (ofReal 20) (ofReal 32) (ofReal 15) none none =
      .ok ((ofReal 11, ofReal 20), (ofReal 20, ofReal 17)) := by
    unfold Slope.bishopEnds
    simp only [ex_ext h.topX h.topY h.botX h.botY h.extL]
    have : setSize [((ofReal 11 : X64 exMachine), (ofReal 20 : X64 exMachine)), (ofReal 20, ofReal 17)] = 2 := by
      norm_num [setSize, ofReal_pyEq, Dy.ofNat]
    rw [this]
    rfl
  obtain ⟨x, hx, bx⟩ := exLoop64 (tol := s.tolerance) hs hl h3 s.maxIterations.toNat _ q
  refine ⟨x, ?_, bx⟩
  rw [hw] at h2
  unfold Slope.bishop
  simp only [he, ho, h1, h2, hw, bind, Except.bind, hx]

/-- The hypotheses of C97 are met by an analysis whose result is a number: `Slope(6, length=8)` with a material of
unit weight 20 and cohesion 5 and the circle at `(20, 32)` with radius 15. -/
example : ∃ s : Slope (X64 exMachine), Reachable s ∧ 1 ≤ s.maxIterations ∧
    (s.analyseSlope none).2 = .ok () ∧ (∀ ps, Analysed s ps → ∀ p ∈ ps, fosOf s p ≠ some nan) ∧
    ∃ x, (s.analyseSlope none).1.getMinFos = .ok (some x) ∧ IsNumber x ∧ 0 < x := by
  obtain ⟨s, r, run, hm, hi, hk⟩ := ExRun.reach exClay64_constructed rfl rfl
  obtain ⟨x, hx, bx⟩ := exBishop64 run hm
  have han : Analysed s [exArc] := by left; rw [hi]; simp
  have hf : fosOf s exArc = some x := fosOf_some.mpr hx
  have hx' : IsNumber x := by obtain ⟨a, ha, _⟩ := bx; exact ⟨a, ha⟩
  have ok : s.analyseSlope none = (s.analysedTo none [exArc], .ok ()) := by
    apply analyseSlope_of han
    intro q hq e he
    simp only [List.mem_singleton] at hq
    subst hq
    have he' : s.bishop (ofReal 20) (ofReal 32) (ofReal 15) none none = .error (.raise e) := he
    rw [hx] at he'
    cases he'
  refine ⟨s, r, by rw [hk]; norm_num, by rw [ok], ?_, x, ?_, hx', ?_⟩
  · intro ps h p hp c
    rw [h.unique han, List.mem_singleton] at hp
    subst hp
    rw [hf] at c
    obtain ⟨a, ha⟩ := hx'
    rw [ha] at c
    cases c
  · rw [ok]
    simp [Slope.getMinFos, Slope.analysedTo, tidySearch, withFos, hf, Plane.fosVal, pySort]
  · rw [zero_ofReal]
    exact (Btw.dy Dy.zero).lt bx (by norm_num)

end PySlope
