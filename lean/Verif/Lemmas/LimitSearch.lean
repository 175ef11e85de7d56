import Verif.Lemmas.LimitRun

/-! # The search in arithmetics whose rounding errors go to zero -/

namespace PySlope
open Filter Topology Lit

/-- Lists of points that in the end go to the points of a list. -/
def LimPts {K : ℕ → Type} (val : ∀ n, K n → ℝ) (S : ∀ n, List (K n × K n)) (s : List (ℝ × ℝ)) : Prop :=
  ∃ L : List (Pt K), (∀ q ∈ L, LimPt val q) ∧ (∀ᶠ n in atTop, S n = L.map fun q => q.seq n) ∧ s = L.map Pt.lim

theorem LimPts.append {K : ℕ → Type} {val : ∀ n, K n → ℝ} {S T : ∀ n, List (K n × K n)} {s t : List (ℝ × ℝ)}
    (h : LimPts val S s) (k : LimPts val T t) : LimPts val (fun n => S n ++ T n) (s ++ t) := by
  obtain ⟨L, h1, h2, rfl⟩ := h
  obtain ⟨M, k1, k2, rfl⟩ := k
  refine ⟨L ++ M, ?_, ?_, List.map_append.symm⟩
  · intro q hq
    rcases List.mem_append.mp hq with hq | hq
    exacts [h1 q hq, k1 q hq]
  · filter_upwards [h2, k2] with n a b
    rw [a, b, List.map_append]

theorem LimList.pts {K X : ℕ → Type} {Y : Type} {R : (∀ n, X n) → Y → Prop} {val : ∀ n, K n → ℝ} {S : ∀ n, List (X n)} {s : List Y}
    (h : LimList R S s) {f : ∀ n, X n → K n × K n} {g : Y → ℝ × ℝ}
    (k : ∀ x y, R x y → Lim val (fun n => (f n (x n)).1) (g y).1 ∧ Lim val (fun n => (f n (x n)).2) (g y).2) :
    LimPts val (fun n => (S n).map (f n)) (s.map g) := by
  obtain ⟨L, h1, rfl, h3⟩ := h
  refine ⟨L.map fun p => ⟨fun n => f n (p.1 n), g p.2⟩, ?_, ?_, ?_⟩
  · intro q hq
    obtain ⟨p, hp, rfl⟩ := List.mem_map.mp hq
    obtain ⟨a, b⟩ := k _ _ (h3 p hp)
    exact ⟨a, b⟩
  · filter_upwards [h1] with n hn
    rw [hn, List.map_map, List.map_map]; rfl
  · rw [List.map_map, List.map_map]; rfl

namespace Better
variable {K : ℕ → Type} [∀ n, PyNum (K n)] {val : ∀ n, K n → ℝ} {e : ℕ → ℝ} (B : Better val e)
include B

theorem dist {l q : Pt K} (hl : LimPt val l) (hq : LimPt val q) (ne : l.lim.1 ≠ q.lim.1) :
    Lim val (fun n => distPoints (l.seq n) (q.seq n)) √((l.lim.1 - q.lim.1) ^ 2 + (l.lim.2 - q.lim.2) ^ 2) ∧
      distPoints l.lim q.lim = √((l.lim.1 - q.lim.1) ^ 2 + (l.lim.2 - q.lim.2) ^ 2) := by
  have h1 := B.pyAbs (B.sub hl.fst hq.fst)
  have h2 := B.pyAbs (B.sub hl.snd hq.snd)
  have eq : |l.lim.1 - q.lim.1| * |l.lim.1 - q.lim.1| + |l.lim.2 - q.lim.2| * |l.lim.2 - q.lim.2| =
      (l.lim.1 - q.lim.1) ^ 2 + (l.lim.2 - q.lim.2) ^ 2 := by
    rw [abs_mul_abs_self, abs_mul_abs_self, pow_two, pow_two]
  have pos : 0 < |l.lim.1 - q.lim.1| * |l.lim.1 - q.lim.1| + |l.lim.2 - q.lim.2| * |l.lim.2 - q.lim.2| := by
    have : 0 < |l.lim.1 - q.lim.1| := abs_pos.mpr (sub_ne_zero.mpr ne)
    positivity
  constructor
  · have := B.sqrt (B.add (B.mul h1 h1) (B.mul h2 h2)) pos
    rw [eq] at this
    exact this
  · unfold distPoints PySlope.sq
    rw [pyAbs_real, pyAbs_real, eq]
    rfl

theorem planesFrom {s : Slope ℝ} (g : Geo s) {S : ∀ n, Slope (K n)} (b : LimSlope val S s) {l : Pt K} (hl : LimPt val l) (num : ℕ)
    (L : List (Pt K)) (hL : ∀ q ∈ L, LimPt val q) (ne : ∀ q ∈ L, l.lim.1 ≠ q.lim.1)
    (apart : ∀ q ∈ L, √((l.lim.1 - q.lim.1) ^ 2 + (l.lim.2 - q.lim.2) ^ 2) ≠ s.minFailureDist)
    (nt : ∀ q ∈ L, s.minFailureDist < √((l.lim.1 - q.lim.1) ^ 2 + (l.lim.2 - q.lim.2) ^ 2) → NoTiesChord s l.lim q.lim num) :
    GoesPlanes val (fun n => (S n).planesFrom (l.seq n) num (L.map fun q => ((q.seq n).1, some (q.seq n).2)))
      (s.planesFrom l.lim num (L.map fun q => (q.lim.1, some q.lim.2))) := by
  induction L with
  | nil => exact .nil
  | cons q L ih =>
    have hq := hL q List.mem_cons_self
    obtain ⟨d1, d2⟩ := B.dist hl hq (ne q List.mem_cons_self)
    have rest := ih (fun q h => hL q (List.mem_cons_of_mem _ h)) (fun q h => ne q (List.mem_cons_of_mem _ h))
      (fun q h => apart q (List.mem_cons_of_mem _ h)) (fun q h => nt q (List.mem_cons_of_mem _ h))
    have here : GoesPlanes val (fun n => if (S n).minFailureDist < distPoints (l.seq n) (q.seq n)
        then (S n).generatePlanes (l.seq n) (q.seq n) (num : Int) else .ok [])
        (if s.minFailureDist < distPoints l.lim q.lim then s.generatePlanes l.lim q.lim (num : Int) else .ok []) := by
      rw [d2]
      rcases lt_or_gt_of_ne (apart q List.mem_cons_self) with h | h
      · rw [if_neg h.not_gt]
        refine GoesPlanes.nil.congr ?_
        filter_upwards [B.not_lt b.minFailureDist d1 h] with n hn
        rw [if_neg hn]
      · rw [if_pos h]
        refine (B.generatePlanes g b hl hq (num : Int) (nt q List.mem_cons_self h)).congr ?_
        filter_upwards [B.lt b.minFailureDist d1 h] with n hn
        rw [if_pos hn]
    exact here.append rest

theorem planesAll {s : Slope ℝ} (g : Geo s) {S : ∀ n, Slope (K n)} (b : LimSlope val S s) (num : ℕ) (M : List (Pt K))
    (hM : ∀ q ∈ M, LimPt val q) (L : List (Pt K)) (hL : ∀ l ∈ L, LimPt val l) (ne : ∀ l ∈ L, ∀ q ∈ M, l.lim.1 ≠ q.lim.1)
    (apart : ∀ l ∈ L, ∀ q ∈ M, √((l.lim.1 - q.lim.1) ^ 2 + (l.lim.2 - q.lim.2) ^ 2) ≠ s.minFailureDist)
    (nt : ∀ l ∈ L, ∀ q ∈ M, s.minFailureDist < √((l.lim.1 - q.lim.1) ^ 2 + (l.lim.2 - q.lim.2) ^ 2) →
      NoTiesChord s l.lim q.lim num) :
    GoesPlanes val (fun n => (S n).planesAll num (M.map fun q => ((q.seq n).1, some (q.seq n).2)) (L.map fun q => q.seq n))
      (s.planesAll num (M.map fun q => (q.lim.1, some q.lim.2)) (L.map Pt.lim)) := by
  induction L with
  | nil => exact .nil
  | cons l L ih =>
    exact (B.planesFrom g b (hL l List.mem_cons_self) num M hM (ne l List.mem_cons_self) (apart l List.mem_cons_self)
      (nt l List.mem_cons_self)).append (ih (fun q h => hL q (List.mem_cons_of_mem _ h))
        (fun q h => ne q (List.mem_cons_of_mem _ h)) (fun q h => apart q (List.mem_cons_of_mem _ h))
        (fun q h => nt q (List.mem_cons_of_mem _ h)))

theorem entryPoints {s : Slope ℝ} {S : ∀ n, Slope (K n)} (b : LimSlope val S s) {ls : List (ℝ × ℝ)} (h : s.entryPoints = .ok ls) :
    (∃ P : ∀ n, List (K n × K n), LimPts val P ls ∧ ∀ᶠ n in atTop, (S n).entryPoints = .ok (P n)) ∧ ∀ p ∈ ls, IsEntry s p := by
  unfold Slope.entryPoints leftCoords at h
  simp only [Bind.bind, Except.bind, Pure.pure, Except.pure] at h
  split_ifs at h with h1
  injection h with h
  subst h
  have hz : ((((numPointsTop s.iterations.toNat : ℤ) - s.lls.length - s.udls.length - 1 : ℤ)) : ℝ) ≠ 0 := by
    exact Int.cast_ne_zero.mpr (by omega)
  obtain ⟨Lu, u1, u2, -⟩ := id b.udls
  obtain ⟨Ll, l1, l2, -⟩ := id b.lls
  have m1 := B.sci 1 true 3
  constructor
  · refine ⟨fun n => ((List.range ((numPointsTop s.iterations.toNat : ℤ) - s.lls.length - s.udls.length).toNat).map fun k =>
      ((S n).lim1 + (((k : ℕ) : K n) / ofInt ((numPointsTop s.iterations.toNat : ℤ) - s.lls.length - s.udls.length - 1)) *
        ((S n).lim2 - (S n).lim1), (S n).topY)) ++ (S n).lls.map (fun l => (l.coord - 0.001, (S n).topY)) ++
          (S n).udls.map (fun u => (u.left - 0.001, (S n).topY)), ?_, ?_⟩
    · refine LimPts.append (LimPts.append ?_ ?_) ?_
      · refine ⟨(List.range ((numPointsTop s.iterations.toNat : ℤ) - s.lls.length - s.udls.length).toNat).map fun k =>
          ⟨fun n => ((S n).lim1 + (((k : ℕ) : K n) / ofInt ((numPointsTop s.iterations.toNat : ℤ) - s.lls.length - s.udls.length - 1)) *
            ((S n).lim2 - (S n).lim1), (S n).topY),
            (s.lim1 + (((k : ℕ) : ℝ) / ofInt ((numPointsTop s.iterations.toNat : ℤ) - s.lls.length - s.udls.length - 1)) *
              (s.lim2 - s.lim1), s.topY)⟩, ?_, ?_, ?_⟩
        · intro q hq
          obtain ⟨k, -, rfl⟩ := List.mem_map.mp hq
          refine ⟨?_, b.topY⟩
          have := B.add b.lim1 (B.mul (B.div (B.nat k) (B.int ((numPointsTop s.iterations.toNat : ℤ) - s.lls.length - s.udls.length - 1)) hz)
            (B.sub b.lim2 b.lim1))
          simp only [ofInt_real]
          exact this
        · exact .of_forall fun n => by rw [List.map_map]; rfl
        · rw [List.map_map]; rfl
      · exact b.lls.pts fun x y r => ⟨B.sub r.coord m1, b.topY⟩
      · exact b.udls.pts fun x y r => ⟨B.sub r.left m1, b.topY⟩
    · filter_upwards [b.iterations, u1, l1] with n w1 w2 w3
      have e1 : (S n).udls.length = s.udls.length := by rw [w2, u2, List.length_map, List.length_map]
      have e2 : (S n).lls.length = s.lls.length := by rw [w3, l2, List.length_map, List.length_map]
      unfold Slope.entryPoints leftCoords
      simp only [Bind.bind, Except.bind, Pure.pure, Except.pure]
      rw [w1, e1, e2, if_neg h1]
  · intro p hp
    rcases List.mem_append.mp hp with hp | hp
    · rcases List.mem_append.mp hp with hp | hp
      · obtain ⟨k, hk, rfl⟩ := List.mem_map.mp hp
        refine ⟨rfl, .inl ⟨k, ?_, ?_⟩⟩
        · have := List.mem_range.mp hk; omega
        · simp only [ofInt_real]
      · obtain ⟨l, hl, rfl⟩ := List.mem_map.mp hp
        exact ⟨rfl, .inr (.inl ⟨l, hl, rfl⟩)⟩
    · obtain ⟨l, hl, rfl⟩ := List.mem_map.mp hp
      exact ⟨rfl, .inr (.inr ⟨l, hl, rfl⟩)⟩

theorem exitPoints {s : Slope ℝ} (g : Geo s) {S : ∀ n, Slope (K n)} (b : LimSlope val S s)
    (inside : ∀ q, IsExit s q → 0 < q.1 ∧ q.1 < s.extL) :
    ∃ M : List (Pt K), (∀ q ∈ M, LimPt val q ∧ IsExit s q.lim) ∧ s.exitPoints = M.map (fun q => (q.lim.1, some q.lim.2)) ∧
      ∀ᶠ n in atTop, (S n).exitPoints = M.map fun q => ((q.seq n).1, some (q.seq n).2) := by
  have pt : ∀ k : ℕ, ∃ q : Pt K, k < numPointsBot s.iterations.toNat → LimPt val q ∧ IsExit s q.lim ∧
      (∀ n, (q.seq n).1 = (S n).lim3 + (((k + 1 : ℕ) : K n) / ((numPointsBot s.iterations.toNat : ℕ) : K n)) * ((S n).lim4 - (S n).lim3)) ∧
      q.lim.1 = s.lim3 + (((k + 1 : ℕ) : ℝ) / ((numPointsBot s.iterations.toNat : ℕ) : ℝ)) * (s.lim4 - s.lim3) ∧
      s.getExternalY q.lim.1 = some q.lim.2 ∧ ∀ᶠ n in atTop, (S n).getExternalY (q.seq n).1 = some (q.seq n).2 := by
    intro k
    by_cases hk : k < numPointsBot s.iterations.toNat
    · have pn : (0 : ℝ) < numPointsBot s.iterations.toNat := by exact_mod_cast (show 0 < _ by omega)
      have lx := B.add b.lim3 (B.mul (B.div (B.nat (k + 1)) (B.nat (numPointsBot s.iterations.toNat)) pn.ne') (B.sub b.lim4 b.lim3))
      have ex : IsExit s (s.lim3 + (((k + 1 : ℕ) : ℝ) / ((numPointsBot s.iterations.toNat : ℕ) : ℝ)) * (s.lim4 - s.lim3),
          groundY s (s.lim3 + (((k + 1 : ℕ) : ℝ) / ((numPointsBot s.iterations.toNat : ℕ) : ℝ)) * (s.lim4 - s.lim3))) :=
        ⟨k, hk, by push_cast; rfl, rfl⟩
      obtain ⟨i1, i2⟩ := inside _ ex
      obtain ⟨y, a1, a2, a3⟩ := B.ground g b lx i1 i2
      exact ⟨⟨fun n => (_, y n), (_, _)⟩, fun _ => ⟨⟨lx, a1⟩, ex, fun n => rfl, rfl, a2, a3⟩⟩
    · exact ⟨⟨fun n => ((S n).lim1, (S n).lim1), (0, 0)⟩, fun h => absurd h hk⟩
  choose q hq using pt
  refine ⟨(List.range (numPointsBot s.iterations.toNat)).map q, ?_, ?_, ?_⟩
  · intro p hp
    obtain ⟨k, hk, rfl⟩ := List.mem_map.mp hp
    obtain ⟨h1, h2, -⟩ := hq k (List.mem_range.mp hk)
    exact ⟨h1, h2⟩
  · unfold Slope.exitPoints Slope.rightCoords
    rw [List.map_map]
    apply List.map_congr_left
    intro k hk
    obtain ⟨-, -, -, h4, h5, -⟩ := hq k (List.mem_range.mp hk)
    simp only [Function.comp_apply]
    rw [← h5, h4]
  · have := eventually_list (l := List.range (numPointsBot s.iterations.toNat)) (P := fun k n =>
      (S n).getExternalY ((q k).seq n).1 = some ((q k).seq n).2) fun k hk => (hq k (List.mem_range.mp hk)).2.2.2.2.2
    filter_upwards [this, b.iterations] with n w1 w2
    unfold Slope.exitPoints Slope.rightCoords
    rw [List.map_map, w2]
    apply List.map_congr_left
    intro k hk
    simp only [Function.comp_apply]
    rw [← w1 k hk, (hq k (List.mem_range.mp hk)).2.2.1 n]

/-- The circles of the search. -/
theorem search {s : Slope ℝ} (g : Geo s) {S : ∀ n, Slope (K n)} (b : LimSlope val S s) (nt : NoTiesSearch s)
    {ps : List (Plane ℝ)} (h : s.entryExitPlanes = .ok ps) :
    ∃ P : ∀ n, List (Plane (K n)), LimList (LimPlane val) P ps ∧ ∀ᶠ n in atTop, (S n).entryExitPlanes = .ok (P n) := by
  unfold Slope.entryExitPlanes at h
  cases hl : s.entryPoints with
  | error e => rw [hl] at h; cases h
  | ok ls =>
    rw [hl] at h
    obtain ⟨⟨P, ⟨L, p1, p2, rfl⟩, p3⟩, p4⟩ := B.entryPoints b hl
    obtain ⟨M, m1, m2, m3⟩ := B.exitPoints g b nt.inside
    have en : ∀ l ∈ L, IsEntry s l.lim := fun l h => p4 _ (List.mem_map_of_mem h)
    obtain ⟨Q, q, k1, k2, k3⟩ := B.planesAll g b (numCircles s.iterations.toNat) M (fun q h => (m1 q h).1) L p1
      (fun l h q k => nt.distinct _ _ (en l h) (m1 q k).2) (fun l h q k => nt.apart _ _ (en l h) (m1 q k).2)
      (fun l h q k => nt.circles _ _ (en l h) (m1 q k).2)
    rw [m2] at h
    change s.planesAll _ _ _ = _ at h
    rw [k3] at h
    injection h with h
    subst h
    refine ⟨Q, k1, ?_⟩
    filter_upwards [p2, p3, m3, k2, b.iterations] with n w1 w2 w3 w4 w5
    unfold Slope.entryExitPlanes
    rw [w2, w1, w3, w5]
    exact w4

end Better
end PySlope
