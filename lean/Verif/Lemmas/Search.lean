import Verif.Lemmas.Planes
import Verif.Lemmas.WFCalls

/-! # The entry-exit search -/

namespace PySlope

/-! ## The numbers of points -/

theorem botLoop_spec (top c it fuel b : Nat) (h : it ≤ top * (b + fuel) * c) :
    ∃ k, botLoop top c it fuel b = b + k ∧ it ≤ top * (b + k) * c ∧
      ∀ j < k, top * (b + j) * c < it := by
  induction fuel generalizing b with
  | zero => exact ⟨0, rfl, h, by simp⟩
  | succ n ih =>
    unfold botLoop
    split
    · rename_i hlt
      obtain ⟨k, e, h1, h2⟩ := ih (b + 1) (by rwa [show b + 1 + n = b + (n + 1) by omega])
      refine ⟨k + 1, by rw [e]; omega, by rwa [show b + (k + 1) = b + 1 + k by omega], ?_⟩
      intro j hj
      cases j with
      | zero => exact hlt
      | succ j => rw [show b + (j + 1) = b + 1 + j by omega]; exact h2 j (by omega)
    · rename_i hlt
      exact ⟨0, rfl, by simpa using hlt, by simp⟩

theorem numCircles_pos (it : Nat) : 5 ≤ numCircles it := le_max_left _ _

theorem numPointsTop_pos {it : Nat} (h : 500 ≤ it) : 1 ≤ numPointsTop it := by
  unfold numPointsTop
  rw [Nat.le_sqrt, Nat.le_div_iff_mul_le (by have := numCircles_pos it; omega)]
  unfold numCircles
  simp only [one_mul, max_le_iff, mul_one]
  exact ⟨by omega, Nat.div_le_self _ _⟩

theorem numPointsBot_spec {it : Nat} (h : 500 ≤ it) :
    ∃ k, numPointsBot it = numPointsTop it + k ∧
      it ≤ numPointsTop it * (numPointsTop it + k) * numCircles it ∧
      ∀ j < k, numPointsTop it * (numPointsTop it + j) * numCircles it < it := by
  apply botLoop_spec
  have h1 := numPointsTop_pos h
  have h2 := numCircles_pos it
  calc it = 1 * it * 1 := by ring
    _ ≤ numPointsTop it * (numPointsTop it + it) * numCircles it := by
      apply Nat.mul_le_mul
      · exact Nat.mul_le_mul h1 (by omega)
      · omega

theorem numPointsBot_pos {it : Nat} (h : 500 ≤ it) : 1 ≤ numPointsBot it := by
  obtain ⟨k, e, _⟩ := numPointsBot_spec h
  have := numPointsTop_pos h
  omega

/-! ## The points -/

theorem leftCoords_eq (n : Int) (x1 x2 y : ℝ) :
    leftCoords n x1 x2 y = if n = 1 then .error .zeroDivision
      else .ok ((List.range n.toNat).map fun k =>
        (x1 + (((k : Nat) : ℝ) / ((n - 1 : Int) : ℝ)) * (x2 - x1), y)) := by
  unfold leftCoords
  simp only [ofInt_real]

theorem entryPoints_eq (s : Slope ℝ) :
    s.entryPoints =
      (let n : Int := numPointsTop s.iterations.toNat - (s.lls.length : Int) - (s.udls.length : Int)
       if n = 1 then .error .zeroDivision
       else .ok (((List.range n.toNat).map fun k =>
          (s.lim1 + (((k : Nat) : ℝ) / ((n - 1 : Int) : ℝ)) * (s.lim2 - s.lim1), s.topY))
        ++ s.lls.map (fun l => (l.coord - 0.001, s.topY))
        ++ s.udls.map (fun u => (u.left - 0.001, s.topY)))) := by
  unfold Slope.entryPoints
  simp only [leftCoords_eq]
  split <;> rfl

theorem even_mem {n : Int} {k : Nat} (hk : k < n.toNat) (hn : n ≠ 1) {a b : ℝ} (hab : a < b) :
    a ≤ a + (((k : Nat) : ℝ) / ((n - 1 : Int) : ℝ)) * (b - a) ∧
      a + (((k : Nat) : ℝ) / ((n - 1 : Int) : ℝ)) * (b - a) ≤ b := by
  have h1 : (0 : ℝ) < ((n - 1 : Int) : ℝ) := by
    have : (0 : Int) < n - 1 := by omega
    exact_mod_cast this
  have h2 : (k : ℝ) ≤ ((n - 1 : Int) : ℝ) := by
    have : (k : Int) ≤ n - 1 := by omega
    exact_mod_cast this
  have h3 : (0 : ℝ) ≤ (k : ℝ) / ((n - 1 : Int) : ℝ) := by positivity
  have h4 : (k : ℝ) / ((n - 1 : Int) : ℝ) ≤ 1 := by rw [div_le_one h1]; exact h2
  constructor <;> nlinarith

theorem exitPoints_eq (s : Slope ℝ) :
    s.exitPoints = (List.range (numPointsBot s.iterations.toNat)).map fun k =>
      (s.lim3 + (((k + 1 : Nat) : ℝ) / (numPointsBot s.iterations.toNat : ℝ)) * (s.lim4 - s.lim3),
        s.getExternalY (s.lim3 +
          (((k + 1 : Nat) : ℝ) / (numPointsBot s.iterations.toNat : ℝ)) * (s.lim4 - s.lim3))) := rfl

theorem exit_mem {n k : Nat} (hk : k < n) {a b : ℝ} (hab : a < b) :
    a < a + (((k + 1 : Nat) : ℝ) / (n : ℝ)) * (b - a) ∧
      a + (((k + 1 : Nat) : ℝ) / (n : ℝ)) * (b - a) ≤ b := by
  have h1 : (0 : ℝ) < (n : ℝ) := by
    have : 0 < n := by omega
    exact_mod_cast this
  have h2 : ((k + 1 : Nat) : ℝ) ≤ (n : ℝ) := by exact_mod_cast hk
  have h3 : (0 : ℝ) < ((k + 1 : Nat) : ℝ) / (n : ℝ) := by positivity
  have h4 : ((k + 1 : Nat) : ℝ) / (n : ℝ) ≤ 1 := by rw [div_le_one h1]; exact h2
  constructor <;> nlinarith

/-- Exit points are in `(lim3, lim4]` and on the ground. -/
theorem exitPoints_mem {s : Slope ℝ} (w : WF s) {p : ℝ × Option ℝ} (hp : p ∈ s.exitPoints) :
    s.lim3 < p.1 ∧ p.1 ≤ s.lim4 ∧ ∃ y, p.2 = some y ∧ s.getExternalY p.1 = some y := by
  rw [exitPoints_eq] at hp
  obtain ⟨k, hk, rfl⟩ := List.mem_map.mp hp
  have hk := List.mem_range.mp hk
  obtain ⟨h1, h2⟩ := exit_mem hk w.l34
  refine ⟨h1, h2, ?_⟩
  simp only
  have hx0 : 0 ≤ s.lim3 + (((k + 1 : Nat) : ℝ) / (numPointsBot s.iterations.toNat : ℝ)) *
      (s.lim4 - s.lim3) := by
    have := w.l1; have := w.l12; have := w.l2; have := w.l3; linarith
  have hx1 := h2.trans w.l4
  generalize s.lim3 + (((k + 1 : Nat) : ℝ) / (numPointsBot s.iterations.toNat : ℝ)) *
      (s.lim4 - s.lim3) = x at *
  unfold Slope.getExternalY
  simp only [lit_zero]
  rw [if_neg (by push Not; exact ⟨hx0, hx1⟩)]
  split
  · exact ⟨_, rfl, rfl⟩
  · split <;> exact ⟨_, rfl, rfl⟩

/-! ## The planes -/

/-- A plane made for the entry point `l` and one of the exit points. -/
def FromEntry (s : Slope ℝ) (num : Nat) (l : ℝ × ℝ) (rights : List (ℝ × Option ℝ))
    (p : Plane ℝ) : Prop :=
  ∃ x y, (x, some y) ∈ rights ∧ s.minFailureDist < distPoints l (x, y) ∧
    ∃ ps, s.generatePlanes l (x, y) (num : Int) = .ok ps ∧ p ∈ ps

/-- A plane of the search comes from an entry point and an exit point. -/
def FromPair (s : Slope ℝ) (num : Nat) (lefts : List (ℝ × ℝ)) (rights : List (ℝ × Option ℝ))
    (p : Plane ℝ) : Prop :=
  ∃ l ∈ lefts, FromEntry s num l rights p

theorem planesFrom_spec {s : Slope ℝ} (g : Geo s) (lc : ℝ × ℝ) (num : Nat)
    (rights : List (ℝ × Option ℝ)) (hr : ∀ p ∈ rights, lc.1 ≠ p.1 ∧ p.2.isSome) :
    ∃ ps, s.planesFrom lc num rights = .ok ps ∧
      (∀ p, p ∈ ps ↔ FromEntry s num lc rights p) ∧ ps.length ≤ rights.length * num := by
  induction rights with
  | nil => exact ⟨[], rfl, by simp [FromEntry], by simp⟩
  | cons q rest ih =>
    obtain ⟨ps, e1, e2, e3⟩ := ih (fun p hp => hr p (List.mem_cons_of_mem _ hp))
    obtain ⟨x, oy⟩ := q
    obtain ⟨hx, hy⟩ := hr (x, oy) (by simp)
    cases oy with
    | none => cases hy
    | some y =>
      unfold Slope.planesFrom
      obtain ⟨qs, f1, f2, f3, _⟩ := generatePlanes_spec g (L := lc) (R := (x, y)) hx (num : Int)
      rw [e1]
      by_cases hd : s.minFailureDist < distPoints lc (x, y)
      · rw [if_pos hd, f1]
        refine ⟨qs ++ ps, rfl, ?_, ?_⟩
        · intro p
          rw [List.mem_append, e2]
          unfold FromEntry
          simp only [List.mem_cons, Prod.mk.injEq,
            Option.some.injEq]
          constructor
          · rintro (h | ⟨x', y', h1, h2, h3⟩)
            · exact ⟨x, y, .inl ⟨rfl, rfl⟩, hd, qs, f1, h⟩
            · exact ⟨x', y', .inr h1, h2, h3⟩
          · rintro ⟨x', y', h1 | h1, h2, h3⟩
            · obtain ⟨rfl, rfl⟩ := h1
              obtain ⟨qs', h3, h4⟩ := h3
              rw [f1] at h3; cases h3
              exact .inl h4
            · exact .inr ⟨x', y', h1, h2, h3⟩
        · have : (num : Int).toNat = num := by simp
          rw [this] at f2
          rw [List.length_append, List.length_cons, Nat.succ_mul]; omega
      · rw [if_neg hd]
        refine ⟨[] ++ ps, rfl, ?_, ?_⟩
        · intro p
          rw [List.nil_append, e2]
          unfold FromEntry
          simp only [List.mem_cons, Prod.mk.injEq,
            Option.some.injEq]
          constructor
          · rintro ⟨x', y', h1, h2, h3⟩
            exact ⟨x', y', .inr h1, h2, h3⟩
          · rintro ⟨x', y', h1 | h1, h2, h3⟩
            · obtain ⟨rfl, rfl⟩ := h1
              exact absurd h2 hd
            · exact ⟨x', y', h1, h2, h3⟩
        · rw [List.nil_append, List.length_cons, Nat.succ_mul]; omega

theorem planesAll_spec {s : Slope ℝ} (g : Geo s) (num : Nat) (rights : List (ℝ × Option ℝ))
    (lefts : List (ℝ × ℝ)) (h : ∀ l ∈ lefts, ∀ p ∈ rights, l.1 ≠ p.1 ∧ p.2.isSome) :
    ∃ ps, s.planesAll num rights lefts = .ok ps ∧
      (∀ p, p ∈ ps ↔ FromPair s num lefts rights p) ∧
      ps.length ≤ lefts.length * rights.length * num := by
  induction lefts with
  | nil => exact ⟨[], rfl, by simp [FromPair], by simp⟩
  | cons l rest ih =>
    obtain ⟨ps, e1, e2, e3⟩ := ih (fun l hl => h l (List.mem_cons_of_mem _ hl))
    obtain ⟨qs, f1, f2, f3⟩ := planesFrom_spec g l num rights (h l (by simp))
    unfold Slope.planesAll
    rw [f1, e1]
    refine ⟨qs ++ ps, rfl, ?_, ?_⟩
    · intro p
      rw [List.mem_append, e2, f2]
      unfold FromPair
      simp only [List.mem_cons]
      constructor
      · rintro (h | ⟨l', hl', h⟩)
        · exact ⟨l, .inl rfl, h⟩
        · exact ⟨l', .inr hl', h⟩
      · rintro ⟨l', rfl | hl', hh⟩
        · exact .inl hh
        · exact .inr ⟨l', hl', hh⟩
    · rw [List.length_append, List.length_cons, Nat.succ_mul, Nat.add_mul]; omega

/-- What holds of every generated plane holds of every plane of the search. -/
theorem entryExitPlanes_all {s : Slope ℝ} {P : Plane ℝ → Prop} {ps : List (Plane ℝ)}
    (gen : ∀ l r n qs, s.generatePlanes l r n = .ok qs → ∀ p ∈ qs, P p)
    (e : s.entryExitPlanes = .ok ps) : ∀ p ∈ ps, P p := by
  have frm : ∀ l num rights qs, s.planesFrom l num rights = .ok qs →
      ∀ p ∈ qs, P p := by
    intro l num rights
    induction rights with
    | nil => intro qs h; cases h; simp
    | cons q rest ih =>
      intro qs h
      obtain ⟨x, oy⟩ := q
      cases oy with
      | none => cases h
      | some y =>
        unfold Slope.planesFrom at h
        cases h1 : s.planesFrom l num rest with
        | error x' =>
          rw [h1] at h
          split at h
          · cases h2 : s.generatePlanes l (x, y) (num : Int) <;> rw [h2] at h <;> cases h
          · cases h
        | ok others =>
          rw [h1] at h
          split at h
          · cases h2 : s.generatePlanes l (x, y) (num : Int) with
            | error x' => rw [h2] at h; cases h
            | ok here =>
              rw [h2] at h; cases h
              intro p hp
              rcases List.mem_append.mp hp with hp | hp
              · exact gen _ _ _ _ h2 p hp
              · exact ih _ h1 p hp
          · cases h
            intro p hp
            rw [List.nil_append] at hp
            exact ih _ h1 p hp
  have all : ∀ num rights lefts qs, s.planesAll num rights lefts = .ok qs →
      ∀ p ∈ qs, P p := by
    intro num rights lefts
    induction lefts with
    | nil => intro qs h; cases h; simp
    | cons l rest ih =>
      intro qs h
      unfold Slope.planesAll at h
      cases h1 : s.planesFrom l num rights with
      | error x => rw [h1] at h; cases h
      | ok here =>
        rw [h1] at h
        cases h2 : s.planesAll num rights rest with
        | error x => rw [h2] at h; cases h
        | ok others =>
          rw [h2] at h; cases h
          intro p hp
          rcases List.mem_append.mp hp with hp | hp
          · exact frm _ _ _ _ h1 p hp
          · exact ih _ h2 p hp
  unfold Slope.entryExitPlanes at e
  cases h1 : s.entryPoints with
  | error x => rw [h1] at e; cases e
  | ok lefts => rw [h1] at e; exact all _ _ _ _ e

/-- Even without a bound on where the loads are, planes that come out of the search are in
order. -/
theorem entryExitPlanes_ends {s : Slope ℝ} (g : Geo s) {ps : List (Plane ℝ)}
    (e : s.entryExitPlanes = .ok ps) : ∀ p ∈ ps, EndsOk s p ∧ p.fos = none := by
  refine entryExitPlanes_all ?_ e
  intro l r n qs h
  by_cases hx : l.1 = r.1
  · unfold Slope.generatePlanes pyDiv at h
    rw [if_pos (by simp [hx])] at h
    cases h
  · obtain ⟨ps', h1, _, h3, _⟩ := generatePlanes_spec g hx n
    rw [h1] at h; cases h; exact h3

end PySlope
