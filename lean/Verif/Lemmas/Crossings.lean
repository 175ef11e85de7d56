import Verif.Lemmas.Circle
import Verif.Lemmas.WF

/-! # Where a circle meets the ground -/

namespace PySlope

theorem pySort_pair_sorted (l : List (ℝ × ℝ)) :
    (pySort pairLt l).Pairwise (fun a b => a.1 ≤ b.1) := by
  have h := List.pairwise_mergeSort (le := fun a b : ℝ × ℝ => !(pairLt b a))
    (by
      intro a b c
      simp only [pairLt, pyEq_real, Bool.not_eq_true', decide_eq_true_eq]
      intro h1 h2
      split_ifs at * <;> simp only [decide_eq_false_iff_not, not_lt] at * <;>
        first | linarith | (exfalso; apply_assumption; linarith))
    (by
      intro a b
      simp only [pairLt, pyEq_real, Bool.or_eq_true, Bool.not_eq_true', decide_eq_true_eq]
      split_ifs with h1 h2 h2 <;> simp only [decide_eq_false_iff_not, not_lt]
      · exact le_total _ _
      · exact absurd h1.symm h2
      · exact absurd h2.symm h1
      · exact le_total _ _) l
  refine h.imp ?_
  intro a b hab
  simp only [pairLt, pyEq_real, Bool.not_eq_true', decide_eq_true_eq] at hab
  split_ifs at hab with h1
  · exact h1.ge
  · simpa using hab

theorem pySort_pair_perm (l : List (ℝ × ℝ)) : (pySort pairLt l).Perm l := List.mergeSort_perm _ _

theorem onLine_flat {a b y : ℝ} (h : a < b) (p : ℝ × ℝ) : OnLine (a, y) (b, y) p ↔ p.2 = y := by
  unfold OnLine
  simp only
  constructor
  · intro h1
    have : (p.2 - y) * (b - a) = 0 := by linarith
    rcases mul_eq_zero.mp this with h2 | h2 <;> linarith
  · intro h1; rw [h1]; ring

theorem Geo.topX_pos {s : Slope ℝ} (g : Geo s) : 0 < s.topX := by
  have h1 := g.topX; have h2 := g.extL5; have h3 := g.len
  norm_num at h3; rw [h1]; linarith

theorem Geo.botX_lt {s : Slope ℝ} (g : Geo s) : s.botX < s.extL := by
  have h1 := g.botX; have h2 := g.extL5; have h3 := g.len; have h4 := g.topX
  norm_num at h3; rw [h1, h4]; linarith

theorem Geo.top_lt_bot {s : Slope ℝ} (g : Geo s) : s.topX < s.botX := by
  have h1 := g.topX; have h2 := g.botX; have h3 := g.len
  norm_num at h3; rw [h1, h2]; linarith

/-- The leftmost crossing with a level line is the one left of the centre. -/
theorem left_crossing {l : List (ℝ × ℝ)} {cx cy r y : ℝ}
    (h : ∀ p, p ∈ l ↔ OnCircle cx cy r p ∧ p.2 = y) (p : ℝ × ℝ) :
    (∃ rest, pySort pairLt l = p :: rest) ↔ OnCircle cx cy r p ∧ p.2 = y ∧ p.1 ≤ cx := by
  have hm : ∀ q, q ∈ pySort pairLt l ↔ OnCircle cx cy r q ∧ q.2 = y := by
    intro q; rw [(pySort_pair_perm l).mem_iff, h]
  have hs := pySort_pair_sorted l
  have first : ∀ q rest, pySort pairLt l = q :: rest → OnCircle cx cy r q ∧ q.2 = y ∧ q.1 ≤ cx := by
    intro q rest e
    have hq := (hm q).mp (by rw [e]; simp)
    refine ⟨hq.1, hq.2, ?_⟩
    have hmir : (2 * cx - q.1, q.2) ∈ pySort pairLt l := by
      rw [hm]
      refine ⟨?_, hq.2⟩
      have := hq.1
      unfold OnCircle at this ⊢
      rw [← this]; ring
    rw [e] at hmir hs
    rcases List.mem_cons.mp hmir with h1 | h1
    · have := congrArg Prod.fst h1
      simp only at this
      linarith
    · have := (List.pairwise_cons.mp hs).1 _ h1
      simp only at this
      linarith
  constructor
  · rintro ⟨rest, e⟩; exact first p rest e
  · rintro ⟨h1, h2, h3⟩
    have hp := (hm p).mpr ⟨h1, h2⟩
    cases e : pySort pairLt l with
    | nil => rw [e] at hp; simp at hp
    | cons q rest =>
      obtain ⟨g1, g2, g3⟩ := first q rest e
      refine ⟨rest, ?_⟩
      congr 1
      unfold OnCircle at h1 g1
      rw [h2] at h1; rw [g2] at g1
      have h4 : (q.1 - cx) ^ 2 = (p.1 - cx) ^ 2 := by linarith
      rw [sq_eq_sq_iff_eq_or_eq_neg] at h4
      apply Prod.ext
      · rcases h4 with h4 | h4 <;> linarith
      · rw [g2, h2]

/-- The rightmost crossing with a level line is the one right of the centre. -/
theorem right_crossing {l : List (ℝ × ℝ)} {cx cy r y : ℝ}
    (h : ∀ p, p ∈ l ↔ OnCircle cx cy r p ∧ p.2 = y) (p : ℝ × ℝ) :
    (pySort pairLt l).getLast? = some p ↔ OnCircle cx cy r p ∧ p.2 = y ∧ cx ≤ p.1 := by
  have hm : ∀ q, q ∈ pySort pairLt l ↔ OnCircle cx cy r q ∧ q.2 = y := by
    intro q; rw [(pySort_pair_perm l).mem_iff, h]
  have hs := pySort_pair_sorted l
  have last : ∀ q, (pySort pairLt l).getLast? = some q →
      OnCircle cx cy r q ∧ q.2 = y ∧ cx ≤ q.1 := by
    intro q e
    obtain ⟨pre, e⟩ := List.getLast?_eq_some_iff.mp e
    have hq := (hm q).mp (by rw [e]; simp)
    refine ⟨hq.1, hq.2, ?_⟩
    have hmir : (2 * cx - q.1, q.2) ∈ pySort pairLt l := by
      rw [hm]
      refine ⟨?_, hq.2⟩
      have := hq.1
      unfold OnCircle at this ⊢
      rw [← this]; ring
    rw [e] at hmir hs
    rcases List.mem_append.mp hmir with h1 | h1
    · have := (List.pairwise_append.mp hs).2.2 _ h1 q (by simp)
      simp only at this
      linarith
    · have := congrArg Prod.fst (List.mem_singleton.mp h1)
      simp only at this
      linarith
  constructor
  · exact last p
  · rintro ⟨h1, h2, h3⟩
    have hp := (hm p).mpr ⟨h1, h2⟩
    cases e : (pySort pairLt l).getLast? with
    | none => rw [List.getLast?_eq_none_iff] at e; rw [e] at hp; simp at hp
    | some q =>
      obtain ⟨g1, g2, g3⟩ := last q e
      congr 1
      unfold OnCircle at h1 g1
      rw [h2] at h1; rw [g2] at g1
      have h4 : (q.1 - cx) ^ 2 = (p.1 - cx) ^ 2 := by linarith
      rw [sq_eq_sq_iff_eq_or_eq_neg] at h4
      apply Prod.ext
      · rcases h4 with h4 | h4 <;> linarith
      · rw [g2, h2]

theorem circleExternalIntersection_eq {s : Slope ℝ} (g : Geo s) (cx cy r : ℝ) :
    ∃ l, s.circleExternalIntersection cx cy r = .ok (dropClose (-1) (sortByKey Prod.fst l)) ∧ l.length ≤ 4 ∧
      ∀ p, p ∈ l ↔ Crossing s cx cy r p := by
  have h1 := g.topX_pos
  have h2 := g.botX_lt
  have h3 := g.top_lt_bot
  obtain ⟨l1, e1, -, m1⟩ := circleLine_spec (a := (0, s.topY)) (b := (s.topX, s.topY))
    (by rw [Ne, Prod.mk.injEq]; rintro ⟨h, -⟩; linarith) cx cy r
  obtain ⟨l2, e2, -, m2⟩ := circleLine_spec (a := (s.botX, s.botY)) (b := (s.extL, s.botY))
    (by rw [Ne, Prod.mk.injEq]; rintro ⟨h, -⟩; linarith) cx cy r
  obtain ⟨l3, e3, ⟨-, len3⟩, m3⟩ := circleLine_spec (a := (s.topX, s.topY)) (b := (s.botX, s.botY))
    (by rw [Ne, Prod.mk.injEq]; rintro ⟨h, -⟩; linarith) cx cy r
  simp only [onLine_flat h1] at m1
  simp only [onLine_flat h2] at m2
  unfold Slope.circleExternalIntersection
  simp only [lit_zero]
  rw [e1, e2, e3]
  simp only [bind, Except.bind, pure, Except.pure]
  refine ⟨_, by rw [lit_one], ?_, ?_⟩
  · rw [List.length_append, List.length_append]
    have a1 : ∀ (c : Prop) [Decidable c] (p : ℝ × ℝ), (if c then [p] else []).length ≤ 1 := by
      intro c _ p; split <;> simp
    refine le_trans (Nat.add_le_add (Nat.add_le_add (b := 1) (d := 1) ?_ ?_)
      ((List.length_filter_le _ _).trans len3)) (by norm_num)
    · split
      · simp
      · exact a1 _ _
    · split
      · simp
      · exact a1 _ _
  intro p
  have k1 := left_crossing m1 p
  have k2 := right_crossing m2 p
  rw [List.mem_append, List.mem_append, List.mem_filter, m3]
  refine Iff.trans (b := ((OnCircle cx cy r p ∧ p.2 = s.topY ∧ 0 ≤ p.1 ∧ p.1 ≤ s.topX ∧ p.1 ≤ cx) ∨
      (OnCircle cx cy r p ∧ p.2 = s.botY ∧ s.botX ≤ p.1 ∧ p.1 ≤ s.extL ∧ cx ≤ p.1)) ∨ _)
    (or_congr (or_congr ?_ ?_) Iff.rfl) ?_
  · constructor
    · intro hp
      split at hp
      · simp at hp
      · rename_i q rest e
        split at hp
        · rename_i hq
          rw [List.mem_singleton] at hp
          subst hp
          obtain ⟨a, b, c⟩ := k1.mp ⟨rest, e⟩
          exact ⟨a, b, hq.1, hq.2, c⟩
        · simp at hp
    · rintro ⟨a, b, c, d, e⟩
      obtain ⟨rest, e'⟩ := k1.mpr ⟨a, b, e⟩
      rw [e']
      simp only
      rw [if_pos ⟨c, d⟩]
      simp
  · constructor
    · intro hp
      split at hp
      · simp at hp
      · rename_i q e
        split at hp
        · rename_i hq
          rw [List.mem_singleton] at hp
          subst hp
          obtain ⟨a, b, c⟩ := k2.mp e
          exact ⟨a, b, hq.1, hq.2, c⟩
        · simp at hp
    · rintro ⟨a, b, c, d, e⟩
      rw [k2.mpr ⟨a, b, e⟩]
      simp only
      rw [if_pos ⟨c, d⟩]
      simp
  · unfold Crossing
    simp only [Bool.and_eq_true, decide_eq_true_eq]
    tauto

/-! ## Close points -/

theorem dropClose_sublist (x : ℝ) (l : List (ℝ × ℝ)) : (dropClose x l).Sublist l := by
  induction l generalizing x with
  | nil => exact List.Sublist.refl _
  | cons p l ih =>
    unfold dropClose
    split
    · exact (ih p.1).cons_cons p
    · exact (ih p.1).cons p

/-- What is kept of a sorted list is more than 0.01 apart. -/
theorem dropClose_apart {x : ℝ} {l : List (ℝ × ℝ)} (hs : l.Pairwise (fun a b => a.1 ≤ b.1))
    (hx : ∀ p ∈ l, x ≤ p.1) :
    (dropClose x l).Pairwise (fun a b => 0.01 < b.1 - a.1) ∧ ∀ p ∈ dropClose x l, 0.01 < p.1 - x := by
  induction l generalizing x with
  | nil => exact ⟨List.Pairwise.nil, by simp [dropClose]⟩
  | cons p l ih =>
    obtain ⟨h1, h2⟩ := List.pairwise_cons.mp hs
    have hp := hx p (by simp)
    obtain ⟨i1, i2⟩ := ih h2 h1
    unfold dropClose
    rw [pyAbs_real, abs_of_nonneg (by linarith)]
    split
    · rename_i h
      change (0.01 : ℝ) < p.1 - x at h
      refine ⟨List.pairwise_cons.mpr ⟨i2, i1⟩, ?_⟩
      intro q hq
      rcases List.mem_cons.mp hq with rfl | hq
      · exact h
      · have := i2 q hq; linarith
    · refine ⟨i1, ?_⟩
      intro q hq
      have := i2 q hq; linarith

/-- Every point of a sorted list has a point kept just left of it. -/
theorem dropClose_near {x : ℝ} {l : List (ℝ × ℝ)} (hs : l.Pairwise (fun a b => a.1 ≤ b.1))
    (hx : ∀ p ∈ l, x ≤ p.1) (p : ℝ × ℝ) (hp : p ∈ l) :
    p.1 - x ≤ 0.01 * l.length ∨
      ∃ q ∈ dropClose x l, q.1 ≤ p.1 ∧ (q = p ∨ p.1 - q.1 ≤ 0.01 * (l.length - 1)) := by
  induction l generalizing x with
  | nil => simp at hp
  | cons a l ih =>
    obtain ⟨h1, h2⟩ := List.pairwise_cons.mp hs
    have ha := hx a (by simp)
    have hl : ((a :: l).length : ℝ) = l.length + 1 := by push_cast [List.length_cons]; rfl
    have hl0 : (0 : ℝ) ≤ l.length := Nat.cast_nonneg _
    unfold dropClose
    rw [pyAbs_real, abs_of_nonneg (by linarith), hl]
    split
    · rename_i h
      right
      rcases List.mem_cons.mp hp with rfl | hp
      · exact ⟨p, by simp, le_refl _, .inl rfl⟩
      · rcases ih h2 h1 hp with h3 | ⟨q, hq, h3, h4⟩
        · exact ⟨a, by simp, h1 p hp, .inr (by linarith)⟩
        · exact ⟨q, by simp [hq], h3, h4.imp id (by intro h; linarith)⟩
    · rename_i h
      change ¬ ((0.01 : ℝ) < a.1 - x) at h
      rw [not_lt] at h
      rcases List.mem_cons.mp hp with rfl | hp
      · left
        norm_num at h ⊢; linarith
      · rcases ih h2 h1 hp with h3 | ⟨q, hq, h3, h4⟩
        · left; linarith
        · exact .inr ⟨q, hq, h3, h4.imp id (by intro h; linarith)⟩

/-! ## The intersections of a circle with the ground -/

theorem Crossing.nonneg {s : Slope ℝ} (g : Geo s) {cx cy r : ℝ} {p : ℝ × ℝ}
    (h : Crossing s cx cy r p) : 0 ≤ p.1 := by
  have h1 := g.topX_pos
  have h3 := g.top_lt_bot
  rcases h.2 with h | h | h
  · exact h.2.1
  · linarith [h.2.1]
  · linarith [h.2.1]

/-- The recorded intersections: on the circle, on the ground, from left to right, more than 0.01
apart; and every crossing has one of them at most 0.03 to its left. -/
theorem intersections {s : Slope ℝ} (g : Geo s) (cx cy r : ℝ) :
    ∃ l, s.circleExternalIntersection cx cy r = .ok l ∧
      l.Pairwise (fun a b => 0.01 < b.1 - a.1) ∧
      (∀ p ∈ l, Crossing s cx cy r p) ∧
      ∀ p, Crossing s cx cy r p → ∃ q ∈ l, q.1 ≤ p.1 ∧ p.1 - q.1 ≤ 0.03 := by
  obtain ⟨l, e, len, hl⟩ := circleExternalIntersection_eq g cx cy r
  refine ⟨_, e, ?_⟩
  have hm : ∀ p, p ∈ sortByKey Prod.fst l ↔ Crossing s cx cy r p := by
    intro p; rw [(sortByKey_perm _ _).mem_iff, hl]
  have hs := sortByKey_sorted Prod.fst l
  have hx : ∀ p ∈ sortByKey Prod.fst l, (-1 : ℝ) ≤ p.1 := by
    intro p hp
    have := ((hm p).mp hp).nonneg g; linarith
  refine ⟨(dropClose_apart hs hx).1, ?_, ?_⟩
  · intro p hp
    exact (hm p).mp ((dropClose_sublist _ _).subset hp)
  · intro p hp
    have hlen : ((sortByKey Prod.fst l).length : ℝ) ≤ 4 := by
      rw [(sortByKey_perm Prod.fst l).length_eq]; exact_mod_cast len
    rcases dropClose_near hs hx p ((hm p).mpr hp) with h | ⟨q, hq, h1, h2⟩
    · have := hp.nonneg g
      exfalso
      have : (0.01 : ℝ) * (sortByKey Prod.fst l).length ≤ 0.01 * 4 :=
        mul_le_mul_of_nonneg_left hlen (by norm_num)
      norm_num at this h; linarith
    · refine ⟨q, hq, h1, ?_⟩
      rcases h2 with rfl | h2
      · norm_num
      · have : (0.01 : ℝ) * ((sortByKey Prod.fst l).length - 1) ≤ 0.01 * 3 :=
          mul_le_mul_of_nonneg_left (by linarith) (by norm_num)
        norm_num at this h2 ⊢; linarith

theorem setSize_go (l acc : List (ℝ × ℝ)) (h : (acc ++ l).Nodup) :
    l.foldl (fun acc p =>
      if acc.any (fun q => pyEq p.1 q.1 && pyEq p.2 q.2) then acc else acc ++ [p]) acc = acc ++ l := by
  induction l generalizing acc with
  | nil => simp
  | cons a l ih =>
    rw [List.foldl_cons]
    have hn : acc.any (fun q => pyEq a.1 q.1 && pyEq a.2 q.2) = false := by
      rw [List.any_eq_false]
      intro q hq
      simp only [pyEq_real, Bool.and_eq_true, decide_eq_true_eq]
      rintro ⟨h1, h2⟩
      have : a = q := Prod.ext h1 h2
      subst this
      have := (List.nodup_append.mp h).2.2 a hq a (by simp)
      exact this rfl
    rw [hn]
    simp only [Bool.false_eq_true, if_false]
    rw [ih _ (by simpa using h)]
    simp

theorem setSize_nodup {l : List (ℝ × ℝ)} (h : l.Nodup) : setSize l = l.length := by
  unfold setSize
  rw [setSize_go l [] (by simpa using h)]
  simp

theorem nodup_of_apart {l : List (ℝ × ℝ)} (h : l.Pairwise (fun a b => 0.01 < b.1 - a.1)) :
    l.Nodup := by
  refine h.imp ?_
  rintro a b hab rfl
  norm_num at hab

/-- A circle with exactly two crossings has these two as its intersections. -/
theorem intersections_two {s : Slope ℝ} (g : Geo s) {cx cy r : ℝ} {a b : ℝ × ℝ}
    (h : ∀ p, Crossing s cx cy r p ↔ p = a ∨ p = b) (hab : 0.03 < b.1 - a.1) :
    s.circleExternalIntersection cx cy r = .ok [a, b] := by
  obtain ⟨l, e, h1, h2, h3⟩ := intersections g cx cy r
  rw [e]
  congr 1
  have ha : a ∈ l := by
    obtain ⟨q, hq, hl, _⟩ := h3 a ((h a).mpr (.inl rfl))
    rcases (h q).mp (h2 q hq) with rfl | rfl
    · exact hq
    · norm_num at hab; linarith
  have hb : b ∈ l := by
    obtain ⟨q, hq, hl, hd⟩ := h3 b ((h b).mpr (.inr rfl))
    rcases (h q).mp (h2 q hq) with rfl | rfl
    · linarith
    · exact hq
  have hsub : ∀ p ∈ l, p = a ∨ p = b := fun p hp => (h p).mp (h2 p hp)
  have hne : a ≠ b := by rintro rfl; norm_num at hab
  have hnd := nodup_of_apart h1
  have hperm : l.Perm [a, b] := by
    apply (List.perm_ext_iff_of_nodup hnd (by simp [hne])).mpr
    intro p
    constructor
    · intro hp; simpa using hsub p hp
    · intro hp
      simp at hp
      rcases hp with rfl | rfl <;> assumption
  have hlen := hperm.length_eq
  match l, hlen with
  | [x, y], _ =>
    have hx := hsub x (by simp)
    have hy := hsub y (by simp)
    have hxy := (List.pairwise_cons.mp h1).1 y (by simp)
    rcases hx with rfl | rfl <;> rcases hy with rfl | rfl
    · norm_num at hxy
    · rfl
    · norm_num at hxy hab; linarith
    · norm_num at hxy

end PySlope
