import Verif.Lemmas.Crossings

/-! # Planes made by `_generate_planes` and the entry-exit search -/

namespace PySlope

/-- A recorded crossing is on the ground. -/
theorem Crossing.ground {s : Slope ℝ} (g : Geo s) {cx cy r : ℝ} {p : ℝ × ℝ}
    (h : Crossing s cx cy r p) : s.getExternalY p.1 = some p.2 := by
  have h1 := g.topX_pos; have h2 := g.botX_lt; have h3 := g.top_lt_bot
  have hl : 0 < s.length := by have := g.len; norm_num at this ⊢; linarith
  unfold Slope.getExternalY
  simp only [lit_zero]
  rcases h.2 with ⟨a, b, c, _⟩ | ⟨a, b, c, _⟩ | ⟨a, b, c⟩
  · rw [if_neg (by push Not; exact ⟨b, by linarith⟩), if_pos c, a]
  · rw [if_neg (by push Not; exact ⟨by linarith, c⟩), if_neg (by linarith), if_pos b, a]
  · rw [if_neg (by push Not; exact ⟨by linarith, by linarith⟩)]
    unfold OnLine at a
    simp only at a
    have e1 : s.botX - s.topX = s.length := by rw [g.botX]; ring
    have e2 : s.botY - s.topY = -s.height := by rw [g.botY, g.topY]; ring
    rw [e1, e2] at a
    have e3 : p.2 = s.topY - (p.1 - s.topX) * s.gradient := by
      rw [g.grad]; field_simp; linarith
    by_cases hx : p.1 ≤ s.topX
    · rw [if_pos hx]
      have : p.1 = s.topX := le_antisymm hx b
      rw [e3, this]; simp
    · rw [if_neg hx]
      by_cases hy : s.botX ≤ p.1
      · rw [if_pos hy]
        have : p.1 = s.botX := le_antisymm c hy
        rw [e3, this, e1, g.grad]
        congr 1
        rw [mul_div_cancel₀ _ hl.ne']; linarith
      · rw [if_neg hy, e3]

/-- The two first of the intersections, when there are two. -/
theorem two_first {s : Slope ℝ} (g : Geo s) {cx cy r : ℝ} {l : List (ℝ × ℝ)}
    (e : s.circleExternalIntersection cx cy r = .ok l) :
    setSize l < 2 ∨ ∃ a b rest, l = a :: b :: rest ∧ ¬ setSize l < 2 ∧
      EndsOk s { lc := a, rc := b, cx := cx, cy := cy, radius := r, fos := none } := by
  obtain ⟨l', e', h1, h2, _⟩ := intersections g cx cy r
  rw [e'] at e; cases e
  rw [setSize_nodup (nodup_of_apart h1)]
  match l, h1, h2 with
  | [], _, _ => left; simp
  | [a], _, _ => left; simp
  | a :: b :: rest, h1, h2 =>
    right
    refine ⟨a, b, rest, rfl, by simp, ?_⟩
    have ha := h2 a (by simp)
    have hb := h2 b (by simp)
    have := (List.pairwise_cons.mp h1).1 b (by simp)
    exact ⟨ha.1, hb.1, ha.ground g, hb.ground g, by simp only; linarith⟩

theorem circle_through {L R : ℝ × ℝ} {β C e : ℝ} (he : e ≠ 0)
    (hC : C = ((L.2 - R.2) ^ 2 + (R.1 - L.1) ^ 2) / 4)
    (hβ : Real.sin β * (R.1 - L.1) = Real.cos β * (L.2 - R.2)) :
    let radius := (C + e ^ 2) / (2 * e)
    let cx := (L.1 + R.1) / 2 + Real.sin β * (radius - e)
    let cy := (L.2 + R.2) / 2 + Real.cos β * (radius - e)
    OnCircle cx cy radius L ∧ OnCircle cx cy radius R := by
  intro radius cx cy
  have hr : radius * (2 * e) = C + e ^ 2 := by
    simp only [radius]; field_simp
  have hp := Real.sin_sq_add_cos_sq β
  unfold OnCircle
  simp only [cx, cy]
  generalize radius = ρ at *
  constructor
  · have : (L.1 - ((L.1 + R.1) / 2 + Real.sin β * (ρ - e))) ^ 2 +
        (L.2 - ((L.2 + R.2) / 2 + Real.cos β * (ρ - e))) ^ 2 =
        ((L.2 - R.2) ^ 2 + (R.1 - L.1) ^ 2) / 4 +
        (Real.sin β ^ 2 + Real.cos β ^ 2) * (ρ - e) ^ 2 +
        (ρ - e) * (Real.sin β * (R.1 - L.1) - Real.cos β * (L.2 - R.2)) := by ring
    rw [this, hp, hβ, ← hC]
    linear_combination -hr
  · have : (R.1 - ((L.1 + R.1) / 2 + Real.sin β * (ρ - e))) ^ 2 +
        (R.2 - ((L.2 + R.2) / 2 + Real.cos β * (ρ - e))) ^ 2 =
        ((L.2 - R.2) ^ 2 + (R.1 - L.1) ^ 2) / 4 +
        (Real.sin β ^ 2 + Real.cos β ^ 2) * (ρ - e) ^ 2 -
        (ρ - e) * (Real.sin β * (R.1 - L.1) - Real.cos β * (L.2 - R.2)) := by ring
    rw [this, hp, hβ, ← hC]
    linear_combination -hr

theorem planeLoop_spec {s : Slope ℝ} (g : Geo s) {β e C : ℝ} (he : e ≠ 0) (num : Nat)
    {L R : ℝ × ℝ} (hC : C = ((L.2 - R.2) ^ 2 + (R.1 - L.1) ^ 2) / 4)
    (hβ : Real.sin β * (R.1 - L.1) = Real.cos β * (L.2 - R.2)) (todo : Nat) (ht : todo ≤ num)
    (lc rc : ℝ × ℝ) :
    ∃ ps, s.planeLoop β e C num todo lc rc = .ok ps ∧ ps.length ≤ todo ∧
      (∀ p ∈ ps, EndsOk s p ∧ p.fos = none) ∧
      (lc = L → rc = R → ∀ pre p post, ps = pre ++ p :: post →
        (∀ q ∈ pre, q.lc = L ∧ q.rc = R) → Through p L R) := by
  induction todo generalizing lc rc with
  | zero => exact ⟨[], rfl, le_refl _, by simp, by simp⟩
  | succ n ih =>
    have hn0 : ((num : Nat) : ℝ) ≠ 0 := by
      have : 0 < num := by omega
      exact_mod_cast this.ne'
    have hne : e * ((n + 1 : Nat) : ℝ) / ((num : Nat) : ℝ) ≠ 0 := by
      apply div_ne_zero (mul_ne_zero he _) hn0
      exact_mod_cast Nat.succ_ne_zero n
    set e' := e * ((n + 1 : Nat) : ℝ) / ((num : Nat) : ℝ) with he'
    have hrad : circleRadiusFromAbcd e' C = .ok ((C + e' ^ 2) / (2 * e')) := by
      unfold circleRadiusFromAbcd pyDiv
      simp only [sq_real, pyEq_real]
      have e2 : (@OfNat.ofNat ℝ 2 (Lit.natLit 2)) = 2 := rfl
      rw [e2, if_neg]
      simpa using hne
    unfold Slope.planeLoop
    change ∃ ps, ((circleRadiusFromAbcd e' C) >>= _) = _ ∧ _
    rw [hrad]
    simp only [bind, Except.bind]
    set radius := (C + e' ^ 2) / (2 * e') with hradius
    set centre := circleCentre β (midCoord lc rc) (radius - e') with hcentre
    obtain ⟨l, el, _⟩ := intersections g centre.1 centre.2 radius
    rw [el]
    simp only
    rcases two_first g el with h2 | ⟨a, b, rest, rfl, h2, hok⟩
    · rw [if_pos h2]
      obtain ⟨ps, e1, e2, e3, e4⟩ := ih (by omega) lc rc
      exact ⟨ps, e1, by omega, e3, e4⟩
    · rw [if_neg h2]
      simp only
      obtain ⟨ps, e1, e2, e3, e4⟩ := ih (by omega) a b
      rw [e1]
      refine ⟨_, rfl, by simp only [List.length_cons]; omega, ?_, ?_⟩
      · intro p hp
        rcases List.mem_cons.mp hp with rfl | hp
        · exact ⟨hok, rfl⟩
        · exact e3 p hp
      · rintro rfl rfl pre p post hps hpre
        cases pre with
        | nil =>
          obtain ⟨rfl, rfl⟩ := List.cons.inj hps
          exact circle_through hne hC hβ
        | cons q pre =>
          rw [List.cons_append] at hps
          obtain ⟨rfl, hps'⟩ := List.cons.inj hps
          obtain ⟨ha, hb⟩ := hpre _ (List.mem_cons_self)
          exact e4 ha hb pre p post hps' (fun q hq => hpre q (List.mem_cons_of_mem _ hq))

/-- `_generate_planes` for two points one above or left of the other never raises. -/
theorem generatePlanes_spec {s : Slope ℝ} (g : Geo s) {L R : ℝ × ℝ} (h : L.1 ≠ R.1) (n : Int) :
    ∃ ps, s.generatePlanes L R n = .ok ps ∧ ps.length ≤ n.toNat ∧
      (∀ p ∈ ps, EndsOk s p ∧ p.fos = none) ∧
      ∀ pre p post, ps = pre ++ p :: post → (∀ q ∈ pre, q.lc = L ∧ q.rc = R) → Through p L R := by
  have hd : R.1 - L.1 ≠ 0 := sub_ne_zero.mpr h.symm
  have hdiv : pyDiv (L.2 - R.2) (R.1 - L.1) = .ok ((L.2 - R.2) / (R.1 - L.1)) := by
    unfold pyDiv
    rw [if_neg]
    simpa using hd
  unfold Slope.generatePlanes
  rw [hdiv]
  simp only [bind, Except.bind, sq_real]
  set β := PyNum.atan ((L.2 - R.2) / (R.1 - L.1)) with hβ
  have hβ' : β = Real.arctan ((L.2 - R.2) / (R.1 - L.1)) := rfl
  have hcos : 0 < Real.cos β := by rw [hβ']; exact Real.cos_arctan_pos _
  have htan : Real.sin β * (R.1 - L.1) = Real.cos β * (L.2 - R.2) := by
    have : Real.sin β / Real.cos β = (L.2 - R.2) / (R.1 - L.1) := by
      rw [← Real.tan_eq_sin_div_cos, hβ', Real.tan_arctan]
    rw [div_eq_div_iff hcos.ne' hd] at this
    linarith
  set Q := (L.2 - R.2) ^ 2 + (R.1 - L.1) ^ 2 with hQ
  have hQpos : 0 < Q := by positivity
  have hsq : PyNum.sqrt Q = Real.sqrt Q := rfl
  have e2 : (@OfNat.ofNat ℝ 2 (Lit.natLit 2)) = 2 := rfl
  set half := PyNum.sqrt Q / (@OfNat.ofNat ℝ 2 (Lit.natLit 2)) with hhalf
  have hhalfpos : 0 < half := by
    rw [hhalf, hsq, e2]; positivity
  have hC : half ^ 2 = Q / 4 := by
    rw [hhalf, hsq, e2, div_pow, Real.sq_sqrt hQpos.le]; norm_num
  set r0 := half / PyNum.cos β * 1.1 with hr0
  have hr0pos : 0 < r0 := by
    have : (0 : ℝ) < half / Real.cos β * 1.1 := by positivity
    exact this
  have he : r0 - PyNum.sqrt (r0 ^ 2 - half ^ 2) ≠ 0 := by
    intro h0
    have h1 : Real.sqrt (r0 ^ 2 - half ^ 2) = r0 := by
      have : PyNum.sqrt (r0 ^ 2 - half ^ 2) = Real.sqrt (r0 ^ 2 - half ^ 2) := rfl
      rw [this] at h0; linarith
    have h2 : Real.sqrt (r0 ^ 2 - half ^ 2) < r0 := by
      rw [Real.sqrt_lt' hr0pos]
      have : 0 < half ^ 2 := by positivity
      linarith
    linarith
  obtain ⟨ps, h1, h2, h3, h4⟩ := planeLoop_spec g he n.toNat hC htan n.toNat (le_refl _) L R
  exact ⟨ps, h1, h2, h3, h4 rfl rfl⟩

end PySlope
