import Verif.Props.Radii
import Verif.Props.Assessed
import Verif.Props.PlotBoundary

/-! # Circles from the crest to the face (C80) -/

namespace PySlope

/-- Specification: the distance of two points. -/
noncomputable def chordLength (L R : ℝ × ℝ) : ℝ := √((L.2 - R.2) ^ 2 + (R.1 - L.1) ^ 2)

/-- Specification: the circle through two points with an arc of height `σ` under the chord between
them. Its centre is on the normal through the middle of the chord. -/
noncomputable def arcPlane (L R : ℝ × ℝ) (σ : ℝ) : Plane ℝ :=
  let D := chordLength L R
  let ρ := arcRadius D σ
  { lc := L, rc := R, radius := ρ, fos := none
    cx := (L.1 + R.1) / 2 + (L.2 - R.2) / D * (ρ - σ)
    cy := (L.2 + R.2) / 2 + (R.1 - L.1) / D * (ρ - σ) }

theorem chordLength_pos {L R : ℝ × ℝ} (hx : L.1 < R.1) : 0 < chordLength L R := by
  have : 0 < R.1 - L.1 := sub_pos.mpr hx
  exact Real.sqrt_pos.mpr (by positivity)

theorem chordLength_sq (L R : ℝ × ℝ) :
    chordLength L R ^ 2 = (L.2 - R.2) ^ 2 + (R.1 - L.1) ^ 2 := Real.sq_sqrt (by positivity)

theorem sin_arctan_chord {L R : ℝ × ℝ} (hx : L.1 < R.1) :
    Real.sin (Real.arctan ((L.2 - R.2) / (R.1 - L.1))) = (L.2 - R.2) / chordLength L R ∧
    Real.cos (Real.arctan ((L.2 - R.2) / (R.1 - L.1))) = (R.1 - L.1) / chordLength L R := by
  have hd : 0 < R.1 - L.1 := sub_pos.mpr hx
  have hD := chordLength_pos hx
  have : √(1 + ((L.2 - R.2) / (R.1 - L.1)) ^ 2) = chordLength L R / (R.1 - L.1) := by
    rw [show 1 + ((L.2 - R.2) / (R.1 - L.1)) ^ 2 =
      ((L.2 - R.2) ^ 2 + (R.1 - L.1) ^ 2) / (R.1 - L.1) ^ 2 by field_simp; ring,
      Real.sqrt_div (by positivity), Real.sqrt_sq hd.le]
    rfl
  rw [Real.sin_arctan, Real.cos_arctan, this]
  constructor <;> field_simp

/-- The arc is flatter than a half circle: the centre is above the chord. -/
theorem arcRadius_gt {D σ : ℝ} (h0 : 0 < σ) (h1 : σ < D / 2) : σ < arcRadius D σ := by
  unfold arcRadius
  rw [lt_div_iff₀ (by positivity)]
  nlinarith

theorem arcPlane_through {L R : ℝ × ℝ} (hx : L.1 < R.1) {σ : ℝ} (h0 : 0 < σ) :
    Through (arcPlane L R σ) L R := by
  obtain ⟨h1, h2⟩ := sin_arctan_chord hx
  have hD := chordLength_pos hx
  have := circle_through (L := L) (R := R) (β := Real.arctan ((L.2 - R.2) / (R.1 - L.1)))
    (C := chordLength L R ^ 2 / 4) (e := σ) h0.ne' (by rw [chordLength_sq])
    (by rw [h1, h2]; field_simp)
  rw [h1, h2] at this
  exact this

/-- Where the chord is, the circle is lower. -/
theorem arcPlane_under {L R : ℝ × ℝ} (hx : L.1 < R.1) {σ : ℝ} (h0 : 0 < σ) {t : ℝ} (ht0 : 0 < t)
    (ht1 : t < 1) : let p := arcPlane L R σ
    p.cy - √(p.radius ^ 2 - (L.1 + t * (R.1 - L.1) - p.cx) ^ 2) < L.2 + t * (R.2 - L.2) := by
  intro p
  obtain ⟨hL, hR⟩ := arcPlane_through hx h0
  unfold OnCircle at hL hR
  have hd : 0 < R.1 - L.1 := sub_pos.mpr hx
  have key : (L.2 + t * (R.2 - L.2) - p.cy) ^ 2 <
      p.radius ^ 2 - (L.1 + t * (R.1 - L.1) - p.cx) ^ 2 := by
    have e : (L.1 + t * (R.1 - L.1) - p.cx) ^ 2 + (L.2 + t * (R.2 - L.2) - p.cy) ^ 2 =
        (1 - t) * ((L.1 - p.cx) ^ 2 + (L.2 - p.cy) ^ 2) + t * ((R.1 - p.cx) ^ 2 + (R.2 - p.cy) ^ 2) -
          t * (1 - t) * ((R.1 - L.1) ^ 2 + (R.2 - L.2) ^ 2) := by ring
    rw [show (L.1 - p.cx) ^ 2 + (L.2 - p.cy) ^ 2 = p.radius ^ 2 from hL,
      show (R.1 - p.cx) ^ 2 + (R.2 - p.cy) ^ 2 = p.radius ^ 2 from hR] at e
    have : 0 < t * (1 - t) * ((R.1 - L.1) ^ 2 + (R.2 - L.2) ^ 2) := by
      have : 0 < 1 - t := by linarith
      positivity
    linarith
  have := Real.neg_sqrt_lt_of_sq_lt key
  linarith

/-- A crest point and a face point. -/
structure CrestFace (s : Slope ℝ) (L R : ℝ × ℝ) : Prop where
  left : 0 ≤ L.1
  crest : L.1 ≤ s.topX
  crestY : L.2 = s.topY
  face : s.topX < R.1
  foot : R.1 ≤ s.botX
  faceY : R.2 = s.topY - (R.1 - s.topX) * s.gradient

theorem CrestFace.lt {s : Slope ℝ} {L R : ℝ × ℝ} (h : CrestFace s L R) : L.1 < R.1 :=
  lt_of_le_of_lt h.crest h.face

theorem CrestFace.drop {s : Slope ℝ} (g : Geo s) {L R : ℝ × ℝ} (h : CrestFace s L R) : R.2 ≤ L.2 := by
  have : 0 ≤ s.gradient := by rw [g.grad]; have := g.hgt; have := g.lenPos; positivity
  have h1 : 0 ≤ (R.1 - s.topX) * s.gradient := mul_nonneg (by linarith [h.face]) this
  rw [h.faceY, h.crestY]; linarith

theorem CrestFace.centre {s : Slope ℝ} (g : Geo s) {L R : ℝ × ℝ} (h : CrestFace s L R) {σ : ℝ}
    (h0 : 0 < σ) (h1 : σ < chordLength L R / 2) : (L.1 + R.1) / 2 ≤ (arcPlane L R σ).cx := by
  have h2 := arcRadius_gt h0 h1
  have h3 := h.drop g
  have : 0 ≤ (L.2 - R.2) / chordLength L R * (arcRadius (chordLength L R) σ - σ) :=
    mul_nonneg (div_nonneg (by linarith) (chordLength_pos h.lt).le) (by linarith)
  change _ ≤ (L.1 + R.1) / 2 + (L.2 - R.2) / chordLength L R * (arcRadius (chordLength L R) σ - σ)
  linarith

/-- The crossings of such a circle: the left point, the right point, and others farther right. -/
theorem CrestFace.crossings {s : Slope ℝ} (g : Geo s) {L R : ℝ × ℝ} (h : CrestFace s L R) {σ : ℝ}
    (h0 : 0 < σ) (h1 : σ < chordLength L R / 2) :
    let p := arcPlane L R σ
    Crossing s p.cx p.cy p.radius L ∧ Crossing s p.cx p.cy p.radius R ∧
    ∀ q, Crossing s p.cx p.cy p.radius q → q = L ∨ R.1 ≤ q.1 := by
  intro p
  obtain ⟨hL, hR⟩ := arcPlane_through h.lt h0
  have hc := h.centre g h0 h1
  have hlt := h.lt
  have hcr := h.crest
  have hfa := h.face
  have hl := g.lenPos
  have ebx : s.botX - s.topX = s.length := by rw [g.botX]; ring
  have eby : s.botY - s.topY = -s.height := by rw [g.botY, g.topY]; ring
  have hgl : s.gradient * s.length = s.height := by rw [g.grad]; field_simp
  refine ⟨⟨hL, .inl ⟨h.crestY, h.left, h.crest, by linarith⟩⟩,
    ⟨hR, .inr (.inr ⟨?_, h.face.le, h.foot⟩)⟩, ?_⟩
  · unfold OnLine
    simp only
    rw [ebx, eby, h.faceY, ← hgl]; ring
  · rintro q ⟨hq, hq'⟩
    unfold OnCircle at hL hR hq
    change (L.1 - p.cx) ^ 2 + (L.2 - p.cy) ^ 2 = p.radius ^ 2 at hL
    change (R.1 - p.cx) ^ 2 + (R.2 - p.cy) ^ 2 = p.radius ^ 2 at hR
    change (L.1 + R.1) / 2 ≤ p.cx at hc
    rcases hq' with ⟨a, b, c, d⟩ | ⟨a, b, c, d⟩ | ⟨a, b, c⟩
    · left
      rw [h.crestY] at hL
      rw [a] at hq
      have : (q.1 - L.1) * (q.1 + L.1 - 2 * p.cx) = 0 := by linear_combination hq - hL
      rcases mul_eq_zero.mp this with h' | h'
      · exact Prod.ext (by linarith) (by rw [a, h.crestY])
      · exact Prod.ext (by linarith) (by rw [a, h.crestY])
    · right
      exact h.foot.trans b
    · by_contra hcon
      push Not at hcon
      obtain ⟨hne, hlt'⟩ := hcon
      have hqy : q.2 = s.topY - (q.1 - s.topX) * s.gradient := by
        unfold OnLine at a
        simp only at a
        rw [ebx, eby, ← hgl] at a
        have : s.length * (q.2 - (s.topY - (q.1 - s.topX) * s.gradient)) = 0 := by linarith
        rcases mul_eq_zero.mp this with h' | h'
        · exact absurd h' hl.ne'
        · linarith
      have hT : (s.topX - p.cx) ^ 2 + (s.topY - p.cy) ^ 2 - p.radius ^ 2 =
          (s.topX - L.1) * (s.topX + L.1 - 2 * p.cx) := by
        rw [← hL, h.crestY]; ring
      have hT0 : s.topX + L.1 - 2 * p.cx < 0 := by linarith
      have hT1 : (s.topX - L.1) * (s.topX + L.1 - 2 * p.cx) ≤ 0 :=
        mul_nonpos_of_nonneg_of_nonpos (by linarith) hT0.le
      rcases b.eq_or_lt with hb | hb
      · have hqy' : q.2 = s.topY := by rw [hqy, ← hb]; ring
        have : (s.topX - L.1) * (s.topX + L.1 - 2 * p.cx) = 0 := by
          rw [← hT, ← hq, hqy', ← hb]; ring
        rcases mul_eq_zero.mp this with h' | h'
        · exact hne (Prod.ext (by linarith) (by rw [hqy', h.crestY]))
        · linarith
      · set t := (q.1 - s.topX) / (R.1 - s.topX) with ht
        have hpos : 0 < R.1 - s.topX := by linarith
        have t0 : 0 < t := div_pos (by linarith) hpos
        have t1 : t < 1 := by rw [ht, div_lt_one hpos]; linarith
        have e1 : q.1 = s.topX + t * (R.1 - s.topX) := by rw [ht]; field_simp; ring
        have e2 : q.2 = s.topY + t * (R.2 - s.topY) := by
          rw [hqy, h.faceY, e1]; ring
        have e : (q.1 - p.cx) ^ 2 + (q.2 - p.cy) ^ 2 =
            (1 - t) * ((s.topX - p.cx) ^ 2 + (s.topY - p.cy) ^ 2) +
            t * ((R.1 - p.cx) ^ 2 + (R.2 - p.cy) ^ 2) -
            t * (1 - t) * ((R.1 - s.topX) ^ 2 + (R.2 - s.topY) ^ 2) := by rw [e1, e2]; ring
        rw [hR, show (q.1 - p.cx) ^ 2 + (q.2 - p.cy) ^ 2 = p.radius ^ 2 from hq] at e
        have h5 : 0 < t * (1 - t) * ((R.1 - s.topX) ^ 2 + (R.2 - s.topY) ^ 2) := by
          have : 0 < 1 - t := by linarith
          positivity
        have h6 : (1 - t) * ((s.topX - p.cx) ^ 2 + (s.topY - p.cy) ^ 2) ≤ (1 - t) * p.radius ^ 2 :=
          mul_le_mul_of_nonneg_left (by linarith) (by linarith)
        linarith

/-- The code finds the two points. -/
theorem CrestFace.found {s : Slope ℝ} (g : Geo s) {L R : ℝ × ℝ} (h : CrestFace s L R) {σ : ℝ}
    (h0 : 0 < σ) (h1 : σ < chordLength L R / 2) (far : 0.03 < R.1 - L.1) :
    let p := arcPlane L R σ
    ∃ rest, s.circleExternalIntersection p.cx p.cy p.radius = .ok (L :: R :: rest) ∧
      ¬ setSize (L :: R :: rest) < 2 := by
  intro p
  obtain ⟨cL, cR, only⟩ := h.crossings g h0 h1
  obtain ⟨l, e, a1, a2, a3⟩ := intersections g p.cx p.cy p.radius
  have hlt := h.lt
  have mL : L ∈ l := by
    obtain ⟨q, hq, b1, b2⟩ := a3 L cL
    rcases only q (a2 q hq) with rfl | h'
    · exact hq
    · linarith
  have mR : R ∈ l := by
    obtain ⟨q, hq, b1, b2⟩ := a3 R cR
    rcases only q (a2 q hq) with rfl | h'
    · norm_num at far b2; linarith
    · have hx : q.1 = R.1 := le_antisymm b1 h'
      have h3 := (a2 q hq).ground g
      rw [hx, cR.ground g] at h3
      have : q = R := Prod.ext hx (Option.some.inj h3).symm
      rwa [← this]
  have inc : ∀ {u v : ℝ × ℝ}, 0.01 < v.1 - u.1 → u.1 < v.1 := by
    intro u v h'; norm_num at h'; linarith
  have hl : ∃ rest, l = L :: R :: rest := by
    match l, a1, a2, mL, mR with
    | x :: xs, a1, a2, mL, mR =>
      obtain ⟨p1, p2⟩ := List.pairwise_cons.mp a1
      have hx : x = L := by
        rcases List.mem_cons.mp mL with rfl | hm
        · rfl
        · have := inc (p1 L hm)
          rcases only x (a2 x (by simp)) with h' | h'
          · exact h'
          · linarith
      subst hx
      have mR' : R ∈ xs := by
        rcases List.mem_cons.mp mR with h' | h'
        · rw [h'] at hlt; exact absurd hlt (lt_irrefl _)
        · exact h'
      match xs, p1, p2, a2, mR' with
      | y :: ys, p1, p2, a2, mR' =>
        refine ⟨ys, ?_⟩
        have hy : y = R := by
          rcases List.mem_cons.mp mR' with h' | h'
          · exact h'.symm
          · have h3 := inc ((List.pairwise_cons.mp p2).1 R h')
            have h4 := inc (p1 y (by simp))
            rcases only y (a2 y (by simp)) with h5 | h5
            · rw [h5] at h4; exact absurd h4 (lt_irrefl _)
            · linarith
        rw [hy]
  obtain ⟨rest, rfl⟩ := hl
  exact ⟨rest, e, by rw [setSize_nodup (nodup_of_apart a1)]; simp⟩

/-- The loop over the circles makes them all. -/
theorem CrestFace.loop {s : Slope ℝ} (g : Geo s) {L R : ℝ × ℝ} (h : CrestFace s L R) {e : ℝ}
    (h0 : 0 < e) (h1 : e < chordLength L R / 2) (far : 0.03 < R.1 - L.1) (num todo : ℕ)
    (hle : todo ≤ num) :
    s.planeLoop (Real.arctan ((L.2 - R.2) / (R.1 - L.1))) e
      (((L.2 - R.2) ^ 2 + (R.1 - L.1) ^ 2) / 4) num todo L R =
    .ok ((List.range todo).map fun (i : ℕ) => arcPlane L R (e * ((todo : ℝ) - i) / num)) := by
  induction todo with
  | zero => rfl
  | succ n ih =>
    have hnum : (0 : ℝ) < num := by exact_mod_cast (by omega : 0 < num)
    set e' := e * ((n + 1 : ℕ) : ℝ) / (num : ℝ) with he'
    have e0 : 0 < e' := by positivity
    have e1 : e' < chordLength L R / 2 := by
      refine lt_of_le_of_lt ?_ h1
      rw [he', div_le_iff₀ hnum]
      apply mul_le_mul_of_nonneg_left _ h0.le
      exact_mod_cast hle
    obtain ⟨rest, f1, f2⟩ := h.found g e0 e1 far
    obtain ⟨s1, s2⟩ := sin_arctan_chord h.lt
    unfold Slope.planeLoop
    have hrad : circleRadiusFromAbcd e' (((L.2 - R.2) ^ 2 + (R.1 - L.1) ^ 2) / 4) =
        .ok (arcPlane L R e').radius := by
      unfold circleRadiusFromAbcd pyDiv
      simp only [sq_real, pyEq_real]
      have e2 : (@OfNat.ofNat ℝ 2 (Lit.natLit 2)) = 2 := rfl
      rw [e2, if_neg (by simpa using e0.ne')]
      change _ = Except.ok (arcRadius (chordLength L R) e')
      unfold arcRadius
      rw [chordLength_sq]
    have hcen : circleCentre (Real.arctan ((L.2 - R.2) / (R.1 - L.1))) (midCoord L R)
        ((arcPlane L R e').radius - e') = ((arcPlane L R e').cx, (arcPlane L R e').cy) := by
      change ((L.1 + R.1) / 2 + Real.sin _ * _, (L.2 + R.2) / 2 + Real.cos _ * _) = _
      rw [s1, s2]
      rfl
    simp only [bind, Except.bind]
    rw [← he', hrad]
    simp only
    rw [hcen, f1]
    simp only
    rw [if_neg f2, ih (by omega), List.range_succ_eq_map, List.map_cons, List.map_map]
    change Except.ok (arcPlane L R e' :: _) = _
    congr 2
    · rw [he']; simp
    · apply List.map_congr_left
      intro i _
      simp only [Function.comp]
      congr 3
      push_cast; ring

/-- The chord is in the ground. -/
theorem CrestFace.chord_le {s : Slope ℝ} (g : Geo s) {L R : ℝ × ℝ} (h : CrestFace s L R) {t : ℝ}
    (t0 : 0 ≤ t) (t1 : t ≤ 1) : L.2 + t * (R.2 - L.2) ≤ groundY s (L.1 + t * (R.1 - L.1)) := by
  have hd := h.drop g
  have hlt := h.lt
  have hcr := h.crest
  have hfa := h.face
  have hg0 : 0 ≤ s.gradient := by rw [g.grad]; have := g.hgt; have := g.lenPos; positivity
  have hgl : s.gradient * s.length = s.height := by
    rw [g.grad]; have := g.lenPos; field_simp
  by_cases hx : L.1 + t * (R.1 - L.1) ≤ s.topX
  · rw [groundY_crest g hx, ← h.crestY]
    have : t * (R.2 - L.2) ≤ 0 := mul_nonpos_of_nonneg_of_nonpos t0 (by linarith)
    linarith
  · push Not at hx
    have hf := h.foot
    have hx' : L.1 + t * (R.1 - L.1) ≤ s.botX := by nlinarith
    rw [groundY_face g hx.le hx', h.faceY, h.crestY, g.botY, g.topY, g.botX]
    have h1 : 0 ≤ (1 - t) * ((s.topX - L.1) * s.gradient) :=
      mul_nonneg (by linarith) (mul_nonneg (by linarith) hg0)
    nlinarith

/-- The circle is under the ground between the points. -/
theorem CrestFace.under {s : Slope ℝ} (g : Geo s) {L R : ℝ × ℝ} (h : CrestFace s L R) {σ : ℝ}
    (h0 : 0 < σ) {x : ℝ} (hl : L.1 < x) (hr : x < R.1) : let p := arcPlane L R σ
    p.cy - √(p.radius ^ 2 - (x - p.cx) ^ 2) < groundY s x := by
  intro p
  have hd : 0 < R.1 - L.1 := sub_pos.mpr h.lt
  set t := (x - L.1) / (R.1 - L.1) with ht
  have t0 : 0 < t := div_pos (by linarith) hd
  have t1 : t < 1 := by rw [ht, div_lt_one hd]; linarith
  have e : x = L.1 + t * (R.1 - L.1) := by rw [ht]; field_simp; ring
  rw [e]
  exact lt_of_lt_of_le (arcPlane_under h.lt h0 t0 t1) (h.chord_le g t0.le t1.le)

/-- The circles made for an entry point and an exit point, as the reader would draw them. -/
noncomputable def arcPlanes (L R : ℝ × ℝ) (n : ℕ) : List (Plane ℝ) :=
  (List.range n).map fun (i : ℕ) => arcPlane L R (firstHeight L R * ((n : ℝ) - i) / n)

theorem CrestFace.planes {s : Slope ℝ} (g : Geo s) {L R : ℝ × ℝ} (h : CrestFace s L R)
    (far : 0.03 < R.1 - L.1) (n : ℕ) : s.generatePlanes L R n = .ok (arcPlanes L R n) := by
  obtain ⟨b1, b2⟩ := firstHeight_bounds h.lt
  rw [generatePlanes_start h.lt]
  exact h.loop g b1 b2 far n n (le_refl _)

/-- Every circle of the list is an arc of some height. -/
theorem mem_arcPlanes {L R : ℝ × ℝ} (hx : L.1 < R.1) {n : ℕ} {p : Plane ℝ} (hp : p ∈ arcPlanes L R n) :
    ∃ σ, 0 < σ ∧ σ ≤ firstHeight L R ∧ σ < chordLength L R / 2 ∧ p = arcPlane L R σ := by
  obtain ⟨b1, b2⟩ := firstHeight_bounds hx
  obtain ⟨i, hi, rfl⟩ := List.mem_map.mp hp
  rw [List.mem_range] at hi
  have hn : (0 : ℝ) < n := by exact_mod_cast (by omega : 0 < n)
  have hi' : (i : ℝ) < n := by exact_mod_cast hi
  have hi0 : (0 : ℝ) ≤ i := Nat.cast_nonneg i
  have hle : firstHeight L R * ((n : ℝ) - i) / n ≤ firstHeight L R := by
    rw [div_le_iff₀ hn]
    exact mul_le_mul_of_nonneg_left (by linarith) b1.le
  exact ⟨_, div_pos (mul_pos b1 (by linarith)) hn, hle, lt_of_le_of_lt hle b2, rfl⟩

theorem CrestFace.of {s : Slope ℝ} (g : Geo s) {x x' : ℝ} (h0 : 0 ≤ x) (h1 : x ≤ s.topX)
    (h2 : s.topX < x') (h3 : x' ≤ s.botX) : CrestFace s (x, groundY s x) (x', groundY s x') := by
  have hl := g.lenPos
  have hgl : s.gradient * s.length = s.height := by rw [g.grad]; field_simp
  refine ⟨h0, h1, groundY_crest g h1, h2, h3, ?_⟩
  simp only
  rw [groundY_face g h2.le h3, g.botY, g.topY, g.botX]; linarith

theorem CrestFace.exitY {s : Slope ℝ} (g : Geo s) {L R : ℝ × ℝ} (h : CrestFace s L R) :
    s.getExternalY R.1 = some R.2 := by
  have hb := g.botX_lt
  have ht := g.topX_pos
  have h3 := h.face
  have h4 := h.foot
  have hgl : s.gradient * s.length = s.height := by rw [g.grad]; have := g.lenPos; field_simp
  unfold Slope.getExternalY
  simp only [lit_zero]
  rw [if_neg (by push Not; exact ⟨by linarith, by linarith⟩), if_neg (by linarith), h.faceY]
  split
  · rename_i h'
    have : R.1 = s.botX := le_antisymm h4 h'
    rw [this, g.botY, g.topY, g.botX, ← hgl]
    congr 1; ring
  · rfl

/-- What the method adds. -/
theorem CrestFace.add {s : Slope ℝ} (g : Geo s) {L R : ℝ × ℝ} (h : CrestFace s L R)
    (far : 0.03 < R.1 - L.1) (n : ℕ) : s.addSingleEntryExitPlane L.1 R.1 n =
      (({ s with individual := s.individual ++ arcPlanes L R n } : Slope ℝ).resetResults, .ok ()) := by
  have hb := g.botX_lt
  have ht := g.topX_pos
  have h1 := h.left
  have h2 := h.crest
  have h3 := h.face
  have h4 := h.foot
  have yL : s.getExternalY L.1 = some L.2 := by
    unfold Slope.getExternalY
    simp only [lit_zero]
    rw [if_neg (by push Not; exact ⟨h1, by linarith⟩), if_pos h2, h.crestY]
  have yR := h.exitY g
  unfold Slope.addSingleEntryExitPlane
  rw [yL, yR]
  simp only
  rw [h.planes g far n]

/-- C80: for an entry point on the crest and an exit point on the face, more than 3 cm apart,
`add_single_entry_exit_plane(x, x', n)` adds exactly `n` circles. Each goes through both points, is
recorded with them as its end points, and is in the ground between them. The arcs are `n/n, (n-1)/n,
…, 1/n` times as high over the chord as the first. -/
theorem C80_crest_to_face (s : Slope ℝ) (r : Reachable s) {x x' : ℝ} (h0 : 0 ≤ x) (h1 : x ≤ s.topX)
    (h2 : s.topX < x') (h3 : x' ≤ s.botX) (h4 : 0.03 < x' - x) (n : ℕ) :
    let L := (x, groundY s x)
    let R := (x', groundY s x')
    let t := s.addSingleEntryExitPlane x x' n
    t.2 = .ok () ∧ t.1.search = [] ∧ ∃ ps, t.1.individual = s.individual ++ ps ∧ ps.length = n ∧
      ps.map Plane.radius = (List.range n).map (fun (i : ℕ) =>
        arcRadius (chordLength L R) (firstHeight L R * ((n : ℝ) - i) / n)) ∧
      ∀ p ∈ ps, p.lc = L ∧ p.rc = R ∧ p.fos = none ∧ Through p L R ∧
        ∀ z, x < z → z < x' → p.cy - √(p.radius ^ 2 - (z - p.cx) ^ 2) < groundY s z := by
  intro L R t
  have g := r.wf.geo
  have cf : CrestFace s L R := .of g h0 h1 h2 h3
  have key := cf.add g h4 n
  change t = _ at key
  rw [key]
  refine ⟨rfl, rfl, arcPlanes L R n, rfl, by simp [arcPlanes], ?_, ?_⟩
  · unfold arcPlanes
    rw [List.map_map]
    rfl
  · intro p hp
    obtain ⟨σ, s0, _, s1, rfl⟩ := mem_arcPlanes cf.lt hp
    exact ⟨rfl, rfl, rfl, arcPlane_through cf.lt s0, fun z hz hz' => cf.under g s0 hz hz'⟩

/-- A case of C80: from 4 on the crest to 8 on the face of the example. -/
example : (0 : ℝ) ≤ 4 ∧ 4 ≤ exSlope.topX ∧ exSlope.topX < 8 ∧ 8 ≤ exSlope.botX ∧
    (exSlope.addSingleEntryExitPlane 4 8 (7 : ℕ)).1.individual.length = 7 := by
  have h1 : exSlope.topX = 6 := by simp
  have h2 : exSlope.botX = 9 := by simp
  refine ⟨by norm_num, by rw [h1]; norm_num, by rw [h1]; norm_num, by rw [h2]; norm_num, ?_⟩
  obtain ⟨_, _, ps, e, hl, _⟩ := C80_crest_to_face exSlope exSlope_reachable (x := 4) (x' := 8)
    (by norm_num) (by rw [h1]; norm_num) (by rw [h1]; norm_num) (by rw [h2]; norm_num) (by norm_num) 7
  rw [e, List.length_append, hl]
  rfl

end PySlope
