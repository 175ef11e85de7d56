import Verif.Lemmas.PlaneHistory
import Verif.Spec.ExampleCircle

/-! # Properties C28 to C34: the search and the circles -/

namespace PySlope

/-! ## C28 -/

/-- Specification: number of circles per pair of points for `n` iterations. -/
def circlesFor (n : Nat) : Nat := max 5 (n / 800)

/-- Specification: number of entry points for `n` iterations. -/
def topPointsFor (n : Nat) : Nat := Nat.sqrt (n / circlesFor n)

/-- C28: with `n` the requested iterations, the counting loop starts at the number of entry points
and ends at the first value with `top * bottom * circles ≥ n`, and so many exit points there are.
Entry points times exit points times circles is at least `n`, also after points have been set aside
for the loads. -/
theorem C28_search_size (s : Slope ℝ) (r : Reachable s) :
    let n := s.iterations.toNat
    let top := topPointsFor n
    (∃ k, s.exitPoints.length = top + k ∧ n ≤ top * (top + k) * circlesFor n ∧
      ∀ j < k, top * (top + j) * circlesFor n < n) ∧
    ∀ l, s.entryPoints = .ok l → n ≤ l.length * s.exitPoints.length * circlesFor n := by
  intro n top
  have hit : 500 ≤ n := by have := r.wf.it.1; omega
  obtain ⟨k, h1, h2, h3⟩ := numPointsBot_spec hit
  have hlen : s.exitPoints.length = numPointsBot n := by
    rw [exitPoints_eq, List.length_map, List.length_range]
  refine ⟨⟨k, by rw [hlen, h1]; rfl, h2, h3⟩, ?_⟩
  intro l hl
  rw [entryPoints_eq] at hl
  simp only at hl
  split at hl
  · cases hl
  · cases hl
    rw [hlen, h1]
    refine h2.trans ?_
    apply Nat.mul_le_mul_right
    apply Nat.mul_le_mul_right
    simp only [List.length_append, List.length_map, List.length_range]
    change numPointsTop s.iterations.toNat ≤ _
    omega

/-- With the default of 1000 iterations: 5 circles, 14 entry points, 15 exit points. -/
example : circlesFor 1000 = 5 ∧ topPointsFor 1000 = 14 ∧ exSlope.exitPoints.length = 15 := by
  have h1 : circlesFor 1000 = 5 := by decide
  have h2 : topPointsFor 1000 = 14 := by
    unfold topPointsFor; rw [h1]
    exact (Nat.eq_sqrt.mpr ⟨by norm_num, by norm_num⟩).symm
  refine ⟨h1, h2, ?_⟩
  obtain ⟨⟨k, a, b, c⟩, _⟩ := C28_search_size exSlope exSlope_reachable
  have e : exSlope.iterations.toNat = 1000 := rfl
  simp only [e, h1, h2] at a b c
  rw [a]
  have : k ≤ 1 := by
    by_contra hk
    have := c 1 (by omega)
    omega
  omega

/-! ## C29 -/

/-- C29: generating the entry points raises `ZeroDivisionError` exactly when the number of loads is
one less than the number of entry points, and nothing else; and if no load reaches over the crest,
this is also the only way the whole search can raise. -/
theorem C29_zero_division (s : Slope ℝ) (r : Reachable s) :
    let bad := s.udls.length + s.lls.length + 1 = topPointsFor s.iterations.toNat
    (∀ e, s.entryPoints = .error e ↔ e = .zeroDivision ∧ bad) ∧
    (bad → s.entryExitPlanes = .error .zeroDivision) ∧
    ((∀ u ∈ s.udls, u.left ≤ s.topX) → (∀ l ∈ s.lls, l.coord ≤ s.topX) →
      ∀ e, s.entryExitPlanes = .error e ↔ e = .zeroDivision ∧ bad) := by
  intro bad
  have w := r.wf
  have hbad : bad ↔ ((numPointsTop s.iterations.toNat : Int) - (s.lls.length : Int)
      - (s.udls.length : Int) = 1) := by
    have : numPointsTop s.iterations.toNat = topPointsFor s.iterations.toNat := rfl
    rw [this]
    constructor
    · intro h
      have h' : s.udls.length + s.lls.length + 1 = topPointsFor s.iterations.toNat := h
      omega
    · intro h
      change s.udls.length + s.lls.length + 1 = topPointsFor s.iterations.toNat
      omega
  have h1 : bad → s.entryPoints = .error .zeroDivision := by
    intro hb
    rw [entryPoints_eq]
    simp only
    rw [if_pos (hbad.mp hb)]
  have h2 : ¬ bad → ∃ l, s.entryPoints = .ok l := by
    intro hb
    rw [entryPoints_eq]
    simp only
    rw [if_neg (fun h => hb (hbad.mpr h))]
    exact ⟨_, rfl⟩
  have h3 : bad → s.entryExitPlanes = .error .zeroDivision := by
    intro hb
    unfold Slope.entryExitPlanes
    rw [h1 hb]; rfl
  refine ⟨?_, h3, ?_⟩
  · intro e
    by_cases hb : bad
    · rw [h1 hb]
      constructor
      · intro h; cases h; exact ⟨rfl, hb⟩
      · rintro ⟨rfl, _⟩; rfl
    · obtain ⟨l, hl⟩ := h2 hb
      rw [hl]
      constructor
      · intro h; cases h
      · rintro ⟨_, h⟩; exact absurd h hb
  · intro hu hl e
    by_cases hb : bad
    · rw [h3 hb]
      constructor
      · intro h; cases h; exact ⟨rfl, hb⟩
      · rintro ⟨rfl, _⟩; rfl
    · obtain ⟨lefts, hlefts⟩ := h2 hb
      have hx : ∀ l ∈ lefts, l.1 ≤ s.topX := by
        rw [entryPoints_eq] at hlefts
        simp only at hlefts
        rw [if_neg (fun h => hb (hbad.mpr h))] at hlefts
        cases hlefts
        intro l hl'
        rw [List.mem_append, List.mem_append] at hl'
        rcases hl' with (hl' | hl') | hl'
        · obtain ⟨k, hk, rfl⟩ := List.mem_map.mp hl'
          exact (even_mem (List.mem_range.mp hk) (fun h => hb (hbad.mpr h)) w.l12).2.trans w.l2
        · obtain ⟨q, hq, rfl⟩ := List.mem_map.mp hl'
          have := hl q hq
          simp only; norm_num; linarith
        · obtain ⟨q, hq, rfl⟩ := List.mem_map.mp hl'
          have := hu q hq
          simp only; norm_num; linarith
      obtain ⟨ps, e1, _⟩ := planesAll_spec w.geo (numCircles s.iterations.toNat) s.exitPoints lefts
        (by
          intro l hl' p hp
          obtain ⟨a, _, y, b, _⟩ := exitPoints_mem w hp
          have := hx l hl'
          have := w.l3
          exact ⟨by linarith [hx l hl'], by rw [b]; rfl⟩)
      have : s.entryExitPlanes = .ok ps := by
        unfold Slope.entryExitPlanes
        rw [hlefts]; exact e1
      rw [this]
      constructor
      · intro h; cases h
      · rintro ⟨_, h⟩; exact absurd h hb

theorem stable_iterations (n : Int) : Stable (fun s => s.iterations = n) :=
  ⟨fun _ _ h => h, fun _ _ h => h, fun _ _ _ h => h, fun _ _ _ h => h, fun _ _ h => h,
    fun _ _ _ h => h, fun _ _ h => h⟩

/-- The bad case of C29 happens: 13 line loads with the default options, and then the analysis
raises `ZeroDivisionError`. -/
theorem C29_thirteen_loads :
    ∃ s : Slope ℝ, Reachable s ∧ s.lls.length = 13 ∧ s.udls = [] ∧ s.iterations = 1000 ∧
      (s.analyseSlope none).2 = .error .zeroDivision := by
  have hc : ∀ u, some u ∈ List.replicate 13 (some (exLl 1)) → LineLoad.Constructed u := by
    intro u hu
    rw [List.mem_replicate] at hu
    cases hu.2
    exact exLl_constructed 1
  have r := exSlope_reachable.call (.setLls exSlope (List.replicate 13 (some (exLl 1))) hc)
  obtain ⟨t, e, w, h1, h2, _, _⟩ := setLls_spec exSlope_reachable.wfs
    (List.replicate 13 (some (exLl 1)))
  have hit : (exSlope.setLls (List.replicate 13 (some (exLl 1)))).1.iterations = 1000 :=
    (stable_iterations 1000).setLls rfl _
  have hi : (exSlope.setLls (List.replicate 13 (some (exLl 1)))).1.places = [] :=
    (steady_places []).setLls rfl _
  rw [e] at r hit hi
  have hlen : t.lls.length = 13 := by
    have := congrArg List.length h1
    rw [List.length_map] at this
    rw [this]
    have hf : (List.replicate 13 (some (exLl 1))).filterMap id = List.replicate 13 (exLl 1) := by
      rfl
    rw [hf, List.filter_replicate]
    simp [exLl]
  have hu : t.udls = [] := by
    have : t.udls.map PUdl.load = [] := by rw [h2]; rfl
    simpa using this
  refine ⟨t, r, hlen, hu, hit, ?_⟩
  have hbad := (C29_zero_division t r).2.1 (by
    rw [hu, hlen, hit]
    have : topPointsFor (1000 : Int).toNat = 14 := by
      unfold topPointsFor
      exact (Nat.eq_sqrt.mpr ⟨by decide, by decide⟩).symm
    rw [this]; rfl)
  have hind : t.individual = [] := by simpa [Slope.places] using hi
  rcases analyseSlope_cases t none with ⟨ps, h, _, _⟩ | ⟨x, _, h, e'⟩ | ⟨_, _, _, _, _, h, _⟩
  · rcases h with ⟨h, _⟩ | ⟨_, h⟩
    · exact absurd hind h
    · rw [hbad] at h; cases h
  · rw [e']; rw [hbad] at h; cases h; rfl
  · rcases h with ⟨h, _⟩ | ⟨_, h⟩
    · exact absurd hind h
    · rw [hbad] at h; cases h

/-! ## C30 -/

/-- C30 (partial): the entry points are an even spread from the first to the second limit along the
crest, then one point 1 mm left of every line load and of every distributed load. The exit points
are on the ground right of the third limit, up to the fourth, which is one of them.
Missing: the points next to loads do not respect the limits (`C30_entry_left_of_model`). -/
theorem C30_points_partial (s : Slope ℝ) (r : Reachable s) :
    (∀ l, s.entryPoints = .ok l → ∃ even,
      l = even ++ s.lls.map (fun q => (q.coord - 0.001, s.topY))
          ++ s.udls.map (fun q => (q.left - 0.001, s.topY)) ∧
      (∀ p ∈ even, s.lim1 ≤ p.1 ∧ p.1 ≤ s.lim2 ∧ p.2 = s.topY) ∧
      (even ≠ [] → (s.lim1, s.topY) ∈ even ∧ (s.lim2, s.topY) ∈ even)) ∧
    (∀ p ∈ s.exitPoints, s.lim3 < p.1 ∧ p.1 ≤ s.lim4 ∧
      ∃ y, p.2 = some y ∧ s.getExternalY p.1 = some y) ∧
    (∃ y, (s.lim4, y) ∈ s.exitPoints) := by
  have w := r.wf
  refine ⟨?_, fun p hp => exitPoints_mem w hp, ?_⟩
  · intro l hl
    rw [entryPoints_eq] at hl
    simp only at hl
    generalize hn : (numPointsTop s.iterations.toNat : Int) - (s.lls.length : Int)
      - (s.udls.length : Int) = n at hl
    split at hl
    · cases hl
    · rename_i h1
      cases hl
      refine ⟨_, rfl, ?_, ?_⟩
      · intro p hp
        obtain ⟨k, hk, rfl⟩ := List.mem_map.mp hp
        obtain ⟨a, b⟩ := even_mem (List.mem_range.mp hk) h1 w.l12
        exact ⟨a, b, rfl⟩
      · intro hne
        have h0 : n.toNat ≠ 0 := by
          intro h0; apply hne; rw [h0]; rfl
        have hpos : (0 : ℝ) < ((n - 1 : Int) : ℝ) := by
          have : (0 : Int) < n - 1 := by omega
          exact_mod_cast this
        constructor
        · refine List.mem_map.mpr ⟨0, List.mem_range.mpr (by omega), ?_⟩
          simp
        · refine List.mem_map.mpr ⟨n.toNat - 1, List.mem_range.mpr (by omega), ?_⟩
          have : ((n.toNat - 1 : Nat) : ℝ) = ((n - 1 : Int) : ℝ) := by
            have : ((n.toNat - 1 : Nat) : Int) = n - 1 := by omega
            exact_mod_cast this
          rw [this, div_self hpos.ne']
          simp
  · have hit : 500 ≤ s.iterations.toNat := by have := w.it.1; omega
    have hp := numPointsBot_pos hit
    rw [exitPoints_eq]
    refine ⟨s.getExternalY s.lim4, List.mem_map.mpr
      ⟨numPointsBot s.iterations.toNat - 1, List.mem_range.mpr (by omega), ?_⟩⟩
    have : (numPointsBot s.iterations.toNat - 1 + 1 : Nat) = numPointsBot s.iterations.toNat := by
      omega
    have hne : (numPointsBot s.iterations.toNat : ℝ) ≠ 0 := by
      have : numPointsBot s.iterations.toNat ≠ 0 := by omega
      exact_mod_cast this
    rw [this, div_self hne]
    have : s.lim3 + 1 * (s.lim4 - s.lim3) = s.lim4 := by ring
    rw [this]

/-- `Udl(magnitude=20)`: a load over the whole crest. -/
noncomputable def exLong : Udl ℝ :=
  { magnitude := 20, offset := 0, length := none, color := "red", dynamic := false }

theorem exLong_constructed : Udl.Constructed exLong := by
  refine ⟨fun _ => true, .num 20, .num 0, .none, "red", false, ?_⟩
  rw [(C02_signs_do_not_matter _ _ _).2.2.1]
  simp [exLong]

/-- C30 fails: with a load over the whole crest an entry point is left of the model. -/
theorem C30_entry_left_of_model :
    ∃ (s : Slope ℝ) (l : List (ℝ × ℝ)), Reachable s ∧ s.entryPoints = .ok l ∧
      ∃ p ∈ l, p.1 < 0 ∧ p.1 < s.lim1 := by
  obtain ⟨r, h⟩ := exSlope_setUdls [exLong] (by
    intro u hu; simp at hu; subst hu; exact ⟨exLong_constructed, by simp [exLong]⟩)
  have hit : (exSlope.setUdls ([exLong].map some)).1.iterations = 1000 :=
    (stable_iterations 1000).setUdls rfl _
  have hl : (exSlope.setUdls ([exLong].map some)).1.lls = [] := by
    obtain ⟨t, e, w, _, h2, _, _⟩ := setUdls_spec exSlope_reachable.wfs ([exLong].map some) (by
      intro v hv l hl; simp at hv; subst hv; cases hl)
    rw [e]
    have : t.lls.map PLl.load = [] := by rw [h2]; rfl
    simpa using this
  generalize (exSlope.setUdls ([exLong].map some)).1 = s at *
  have hu : s.udls = [placeUdl s.topX exLong] := by
    rcases hs : s.udls with _ | ⟨a, _ | ⟨b, l⟩⟩
    · rw [hs] at h; simp at h
    · have := r.wf.udl a (by rw [hs]; simp)
      rw [hs] at h; simp at h
      rw [this, h]
    · rw [hs] at h; simp at h
  obtain ⟨l, e⟩ : ∃ l, s.entryPoints = .ok l := by
    by_contra hcon
    cases he : s.entryPoints with
    | ok l => exact hcon ⟨l, he⟩
    | error x =>
      have := ((C29_zero_division s r).1 x).mp he
      have h2 := this.2
      rw [hu, hl, hit] at h2
      have : topPointsFor (1000 : Int).toNat = 14 := by
        unfold topPointsFor
        exact (Nat.eq_sqrt.mpr ⟨by decide, by decide⟩).symm
      rw [this] at h2
      simp at h2
  refine ⟨s, l, r, e, (0 - 0.001, s.topY), ?_, ?_, ?_⟩
  · obtain ⟨even, rfl, _⟩ := (C30_points_partial s r).1 l e
    rw [hu]
    refine List.mem_append_right _ ?_
    simp [placeUdl, exLong]
  · norm_num
  · have := r.wf.l1
    simp only; norm_num; linarith

/-! ## C31 -/

/-- C31: `L` and `R` are the chosen entry and exit points and `ps` the planes made for them. The
first plane kept, and every later one up to and including the first after a plane recorded with
other end points, has a circle through both. (The code takes the middle of the chord from the
points recorded for the circle before.) -/
theorem C31_through_both (s : Slope ℝ) (r : Reachable s) {L R : ℝ × ℝ} {n : Int}
    {ps : List (Plane ℝ)} (e : s.generatePlanes L R n = .ok ps) :
    ∀ pre p post, ps = pre ++ p :: post → (∀ q ∈ pre, q.lc = L ∧ q.rc = R) →
      OnCircle p.cx p.cy p.radius L ∧ OnCircle p.cx p.cy p.radius R := by
  by_cases hx : L.1 = R.1
  · unfold Slope.generatePlanes pyDiv at e
    rw [if_pos (by simp [hx])] at e
    cases e
  · obtain ⟨ps', h1, _, _, h4⟩ := generatePlanes_spec r.wf.geo hx n
    rw [h1] at e; cases e; exact h4

/-- The first circle is kept when its two points are crossings the code looks for. -/
theorem planeLoop_first {s : Slope ℝ} (g : Geo s) {β r e C : ℝ} {m : Nat} {L R : ℝ × ℝ}
    (hne : e ≠ 0) (hr : (C + e ^ 2) / (2 * e) = r)
    (hL : OnCircle ((L.1 + R.1) / 2 + Real.sin β * (r - e)) ((L.2 + R.2) / 2 + Real.cos β * (r - e))
      r L)
    (hR : OnCircle ((L.1 + R.1) / 2 + Real.sin β * (r - e)) ((L.2 + R.2) / 2 + Real.cos β * (r - e))
      r R)
    (hL' : (L.2 = s.topY ∧ 0 ≤ L.1 ∧ L.1 ≤ s.topX ∧
        L.1 ≤ (L.1 + R.1) / 2 + Real.sin β * (r - e)) ∨
      (L.2 = s.botY ∧ s.botX ≤ L.1 ∧ L.1 ≤ s.extL ∧
        (L.1 + R.1) / 2 + Real.sin β * (r - e) ≤ L.1) ∨
      (OnLine (s.topX, s.topY) (s.botX, s.botY) L ∧ s.topX ≤ L.1 ∧ L.1 ≤ s.botX))
    (hR' : (R.2 = s.topY ∧ 0 ≤ R.1 ∧ R.1 ≤ s.topX ∧
        R.1 ≤ (L.1 + R.1) / 2 + Real.sin β * (r - e)) ∨
      (R.2 = s.botY ∧ s.botX ≤ R.1 ∧ R.1 ≤ s.extL ∧
        (L.1 + R.1) / 2 + Real.sin β * (r - e) ≤ R.1) ∨
      (OnLine (s.topX, s.topY) (s.botX, s.botY) R ∧ s.topX ≤ R.1 ∧ R.1 ≤ s.botX))
    (hLR : 0.06 < R.1 - L.1) {ps : List (Plane ℝ)}
    (e1 : s.planeLoop β e C (m + 1) (m + 1) L R = .ok ps) : ps ≠ [] := by
  unfold Slope.planeLoop at e1
  have hm0 : ((m + 1 : Nat) : ℝ) ≠ 0 := by exact_mod_cast Nat.succ_ne_zero m
  have hedge : e * ((m + 1 : Nat) : ℝ) / ((m + 1 : Nat) : ℝ) = e := by field_simp
  rw [hedge] at e1
  have hrad : circleRadiusFromAbcd e C = .ok r := by
    unfold circleRadiusFromAbcd pyDiv
    simp only [sq_real, pyEq_real]
    have e2 : (@OfNat.ofNat ℝ 2 (Lit.natLit 2)) = 2 := rfl
    rw [e2, if_neg (by simpa using hne), hr]
  simp only at e1
  rw [hrad] at e1
  simp only [bind, Except.bind] at e1
  obtain ⟨l, el, h6, _, h7⟩ := intersections g ((L.1 + R.1) / 2 + Real.sin β * (r - e))
    ((L.2 + R.2) / 2 + Real.cos β * (r - e)) r
  have el' : s.circleExternalIntersection (circleCentre β (midCoord L R) (r - e)).1
    (circleCentre β (midCoord L R) (r - e)).2 r = .ok l := el
  rw [el'] at e1
  simp only at e1
  have hset : ¬ setSize l < 2 := by
    rw [setSize_nodup (nodup_of_apart h6)]
    obtain ⟨q, hq, hq1, hq2⟩ := h7 _ ⟨hL, hL'⟩
    obtain ⟨q', hq', hq1', hq2'⟩ := h7 _ ⟨hR, hR'⟩
    intro hlt
    have : q = q' := by
      match l, hq, hq', hlt with
      | [a], hq, hq', _ =>
        rw [List.mem_singleton.mp hq, List.mem_singleton.mp hq']
    subst this
    norm_num at hLR hq2 hq2'
    linarith
  rcases two_first g el with h | ⟨a, b, rest, rfl, _, _⟩
  · exact absurd h hset
  · rw [if_neg hset] at e1
    simp only at e1
    cases hp : s.planeLoop β e C (m + 1) m a b with
    | error x => rw [hp] at e1; cases e1
    | ok ps' => rw [hp] at e1; cases e1; simp

/-- C31, and there is a plane: for an entry point on the crest and an exit point on the face more
than 6 cm apart, at least one circle is kept. -/
theorem C31_some_plane (s : Slope ℝ) (r : Reachable s) {x x' y' : ℝ} {n : Int} (hn : 1 ≤ n)
    (h0 : 0 ≤ x) (h1 : x ≤ s.topX) (h2 : s.topX < x') (h3 : x' < s.botX) (h4 : 0.06 < x' - x)
    (h5 : s.getExternalY x' = some y') :
    ∃ ps, s.generatePlanes (x, s.topY) (x', y') n = .ok ps ∧ ps ≠ [] := by
  have g := r.wf.geo
  have hd : (0 : ℝ) < x' - x := by linarith
  have hdiv : pyDiv (s.topY - y') (x' - x) = .ok ((s.topY - y') / (x' - x)) := by
    unfold pyDiv
    rw [if_neg]
    simpa using hd.ne'
  obtain ⟨ps, e1, _⟩ := generatePlanes_spec g (L := (x, s.topY)) (R := (x', y')) (by simp only; linarith) n
  refine ⟨ps, e1, ?_⟩
  unfold Slope.generatePlanes at e1
  simp only at e1
  rw [hdiv] at e1
  simp only [bind, Except.bind, sq_real] at e1
  obtain ⟨m, hm⟩ : ∃ m, n.toNat = m + 1 := ⟨n.toNat - 1, by omega⟩
  rw [hm] at e1
  set β := PyNum.atan ((s.topY - y') / (x' - x)) with hβ
  have hβ' : β = Real.arctan ((s.topY - y') / (x' - x)) := rfl
  have hcos : 0 < Real.cos β := by rw [hβ']; exact Real.cos_arctan_pos _
  have htan : Real.sin β * (x' - x) = Real.cos β * (s.topY - y') := by
    have : Real.sin β / Real.cos β = (s.topY - y') / (x' - x) := by
      rw [← Real.tan_eq_sin_div_cos, hβ', Real.tan_arctan]
    rw [div_eq_div_iff hcos.ne' hd.ne'] at this
    linarith
  have hlen : 0 < s.length := by have := g.len; norm_num at this ⊢; linarith
  have hy' : y' = s.topY - (x' - s.topX) * s.gradient := by
    unfold Slope.getExternalY at h5
    simp only [lit_zero] at h5
    rw [if_neg (by push Not; exact ⟨by linarith, by have := g.botX_lt; linarith⟩),
      if_neg (by linarith), if_neg (by linarith)] at h5
    exact (Option.some.inj h5).symm
  have hgrad : 0 ≤ s.gradient := by rw [g.grad]; have := g.hgt; positivity
  have hdrop : 0 ≤ s.topY - y' := by
    rw [hy']
    have : 0 ≤ (x' - s.topX) * s.gradient := mul_nonneg (by linarith) hgrad
    linarith
  have hsin : 0 ≤ Real.sin β := by
    have h : 0 ≤ Real.sin β * (x' - x) := by rw [htan]; positivity
    exact nonneg_of_mul_nonneg_left h hd
  set Q := (s.topY - y') ^ 2 + (x' - x) ^ 2 with hQ
  have hQpos : 0 < Q := by positivity
  have e2 : (@OfNat.ofNat ℝ 2 (Lit.natLit 2)) = 2 := rfl
  set half := PyNum.sqrt Q / (@OfNat.ofNat ℝ 2 (Lit.natLit 2)) with hhalf
  have hhalfpos : 0 < half := by
    have : half = Real.sqrt Q / 2 := rfl
    rw [this]; positivity
  have hC : half ^ 2 = Q / 4 := by
    have : half = Real.sqrt Q / 2 := rfl
    rw [this, div_pow, Real.sq_sqrt hQpos.le]; norm_num
  set r0 := half / PyNum.cos β * 1.1 with hr0
  have hr0' : r0 = half / Real.cos β * 1.1 := rfl
  have hr0pos : 0 < r0 := by rw [hr0']; positivity
  have hrh : half ≤ r0 := by
    rw [hr0']
    have : half ≤ half / Real.cos β := by
      rw [le_div_iff₀ hcos]; nlinarith [Real.cos_le_one β]
    have : 0 < half / Real.cos β := by positivity
    nlinarith
  set d := PyNum.sqrt (r0 ^ 2 - half ^ 2) with hd'
  have hdd : d = Real.sqrt (r0 ^ 2 - half ^ 2) := rfl
  have hd0 : 0 ≤ d := by rw [hdd]; positivity
  have hdsq : d ^ 2 = r0 ^ 2 - half ^ 2 := by
    rw [hdd, Real.sq_sqrt]; nlinarith
  have hdr : d < r0 := by
    have : 0 < half ^ 2 := by positivity
    nlinarith
  have hne : r0 - d ≠ 0 := by linarith
  have hrad2 : (half ^ 2 + (r0 - d) ^ 2) / (2 * (r0 - d)) = r0 := by
    have h2 : 2 * (r0 - d) ≠ 0 := mul_ne_zero two_ne_zero hne
    rw [div_eq_iff h2]
    linear_combination hdsq
  have hthr := circle_through (L := (x, s.topY)) (R := (x', y')) hne hC htan
  rw [hrad2] at hthr
  refine planeLoop_first g hne hrad2 hthr.1 hthr.2 ?_ ?_ (by simpa using h4) e1
  · refine .inl ⟨rfl, h0, h1, ?_⟩
    have : 0 ≤ Real.sin β * (r0 - (r0 - d)) := mul_nonneg hsin (by linarith)
    simp only; linarith
  · refine .inr (.inr ⟨?_, h2.le, h3.le⟩)
    unfold OnLine
    simp only
    rw [hy', g.botX, g.botY, g.topY, g.grad]
    field_simp
    ring

/-- A pair for which C31 is about a plane: entry at 4, exit at 8 on the example. -/
example : ∃ p ps, exSlope.generatePlanes (4, 9) (8, 7) 5 = .ok (p :: ps) ∧
    OnCircle p.cx p.cy p.radius (4, 9) ∧ OnCircle p.cx p.cy p.radius (8, 7) := by
  have hy : exSlope.getExternalY 8 = some 7 := by
    unfold Slope.getExternalY
    simp only [lit_zero]
    rw [if_neg (by norm_num), if_neg (by norm_num), if_neg (by norm_num)]
    norm_num
  obtain ⟨ps, e, hne⟩ := C31_some_plane exSlope exSlope_reachable (x := 4) (x' := 8) (y' := 7)
    (n := 5) (by norm_num) (by norm_num) (by norm_num) (by norm_num) (by norm_num) (by norm_num) hy
  rw [exSlope_topY] at e
  cases ps with
  | nil => exact absurd rfl hne
  | cons p ps =>
    refine ⟨p, ps, e, ?_⟩
    exact C31_through_both exSlope exSlope_reachable e [] p ps rfl (by simp)

/-! ## C32 and C34 -/

/-- C32 (partial): of the planes an analysis reports, every one is an individual plane or has both
end points on its circle and on the ground (`EndsOk`, with the left one more than 1 cm to the left).
An individual plane has so when it is added, and as long as the ground stays as it is. Missing:
when the boundary is changed later, individual planes keep the old end points
(`C32_stale_end_points`). -/
theorem C32_end_points_partial (s : Slope ℝ) (r : Reachable s) :
    (s.individual = [] → ∀ p ∈ s.search, EndsOk s p) ∧
    ((∀ p ∈ s.individual, EndsOk s p) → (∀ p ∈ s.search, EndsOk s p) ∧
      ∀ t, Call s t → t.getExternalY = s.getExternalY → ∀ p ∈ t.individual, EndsOk t p) := by
  have hp := r.placed
  constructor
  · intro h p hp'
    rcases hp p hp' with h1 | ⟨q, hq, _⟩
    · exact h1
    · rw [h] at hq; cases hq
  · intro h
    refine ⟨?_, ?_⟩
    · intro p hp'
      rcases hp p hp' with h1 | ⟨q, hq, h2⟩
      · exact h1
      · exact (h q hq).congr rfl h2
    · intro t c hy p hpt
      have hpl : ({ p with fos := none } : Plane ℝ) ∈ t.places := List.mem_map_of_mem hpt
      have key : ∀ q, q ∈ s.places → EndsOk s q := by
        intro q hq
        obtain ⟨q', h1, rfl⟩ := List.mem_map.mp hq
        exact EndsOk.congr (s := s) (t := s) (p := { q' with fos := none }) (q := q') rfl
          ⟨rfl, rfl, rfl, rfl, rfl⟩ (h q' h1)
      have fin : EndsOk s { p with fos := none } → EndsOk t p :=
        fun h => EndsOk.congr (p := p) (q := { p with fos := none }) hy ⟨rfl, rfl, rfl, rfl, rfl⟩ h
      rcases call_places r.wf c with h1 | h1 | ⟨new, h1, _, h2⟩
      · rw [h1] at hpl; exact fin (key _ hpl)
      · rw [h1] at hpl; cases hpl
      · rw [h1] at hpl
        rcases List.mem_append.mp hpl with h3 | h3
        · exact fin (key _ h3)
        · exact fin (h2 _ h3)

/-- A case of C32 with a result. -/
example : (∀ p ∈ exReady.individual, EndsOk exReady p) ∧ Reachable (exReady.analyseSlope none).1 ∧
    (exReady.analyseSlope none).1.search ≠ [] := by
  refine ⟨?_, exReady_reachable.call (.analyseSlope _ _), by rw [exAnalyse_search]; simp⟩
  have h := ((C32_end_points_partial exSoil exSoil_reachable).2 (by
    intro p hp; cases hp)).2 _ (.addSingleCircularPlane exSoil 9 (35 / 3) (17 / 3))
  rw [exReady_eq] at h
  exact h rfl

/-- C32 fails: after `update_boundary_options(MIN_EXT_L=20)` the recorded right end of the
individual plane of the example is not on the ground any more. -/
theorem C32_stale_end_points :
    ∃ s : Slope ℝ, Reachable s ∧ ∃ p ∈ s.individual, s.getExternalY p.rc.1 ≠ some p.rc.2 := by
  obtain ⟨b, hb⟩ := Option.isSome_iff_exists.mp exReady_reachable.wf.geo.bnd
  have e := updateBoundaryOptions_L exReady_reachable.wf.geo 20 (by norm_num)
  have r := exReady_reachable.call (.updateBoundaryOptions exReady (.num 20) .none)
  rw [e] at r
  refine ⟨_, r, exPlane, ?_, ?_⟩
  · simp [Slope.withGeo, exReady]
  · have hh : exReady.height = 3 := rfl
    have hl : exReady.length = 3 := rfl
    have ht : ∀ t : Slope ℝ, t.minExtL = 20 → totL t 3 3 = 20 := by
      intro t h; unfold totL; rw [h]; norm_num
    have hv : ∀ t : Slope ℝ, t.minExtH = 6 → totH t 3 3 = 9 := by
      intro t h; unfold totH; rw [h]; norm_num
    rw [hh, hl]
    unfold Slope.withGeo
    simp only
    rw [ht _ rfl, hv _ rfl]
    unfold Slope.getExternalY
    simp only [exPlane, lit_zero]
    norm_num

/-- A point of the circle on the ground, on the right side of the centre, is a crossing. -/
theorem Crossing.of_ground {s : Slope ℝ} (g : Geo s) {cx cy r : ℝ} {p : ℝ × ℝ}
    (hc : OnCircle cx cy r p) (hy : s.getExternalY p.1 = some p.2)
    (hl : p.1 < s.topX → p.1 ≤ cx) (hr : s.botX < p.1 → cx ≤ p.1) : Crossing s cx cy r p := by
  have hlen : 0 < s.length := by have := g.len; norm_num at this ⊢; linarith
  have h3 := g.top_lt_bot
  refine ⟨hc, ?_⟩
  have face : s.topX ≤ p.1 → p.1 ≤ s.botX → p.2 = s.topY - (p.1 - s.topX) * s.gradient →
      OnLine (s.topX, s.topY) (s.botX, s.botY) p := by
    intro _ _ h
    unfold OnLine
    simp only
    rw [h, g.botX, g.botY, g.topY, g.grad]
    field_simp
    ring
  unfold Slope.getExternalY at hy
  simp only [lit_zero] at hy
  split_ifs at hy with c1 c2 c3
  · have hy := Option.some.inj hy
    push Not at c1
    rcases c2.lt_or_eq with h | h
    · exact .inl ⟨hy.symm, c1.1, c2, hl h⟩
    · refine .inr (.inr ⟨face h.ge (by rw [h]; exact h3.le) ?_, h.ge, by rw [h]; exact h3.le⟩)
      rw [h, ← hy]; ring
  · have hy := Option.some.inj hy
    push Not at c1
    rcases c3.lt_or_eq with h | h
    · exact .inr (.inl ⟨hy.symm, c3, c1.2, hr h⟩)
    · refine .inr (.inr ⟨face (by rw [← h]; exact h3.le) h.ge ?_, by rw [← h]; exact h3.le, h.ge⟩)
      rw [← h, ← hy, g.botX, g.botY, g.topY, g.grad]
      field_simp
      ring
  · have hy := Option.some.inj hy
    push Not at c2 c3
    exact .inr (.inr ⟨face c2.le c3.le hy.symm, c2.le, c3.le⟩)

/-- C34: the intersections of a circle with the ground are listed from left to right, each more
than 1 cm right of the one before; all are points of the circle on the ground, and none of the
crossings the code looks for is lost except within 3 cm right of a listed one. (Looked for: left of
the centre on the crest, right of the centre at the toe, anywhere on the face.) -/
theorem C34_ordered_and_apart (s : Slope ℝ) (r : Reachable s) (cx cy radius : ℝ) :
    ∃ l, s.circleExternalIntersection cx cy radius = .ok l ∧
      l.Pairwise (fun a b => 0.01 < b.1 - a.1) ∧
      (∀ p ∈ l, OnCircle cx cy radius p ∧ s.getExternalY p.1 = some p.2) ∧
      ∀ p, OnCircle cx cy radius p → s.getExternalY p.1 = some p.2 →
        (p.1 < s.topX → p.1 ≤ cx) → (s.botX < p.1 → cx ≤ p.1) →
        ∃ q ∈ l, q.1 ≤ p.1 ∧ p.1 - q.1 ≤ 0.03 := by
  have g := r.wf.geo
  obtain ⟨l, e, h1, h2, h3⟩ := intersections g cx cy radius
  refine ⟨l, e, h1, fun p hp => ⟨(h2 p hp).1, (h2 p hp).ground g⟩, ?_⟩
  intro p hc hy hl hr
  exact h3 p (Crossing.of_ground g hc hy hl hr)

/-! ## C33 -/

/-- C33: `cirle_line_intersection` returns the common points of the circle and the line through two
different points, each once. -/
theorem C33_circle_line_exact {a b : ℝ × ℝ} (hab : a ≠ b) (cx cy r : ℝ) :
    ∃ l, circleLine a b cx cy r = .ok l ∧ l.Nodup ∧
      ∀ p, p ∈ l ↔ OnCircle cx cy r p ∧ OnLine a b p := by
  obtain ⟨l, h1, h2, h3⟩ := circleLine_spec hab cx cy r
  exact ⟨l, h1, h2.1, h3⟩

/-- Two points, one point and none. -/
example : (∃ l, circleLine ((0 : ℝ), (0 : ℝ)) (1, 0) 0 0 5 = .ok l ∧ (5, 0) ∈ l ∧ (-5, 0) ∈ l) ∧
    (∃ l, circleLine ((0 : ℝ), (5 : ℝ)) (1, 5) 0 0 5 = .ok l ∧ (0, 5) ∈ l ∧ l.length = 1) ∧
    circleLine ((0 : ℝ), (6 : ℝ)) (1, 6) 0 0 5 = .ok [] := by
  refine ⟨?_, ?_, ?_⟩
  · obtain ⟨l, h1, _, h3⟩ := C33_circle_line_exact (a := (0, 0)) (b := (1, 0)) (by simp) 0 0 5
    refine ⟨l, h1, (h3 _).mpr ?_, (h3 _).mpr ?_⟩ <;> simp [OnCircle, OnLine]
  · obtain ⟨l, h1, h2, h3⟩ := C33_circle_line_exact (a := (0, 5)) (b := (1, 5)) (by simp) 0 0 5
    refine ⟨l, h1, (h3 _).mpr (by simp [OnCircle, OnLine]), ?_⟩
    have hmem : ∀ p ∈ l, p = (0, 5) := by
      intro p hp
      obtain ⟨a, b⟩ := (h3 p).mp hp
      simp only [OnCircle, OnLine] at a b
      have hy : p.2 = 5 := by linarith
      have hx : p.1 = 0 := by
        rw [hy] at a
        have : p.1 ^ 2 = 0 := by linarith
        exact pow_eq_zero_iff (by norm_num) |>.mp this
      exact Prod.ext hx hy
    have h5 : (0, 5) ∈ l := (h3 _).mpr (by simp [OnCircle, OnLine])
    match l, h2, hmem, h5 with
    | [a], _, _, _ => rfl
    | a :: b :: rest, h2, hmem, _ =>
      exfalso
      have ha := hmem a (by simp)
      have hb := hmem b (by simp)
      rw [ha, hb] at h2
      simp at h2
  · obtain ⟨l, h1, _, h3⟩ := C33_circle_line_exact (a := (0, 6)) (b := (1, 6)) (by simp) 0 0 5
    rw [h1]
    congr 1
    rw [List.eq_nil_iff_forall_not_mem]
    intro p hp
    obtain ⟨a, b⟩ := (h3 p).mp hp
    simp only [OnCircle, OnLine] at a b
    have hy : p.2 = 6 := by linarith
    rw [hy] at a
    nlinarith [sq_nonneg p.1]

end PySlope
