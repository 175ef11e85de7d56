import Verif.Spec.Ground
import Verif.Lemmas.PlaneHistory

/-! # The end points of a plane are the first two crossings of its own circle -/

namespace PySlope

/-- The end points recorded with a plane are the first two the code finds for its circle. -/
def Own (s : Slope ℝ) (p : Plane ℝ) : Prop :=
  ∃ rest, s.circleExternalIntersection p.cx p.cy p.radius = .ok (p.lc :: p.rc :: rest)

theorem planeLoop_own {s : Slope ℝ} {β e C : ℝ} {num todo : ℕ} {lc rc : ℝ × ℝ} {ps : List (Plane ℝ)}
    (h : s.planeLoop β e C num todo lc rc = .ok ps) : ∀ p ∈ ps, Own s p := by
  induction todo generalizing lc rc ps with
  | zero => cases h; simp
  | succ n ih =>
    unfold Slope.planeLoop at h
    simp only [bind, Except.bind] at h
    split at h
    · cases h
    · rename_i radius _
      split at h
      · cases h
      · rename_i is he
        split at h
        · exact ih h
        · split at h
          · rename_i a b rest _
            split at h
            · cases h
            · rename_i qs hq
              cases h
              intro p hp
              rcases List.mem_cons.mp hp with rfl | hp
              · exact ⟨rest, he⟩
              · exact ih hq p hp
          · cases h

theorem generatePlanes_own {s : Slope ℝ} {l r : ℝ × ℝ} {n : Int} {ps : List (Plane ℝ)}
    (h : s.generatePlanes l r n = .ok ps) : ∀ p ∈ ps, Own s p := by
  unfold Slope.generatePlanes at h
  simp only [bind, Except.bind] at h
  split at h
  · cases h
  · exact planeLoop_own h

theorem entryExitPlanes_own {s : Slope ℝ} {ps : List (Plane ℝ)} (h : s.entryExitPlanes = .ok ps) :
    ∀ p ∈ ps, Own s p :=
  entryExitPlanes_all (fun _ _ _ _ h => generatePlanes_own h) h

/-- The same ground has the same crossings. -/
theorem intersection_congr {s t : Slope ℝ} (gs : Geo s) (gt : Geo t) (h : SameBoundary s t)
    (cx cy r : ℝ) : t.circleExternalIntersection cx cy r = s.circleExternalIntersection cx cy r := by
  obtain ⟨h1, h2, h3, h4⟩ := h
  have a : t.topX = s.topX := by rw [gs.topX, gt.topX, h2, h3]
  have b : t.topY = s.topY := by rw [gs.topY, gt.topY, h4]
  have c : t.botX = s.botX := by rw [gs.botX, gt.botX, h2, a]
  have d : t.botY = s.botY := by rw [gs.botY, gt.botY, h1, h4]
  unfold Slope.circleExternalIntersection
  rw [a, b, c, d, h3]

theorem Own.congr {s t : Slope ℝ} (gs : Geo s) (gt : Geo t) (h : SameBoundary s t) {p q : Plane ℝ}
    (hp : SamePlace p q) (o : Own s q) : Own t p := by
  obtain ⟨rest, e⟩ := o
  obtain ⟨a, b, c, d, r⟩ := hp
  exact ⟨rest, by rw [intersection_congr gs gt h, a, b, c, d, r, e]⟩

theorem SameBoundary.refl (s : Slope ℝ) : SameBoundary s s := ⟨rfl, rfl, rfl, rfl⟩

/-- New individual planes have the end points of their own circles. -/
theorem call_own {s t : Slope ℝ} (w : WF s) (c : Call s t) :
    t.places = s.places ∨ t.places = [] ∨ ∃ new, t.places = s.places ++ new ∧ ∀ p ∈ new, Own s p := by
  rcases (steady_places s.places).call rfl c with h | ⟨l, r, n, rfl⟩ | ⟨x, y, r, rfl⟩ | rfl
  · exact .inl h
  · unfold Slope.addSingleEntryExitPlane
    split
    · rename_i ly ry h1 h2
      cases e : s.generatePlanes (l, ly) (r, ry) n with
      | error x => exact .inl rfl
      | ok ps =>
        right; right
        refine ⟨ps.map (fun p => { p with fos := none }), ?_, ?_⟩
        · simp [Slope.places, Slope.resetResults]
        · intro p hp
          obtain ⟨q, hq, rfl⟩ := List.mem_map.mp hp
          exact generatePlanes_own e q hq
    · exact .inl rfl
  · unfold Slope.addSingleCircularPlane
    cases e : s.circleExternalIntersection x y r with
    | error x => exact .inl rfl
    | ok is =>
      simp only
      split
      · exact .inl rfl
      · split
        · rename_i a b rest _
          right; right
          refine ⟨[{ lc := a, rc := b, cx := x, cy := y, radius := r, fos := none }], ?_, ?_⟩
          · simp [Slope.places, Slope.resetResults]
          · intro p hp; rw [List.mem_singleton.mp hp]; exact ⟨rest, e⟩
        · exact .inl rfl
  · exact .inr (.inl rfl)

theorem call_individual_own {s t : Slope ℝ} (ws : WF s) (wt : WF t) (c : Call s t)
    (h : SameBoundary s t) (o : ∀ p ∈ s.individual, Own s p) : ∀ p ∈ t.individual, Own t p := by
  intro p hp
  have hpl : ({ p with fos := none } : Plane ℝ) ∈ t.places := List.mem_map_of_mem hp
  have key : ∀ q ∈ s.places, Own s q := by
    intro q hq
    obtain ⟨q', h1, rfl⟩ := List.mem_map.mp hq
    exact o q' h1
  have fin : Own s { p with fos := none } → Own t p :=
    fun h' => Own.congr ws.geo wt.geo h (p := p) (q := { p with fos := none }) ⟨rfl, rfl, rfl, rfl, rfl⟩ h'
  rcases call_own ws c with h1 | h1 | ⟨new, h1, h2⟩
  · rw [h1] at hpl; exact fin (key _ hpl)
  · rw [h1] at hpl; cases hpl
  · rw [h1] at hpl
    rcases List.mem_append.mp hpl with h3 | h3
    · exact fin (key _ h3)
    · exact fin (h2 _ h3)

end PySlope
