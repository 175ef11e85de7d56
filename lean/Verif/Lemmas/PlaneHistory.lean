import Verif.Lemmas.Search
import Verif.Lemmas.StableCalls
import Verif.Lemmas.Results

/-! # Planes along a history of calls -/

namespace PySlope
open Lit

/-- `I` survives every assignment of a call that does not add or remove individual planes. -/
structure SteadyAll {K : Type} [PyNum K] (I : Slope K → Prop) : Prop extends Steady I where
  water : ∀ s a b, I s → I { s with waterRL := a, waterDepth := b }
  waterH : ∀ s a, I s → I { s with waterH := a }
  mats : ∀ s a, I s → I { s with materials := a }
  opts : ∀ s n i f t m, (n = s.slices ∨ 10 ≤ n ∧ n ≤ 500) → (i = s.iterations ∨ 500 ≤ i ∧ i ≤ 100000) → I s →
    I { s with slices := n, iterations := i, minFailureDist := f, tolerance := t, maxIterations := m }
  lims : ∀ s a b c d, I s → I { s with lim1 := a, lim2 := b, lim3 := c, lim4 := d }

theorem SteadyAll.call {K : Type} [PyNum K] {I : Slope K → Prop} (S : SteadyAll I) {s t : Slope K} (h : I s)
    (c : Call s t) :
    I t ∨ (∃ l r n, t = (s.addSingleEntryExitPlane l r n).1) ∨
    (∃ x y r, t = (s.addSingleCircularPlane x y r).1) ∨ t = s.removeIndividualPlanes.1 := by
  cases c with
  | setExternalBoundary h' a l => exact .inl (S.setExternalBoundary h _ _ _)
  | setWaterTable d =>
    left
    unfold Slope.setWaterTable
    split
    · exact S.forget _ (S.water _ _ _ h)
    · split
      · exact h
      · exact S.forget _ (S.water _ _ _ h)
  | removeWaterTable => exact .inl (S.forget _ (S.water _ _ _ h))
  | setUdls us _ => exact .inl (S.setUdls h _)
  | removeUdls us all => exact .inl (S.removeUdls h _ _)
  | setLls ls _ => exact .inl (S.setLls h _)
  | removeLls ls all => exact .inl (S.removeLls h _ _)
  | setMaterials ms _ =>
    left
    unfold Slope.setMaterials
    split
    · exact h
    · simp only
      split
      · exact h
      · refine andThen_inv (I := I) _ _ ?_ (fun t _ w => ?_)
        · split
          · exact S.updateBoundaryOptions h _ _
          · exact h
        · split
          · exact w
          · exact S.forget _ (S.mats _ _ w)
  | removeMaterial m d all => exact .inl (S.forget _ (S.mats _ _ h))
  | updateWaterAnalysisOptions a h' =>
    left
    unfold Slope.updateWaterAnalysisOptions
    split
    · exact S.forget _ (S.waterH _ _ h)
    · split
      · exact h
      · exact S.forget _ (S.waterH _ _ h)
  | updateAnalysisOptions a b c d e =>
    left
    obtain ⟨n, i, f, t, m, hn, hi, e⟩ := updateAnalysisOptions_rest s a b c d e
    rw [e]
    exact S.forget _ (S.opts s n i f t m hn hi h)
  | updateBoundaryOptions l h' => exact .inl (S.updateBoundaryOptions h _ _)
  | removeAnalysisLimits =>
    left
    refine andThen_inv (I := I) _ _ ?_ (fun _ _ w => S.forget _ w)
    rcases WFS.setAnalysisLimits_rest s (.num (0 : K)) (.num s.extL) (.num s.topX) (.num s.topX) with
      ⟨l1, l2, l3, l4, e⟩ | ⟨x, e⟩
    · rw [e]; exact S.forget _ (S.lims s l1 l2 l3 l4 h)
    · rw [e]; exact h
  | setAnalysisLimits a b c d =>
    left
    rcases WFS.setAnalysisLimits_rest s a b c d with ⟨l1, l2, l3, l4, e⟩ | ⟨x, e⟩
    · rw [e]; exact S.forget _ (S.lims s l1 l2 l3 l4 h)
    · rw [e]; exact h
  | addSingleEntryExitPlane l r n => exact .inr (.inl ⟨l, r, n, rfl⟩)
  | addSingleCircularPlane x y r => exact .inr (.inr (.inl ⟨x, y, r, rfl⟩))
  | removeIndividualPlanes => exact .inr (.inr (.inr rfl))
  | analyseSlope m => exact .inl (S.analyse _ _ h)
  | analyseDynamic c d => exact .inl (S.analyseDynamic h _ _)

/-- The same circle and end points. -/
def SamePlace (p q : Plane ℝ) : Prop :=
  p.lc = q.lc ∧ p.rc = q.rc ∧ p.cx = q.cx ∧ p.cy = q.cy ∧ p.radius = q.radius

/-- The individual planes without their factors of safety. -/
def Slope.places (s : Slope ℝ) : List (Plane ℝ) := s.individual.map (fun p => { p with fos := none })

theorem analyse_places (s : Slope ℝ) (m : Option ℝ) : (s.analyseSlope m).1.places = s.places := by
  rcases analyseSlope_cases s m with ⟨ps, _, _, e⟩ | ⟨x, _, _, e⟩ | ⟨pre, p, post, x, ind, h1, _, _, h4, e⟩
  · rw [e]; simp [Slope.places, Slope.analysedTo, Function.comp_def, withFos]
  · rw [e]
  · rw [e]
    unfold Slope.places
    simp only
    rw [h4]
    split
    · rename_i h; rw [h]
    · rename_i h
      rcases h1 with ⟨_, h1⟩ | ⟨h1, _⟩
      · rw [← h1]; simp [Function.comp_def, withFos]
      · exact absurd h1 h

theorem steady_places (ps : List (Plane ℝ)) : SteadyAll (fun s => s.places = ps) where
  minH _ _ h := h
  minL _ _ h := h
  setExternalBoundary h a b c := steady_geo (I := fun s => s.places = ps) (fun _ _ _ _ _ h => h) h a b c
  udls _ _ _ h := h
  lls _ _ h := h
  dyn _ _ h := h
  forget _ h := h
  analyse s m h := by rw [analyse_places, h]
  water _ _ _ h := h
  waterH _ _ h := h
  mats _ _ h := h
  opts _ _ _ _ _ _ _ _ h := h
  lims _ _ _ _ _ h := h

theorem EndsOk.congr {s t : Slope ℝ} (h : t.getExternalY = s.getExternalY) {p q : Plane ℝ}
    (hp : SamePlace p q) (e : EndsOk s q) : EndsOk t p := by
  obtain ⟨a, b, c, d, r⟩ := hp
  constructor
  · rw [a, c, d, r]; exact e.lOn
  · rw [b, c, d, r]; exact e.rOn
  · rw [h, a]; exact e.lGround
  · rw [h, b]; exact e.rGround
  · rw [a, b]; exact e.order

/-- What one call does to the list of individual planes. -/
theorem call_places {s t : Slope ℝ} (w : WF s) (c : Call s t) :
    t.places = s.places ∨ t.places = [] ∨
    ∃ new, t.places = s.places ++ new ∧ t.getExternalY = s.getExternalY ∧ ∀ p ∈ new, EndsOk s p := by
  rcases (steady_places s.places).call rfl c with h | ⟨l, r, n, rfl⟩ | ⟨x, y, r, rfl⟩ | rfl
  · exact .inl h
  · unfold Slope.addSingleEntryExitPlane
    split
    · rename_i ly ry h1 h2
      by_cases hx : l = r
      · left
        have : s.generatePlanes (l, ly) (r, ry) n = .error .zeroDivision := by
          unfold Slope.generatePlanes pyDiv
          rw [if_pos (by simp [hx])]
          rfl
        rw [this]
      · obtain ⟨ps, e, _, h3, _⟩ := generatePlanes_spec w.geo (L := (l, ly)) (R := (r, ry)) hx n
        rw [e]
        right; right
        refine ⟨ps, ?_, rfl, fun p hp => (h3 p hp).1⟩
        simp only [Slope.places, Slope.resetResults, List.map_append, List.append_cancel_left_eq]
        calc ps.map (fun p => ({ p with fos := none } : Plane ℝ)) = ps.map id :=
              List.map_congr_left (fun p hp => by
                have := (h3 p hp).2
                cases p; simp only at this; subst this; rfl)
          _ = ps := List.map_id _
    · exact .inl rfl
  · unfold Slope.addSingleCircularPlane
    obtain ⟨l, e, _⟩ := intersections w.geo x y r
    rw [e]
    simp only
    rcases two_first w.geo e with h | ⟨a, b, rest, rfl, h, hok⟩
    · rw [if_pos h]; exact .inl rfl
    · rw [if_neg h]
      right; right
      refine ⟨[{ lc := a, rc := b, cx := x, cy := y, radius := r, fos := none }], ?_, rfl, ?_⟩
      · simp [Slope.places, Slope.resetResults]
      · intro p hp; rw [List.mem_singleton.mp hp]; exact hok
  · exact .inr (.inl rfl)

/-- Results are individual planes, or have their end points on their circle and on the ground. -/
def ResultsPlaced (s : Slope ℝ) : Prop :=
  ∀ p ∈ s.search, EndsOk s p ∨ ∃ q ∈ s.individual, SamePlace p q

theorem ResultsPlaced.congr {s t : Slope ℝ} (h : ResultsPlaced s)
    (hy : t.getExternalY = s.getExternalY) (h1 : t.search = s.search)
    (h2 : t.individual = s.individual) : ResultsPlaced t := by
  intro p hp
  rw [h1] at hp
  rcases h p hp with h | h
  · exact .inl (h.congr hy ⟨rfl, rfl, rfl, rfl, rfl⟩)
  · rw [h2]; exact .inr h

theorem Geo.congr {s t : Slope ℝ} (g : Geo s) (h1 : t.extBoundary = s.extBoundary)
    (h2 : t.height = s.height) (h3 : t.length = s.length) (h4 : t.gradient = s.gradient)
    (h5 : t.topX = s.topX) (h6 : t.topY = s.topY) (h7 : t.botX = s.botX) (h8 : t.botY = s.botY)
    (h9 : t.extL = s.extL) (h10 : t.extH = s.extH) : Geo t := by
  constructor
  · rw [h1]; exact g.bnd
  · rw [h2]; exact g.hgt
  · rw [h3]; exact g.len
  · rw [h4, h2, h3]; exact g.grad
  · rw [h5, h9, h3]; exact g.topX
  · rw [h6, h10]; exact g.topY
  · rw [h7, h5, h3]; exact g.botX
  · rw [h8, h10, h2]; exact g.botY
  · rw [h3, h9]; exact g.extL5
  · rw [h2, h9]; exact g.extL4
  · rw [h2, h10]; exact g.extH3
  · rw [h3, h10]; exact g.extH5

theorem samePlace_withFos (s : Slope ℝ) (p : Plane ℝ) : SamePlace (withFos s p) p :=
  ⟨rfl, rfl, rfl, rfl, rfl⟩

theorem analysed_placed {s : Slope ℝ} (g : Geo s) {ps : List (Plane ℝ)} (h : Analysed s ps) :
    ∀ p ∈ ps, EndsOk s p ∨ ∃ q ∈ s.individual, SamePlace p q := by
  intro p hp
  rcases h with ⟨_, rfl⟩ | ⟨_, h⟩
  · exact .inr ⟨p, hp, rfl, rfl, rfl, rfl, rfl⟩
  · exact .inl (entryExitPlanes_ends g h p hp).1

theorem analyse_placed {s : Slope ℝ} (g : Geo s) (m : Option ℝ) (hs : ResultsPlaced s) :
    ResultsPlaced (s.analyseSlope m).1 := by
  have key : ∀ t : Slope ℝ, t.getExternalY = s.getExternalY → t.places = s.places →
      (∀ p ∈ t.search, ∃ q, SamePlace p q ∧
        (EndsOk s q ∨ ∃ q' ∈ s.individual, SamePlace q q')) → ResultsPlaced t := by
    intro t hy hpl h p hp
    obtain ⟨q, h1, h2 | ⟨q', h2, h3⟩⟩ := h p hp
    · exact .inl (h2.congr hy h1)
    · right
      have : ({ q' with fos := none } : Plane ℝ) ∈ t.places := by
        rw [hpl]; exact List.mem_map_of_mem h2
      obtain ⟨q'', h4, h5⟩ := List.mem_map.mp this
      have h6 : SamePlace q'' q' := by
        cases q''; cases q'; simp only [Plane.mk.injEq] at h5
        obtain ⟨a, b, c, d, e, _⟩ := h5
        exact ⟨a, b, c, d, e⟩
      refine ⟨q'', h4, ?_⟩
      obtain ⟨a, b, c, d, e⟩ := h1
      obtain ⟨a1, b1, c1, d1, e1⟩ := h3
      obtain ⟨a2, b2, c2, d2, e2⟩ := h6
      exact ⟨by rw [a, a1, a2], by rw [b, b1, b2], by rw [c, c1, c2], by rw [d, d1, d2],
        by rw [e, e1, e2]⟩
  have hpl := analyse_places s m
  rcases analyseSlope_cases s m with ⟨ps, h1, _, e⟩ | ⟨x, _, _, e⟩ | ⟨pre, p, post, x, ind, h1, _, _, h4, e⟩
  · rw [e] at hpl ⊢
    refine key _ rfl hpl ?_
    intro p hp
    obtain ⟨q, hq, rfl⟩ := List.mem_map.mp (mem_tidySearch (hp : p ∈ tidySearch m _)).1
    exact ⟨q, samePlace_withFos s q, analysed_placed g h1 q hq⟩
  · rw [e]; exact hs
  · rw [e] at hpl ⊢
    refine key _ rfl hpl ?_
    intro q hq
    rcases List.mem_append.mp (hq : q ∈ pre.map (withFos s) ++ p :: post) with hq | hq
    · obtain ⟨q', hq', rfl⟩ := List.mem_map.mp hq
      exact ⟨q', samePlace_withFos s q', analysed_placed g h1 q' (List.mem_append_left _ hq')⟩
    · exact ⟨q, ⟨rfl, rfl, rfl, rfl, rfl⟩, analysed_placed g h1 q (List.mem_append_right _ hq)⟩

theorem Geo.withGeo (s : Slope ℝ) {h l : ℝ} (hh : 0 ≤ h) (hl : 0.001 ≤ l) : Geo (s.withGeo h l) :=
  ⟨rfl, hh, hl, rfl, rfl, rfl, rfl, rfl, totL_ge s h l, le_max_right _ _,
    (le_max_left _ _).trans (le_max_left _ _), le_max_right _ _⟩

theorem steady_placed : SteadyAll (fun s => Geo s ∧ ResultsPlaced s) where
  minH s _ h := ⟨h.1.congr rfl rfl rfl rfl rfl rfl rfl rfl rfl rfl, h.2.congr rfl rfl rfl⟩
  minL s _ h := ⟨h.1.congr rfl rfl rfl rfl rfl rfl rfl rfl rfl rfl, h.2.congr rfl rfl rfl⟩
  setExternalBoundary h a b c := steady_geo (I := fun s => Geo s ∧ ResultsPlaced s) (fun s _ _ ha hb _ =>
    ⟨Geo.withGeo s ha hb, by intro p hp; exact absurd hp (by simp [Slope.withGeo])⟩) h a b c
  udls s _ _ h := ⟨h.1.congr rfl rfl rfl rfl rfl rfl rfl rfl rfl rfl, h.2.congr rfl rfl rfl⟩
  lls s _ h := ⟨h.1.congr rfl rfl rfl rfl rfl rfl rfl rfl rfl rfl, h.2.congr rfl rfl rfl⟩
  dyn s _ h := ⟨h.1.congr rfl rfl rfl rfl rfl rfl rfl rfl rfl rfl, h.2.congr rfl rfl rfl⟩
  forget s h := ⟨h.1.congr rfl rfl rfl rfl rfl rfl rfl rfl rfl rfl,
    by intro p hp; exact absurd hp (by simp)⟩
  analyse s m h := by
    refine ⟨?_, analyse_placed h.1 m h.2⟩
    rcases analyseSlope_cases s m with ⟨ps, _, _, e⟩ | ⟨x, _, _, e⟩ | ⟨pre, p, post, x, ind, _, _, _, _, e⟩
    · rw [e]; exact h.1.congr rfl rfl rfl rfl rfl rfl rfl rfl rfl rfl
    · rw [e]; exact h.1
    · rw [e]; exact h.1.congr rfl rfl rfl rfl rfl rfl rfl rfl rfl rfl
  water s _ _ h := ⟨h.1.congr rfl rfl rfl rfl rfl rfl rfl rfl rfl rfl, h.2.congr rfl rfl rfl⟩
  waterH s _ h := ⟨h.1.congr rfl rfl rfl rfl rfl rfl rfl rfl rfl rfl, h.2.congr rfl rfl rfl⟩
  mats s _ h := ⟨h.1.congr rfl rfl rfl rfl rfl rfl rfl rfl rfl rfl, h.2.congr rfl rfl rfl⟩
  opts s _ _ _ _ _ _ _ h := ⟨h.1.congr rfl rfl rfl rfl rfl rfl rfl rfl rfl rfl, h.2.congr rfl rfl rfl⟩
  lims s _ _ _ _ h := ⟨h.1.congr rfl rfl rfl rfl rfl rfl rfl rfl rfl rfl, h.2.congr rfl rfl rfl⟩

theorem call_placed {s t : Slope ℝ} (w : WF s) (h : ResultsPlaced s) (c : Call s t) :
    ResultsPlaced t := by
  have nil : ∀ t : Slope ℝ, t.search = [] → ResultsPlaced t := by
    intro t ht p hp; rw [ht] at hp; cases hp
  rcases steady_placed.call ⟨w.geo, h⟩ c with h' | ⟨l, r, n, rfl⟩ | ⟨x, y, r, rfl⟩ | rfl
  · exact h'.2
  · unfold Slope.addSingleEntryExitPlane
    split
    · split
      · exact h
      · exact nil _ rfl
    · exact h
  · unfold Slope.addSingleCircularPlane
    split
    · exact h
    · split
      · exact h
      · split
        · exact nil _ rfl
        · exact h
  · exact nil _ rfl

theorem Reachable.placed {s : Slope ℝ} (r : Reachable s) : ResultsPlaced s := by
  induction r with
  | init e =>
    rename_i h a l s
    have : s.search = [] := by
      rw [new_eq] at e
      cases hb : (boundaryInputs h a l : Except PyErr (ℝ × ℝ)) with
      | error x => rw [hb] at e; cases e
      | ok hl => rw [hb] at e; cases e; rfl
    intro p hp; rw [this] at hp; cases hp
  | call r c ih => exact call_placed r.wf ih c

end PySlope
