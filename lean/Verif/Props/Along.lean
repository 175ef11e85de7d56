import Verif.Spec.Along
import Verif.Props.LastLater

/-! # C132: analyses made along the way make no difference -/

namespace PySlope

/-- Two slopes that differ in the results only. -/
structure AgreeBut (u v : Unread) : Prop where
  table : u.rl = v.rl ∧ u.depth = v.depth
  factor : u.factor = v.factor
  slices : u.slices = v.slices
  iterations : u.iterations = v.iterations
  dist : u.dist = v.dist
  tolerance : u.tolerance = v.tolerance
  turns : u.turns = v.turns
  planes : u.planes.map Plane.bare = v.planes.map Plane.bare

theorem AgreeBut.next {u v u' v' : Unread} (a : AgreeBut u v) (k : StillAgree Plane.bare u v u' v') : AgreeBut u' v' :=
  ⟨k.table a.table, k.factor a.factor, k.slices a.slices, k.iterations a.iterations, k.dist a.dist,
    k.tolerance a.tolerance, k.turns a.turns, k.planes a.planes⟩

theorem analyse_but_outcome {s : Slope ℝ} {u : Unread} (a : AgreeBut u s.unread) (m : Option ℝ) :
    ((s.put u).analyseSlope m).2 = (s.analyseSlope m).2 := by
  obtain ⟨x, y, z, n, i, f, t, k, q, l⟩ := u
  obtain ⟨⟨h1, h2⟩, h3, h4, h5, h6, h7, h8, h9⟩ := a
  simp only at h1 h2 h3 h4 h5 h6 h7 h8 h9
  subst h1 h2 h3 h4 h5 h6 h7 h8
  generalize e : s.put _ = v
  have hS : SameSetup s v := by subst e; exact .res s q l
  have hi : v.individual = l := by subst e; rfl
  rw [analyse_second, analyse_second, hi]
  change l.map Plane.bare = s.individual.map Plane.bare at h9
  generalize s.individual = l' at h9
  rcases l with _ | ⟨p, l⟩ <;> rcases l' with _ | ⟨p', l'⟩
  · simp only [hS.entryExitPlanes, hS.fillFos]
  · simp at h9
  · simp at h9
  · simp only [hS.fillFos, fillFos_outcome s h9]

theorem analyse_but {s : Slope ℝ} {u : Unread} (a : AgreeBut u s.unread) {m : Option ℝ}
    (ok : (s.analyseSlope m).2 = .ok ()) : (s.put u).analyseSlope m = s.analyseSlope m := by
  obtain ⟨x, y, z, n, i, f, t, k, q, l⟩ := u
  obtain ⟨⟨h1, h2⟩, h3, h4, h5, h6, h7, h8, h9⟩ := a
  simp only at h1 h2 h3 h4 h5 h6 h7 h8 h9
  subst h1 h2 h3 h4 h5 h6 h7 h8
  have e1 : ({ s with search := q } : Slope ℝ).analyseSlope m = s.analyseSlope m := by
    obtain ⟨ps, h1, h2, h3⟩ := analyseSlope_ok (s := s) (t := (s.analyseSlope m).1) (m := m) (Prod.ext rfl ok)
    have hS : SameSetup s { s with search := q } := .res s q s.individual
    rw [analyseSlope_of ((hS.analysed rfl ps).mpr h1) (fun p hp x => by rw [hS.raises]; exact h2 p hp x),
      analyseSlope_of h1 h2]
    unfold Slope.analysedTo
    rw [hS.withFos]
  exact (analyse_bare_eq (s := { s with search := q }) (l := l) h9 (m := m) (by rw [e1]; exact ok)).trans e1

theorem put_along {s : Slope ℝ} (r : Reachable s) (u : Unread) (ru : Reachable (s.put u)) (a : AgreeBut u s.unread)
    (os : List (Op ℝ)) (hv : ∀ o ∈ os, o.Valid) (hd : ∀ o ∈ os, ∀ c d, o ≠ .analyseDynamic c d) :
    (∃ u', runAll os (s.put u) = (runAll (withoutAnalyses os) s).put u' ∧
        AgreeBut u' (runAll (withoutAnalyses os) s).unread) ∧
      (answers os (s.put u)).filter (fun x => !x.1.isPlainAnalysis) = answers (withoutAnalyses os) s := by
  induction os generalizing s u with
  | nil => exact ⟨⟨u, rfl, a⟩, rfl⟩
  | cons o os ih =>
    have v := hv o (by simp)
    have hv' : ∀ o ∈ os, o.Valid := fun o h => hv o (List.mem_cons_of_mem _ h)
    have hd' : ∀ o ∈ os, ∀ c d, o ≠ .analyseDynamic c d := fun o h => hd o (List.mem_cons_of_mem _ h)
    by_cases hp : o.isPlainAnalysis = true
    · obtain ⟨m, rfl⟩ : ∃ m, o = .analyseSlope m := by
        cases o <;> first | exact ⟨_, rfl⟩ | cases hp
      have ew : withoutAnalyses (.analyseSlope m :: os) = withoutAnalyses os := rfl
      obtain ⟨x, y, e⟩ := analyseSlope_keeps (s.put u) m
      have hb := (analyseSlope_bare (s.put u) m).2
      have e' : ((s.put u).analyseSlope m).1 = s.put { u with search := x, planes := y } := e
      rw [e] at hb
      have ru' : Reachable (s.put { u with search := x, planes := y }) := by
        rw [← e']
        exact ru.call (.analyseSlope _ m)
      obtain ⟨h1, h2⟩ := ih r { u with search := x, planes := y } ru'
        ⟨a.table, a.factor, a.slices, a.iterations, a.dist, a.tolerance, a.turns, hb.trans a.planes⟩ hv' hd'
      rw [← e'] at h1 h2
      exact ⟨h1, h2⟩
    · have ew : withoutAnalyses (o :: os) = o :: withoutAnalyses os :=
        List.filter_cons_of_pos (by simpa using hp)
      obtain ⟨u', e, k⟩ := put_run Plane.bare r u ru o v (fun m h => hp (by rw [h]; rfl)) (hd o (by simp))
      have r2 : Reachable ((o.run s).1.put u') := by
        have := ru.call (Op.call v)
        rwa [e] at this
      obtain ⟨h1, h2⟩ := ih (r.call (Op.call v)) u' r2 (a.next k) hv' hd'
      rw [ew]
      refine ⟨?_, ?_⟩
      · change ∃ u', runAll os (o.run (s.put u)).1 = _ ∧ _
        rw [e]
        exact h1
      · change ((o, (o.run (s.put u)).2) :: answers os (o.run (s.put u)).1).filter _ =
          (o, (o.run s).2) :: answers (withoutAnalyses os) (o.run s).1
        rw [e, List.filter_cons_of_pos (by simpa using hp), h2]

/-- C132: analyses made along the way make no difference to what the other calls answer. -/
theorem C132_answers (s : Slope ℝ) (r : Reachable s) (os : List (Op ℝ)) (hv : ∀ o ∈ os, o.Valid)
    (hd : ∀ o ∈ os, ∀ c d, o ≠ .analyseDynamic c d) :
    (answers os s).filter (fun x => !x.1.isPlainAnalysis) = answers (withoutAnalyses os) s :=
  (put_along (s := s) r s.unread r ⟨⟨rfl, rfl⟩, rfl, rfl, rfl, rfl, rfl, rfl, rfl⟩ os hv hd).2

/-- C132: nor to an analysis at the end: it raises the same or ends as without them, and if it ends, it leaves the same
slope and results. -/
theorem C132_analysis (s : Slope ℝ) (r : Reachable s) (os : List (Op ℝ)) (hv : ∀ o ∈ os, o.Valid)
    (hd : ∀ o ∈ os, ∀ c d, o ≠ .analyseDynamic c d) (m : Option ℝ) :
    ((runAll os s).analyseSlope m).2 = ((runAll (withoutAnalyses os) s).analyseSlope m).2 ∧
    (((runAll (withoutAnalyses os) s).analyseSlope m).2 = .ok () →
      (runAll os s).analyseSlope m = (runAll (withoutAnalyses os) s).analyseSlope m) := by
  obtain ⟨⟨u, e, a⟩, -⟩ :=
    put_along (s := s) r s.unread r ⟨⟨rfl, rfl⟩, rfl, rfl, rfl, rfl, rfl, rfl, rfl⟩ os hv hd
  change runAll os s = _ at e
  rw [e]
  exact ⟨analyse_but_outcome a m, analyse_but a⟩

/-- A case: two analyses, one before the circle is there and one after. -/
example : let os : List (Op ℝ) := [.setMaterials [some (exMat 2)], .analyseSlope (some 3),
      .addSingleCircularPlane 9 (35 / 3) (17 / 3), .analyseSlope none]
    (runAll os exSlope).analyseSlope none = exReady.analyseSlope none ∧ (exReady.analyseSlope none).1.search ≠ [] := by
  intro os
  have e : runAll (withoutAnalyses os) exSlope = exReady := by
    change ((exSlope.setMaterials [some (exMat 2)]).1.addSingleCircularPlane 9 (35 / 3) (17 / 3)).1 = exReady
    rw [exSoil_eq, exReady_eq]
  refine ⟨?_, by rw [exAnalyse_search]; simp⟩
  rw [← e]
  refine (C132_analysis exSlope exSlope_reachable os ?_ ?_ none).2 (by rw [e, exAnalyse])
  · intro o ho
    simp only [os, List.mem_cons, List.not_mem_nil, or_false] at ho
    rcases ho with rfl | rfl | rfl | rfl
    · intro m hm
      simp only [List.mem_singleton, Option.some.injEq] at hm
      subst hm
      exact exMat_constructed _
    all_goals trivial
  · intro o ho c d
    simp only [os, List.mem_cons, List.not_mem_nil, or_false] at ho
    rcases ho with rfl | rfl | rfl | rfl <;> exact nofun

end PySlope
