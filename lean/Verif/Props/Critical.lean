import Verif.Lemmas.Own
import Verif.Props.Fos

/-! # C72: what a reported factor of safety is -/

namespace PySlope

theorem settled_own {s0 : Slope ℝ} (r : Reachable s0) {before after : List (Op ℝ)}
    (hv : ∀ o ∈ before ++ after, o.Valid) (hs : SettledGround before after s0) :
    ∀ p ∈ (runAll (before ++ after) s0).individual, Own (runAll (before ++ after) s0) p := by
  have key : ∀ pre post, after = pre ++ post →
      ∀ p ∈ (runAll (before ++ pre) s0).individual, Own (runAll (before ++ pre) s0) p := by
    intro pre
    induction pre using List.reverseRecOn with
    | nil => intro post _ p hp; rw [List.append_nil, hs.1] at hp; cases hp
    | append_singleton pre o ih =>
      intro post hpost
      have h1 := ih (o :: post) (by rw [hpost]; simp)
      have hv' : ∀ x ∈ before ++ pre, x.Valid := by
        intro x hx
        apply hv
        rw [hpost]
        simp only [List.mem_append, List.mem_singleton] at hx ⊢
        tauto
      have hvo : o.Valid := hv o (by rw [hpost]; simp)
      have r1 := r.runAll hv'
      have e : runAll (before ++ (pre ++ [o])) s0 = (o.run (runAll (before ++ pre) s0)).1 := by
        rw [← List.append_assoc, runAll_append]; rfl
      have c : Call (runAll (before ++ pre) s0) (runAll (before ++ (pre ++ [o])) s0) := by
        rw [e]; exact Op.call hvo
      obtain ⟨a1, a2, a3, a4⟩ := hs.2 pre (o :: post) (by rw [hpost]; simp)
      obtain ⟨b1, b2, b3, b4⟩ := hs.2 (pre ++ [o]) post hpost
      exact call_individual_own r1.wf (r1.call c).wf c
        ⟨by rw [← b1, a1], by rw [← b2, a2], by rw [← b3, a3], by rw [← b4, a4]⟩ h1
  exact key after [] (by simp)

/-- C72: after any history in which no analysis raised, and in which the boundary has not changed
since the first individual plane was added, every result is a circle with its first two crossings with
the ground as end points, and its factor of safety is the one Bishop's iteration gives for the slices
between these end points, with the materials, loads, water and options the object has now. -/
theorem C72_result_is_bishop {h a l : PyVal ℝ} {s0 : Slope ℝ} (e : Slope.new h a l = .ok s0)
    (before after : List (Op ℝ)) (hv : ∀ o ∈ before ++ after, o.Valid) (hq : Quiet (before ++ after) s0)
    (hs : SettledGround before after s0) :
    let s := runAll (before ++ after) s0
    (∀ p ∈ s.search, ∃ F, p.fos = some (some F) ∧ FirstCrossings s p.cx p.cy p.radius p.lc p.rc ∧
      BishopValue s p.cx p.cy p.radius p.lc.1 p.rc.1 F) ∧
    ∀ F, s.getMinFos = .ok F → ∃ cx cy r lc rc x, F = some x ∧
      s.getMinFosCircle = .ok (cx, cy, r) ∧ s.getMinFosEndPoints = .ok (lc, rc) ∧
      FirstCrossings s cx cy r lc rc ∧ BishopValue s cx cy r lc.1 rc.1 x := by
  intro s
  have r : Reachable s := (Reachable.init e).runAll hv
  have main : ∀ p ∈ s.search, ∃ F, p.fos = some (some F) ∧
      FirstCrossings s p.cx p.cy p.radius p.lc p.rc ∧
      BishopValue s p.cx p.cy p.radius p.lc.1 p.rc.1 F := by
    intro p hp
    rcases C23_no_stale_results e _ hv hq with h0 | ⟨m, h1, h2⟩
    · change s.search = [] at h0; rw [h0] at hp; cases hp
    · change (s.analyseSlope m).2 = _ at h1
      change (s.analyseSlope m).1.search = s.search at h2
      have h3 : s.analyseSlope m = ((s.analyseSlope m).1, .ok ()) := by rw [← h1]
      obtain ⟨ps, h4, h5, h6⟩ := analyseSlope_ok h3
      rw [← h2, h6] at hp
      change p ∈ tidySearch m _ at hp
      have hsome : p.fosVal.isSome := by
        rw [tidySearch_eq] at hp
        exact (List.mem_filter.mp ((sortByKey_perm _ _).mem_iff.mp (List.mem_filter.mp hp).1)).2
      obtain ⟨q, hq', rfl⟩ := List.mem_map.mp (mem_tidySearch hp).1
      rw [fosVal_withFos] at hsome
      obtain ⟨F, hF⟩ := Option.isSome_iff_exists.mp hsome
      have own : Own s q := by
        rcases h4 with ⟨_, rfl⟩ | ⟨_, h4⟩
        · exact settled_own (.init e) hv hs q hq'
        · exact entryExitPlanes_own h4 q hq'
      refine ⟨F, by simp [withFos, hF], ?_⟩
      obtain ⟨l', rt', F0, he, ho, hl⟩ := bishop_spec r (fosOf_some.mp hF)
      obtain ⟨⟨rest, e1⟩, e2⟩ := bishopEnds_first r.wf.geo he
      obtain ⟨rest', e3⟩ := own
      rw [e1] at e3
      cases e3
      exact ⟨e2, bishopLoop_value r ho hl⟩
  refine ⟨main, ?_⟩
  intro F hF
  unfold Slope.getMinFos at hF
  cases hc : s.search with
  | nil => rw [hc] at hF; cases hF
  | cons p rest =>
    obtain ⟨x, h1, h2, h3⟩ := main p (by rw [hc]; simp)
    rw [hc] at hF
    simp only [h1] at hF
    cases hF
    refine ⟨p.cx, p.cy, p.radius, p.lc, p.rc, x, rfl, ?_, ?_, h2, h3⟩
    · unfold Slope.getMinFosCircle; rw [hc]
    · unfold Slope.getMinFosEndPoints; rw [hc]

/-- A case of C72 with a result: a material, then a circle and an analysis. -/
example : SettledGround [.setMaterials [some (exMat 2)]]
      [.addSingleCircularPlane 9 (35 / 3) (17 / 3), .analyseSlope none] exSlope ∧
    (runAll exHistory exSlope).getMinFos = .ok (some exFos) := by
  obtain ⟨x, y, e, _⟩ := C25_configuration_untouched exReady none
  refine ⟨⟨?_, ?_⟩, by rw [exHistory_run, exMinFos]⟩
  · simp only [runAll, Op.run, exSoil_eq]; rfl
  · intro pre post h
    have last : runAll ([.setMaterials [some (exMat 2)]] ++
        [.addSingleCircularPlane 9 (35 / 3) (17 / 3), .analyseSlope none]) exSlope =
        { exReady with search := x, individual := y } := by
      rw [← e]; exact exHistory_run
    rw [last]
    rcases pre with _ | ⟨a, _ | ⟨b, _ | ⟨c, pre⟩⟩⟩
    · simp only [List.append_nil, runAll, Op.run, exSoil_eq]
      exact ⟨rfl, rfl, rfl, rfl⟩
    · simp only [List.cons_append, List.nil_append, List.cons.injEq] at h
      obtain ⟨rfl, _⟩ := h
      simp only [List.cons_append, List.nil_append, runAll, Op.run, exSoil_eq, exReady_eq]
      exact ⟨rfl, rfl, rfl, rfl⟩
    · simp only [List.cons_append, List.nil_append, List.cons.injEq] at h
      obtain ⟨rfl, rfl, _⟩ := h
      rw [last]
      exact ⟨rfl, rfl, rfl, rfl⟩
    · simp at h

end PySlope
