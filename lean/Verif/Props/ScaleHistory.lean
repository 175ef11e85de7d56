import Verif.Lemmas.ScaleCalls
import Verif.Props.FosLaws

/-! # Property C42 for whole histories -/

namespace PySlope

theorem times_op {k : ℝ} (hk : 0 < k) (s : Slope ℝ) (o : Op ℝ) (hd : o.IsAnalysis → Dry s) :
    (o.times k).run (s.times k) = ((o.run s).1.times k, (o.run s).2) := by
  cases o with
  | setExternalBoundary h a l => exact times_setExternalBoundary h a l s
  | setWaterTable d => exact times_setWaterTable d s
  | removeWaterTable => exact times_setWaterTable .none s
  | setUdls us => exact times_setUdls hk us s
  | removeUdls us all => exact times_removeUdls hk us all s
  | setLls ls => exact times_setLls hk ls s
  | removeLls ls all => exact times_removeLls hk ls all s
  | setMaterials ms => exact times_setMaterials ms s
  | removeMaterial m d all => exact times_removeMaterial hk m d all s
  | updateWaterAnalysisOptions auto h => exact times_updateWaterAnalysisOptions auto h s
  | updateAnalysisOptions n i f t m => exact times_updateAnalysisOptions n i f t m s
  | updateBoundaryOptions l h => exact times_updateBoundaryOptions l h s
  | removeAnalysisLimits => exact times_removeAnalysisLimits s
  | setAnalysisLimits a b c d => exact times_setAnalysisLimits a b c d s
  | addSingleEntryExitPlane l r n => exact times_addSingleEntryExitPlane l r n s
  | addSingleCircularPlane x y r => exact times_addSingleCircularPlane x y r s
  | removeIndividualPlanes => rfl
  | analyseSlope m => exact times_analyseSlope hk (hd trivial) m
  | analyseDynamic c d =>
    change (((s.times k).analyseDynamic c d).1, ((s.times k).analyseDynamic c d).2.map _) = _
    have e := (times_analyseDynamic hk c d s (hd trivial)).1
    simp only at e
    rw [e]
    rfl

/-- `Slope.init` from any object. -/
def Slope.initFrom {K : Type} [PyNum K] (h a l : PyVal K) (s : Slope K) : Out K Unit :=
  (s.updateBoundaryOptions (.num (@OfNat.ofNat K 10 (Lit.natLit 10)))
    (.num (@OfNat.ofNat K 6 (Lit.natLit 6)))).andThen fun s _ =>
  (s.setExternalBoundary h a l).andThen fun s _ =>
  (s.updateAnalysisOptions (some 25) (some 1000) (some (@OfNat.ofNat K 0 (Lit.natLit 0))) (some 0.005)
    (some 15)).andThen fun s _ =>
  (s.updateWaterAnalysisOptions true (.num (@OfNat.ofNat K 1 (Lit.natLit 1)))).andThen fun s _ =>
    s.removeAnalysisLimits

theorem init_from {K : Type} [PyNum K] (h a l : PyVal K) :
    (Slope.init h a l : Out K Unit) = Slope.initFrom h a l Slope.blank := rfl

theorem times_new (k : ℝ) {h a l : PyVal ℝ} {s : Slope ℝ} (e : Slope.new h a l = .ok s) : s.times k = s := by
  have c : Comm k (Slope.initFrom h a l) (Slope.initFrom h a l) :=
    Comm.andThen (times_updateBoundaryOptions _ _) fun _ => Comm.andThen (times_setExternalBoundary h a l)
      fun _ => Comm.andThen (times_updateAnalysisOptions _ _ _ _ _) fun _ =>
        Comm.andThen (times_updateWaterAnalysisOptions _ _) fun _ => times_removeAnalysisLimits
  have i : Slope.init h a l = (((Slope.init h a l).1.times k, (Slope.init h a l).2) : Out ℝ Unit) := by
    rw [init_from]
    exact c Slope.blank
  unfold Slope.new at e
  generalize Slope.init h a l = x at e i
  obtain ⟨x, y⟩ := x
  cases y with
  | error => cases e
  | ok u =>
    cases e
    exact (Prod.mk.inj i).1.symm

theorem times_history {k : ℝ} (hk : 0 < k) (s : Slope ℝ) (os : List (Op ℝ))
    (hd : ∀ pre o post, os = pre ++ o :: post → o.IsAnalysis → Dry (runAll pre s)) :
    runAll (os.map (Op.times k)) (s.times k) = (runAll os s).times k ∧
      outcomes (os.map (Op.times k)) (s.times k) = outcomes os s := by
  induction os generalizing s with
  | nil => exact ⟨rfl, rfl⟩
  | cons o os ih =>
    have e := times_op hk s o (hd [] o os rfl)
    obtain ⟨i1, i2⟩ := ih (o.run s).1 fun pre o' post h ha => hd (o :: pre) o' post (by rw [h]; rfl) ha
    simp only [List.map_cons, runAll, outcomes]
    rw [e]
    exact ⟨i1, by rw [i2]⟩

/-- C42 for histories: take any sequence of public calls on a new slope in which no analysis runs while
there is water, and the same sequence with the unit weights and cohesions of all materials and the
magnitudes of all loads multiplied by `k > 0`. Every call returns or raises as before. At the end the
planes kept with their factors of safety, the minimum, the results by offset, the ground and the limits
are the same, and the materials and loads of the object are the multiplied ones. -/
theorem C42_history (k : ℝ) (hk : 0 < k) (h a l : PyVal ℝ) (s0 : Slope ℝ) (h0 : Slope.new h a l = .ok s0)
    (os : List (Op ℝ)) (hd : ∀ pre o post, os = pre ++ o :: post → o.IsAnalysis → Dry (runAll pre s0)) :
    outcomes (os.map (Op.times k)) s0 = outcomes os s0 ∧
    (runAll (os.map (Op.times k)) s0).search = (runAll os s0).search ∧
    (runAll (os.map (Op.times k)) s0).individual = (runAll os s0).individual ∧
    (runAll (os.map (Op.times k)) s0).getMinFos = (runAll os s0).getMinFos ∧
    (runAll (os.map (Op.times k)) s0).dynResults = (runAll os s0).dynResults ∧
    SameFrame (runAll os s0) (runAll (os.map (Op.times k)) s0) ∧
    (runAll (os.map (Op.times k)) s0).materials.map (·.mat) =
      (runAll os s0).materials.map (·.mat.times k) ∧
    (runAll (os.map (Op.times k)) s0).udls.map (·.load) = (runAll os s0).udls.map (·.load.times k) ∧
    (runAll (os.map (Op.times k)) s0).lls.map (·.load) = (runAll os s0).lls.map (·.load.times k) := by
  obtain ⟨e1, e2⟩ := times_history hk s0 os hd
  rw [times_new k h0] at e1 e2
  rw [e1]
  refine ⟨e2, rfl, rfl, rfl, rfl, times_frame _, ?_, ?_, ?_⟩ <;>
    simp [Slope.times, Function.comp_def]

/-- A case of C42 for histories: a cohesive material with friction, water that is removed again, then an
analysis; at twice the unit weight and cohesion both materials can be built. -/
example : ∃ os : List (Op ℝ), (∀ o ∈ os, o.Valid) ∧ (∀ o ∈ os.map (Op.times 2), o.Valid) ∧
    (∀ pre o post, os = pre ++ o :: post → o.IsAnalysis → Dry (runAll pre exSlope)) ∧
    os.map (Op.times 2) ≠ os ∧ ∃ o ∈ os, o.IsAnalysis := by
  refine ⟨[.setMaterials [some (exFric 30 5)], .setWaterTable (.num 1), .removeWaterTable,
    .analyseSlope none], ?_, ?_, ?_, ?_, ⟨.analyseSlope none, by simp, trivial⟩⟩
  · intro o ho
    simp only [List.mem_cons, List.not_mem_nil, or_false] at ho
    rcases ho with rfl | rfl | rfl | rfl
    · intro m hm
      simp at hm
      subst hm
      exact exFric_constructed 30 5 (by norm_num)
    all_goals trivial
  · intro o ho
    simp only [List.map_cons, List.map_nil, List.mem_cons, List.not_mem_nil, or_false, Op.times] at ho
    rcases ho with rfl | rfl | rfl | rfl
    · intro m hm
      simp at hm
      subst hm
      have e : Material.times 2 (exFric 30 5) = exHeavy := by
        norm_num [Material.times, exFric, exHeavy]
      rw [e]
      exact exHeavy_constructed
    all_goals trivial
  · intro pre o post e ha
    rcases pre with _ | ⟨p1, _ | ⟨p2, _ | ⟨p3, _ | ⟨p4, pre⟩⟩⟩⟩ <;>
      simp only [List.nil_append, List.cons_append, List.cons.injEq] at e
    · obtain ⟨rfl, -⟩ := e; exact ha.elim
    · obtain ⟨-, rfl, -⟩ := e; exact ha.elim
    · obtain ⟨-, -, rfl, -⟩ := e; exact ha.elim
    · obtain ⟨rfl, rfl, rfl, -, -⟩ := e
      exact .inl rfl
    · exact absurd e.2.2.2.2 (by simp)
  · intro e
    simp only [List.map_cons, Op.times, List.cons.injEq, Op.setMaterials.injEq, Option.map_some,
      Option.some.injEq] at e
    have := congrArg Material.unitWeight e.1.1
    change (2 : ℝ) * 20 = 20 at this
    norm_num at this

end PySlope
