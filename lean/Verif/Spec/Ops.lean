import Verif.Spec.Ground
import Verif.Spec.Reachable

/-! # Specification: calls as data

The same calls as in `Call`, as values, so that a history is a list of them. -/

namespace PySlope

variable {K : Type} [PyNum K]

/-- A public call with its arguments (`/repo/pyslope/pyslope.py:315-1821`). -/
inductive Op (K : Type) where
  | setExternalBoundary (h a l : PyVal K)
  | setWaterTable (d : PyVal K)
  | removeWaterTable
  | setUdls (us : List (UdlArg K))
  | removeUdls (us : List (Udl K)) (all : Bool)
  | setLls (ls : List (Option (LineLoad K)))
  | removeLls (ls : List (LineLoad K)) (all : Bool)
  | setMaterials (ms : List (Option (Material K)))
  | removeMaterial (m : Option (Material K)) (d : Option K) (all : Bool)
  | updateWaterAnalysisOptions (auto : Bool) (h : PyVal K)
  | updateAnalysisOptions (n i : Option Int) (f t : Option K) (m : Option Int)
  | updateBoundaryOptions (l h : PyVal K)
  | removeAnalysisLimits
  | setAnalysisLimits (a b c d : PyVal K)
  | addSingleEntryExitPlane (l r : K) (n : Int)
  | addSingleCircularPlane (x y r : K)
  | removeIndividualPlanes
  | analyseSlope (m : Option K)
  | analyseDynamic (c : K) (decimal : Bool)

/-- Objects given to a call were built by their constructors. -/
def Op.Valid : Op K → Prop
  | .setUdls us => ∀ u, some u ∈ us → Udl.Constructed u
  | .setLls ls => ∀ u, some u ∈ ls → LineLoad.Constructed u
  | .setMaterials ms => ∀ m, some m ∈ ms → Material.Constructed m
  | _ => True

/-- The state after a call and whether it raised. -/
noncomputable def Op.run (s : Slope K) : Op K → Slope K × Except PyErr Unit
  | .setExternalBoundary h a l => s.setExternalBoundary h a l
  | .setWaterTable d => s.setWaterTable d
  | .removeWaterTable => s.removeWaterTable
  | .setUdls us => s.setUdls us
  | .removeUdls us all => s.removeUdls us all
  | .setLls ls => s.setLls ls
  | .removeLls ls all => s.removeLls ls all
  | .setMaterials ms => s.setMaterials ms
  | .removeMaterial m d all => s.removeMaterial m d all
  | .updateWaterAnalysisOptions auto h => s.updateWaterAnalysisOptions auto h
  | .updateAnalysisOptions n i f t m => s.updateAnalysisOptions n i f t m
  | .updateBoundaryOptions l h => s.updateBoundaryOptions l h
  | .removeAnalysisLimits => s.removeAnalysisLimits
  | .setAnalysisLimits a b c d => s.setAnalysisLimits a b c d
  | .addSingleEntryExitPlane l r n => s.addSingleEntryExitPlane l r n
  | .addSingleCircularPlane x y r => s.addSingleCircularPlane x y r
  | .removeIndividualPlanes => s.removeIndividualPlanes
  | .analyseSlope m => s.analyseSlope m
  | .analyseDynamic c d => ((s.analyseDynamic c d).1, (s.analyseDynamic c d).2.map fun _ => ())

/-- The two analyses. -/
def Op.IsAnalysis : Op K → Prop
  | .analyseSlope _ => True
  | .analyseDynamic _ _ => True
  | _ => False

/-- The state after a history of calls. A caller that catches an exception goes on with the object
as the call left it. -/
noncomputable def runAll : List (Op K) → Slope K → Slope K
  | [], s => s
  | o :: os, s => runAll os (o.run s).1

/-- No analysis of the history raises. -/
def Quiet : List (Op K) → Slope K → Prop
  | [], _ => True
  | o :: os, s => (o.IsAnalysis → (o.run s).2 = .ok ()) ∧ Quiet os (o.run s).1

/-- Specification: from the moment the object had no individual planes the boundary has stayed as it is. -/
def SettledGround (before after : List (Op ℝ)) (s0 : Slope ℝ) : Prop :=
  (runAll before s0).individual = [] ∧
  ∀ pre post, after = pre ++ post →
    SameBoundary (runAll (before ++ pre) s0) (runAll (before ++ after) s0)

theorem Op.call {s : Slope K} {o : Op K} (h : o.Valid) : Call s (o.run s).1 := by
  cases o with
  | setExternalBoundary h a l => exact .setExternalBoundary _ _ _ _
  | setWaterTable d => exact .setWaterTable _ _
  | removeWaterTable => exact .removeWaterTable _
  | setUdls us => exact .setUdls _ _ h
  | removeUdls us all => exact .removeUdls _ _ _
  | setLls ls => exact .setLls _ _ h
  | removeLls ls all => exact .removeLls _ _ _
  | setMaterials ms => exact .setMaterials _ _ h
  | removeMaterial m d all => exact .removeMaterial _ _ _ _
  | updateWaterAnalysisOptions auto h => exact .updateWaterAnalysisOptions _ _ _
  | updateAnalysisOptions n i f t m => exact .updateAnalysisOptions _ _ _ _ _ _
  | updateBoundaryOptions l h => exact .updateBoundaryOptions _ _ _
  | removeAnalysisLimits => exact .removeAnalysisLimits _
  | setAnalysisLimits a b c d => exact .setAnalysisLimits _ _ _ _ _
  | addSingleEntryExitPlane l r n => exact .addSingleEntryExitPlane _ _ _ _
  | addSingleCircularPlane x y r => exact .addSingleCircularPlane _ _ _ _
  | removeIndividualPlanes => exact .removeIndividualPlanes _
  | analyseSlope m => exact .analyseSlope _ _
  | analyseDynamic c d => exact .analyseDynamic _ _ _

theorem Call.op {s t : Slope K} (c : Call s t) : ∃ o : Op K, o.Valid ∧ (o.run s).1 = t := by
  cases c with
  | setExternalBoundary h a l => exact ⟨.setExternalBoundary h a l, trivial, rfl⟩
  | setWaterTable d => exact ⟨.setWaterTable d, trivial, rfl⟩
  | removeWaterTable => exact ⟨.removeWaterTable, trivial, rfl⟩
  | setUdls us h => exact ⟨.setUdls us, h, rfl⟩
  | removeUdls us all => exact ⟨.removeUdls us all, trivial, rfl⟩
  | setLls ls h => exact ⟨.setLls ls, h, rfl⟩
  | removeLls ls all => exact ⟨.removeLls ls all, trivial, rfl⟩
  | setMaterials ms h => exact ⟨.setMaterials ms, h, rfl⟩
  | removeMaterial m d all => exact ⟨.removeMaterial m d all, trivial, rfl⟩
  | updateWaterAnalysisOptions a h => exact ⟨.updateWaterAnalysisOptions a h, trivial, rfl⟩
  | updateAnalysisOptions a b c d e => exact ⟨.updateAnalysisOptions a b c d e, trivial, rfl⟩
  | updateBoundaryOptions l h => exact ⟨.updateBoundaryOptions l h, trivial, rfl⟩
  | removeAnalysisLimits => exact ⟨.removeAnalysisLimits, trivial, rfl⟩
  | setAnalysisLimits a b c d => exact ⟨.setAnalysisLimits a b c d, trivial, rfl⟩
  | addSingleEntryExitPlane l r n => exact ⟨.addSingleEntryExitPlane l r n, trivial, rfl⟩
  | addSingleCircularPlane x y r => exact ⟨.addSingleCircularPlane x y r, trivial, rfl⟩
  | removeIndividualPlanes => exact ⟨.removeIndividualPlanes, trivial, rfl⟩
  | analyseSlope m => exact ⟨.analyseSlope m, trivial, rfl⟩
  | analyseDynamic c d => exact ⟨.analyseDynamic c d, trivial, rfl⟩

theorem runAll_append (a b : List (Op K)) (s : Slope K) : runAll (a ++ b) s = runAll b (runAll a s) := by
  induction a generalizing s with
  | nil => rfl
  | cons o a ih => exact ih _

theorem Reachable.runAll {s : Slope K} (r : Reachable s) {os : List (Op K)} (h : ∀ o ∈ os, o.Valid) :
    Reachable (runAll os s) := by
  induction os generalizing s with
  | nil => exact r
  | cons o os ih =>
    exact ih (r.call (Op.call (h o (by simp)))) (fun o ho => h o (List.mem_cons_of_mem _ ho))

/-- The two descriptions of histories agree. -/
theorem reachable_iff (s : Slope K) : Reachable s ↔
    ∃ h a l s0 os, Slope.new h a l = .ok s0 ∧ (∀ o ∈ os, o.Valid) ∧ runAll os s0 = s := by
  constructor
  · intro r
    induction r with
    | init e => exact ⟨_, _, _, _, [], e, by simp, rfl⟩
    | call _ c ih =>
      obtain ⟨h, a, l, s0, os, e, hv, rfl⟩ := ih
      obtain ⟨o, ho, rfl⟩ := c.op
      refine ⟨h, a, l, s0, os ++ [o], e, ?_, by rw [runAll_append]; rfl⟩
      intro o' ho'
      rcases List.mem_append.mp ho' with h' | h'
      · exact hv _ h'
      · rw [List.mem_singleton.mp h']; exact ho
  · rintro ⟨h, a, l, s0, os, e, hv, rfl⟩
    exact (Reachable.init e).runAll hv

end PySlope
