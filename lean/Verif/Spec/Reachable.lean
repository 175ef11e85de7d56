import Verif.Model.Dynamic

/-! # Specification: histories of calls

`Reachable s`: `s` is the state of a `Slope` object that was constructed and then received any
finite sequence of public calls, whether or not they raised. -/

namespace PySlope

variable {K : Type} [PyNum K]

/-- A load as the constructor can build it (`/repo/pyslope/pyslope.py:154-171`). -/
def Udl.Constructed (u : Udl K) : Prop :=
  ∃ isColor m o l c d, Udl.new isColor m o l c d = .ok u

/-- A line load as the constructor can build it (`/repo/pyslope/pyslope.py:225-235`). -/
def LineLoad.Constructed (u : LineLoad K) : Prop :=
  ∃ isColor m o c d, LineLoad.new isColor m o c d = .ok u

/-- A material as the constructor can build it (`/repo/pyslope/pyslope.py:74-101`). -/
def Material.Constructed (m : Material K) : Prop :=
  ∃ isColor uw phi c d n col, Material.new isColor uw phi c d n col = .ok m

/-- `Call s s'`: one public call takes the object from `s` to `s'`, returning or raising. One
constructor per public method of `/repo/pyslope/pyslope.py:315-1821` that changes the object. -/
inductive Call : Slope K → Slope K → Prop
  | setExternalBoundary (s h a l) : Call s (s.setExternalBoundary h a l).1
  | setWaterTable (s d) : Call s (s.setWaterTable d).1
  | removeWaterTable (s) : Call s s.removeWaterTable.1
  | setUdls (s us) (h : ∀ u, some u ∈ us → Udl.Constructed u) : Call s (s.setUdls us).1
  | removeUdls (s us all) : Call s (s.removeUdls us all).1
  | setLls (s ls) (h : ∀ u, some u ∈ ls → LineLoad.Constructed u) : Call s (s.setLls ls).1
  | removeLls (s ls all) : Call s (s.removeLls ls all).1
  | setMaterials (s ms) (h : ∀ m, some m ∈ ms → Material.Constructed m) :
      Call s (s.setMaterials ms).1
  | removeMaterial (s m d all) : Call s (s.removeMaterial m d all).1
  | updateWaterAnalysisOptions (s auto h) : Call s (s.updateWaterAnalysisOptions auto h).1
  | updateAnalysisOptions (s a b c d e) : Call s (s.updateAnalysisOptions a b c d e).1
  | updateBoundaryOptions (s l h) : Call s (s.updateBoundaryOptions l h).1
  | removeAnalysisLimits (s) : Call s s.removeAnalysisLimits.1
  | setAnalysisLimits (s a b c d) : Call s (s.setAnalysisLimits a b c d).1
  | addSingleEntryExitPlane (s l r n) : Call s (s.addSingleEntryExitPlane l r n).1
  | addSingleCircularPlane (s x y r) : Call s (s.addSingleCircularPlane x y r).1
  | removeIndividualPlanes (s) : Call s s.removeIndividualPlanes.1
  | analyseSlope (s m) : Call s (s.analyseSlope m).1
  | analyseDynamic (s c d) : Call s (s.analyseDynamic c d).1

/-- The states of an object after construction and any finite history of public calls. -/
inductive Reachable : Slope K → Prop
  | init {h a l s} : Slope.new h a l = .ok s → Reachable s
  | call {s s'} : Reachable s → Call s s' → Reachable s'

end PySlope
