import Verif.Model.Heap
import Verif.Spec.Ops

/-! # Specification: programs with several slopes

A program creates slopes, loads and materials, and calls methods on the slopes with the loads and
materials as arguments. The same object can be given to several slopes. -/

namespace PySlope

/-- A public call on a slope, with the addresses of the objects it is given. `none` in a list stands
for an argument that is not a load or a material. -/
inductive HOp where
  | setExternalBoundary (h a l : PyVal ℝ)
  | setWaterTable (d : PyVal ℝ)
  | removeWaterTable
  | setUdls (us : List (Option Nat))
  | removeUdls (us : List Nat) (all : Bool)
  | setLls (ls : List (Option Nat))
  | removeLls (ls : List Nat) (all : Bool)
  | setMaterials (ms : List (Option Nat))
  | removeMaterial (m : Option Nat) (d : Option ℝ) (all : Bool)
  | updateWaterAnalysisOptions (auto : Bool) (h : PyVal ℝ)
  | updateAnalysisOptions (n i : Option Int) (f t : Option ℝ) (m : Option Int)
  | updateBoundaryOptions (l h : PyVal ℝ)
  | removeAnalysisLimits
  | setAnalysisLimits (a b c d : PyVal ℝ)
  | addSingleEntryExitPlane (l r : ℝ) (n : Int)
  | addSingleCircularPlane (x y r : ℝ)
  | removeIndividualPlanes
  | analyseSlope (m : Option ℝ)
  | analyseDynamic (c : ℝ) (decimal : Bool)

/-- The call with the objects themselves in place of their addresses. -/
noncomputable def HOp.deref (h : Heap ℝ) : HOp → Op ℝ
  | .setExternalBoundary a b c => .setExternalBoundary a b c
  | .setWaterTable d => .setWaterTable d
  | .removeWaterTable => .removeWaterTable
  | .setUdls us => .setUdls (us.map (Option.map fun r => (h.udl r).load))
  | .removeUdls us all => .removeUdls (us.map fun r => (h.udl r).load) all
  | .setLls ls => .setLls (ls.map (Option.map fun r => (h.ll r).load))
  | .removeLls ls all => .removeLls (ls.map fun r => (h.ll r).load) all
  | .setMaterials ms => .setMaterials (ms.map (Option.map fun r => (h.mat r).mat))
  | .removeMaterial m d all => .removeMaterial (m.map fun r => (h.mat r).mat) d all
  | .updateWaterAnalysisOptions a b => .updateWaterAnalysisOptions a b
  | .updateAnalysisOptions n i f t m => .updateAnalysisOptions n i f t m
  | .updateBoundaryOptions l h => .updateBoundaryOptions l h
  | .removeAnalysisLimits => .removeAnalysisLimits
  | .setAnalysisLimits a b c d => .setAnalysisLimits a b c d
  | .addSingleEntryExitPlane l r n => .addSingleEntryExitPlane l r n
  | .addSingleCircularPlane x y r => .addSingleCircularPlane x y r
  | .removeIndividualPlanes => .removeIndividualPlanes
  | .analyseSlope m => .analyseSlope m
  | .analyseDynamic c d => .analyseDynamic c d

/-- The objects and the slope after a call, and whether it raised. -/
noncomputable def HOp.run (s : HS ℝ) : HOp → HOut ℝ Unit
  | .setExternalBoundary a b c => s.setExternalBoundary a b c
  | .setWaterTable d => s.own (·.setWaterTable d)
  | .removeWaterTable => s.own (·.removeWaterTable)
  | .setUdls us => s.setUdls us
  | .removeUdls us all => s.removeUdls us all
  | .setLls ls => s.setLls ls
  | .removeLls ls all => s.removeLls ls all
  | .setMaterials ms => s.setMaterials ms
  | .removeMaterial m d all => s.removeMaterial m d all
  | .updateWaterAnalysisOptions a b => s.own (·.updateWaterAnalysisOptions a b)
  | .updateAnalysisOptions n i f t m => s.own (·.updateAnalysisOptions n i f t m)
  | .updateBoundaryOptions l h => s.updateBoundaryOptions l h
  | .removeAnalysisLimits => s.own (·.removeAnalysisLimits)
  | .setAnalysisLimits a b c d => s.own (·.setAnalysisLimits a b c d)
  | .addSingleEntryExitPlane l r n => s.own (·.addSingleEntryExitPlane l r n)
  | .addSingleCircularPlane x y r => s.own (·.addSingleCircularPlane x y r)
  | .removeIndividualPlanes => s.own (·.removeIndividualPlanes)
  | .analyseSlope m => s.own (·.analyseSlope m)
  | .analyseDynamic c d => ((s.analyseDynamic c d).1, (s.analyseDynamic c d).2.map fun _ => ())

/-- The call is given the uniform load at `r`. -/
def HOp.GivenUdl (r : Nat) : HOp → Prop
  | .setUdls us => some r ∈ us
  | .removeUdls us _ => r ∈ us
  | _ => False

/-- The call is given the line load at `r`. -/
def HOp.GivenLl (r : Nat) : HOp → Prop
  | .setLls ls => some r ∈ ls
  | .removeLls ls _ => r ∈ ls
  | _ => False

/-- The call is given the material at `r`. -/
def HOp.GivenMat (r : Nat) : HOp → Prop
  | .setMaterials ms => some r ∈ ms
  | .removeMaterial m _ _ => m = some r
  | _ => False

/-- The objects and the slopes of a program. -/
structure World where
  heap : Heap ℝ
  slope : Nat → Option (Obj ℝ)

/-- What the slope `i` sees of the world; all its methods and getters depend on that alone. -/
def World.view (w : World) (i : Nat) : Option (Slope ℝ) := (w.slope i).map (·.view w.heap)

/-- The object just built by `Slope(...)`. -/
def Obj.fresh (s : Slope ℝ) : Obj ℝ := { core := s, us := [], ls := [], ms := [] }

/-- Put the slope `σ` at `i`. -/
def World.put (w : World) (i : Nat) (h : Heap ℝ) (σ : Obj ℝ) : World :=
  { heap := h, slope := fun j => if j = i then some σ else w.slope j }

/-- One step of a program: it creates a slope, a load or a material, or calls a method of a slope,
which returns or raises. `P` says which calls the program makes. A new object lies at an address
that no slope holds. The objects given to a call are as their constructors build them. -/
inductive Step (P : World → Nat → HOp → Prop) : World → World → Prop
  | newSlope {w i h a l s} : w.slope i = none → Slope.new h a l = .ok s →
      Step P w (w.put i w.heap (.fresh s))
  | newUdl {w r p} : Udl.Constructed p.load → (∀ i σ, w.slope i = some σ → r ∉ σ.us) →
      Step P w { w with heap := w.heap.setUdl r p }
  | newLl {w r p} : LineLoad.Constructed p.load → (∀ i σ, w.slope i = some σ → r ∉ σ.ls) →
      Step P w { w with heap := w.heap.setLl r p }
  | newMat {w r p} : Material.Constructed p.mat → (∀ i σ, w.slope i = some σ → r ∉ σ.ms) →
      Step P w { w with heap := w.heap.setMat r p }
  | call {w i σ op} : w.slope i = some σ → P w i op → (op.deref w.heap).Valid →
      Step P w (w.put i (op.run ⟨w.heap, σ⟩).1.heap (op.run ⟨w.heap, σ⟩).1.obj)

/-- The worlds a program can get to, starting without slopes. -/
inductive World.Reach (P : World → Nat → HOp → Prop) : World → Prop
  | start (h : Heap ℝ) : World.Reach P { heap := h, slope := fun _ => none }
  | step {w w'} : World.Reach P w → Step P w w' → World.Reach P w'

/-- The call gives the slope `i` no object that another slope holds. -/
def Unshared (w : World) (i : Nat) (op : HOp) : Prop :=
  ∀ j τ, j ≠ i → w.slope j = some τ → ∀ r,
    (op.GivenUdl r → r ∉ τ.us) ∧ (op.GivenLl r → r ∉ τ.ls) ∧ (op.GivenMat r → r ∉ τ.ms)

/-- Any call. -/
def AnyCall (_ : World) (_ : Nat) (_ : HOp) : Prop := True

end PySlope
