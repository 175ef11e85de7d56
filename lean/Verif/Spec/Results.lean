import Verif.Model.Analysis
import Verif.Lemmas.Real

/-! # Specification: the planes of an analysis and their factors of safety -/

namespace PySlope

variable {K : Type} [PyNum K]

/-- Specification: the factor of safety of a plane: a number, or nothing when the method
gives none. -/
noncomputable def fosOf (s : Slope K) (p : Plane K) : Option K :=
  match s.bishop p.cx p.cy p.radius none none with
  | .ok x => some x
  | .error _ => none

/-- Specification: the analysis of the plane raises `e`. -/
def FosRaises (s : Slope K) (p : Plane K) (e : PyErr) : Prop :=
  s.bishop p.cx p.cy p.radius none none = .error (.raise e)

/-- Specification: the plane with its factor of safety written in. -/
noncomputable def withFos (s : Slope K) (p : Plane K) : Plane K := { p with fos := some (fosOf s p) }

/-- Specification: the planes an analysis works on: the individual ones when there are any,
otherwise those of the search. -/
def Analysed (s : Slope K) (ps : List (Plane K)) : Prop :=
  (s.individual ≠ [] ∧ ps = s.individual) ∨ (s.individual = [] ∧ s.entryExitPlanes = .ok ps)

end PySlope
