import Verif.Spec.Reachable
import Verif.Lemmas.Real

/-! # Specification: moving dynamic loads

What a dynamic analysis is, in terms of the calls a user could make. -/

namespace PySlope

variable {K : Type} [PyNum K]

/-- A distributed load with its offset set to `o` if it is dynamic. -/
noncomputable def Udl.movedTo (o : K) (u : Udl K) : Udl K :=
  if u.dynamic then { u with offset := o } else u

/-- A line load with its offset set to `o` if it is dynamic. -/
noncomputable def LineLoad.movedTo (o : K) (l : LineLoad K) : LineLoad K :=
  if l.dynamic then { l with offset := o } else l

/-- The loads of `t` are those of `s`, the dynamic ones moved to the offset `o`. -/
def Moved (o : K) (s t : Slope K) : Prop :=
  t.udls.map PUdl.load = (s.udls.map PUdl.load).map (Udl.movedTo o) ∧
  t.lls.map PLl.load = (s.lls.map PLl.load).map (LineLoad.movedTo o)

/-- What is neither a load nor the extent of the model is the same. -/
structure SameGround (s t : Slope K) : Prop where
  height : t.height = s.height
  length : t.length = s.length
  gradient : t.gradient = s.gradient
  materials : t.materials = s.materials
  waterRL : t.waterRL = s.waterRL
  waterDepth : t.waterDepth = s.waterDepth
  waterH : t.waterH = s.waterH
  slices : t.slices = s.slices
  iterations : t.iterations = s.iterations
  minFailureDist : t.minFailureDist = s.minFailureDist
  tolerance : t.tolerance = s.tolerance
  maxIterations : t.maxIterations = s.maxIterations
  minExtH : t.minExtH = s.minExtH
  minExtL : s.minExtL ≤ t.minExtL

/-- One attempt: the dynamic loads are moved to the offset `o` (`C47_set_dynamic_offset` says what
that is), the slope is analysed, and `get_min_FOS` gives `f`. The record of attempts of `t` is not
constrained. -/
def Attempt (s : Slope K) (o f : K) (t : Slope K) : Prop :=
  ∃ a b d, s.setDynamicOffset o = (a, .ok ()) ∧ a.analyseSlope none = (b, .ok ()) ∧
    b.getMinFos = .ok (some f) ∧ t = { b with dynResults := d }

/-- Attempts one after the other, each with its offset and its factor of safety. -/
inductive Attempts : Slope K → List (K × K) → Slope K → Prop where
  | nil (s d) : Attempts s [] { s with dynResults := d }
  | snoc {s l t o f u} : Attempts s l t → Attempt t o f u → Attempts s (l ++ [(o, f)]) u

/-- `d` records the attempts of `l`: an offset has the value of its last attempt. -/
def Records (d l : List (K × K)) : Prop :=
  (d.map Prod.fst).Nodup ∧
  ∀ o f, (o, f) ∈ d ↔ ∃ l1 l2, l = l1 ++ (o, f) :: l2 ∧ ∀ f', (o, f') ∉ l2

/-- The greatest offset tried: the slope length or what is left of the crest beside the shortest
dynamic load, less a centimetre. -/
def GreatestOffset (s : Slope ℝ) (left : ℝ) : Prop :=
  (left + 0.01 = s.length ∨ ∃ p ∈ s.udls, p.load.dynamic = true ∧ ∃ l, p.load.length = some l ∧
    left + 0.01 = s.topX - l) ∧
  s.length ≤ left + 0.01 ∧
  ∀ p ∈ s.udls, p.load.dynamic = true → ∃ l, p.load.length = some l ∧ s.topX - l ≤ left + 0.01

end PySlope
