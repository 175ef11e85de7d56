import Verif.Spec.Ops

/-! # Specification: the same history with weights, cohesions and loads multiplied by `k` -/

namespace PySlope

/-- A material with `k` times the unit weight and cohesion. -/
noncomputable def Material.times (k : ℝ) (m : Material ℝ) : Material ℝ :=
  { m with unitWeight := k * m.unitWeight, cohesion := k * m.cohesion }

/-- A load of `k` times the magnitude. -/
noncomputable def Udl.times (k : ℝ) (u : Udl ℝ) : Udl ℝ := { u with magnitude := k * u.magnitude }

/-- A line load of `k` times the magnitude. -/
noncomputable def LineLoad.times (k : ℝ) (l : LineLoad ℝ) : LineLoad ℝ :=
  { l with magnitude := k * l.magnitude }

/-- The same call with materials and loads multiplied. -/
noncomputable def Op.times (k : ℝ) : Op ℝ → Op ℝ
  | .setUdls us => .setUdls (us.map (Option.map (Udl.times k)))
  | .removeUdls us all => .removeUdls (us.map (Udl.times k)) all
  | .setLls ls => .setLls (ls.map (Option.map (LineLoad.times k)))
  | .removeLls ls all => .removeLls (ls.map (LineLoad.times k)) all
  | .setMaterials ms => .setMaterials (ms.map (Option.map (Material.times k)))
  | .removeMaterial m d all => .removeMaterial (m.map (Material.times k)) d all
  | o => o

/-- What each call of a history returned: done, or the exception. -/
noncomputable def outcomes : List (Op ℝ) → Slope ℝ → List (Except PyErr Unit)
  | [], _ => []
  | o :: os, s => (o.run s).2 :: outcomes os (o.run s).1

end PySlope
