import Verif.Spec.Results
import Verif.Model.Search

/-! # Specification: adding circles one by one -/

namespace PySlope

/-- Specification: `t` comes from `s` by adding circles and by analyses, in any order. A call that raises leaves
what it leaves and the user goes on. -/
inductive Adds (s : Slope ℝ) : Slope ℝ → Prop
  | none : Adds s s
  | circle {t} (h : Adds s t) (cx cy r : ℝ) : Adds s (t.addSingleCircularPlane cx cy r).1
  | pair {t} (h : Adds s t) (lx rx : ℝ) (n : Int) : Adds s (t.addSingleEntryExitPlane lx rx n).1
  | analyse {t} (h : Adds s t) (m : Option ℝ) : Adds s (t.analyseSlope m).1

/-- Specification: `add_single_circular_plane` for each circle (centre and radius) of a list. -/
noncomputable def Slope.addCircles (s : Slope ℝ) : List (ℝ × ℝ × ℝ) → Slope ℝ
  | [] => s
  | c :: cs => ((s.addSingleCircularPlane c.1 c.2.1 c.2.2).1).addCircles cs

end PySlope
