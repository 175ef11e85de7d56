import Verif.Model.Session

/-! # Specification: what a visitor of the web application has done -/

namespace PySlope

variable {K : Type} [PyNum K]

/-- The page can show this slope: what it shows are the planes of the slope, each with its line, and
the plot of the critical one. -/
def Shows (s : Slope K) (search : List (PagePlane K)) (plot : CriticalPlot K) : Prop :=
  s.plotCritical = .ok plot ∧ search.map Prod.fst = s.search ∧ ∀ q ∈ search, q.2 = pageTrace q.1

/-- The slope entered could be analysed and drawn. -/
def Accepted (isColor : String → Bool) (f : WebForm K) : Prop :=
  ∃ s p, f.createSlope isColor = .ok s ∧ s.plotCritical = .ok p

/-- `f` is the last form that was accepted, with no reset since. -/
def LastAccepted (isColor : String → Bool) (h : List (Request K)) (f : WebForm K) : Prop :=
  ∃ before since, h = before ++ .post (some f) :: since ∧ Accepted isColor f ∧
    Request.reset ∉ since ∧ ∀ g, Request.post (some g) ∈ since → ¬ Accepted isColor g

/-- A page was asked for, and there was no reset since. -/
def Visited (h : List (Request K)) : Prop :=
  ∃ before since, h = before ++ .get :: since ∧ Request.reset ∉ since

end PySlope
