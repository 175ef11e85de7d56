import Verif.Spec.Ieee
import Verif.Spec.Reachable

/-! # Specification: when two loads match -/

namespace PySlope

variable {K : Type}

/-- Two uniform loads with the same offset, magnitude and length (both endless, or the same number). -/
def Udl.SameAs (a u : Udl K) : Prop := a.offset = u.offset ∧ a.magnitude = u.magnitude ∧ a.length = u.length

/-- Two line loads with the same offset and magnitude. -/
def LineLoad.SameAs (a u : LineLoad K) : Prop := a.offset = u.offset ∧ a.magnitude = u.magnitude

end PySlope
