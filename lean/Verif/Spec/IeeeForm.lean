import Verif.Spec.Ieee
import Verif.Spec.Reachable

/-! # What a slope in double precision should look like

Stated with the exact values of the machine numbers: `x.val` is the real number a double stands
for, `A.rnd` is the rounding of the machine. -/

namespace PySlope
open Lit

variable {A : Machine}

/-- The ground line of the slope: it starts at the origin, goes along the upper level to the crest,
down to the toe, along the lower level to the end of the model and back. Crest and toe are in order
and inside the model, and the slope has the asked size and stands in the middle up to rounding. -/
structure SoundGround (s : Slope (F64 A)) : Prop where
  outline : s.extBoundary = some [(0, 0), (0, s.topY), (s.topX, s.topY), (s.botX, s.botY),
    (s.extL, s.botY), (s.extL, 0), (0, 0)]
  across : 0 < s.topX.val ∧ s.topX.val ≤ s.botX.val ∧ s.botX.val < s.extL.val
  down : 0 ≤ s.botY.val ∧ s.botY.val ≤ s.topY.val ∧ s.topY.val = s.extH.val
  length : 0 < s.length.val ∧
    |s.botX.val - s.topX.val - s.length.val| ≤ s.extL.val / 2 ^ 53
  height : 0 ≤ s.height.val ∧
    |s.topY.val - s.botY.val - s.height.val| ≤ s.extH.val / 2 ^ 53
  middle : |s.topX.val + s.botX.val - s.extL.val| ≤ s.extL.val / 2 ^ 50

/-- Entry limits on the upper level, exit limits beyond the crest, each pair in order. -/
structure SoundLimits (s : Slope (F64 A)) : Prop where
  entry : 0 ≤ s.lim1.val ∧ s.lim1.val < s.lim2.val ∧ s.lim2.val ≤ s.topX.val
  exit : s.topX.val ≤ s.lim3.val ∧ s.lim3.val < s.lim4.val ∧ s.lim4.val ≤ s.extL.val

/-- Each load stands where its offset from the crest and its length put it, to the last bit. -/
structure SoundLoads (s : Slope (F64 A)) : Prop where
  right : ∀ p ∈ s.udls, p.right.val = A.rnd (s.topX.val - p.load.offset.val)
  left : ∀ p ∈ s.udls, ∀ l, p.load.length = some l → l.val ≠ 0 →
    p.left.val = max 0 (A.rnd (p.right.val - l.val))
  endless : ∀ p ∈ s.udls, (p.load.length = none ∨ ∃ l, p.load.length = some l ∧ l.val = 0) →
    p.left.val = 0
  line : ∀ p ∈ s.lls, p.coord.val = max 0 (A.rnd (s.topX.val - p.load.offset.val))
  behind : ∀ p ∈ s.udls, 0 ≤ p.load.offset.val → p.right.val ≤ s.topX.val

/-- The materials are listed from the top down, no two with the same depth. -/
def SoundMaterials (s : Slope (F64 A)) : Prop :=
  s.materials.Pairwise (fun a b => a.mat.depth.val < b.mat.depth.val)

end PySlope
