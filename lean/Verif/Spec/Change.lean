import Verif.Model.Analysis
import Verif.Lemmas.Real

/-! # Specification: two configurations that differ in one respect -/

namespace PySlope

/-- The same geometry, options, limits, water and individual planes. -/
structure SameFrame (s t : Slope ℝ) : Prop where
  height : t.height = s.height
  length : t.length = s.length
  gradient : t.gradient = s.gradient
  topX : t.topX = s.topX
  topY : t.topY = s.topY
  botX : t.botX = s.botX
  botY : t.botY = s.botY
  extL : t.extL = s.extL
  extH : t.extH = s.extH
  lim1 : t.lim1 = s.lim1
  lim2 : t.lim2 = s.lim2
  lim3 : t.lim3 = s.lim3
  lim4 : t.lim4 = s.lim4
  waterRL : t.waterRL = s.waterRL
  waterH : t.waterH = s.waterH
  slices : t.slices = s.slices
  iterations : t.iterations = s.iterations
  minFailureDist : t.minFailureDist = s.minFailureDist
  tolerance : t.tolerance = s.tolerance
  maxIterations : t.maxIterations = s.maxIterations
  individual : t.individual = s.individual

/-- Material `b` is `a` with unit weight and cohesion multiplied by `k`, at the same place. -/
def ScaledLayer (k : ℝ) (a b : Layer ℝ) : Prop :=
  b.mat.unitWeight = k * a.mat.unitWeight ∧ b.mat.cohesion = k * a.mat.cohesion ∧
  b.mat.frictionAngle = a.mat.frictionAngle ∧ b.mat.tanPhi = a.mat.tanPhi ∧ b.rl = a.rl

/-- Distributed load `b` is `a` with the magnitude multiplied by `k`, at the same place. -/
def ScaledUdl (k : ℝ) (a b : PUdl ℝ) : Prop :=
  b.load.magnitude = k * a.load.magnitude ∧ b.left = a.left ∧ b.right = a.right

/-- Line load `b` is `a` with the magnitude multiplied by `k`, at the same place. -/
def ScaledLl (k : ℝ) (a b : PLl ℝ) : Prop :=
  b.load.magnitude = k * a.load.magnitude ∧ b.coord = a.coord

/-- `t` is `s` with unit weights, cohesions and loads multiplied by `k`. -/
structure Scaled (k : ℝ) (s t : Slope ℝ) : Prop extends SameFrame s t where
  materials : List.Forall₂ (ScaledLayer k) s.materials t.materials
  udls : List.Forall₂ (ScaledUdl k) s.udls t.udls
  lls : List.Forall₂ (ScaledLl k) s.lls t.lls

/-- Material `b` is `a` with a cohesion at least as high. -/
def MoreCohesion (a b : Layer ℝ) : Prop :=
  b.mat.unitWeight = a.mat.unitWeight ∧ a.mat.cohesion ≤ b.mat.cohesion ∧
  b.mat.frictionAngle = a.mat.frictionAngle ∧ b.rl = a.rl

/-- `t` is `s` with cohesions at least as high. -/
structure Stronger (s t : Slope ℝ) : Prop extends SameFrame s t where
  materials : List.Forall₂ MoreCohesion s.materials t.materials
  udls : t.udls = s.udls
  lls : t.lls = s.lls

/-- Material `b` is `a` with a friction angle at least as high, below 90 degrees. -/
def MoreFriction (a b : Layer ℝ) : Prop :=
  b.mat.unitWeight = a.mat.unitWeight ∧ b.mat.cohesion = a.mat.cohesion ∧
  a.mat.frictionAngle ≤ b.mat.frictionAngle ∧ b.mat.frictionAngle < 90 ∧ b.rl = a.rl

/-- `t` is `s` with friction angles at least as high. -/
structure Rougher (s t : Slope ℝ) : Prop extends SameFrame s t where
  materials : List.Forall₂ MoreFriction s.materials t.materials
  udls : t.udls = s.udls
  lls : t.lls = s.lls

/-- Material `b` is `a` with the unit weight multiplied by `k`, at the same place. -/
def HeavierLayer (k : ℝ) (a b : Layer ℝ) : Prop :=
  b.mat.unitWeight = k * a.mat.unitWeight ∧ b.mat.cohesion = a.mat.cohesion ∧
  b.mat.frictionAngle = a.mat.frictionAngle ∧ b.rl = a.rl

/-- `t` is `s` with unit weights and loads multiplied by `k`. -/
structure Heavier (k : ℝ) (s t : Slope ℝ) : Prop extends SameFrame s t where
  materials : List.Forall₂ (HeavierLayer k) s.materials t.materials
  udls : List.Forall₂ (ScaledUdl k) s.udls t.udls
  lls : List.Forall₂ (ScaledLl k) s.lls t.lls

/-- `t` is `s` but for the water: another water table or none, another factor on its pressure. -/
structure OtherWater (s t : Slope ℝ) : Prop where
  frame : SameFrame s { t with waterRL := s.waterRL, waterH := s.waterH }
  materials : t.materials = s.materials
  udls : t.udls = s.udls
  lls : t.lls = s.lls

/-- The water table is not above the crest, as after `set_water_table` on a slope of this size. -/
def WaterBelowCrest (s : Slope ℝ) : Prop := ∀ z, s.waterRL = some z → z ≤ s.topY

/-- Ground without friction: the friction angle of every material is 0. -/
def Frictionless (s : Slope ℝ) : Prop := ∀ l ∈ s.materials, l.mat.frictionAngle = 0

end PySlope
