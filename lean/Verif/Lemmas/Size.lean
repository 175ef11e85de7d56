import Verif.Spec.Size
import Verif.Spec.Alike
import Verif.Props.Alike
import Verif.Props.Total

/-! # The ground seen from the crest -/

namespace PySlope
open Finset

/-- What the methods see, with everything moved by `(dx, dy)`. -/
structure Displaced (dx dy : ℝ) (s t : Slope ℝ) : Prop where
  topX : t.topX = s.topX + dx
  extH : t.extH = s.extH + dy
  height : t.height = s.height
  length : t.length = s.length
  slices : t.slices = s.slices
  tolerance : t.tolerance = s.tolerance
  maxIterations : t.maxIterations = s.maxIterations
  bare : s.materials = [] ↔ t.materials = []
  soil : ∀ y, soilAt t (y + dy) = soilAt s y
  load : ∀ a b, 0 ≤ a → 0 ≤ a + dx → loadOn t (a + dx) (b + dx) = loadOn s a b
  waterH : t.waterH = s.waterH
  water : t.waterRL = s.waterRL.map (· + dy)
  wet : ∀ z, s.waterRL = some z → z ≠ 0 ∧ z + dy ≠ 0

theorem common_max {a b l r : ℝ} (ha : 0 ≤ a) : common a b (max 0 l) r = common a b l r := by
  unfold common
  rw [← max_assoc, max_eq_left ha]

theorem common_add (a b l r d : ℝ) : common (a + d) (b + d) (l + d) (r + d) = common a b l r := by
  unfold common
  rw [min_add_add_right, max_add_add_right, add_sub_add_right_eq_sub]

theorem map_forall2 {α β : Type} {f : α → β} {l l' : List α} (h : l'.map f = l.map f) :
    List.Forall₂ (fun a b => f b = f a) l l' := by
  induction l generalizing l' with
  | nil =>
    cases l' with
    | nil => exact .nil
    | cons b l' => simp at h
  | cons a l ih =>
    cases l' with
    | nil => simp at h
    | cons b l' =>
      simp only [List.map_cons, List.cons.injEq] at h
      exact .cons h.1 (ih h.2)

theorem sum_forall2 {α : Type} {R : α → α → Prop} {f g : α → ℝ} {l l' : List α} (h : List.Forall₂ R l l')
    (hm : ∀ a ∈ l, ∀ b ∈ l', R a b → g b = f a) : (l'.map g).sum = (l.map f).sum := by
  induction h with
  | nil => rfl
  | cons hab _ ih =>
    rw [List.map_cons, List.map_cons, List.sum_cons, List.sum_cons, hm _ (by simp) _ (by simp) hab,
      ih fun a ha b hb => hm a (List.mem_cons_of_mem _ ha) b (List.mem_cons_of_mem _ hb)]

theorem SameDesign.moved {s t : Slope ℝ} (h : SameDesign s t) (rs : Reachable s) (rt : Reachable t)
    (ps : InPlace s) (pt : InPlace t) : Displaced (t.topX - s.topX) (t.topY - s.topY) s t where
  topX := by ring
  extH := by rw [rs.wf.geo.topY, rt.wf.geo.topY]; ring
  height := h.height
  length := h.length
  slices := h.slices
  tolerance := h.tolerance
  maxIterations := h.maxIterations
  bare := by
    have := congrArg List.length h.mats
    simp only [List.length_map] at this
    rw [← List.length_eq_zero_iff, ← List.length_eq_zero_iff, this]
  soil := by
    intro y
    unfold soilAt
    have hf := map_forall2 h.mats
    have hf' : List.Forall₂ (fun a b : Layer ℝ => b.mat = a.mat ∧ b.rl = a.rl + (t.topY - s.topY))
        s.materials t.materials := by
      rw [List.forall₂_iff_get] at hf ⊢
      refine ⟨hf.1, fun i h1 h2 => ?_⟩
      have e := hf.2 i h1 h2
      refine ⟨e, ?_⟩
      rw [ps.levels _ (List.get_mem _ _), pt.levels _ (List.get_mem _ _), e]
      ring
    have key : ∀ (l l' : List (Layer ℝ)),
        List.Forall₂ (fun a b : Layer ℝ => b.mat = a.mat ∧ b.rl = a.rl + (t.topY - s.topY)) l l' →
        (layerAt l' (y + (t.topY - s.topY))).map Layer.mat = (layerAt l y).map Layer.mat := by
      intro l l' hl
      unfold layerAt
      rw [Option.map_or, Option.map_or]
      congr 1
      · induction hl with
        | nil => rfl
        | @cons a b l l' hab _ ih =>
          rw [List.find?_cons, List.find?_cons, hab.2]
          have : (a.rl + (t.topY - s.topY) < y + (t.topY - s.topY)) ↔ a.rl < y := by
            constructor <;> intro h <;> linarith
          by_cases hy : a.rl < y
          · simp [hy, hab.1]
          · simp only [this, hy, decide_false]
            exact ih
      · rw [← List.getLast?_map, ← List.getLast?_map]
        congr 1
        induction hl with
        | nil => rfl
        | cons hab _ ih => rw [List.map_cons, List.map_cons, hab.1, ih]
    have e := key _ _ hf'
    cases h1 : layerAt s.materials y with
    | none =>
      rw [h1] at e
      cases h2 : layerAt t.materials (y + (t.topY - s.topY)) with
      | none => rfl
      | some l => rw [h2] at e; cases e
    | some l =>
      rw [h1] at e
      cases h2 : layerAt t.materials (y + (t.topY - s.topY)) with
      | none => rw [h2] at e; cases e
      | some l' =>
        rw [h2] at e
        simp only [Option.map_some, Option.some.injEq] at e ⊢
        rw [e]
  load := by
    intro a b ha hb
    obtain ⟨us, ls⟩ := C18_loads_in_place s rs
    obtain ⟨ut, lt⟩ := C18_loads_in_place t rt
    unfold loadOn
    congr 1
    · refine sum_forall2 (map_forall2 h.udls) ?_
      intro p hp q hq e
      obtain ⟨p1, p2, p3⟩ := us p hp
      obtain ⟨q1, q2, q3⟩ := ut q hq
      rw [e]
      congr 1
      cases hl : p.load.length with
      | none =>
        rw [p3 hl, q3 (by rw [e, hl]), p1, q1, e]
        unfold common
        rw [max_eq_left ha, max_eq_left hb,
          show t.topX - p.load.offset = s.topX - p.load.offset + (t.topX - s.topX) by ring,
          min_add_add_right, add_sub_add_right_eq_sub]
      | some l =>
        rw [p2 l hl, q2 l (by rw [e, hl]), common_max ha, common_max hb, p1, q1, e,
          show t.topX - p.load.offset = s.topX - p.load.offset + (t.topX - s.topX) by ring,
          add_sub_right_comm, common_add]
    · refine sum_forall2 (map_forall2 h.lls) ?_
      intro p hp q hq e
      have p1 := ps.lls p hp
      have q1 := pt.lls q hq
      rw [e] at q1
      rw [ls p hp, lt q hq, e, max_eq_right (sub_nonneg.mpr q1), max_eq_right (sub_nonneg.mpr p1)]
      have : (a + (t.topX - s.topX) ≤ t.topX - p.load.offset ∧
          t.topX - p.load.offset < b + (t.topX - s.topX)) ↔
          (a ≤ s.topX - p.load.offset ∧ s.topX - p.load.offset < b) := by
        constructor <;> rintro ⟨h1, h2⟩ <;> constructor <;> linarith
      simp only [this]
  waterH := h.waterH
  water := by
    have e := h.water
    cases h1 : s.waterRL with
    | none =>
      cases h2 : t.waterRL with
      | none => rfl
      | some z => rw [h1, h2] at e; cases e
    | some z =>
      cases h2 : t.waterRL with
      | none => rw [h1, h2] at e; cases e
      | some z' =>
        rw [h1, h2] at e
        simp only [Option.map_some, Option.some.injEq] at e ⊢
        linarith
  wet := by
    intro z hz
    refine ⟨(ps.water z hz).2, ?_⟩
    have e := h.water
    cases h2 : t.waterRL with
    | none => rw [hz, h2] at e; cases e
    | some z' =>
      rw [hz, h2] at e
      simp only [Option.map_some, Option.some.injEq] at e
      have := (pt.water z' h2).2
      intro h0
      apply this
      linarith

/-! ## The crossings -/

theorem dropClose_twice (x : ℝ) (p : ℝ × ℝ) (l : List (ℝ × ℝ)) :
    dropClose x (p :: p :: l) = dropClose x (p :: l) := by
  have h : dropClose p.1 (p :: l) = dropClose p.1 l := by
    rw [dropClose, if_neg]
    rw [pyAbs_real, sub_self, abs_zero]
    exact not_lt.mpr (by norm_num)
  rw [dropClose, h]
  conv_rhs => rw [dropClose]

theorem dropClose_dedup {l : List (ℝ × ℝ)} (hs : l.Pairwise (fun a b => a.1 ≤ b.1))
    (hi : ∀ a ∈ l, ∀ b ∈ l, a.1 = b.1 → a = b) (x : ℝ) : dropClose x l.dedup = dropClose x l := by
  induction l generalizing x with
  | nil => rfl
  | cons a l ih =>
    obtain ⟨h1, h2⟩ := List.pairwise_cons.mp hs
    have ih := ih h2 fun a ha b hb => hi a (List.mem_cons_of_mem _ ha) b (List.mem_cons_of_mem _ hb)
    by_cases ha : a ∈ l
    · rw [List.dedup_cons_of_mem ha, ih]
      cases l with
      | nil => cases ha
      | cons b l =>
        have hb : b = a := by
          apply hi b (by simp) a (by simp)
          rcases List.mem_cons.mp ha with rfl | ha'
          · rfl
          · exact le_antisymm ((List.pairwise_cons.mp h2).1 a ha') (h1 b (by simp))
        rw [hb, dropClose_twice]
    · rw [List.dedup_cons_of_notMem ha, dropClose, dropClose, ih]

theorem dropClose_set {l l' : List (ℝ × ℝ)} (hs : l.Pairwise (fun a b => a.1 ≤ b.1))
    (hs' : l'.Pairwise (fun a b => a.1 ≤ b.1)) (hi : ∀ a ∈ l, ∀ b ∈ l, a.1 = b.1 → a = b)
    (hm : ∀ p, p ∈ l' ↔ p ∈ l) (x : ℝ) : dropClose x l' = dropClose x l := by
  rw [← dropClose_dedup hs hi, ← dropClose_dedup hs' fun a ha b hb =>
    hi a ((hm a).mp ha) b ((hm b).mp hb)]
  congr 1
  refine List.Perm.eq_of_pairwise (le := fun a b : ℝ × ℝ => a.1 ≤ b.1) ?_
    (hs'.sublist (List.dedup_sublist _)) (hs.sublist (List.dedup_sublist _)) ?_
  · intro a b ha hb h1 h2
    exact hi a ((hm a).mp (List.mem_dedup.mp ha)) b (List.mem_dedup.mp hb) (le_antisymm h1 h2)
  · rw [List.perm_ext_iff_of_nodup (List.nodup_dedup _) (List.nodup_dedup _)]
    intro p
    rw [List.mem_dedup, List.mem_dedup, hm]

/-- A point moved. -/
def carry (dx dy : ℝ) (p : ℝ × ℝ) : ℝ × ℝ := (p.1 + dx, p.2 + dy)

theorem dropClose_shift (dx dy x : ℝ) (l : List (ℝ × ℝ)) :
    dropClose (x + dx) (l.map (carry dx dy)) = (dropClose x l).map (carry dx dy) := by
  induction l generalizing x with
  | nil => rfl
  | cons p l ih =>
    rw [List.map_cons, dropClose, dropClose]
    simp only [carry, add_sub_add_right_eq_sub]
    rw [show dropClose (p.1 + dx) (List.map (carry dx dy) l) = _ from ih p.1]
    split <;> rfl

theorem dropClose_start {x y : ℝ} {l : List (ℝ × ℝ)} (h : ∀ p ∈ l, 0.01 < |p.1 - x| ∧ 0.01 < |p.1 - y|) :
    dropClose x l = dropClose y l := by
  cases l with
  | nil => rfl
  | cons p l =>
    obtain ⟨h1, h2⟩ := h p (by simp)
    rw [dropClose, dropClose, pyAbs_real, pyAbs_real, if_pos (by simpa using h1), if_pos (by simpa using h2)]

theorem intersections_shift {s t : Slope ℝ} (gs : Geo s) (gt : Geo t) {cx cy r dx dy : ℝ}
    (h : ∀ p, Crossing t (cx + dx) (cy + dy) r (carry dx dy p) ↔ Crossing s cx cy r p) :
    ∃ l, s.circleExternalIntersection cx cy r = .ok l ∧
      t.circleExternalIntersection (cx + dx) (cy + dy) r = .ok (l.map (carry dx dy)) := by
  obtain ⟨l, e, _, m⟩ := circleExternalIntersection_eq gs cx cy r
  obtain ⟨l', e', _, m'⟩ := circleExternalIntersection_eq gt (cx + dx) (cy + dy) r
  refine ⟨_, e, ?_⟩
  rw [e', ← dropClose_shift]
  congr 1
  have back : ∀ p, carry dx dy (p.1 - dx, p.2 - dy) = p := by intro p; simp [carry]
  have hin : ∀ p, p ∈ sortByKey Prod.fst l' ↔ p ∈ (sortByKey Prod.fst l).map (carry dx dy) := by
    intro p
    rw [(sortByKey_perm _ _).mem_iff, m', List.mem_map]
    constructor
    · intro hp
      refine ⟨(p.1 - dx, p.2 - dy), ?_, back p⟩
      rw [(sortByKey_perm _ _).mem_iff, m, ← h, back]
      exact hp
    · rintro ⟨q, hq, rfl⟩
      rw [(sortByKey_perm _ _).mem_iff, m] at hq
      exact (h q).mpr hq
  rw [dropClose_set (l := (sortByKey Prod.fst l).map (carry dx dy)) ?_ (sortByKey_sorted _ _) ?_ hin]
  · apply dropClose_start
    intro p hp
    have hc := (m' p).mp ((sortByKey_perm _ _).mem_iff.mp ((hin p).mpr hp))
    have h0 := hc.nonneg gt
    obtain ⟨q, hq, rfl⟩ := List.mem_map.mp hp
    have hq0 := ((m q).mp ((sortByKey_perm _ _).mem_iff.mp hq)).nonneg gs
    constructor
    · rw [abs_of_nonneg (by linarith)]
      norm_num; linarith
    · have : (carry dx dy q).1 - (-1 + dx) = q.1 + 1 := by simp only [carry]; ring
      rw [this, abs_of_nonneg (by linarith)]
      norm_num; linarith
  · rw [List.pairwise_map]
    refine (sortByKey_sorted Prod.fst l).imp ?_
    intro a b hab
    simp only [carry]; linarith
  · intro a ha b hb hab
    have c1 := ((m' a).mp ((sortByKey_perm _ _).mem_iff.mp ((hin a).mpr ha))).ground gt
    have c2 := ((m' b).mp ((sortByKey_perm _ _).mem_iff.mp ((hin b).mpr hb))).ground gt
    rw [hab, c2] at c1
    exact Prod.ext hab (Option.some.inj c1).symm

/-! ## The slices -/

namespace Displaced
variable {dx dy : ℝ} {s t : Slope ℝ} (h : Displaced dx dy s t)
include h

theorem groundY (x : ℝ) : groundY t (x + dx) = groundY s x + dy := by
  unfold PySlope.groundY
  rw [h.topX, h.extH, h.length, h.height]
  have e1 : (x + dx ≤ s.topX + dx) ↔ x ≤ s.topX := by constructor <;> intro h <;> linarith
  have e2 : (x + dx < s.topX + dx + s.length) ↔ x < s.topX + s.length := by
    constructor <;> intro h <;> linarith
  simp only [e1, e2]
  split_ifs <;> ring

theorem weightOn {a b : ℝ} (yb yt : ℝ) (ha : 0 ≤ a) (hb : 0 ≤ a + dx) :
    weightOn t (a + dx) (b + dx) (yb + dy) (yt + dy) = weightOn s a b yb yt := by
  have hi : (∫ y in (yb + dy)..(yt + dy), unitWeightAt t.materials y) =
      ∫ y in yb..yt, unitWeightAt s.materials y := by
    rw [← intervalIntegral.integral_comp_add_right]
    congr 1
    funext y
    rw [soil_weight, soil_weight, h.soil]
  have hl := h.load a b ha hb
  unfold loadOn at hl
  simp only [mul_comm (common _ _ _ _)] at hl
  unfold PySlope.weightOn
  rw [hi, add_sub_add_right_eq_sub, add_assoc, add_assoc, hl]

theorem pressureAt (x yb yt : ℝ) :
    pressureAt t (x + dx) (yb + dy) (yt + dy) = pressureAt s x yb yt := by
  unfold PySlope.pressureAt
  rw [h.water]
  cases hz : s.waterRL with
  | none => rfl
  | some z =>
    obtain ⟨z1, z2⟩ := h.wet z hz
    simp only [Option.map_some, if_neg z1, if_neg z2]
    rw [h.groundY, h.waterH, h.topX, h.length, min_add_add_right, add_sub_add_right_eq_sub]
    have e1 : (PySlope.groundY s x + dy < z + dy ∧ x + dx < s.topX + dx + s.length) ↔
        (PySlope.groundY s x < z ∧ x < s.topX + s.length) := by
      constructor <;> rintro ⟨h1, h2⟩ <;> constructor <;> linarith
    simp only [e1]

theorem sliceOf (hn : 0 < s.slices) {cx cy r xl xr : ℝ} (hl : 0 ≤ xl) (hl' : 0 ≤ xl + dx) (hx : xl ≤ xr)
    (i : ℕ) : sliceOf t (cx + dx) (cy + dy) r (xl + dx) (xr + dx) i = sliceOf s cx cy r xl xr i := by
  have hn' : (0 : ℝ) < s.slices := by exact_mod_cast hn
  have hb : 0 ≤ (xr - xl) / s.slices := div_nonneg (by linarith) hn'.le
  have hi : 0 ≤ (i : ℝ) * ((xr - xl) / s.slices) := mul_nonneg (Nat.cast_nonneg _) hb
  have e : ∀ k : ℝ, xl + dx + k * ((xr - xl) / s.slices) = xl + k * ((xr - xl) / s.slices) + dx := by
    intro k; ring
  have es : ∀ (y : ℝ), (match layerAt t.materials (y + dy) with
      | some l => (l.mat.cohesion, l.mat.frictionAngle)
      | none => (0, 0)) = (match layerAt s.materials y with
      | some l => (l.mat.cohesion, l.mat.frictionAngle)
      | none => (0, 0)) := by
    intro y
    have := h.soil y
    unfold soilAt at this
    cases h1 : layerAt s.materials y <;> cases h2 : layerAt t.materials (y + dy) <;>
      rw [h1, h2] at this <;> simp_all
  unfold PySlope.sliceOf
  simp only [h.slices, add_sub_add_right_eq_sub, e]
  have ey : ∀ q : ℝ, cy + dy - q = cy - q + dy := by intro q; ring
  simp only [h.groundY, ey, max_add_add_right, h.pressureAt, Slice.mk.injEq, true_and]
  refine ⟨h.weightOn _ _ (by linarith) (by linarith), ?_, ?_, trivial⟩
  · have := congrArg Prod.fst (es (cy - √(r ^ 2 - (xl + ((i : ℝ) + 1 / 2) * ((xr - xl) / s.slices) - cx) ^ 2)))
    revert this
    cases layerAt t.materials _ <;> cases layerAt s.materials _ <;> exact id
  · have := congrArg Prod.snd (es (cy - √(r ^ 2 - (xl + ((i : ℝ) + 1 / 2) * ((xr - xl) / s.slices) - cx) ^ 2)))
    revert this
    cases layerAt t.materials _ <;> cases layerAt s.materials _ <;> exact id

theorem frame (gs : Geo s) (gt : Geo t) : t.topY = s.topY + dy ∧ t.botX = s.botX + dx ∧
    t.botY = s.botY + dy := by
  refine ⟨?_, ?_, ?_⟩
  · rw [gs.topY, gt.topY, h.extH]
  · rw [gs.botX, gt.botX, h.topX, h.length]; ring
  · rw [gs.botY, gt.botY, h.extH, h.height]; ring

theorem crossing (gs : Geo s) (gt : Geo t) {cx cy r : ℝ} (hs : Holds s cx cy r)
    (ht : Holds t (cx + dx) (cy + dy) r) (p : ℝ × ℝ) :
    Crossing t (cx + dx) (cy + dy) r (carry dx dy p) ↔ Crossing s cx cy r p := by
  obtain ⟨h1, h2, h3⟩ := h.frame gs gt
  obtain ⟨s1, s2, s3, _⟩ := hs
  obtain ⟨_, t2, t3, _⟩ := ht
  unfold Crossing OnCircle OnLine carry
  simp only [h1, h2, h3, h.topX, add_sub_add_right_eq_sub, add_le_add_iff_right]
  refine and_congr_right fun hc => ?_
  have hx : |p.1 - cx| ≤ r := abs_le_of_sq_le_sq (by nlinarith [sq_nonneg (p.2 - cy)]) s1
  obtain ⟨x1, x2⟩ := abs_le.mp hx
  refine or_congr ?_ (or_congr ?_ Iff.rfl)
  · constructor
    · rintro ⟨a, b, c⟩
      exact ⟨by linarith, by linarith, c⟩
    · rintro ⟨a, b, c⟩
      exact ⟨by linarith, by linarith, c⟩
  · constructor
    · rintro ⟨a, b, c, d⟩
      exact ⟨by linarith, b, by linarith, d⟩
    · rintro ⟨a, b, c, d⟩
      exact ⟨by linarith, b, by linarith, d⟩

theorem ends (gs : Geo s) (gt : Geo t) {cx cy r : ℝ} (hs : Holds s cx cy r)
    (ht : Holds t (cx + dx) (cy + dy) r) :
    ∃ l, s.circleExternalIntersection cx cy r = .ok l ∧
      t.circleExternalIntersection (cx + dx) (cy + dy) r = .ok (l.map (carry dx dy)) :=
  intersections_shift gs gt (h.crossing gs gt hs ht)

theorem setSize_shift {l : List (ℝ × ℝ)} (e : s.circleExternalIntersection cx cy r = .ok l) (gs : Geo s) :
    setSize (l.map (carry dx dy)) = setSize l := by
  obtain ⟨l', e', h1, _⟩ := intersections gs cx cy r
  rw [e'] at e
  cases e
  have hn := nodup_of_apart h1
  rw [setSize_nodup hn, setSize_nodup (hn.map ?_), List.length_map]
  intro a b hab
  simp only [carry, Prod.mk.injEq, add_left_inj] at hab
  exact Prod.ext hab.1 hab.2

end Displaced

end PySlope
