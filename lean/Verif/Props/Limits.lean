import Verif.Props.Dynamic
import Verif.Props.Options
import Verif.Spec.Ops

/-! # The analysis limits stay in force (C57) -/

namespace PySlope

/-- The four analysis limits. -/
def Limits (s : Slope ℝ) : ℝ × ℝ × ℝ × ℝ := (s.lim1, s.lim2, s.lim3, s.lim4)

/-- A distributed load needs a model not longer than the minimum length: two and a half times its
offset and length (3 m for a load without a length). -/
def UdlRoom (s : Slope ℝ) (u : Udl ℝ) : Prop := (u.offset + u.length.getD 3) * 2.5 ≤ s.minExtL

/-- A line load needs a model not longer than the minimum length: three times its offset. -/
def LlRoom (s : Slope ℝ) (l : LineLoad ℝ) : Prop := l.offset * 3 ≤ s.minExtL

/-- The calls that do not ask for other limits, another boundary or other boundary options and need no
larger model. -/
def Op.KeepsLimits (s : Slope ℝ) : Op ℝ → Prop
  | .setExternalBoundary .. | .updateBoundaryOptions .. | .removeAnalysisLimits | .setAnalysisLimits .. => False
  | .setUdls us => ∀ u, some u ∈ us → UdlRoom s u
  | .setLls ls => ∀ l, some l ∈ ls → LlRoom s l
  | .setMaterials ms => (∀ m, some m ∈ ms → m.depth ≤ s.extH) ∧ ∀ l ∈ s.materials, l.mat.depth ≤ s.extH
  | .analyseDynamic _ _ => ∀ left, GreatestOffset s left → ∀ o, min left 0 ≤ o → o ≤ max left 0 →
      (∀ p ∈ s.udls, UdlRoom s (p.load.movedTo o)) ∧ (∀ p ∈ s.lls, LlRoom s (p.load.movedTo o))
  | _ => True

theorem UdlRoom.min {s : Slope ℝ} {u : Udl ℝ} (h : UdlRoom s u) (hl : ∀ l, u.length = some l → 0 < l) :
    u.minLength ≤ s.minExtL := by
  unfold UdlRoom at h
  unfold Udl.minLength
  cases e : u.length with
  | none => simpa [e] using h
  | some l => simpa [e, (hl l e).ne'] using h

/-- The ground in its model: the boundary, crest, toe and sizes. -/
def GroundOf (s : Slope ℝ) : Option (List (ℝ × ℝ)) × ℝ × ℝ × ℝ × ℝ × ℝ × ℝ :=
  (s.extBoundary, s.topX, s.topY, s.botX, s.botY, s.extL, s.extH)

/-- The limits, the ground and the minimum length are still those. -/
def LimKept (s t : Slope ℝ) : Prop :=
  (Limits t, GroundOf t) = (Limits s, GroundOf s) ∧ t.minExtL = s.minExtL

theorem LimKept.trans {s t u : Slope ℝ} (h : LimKept s t) (k : LimKept t u) : LimKept s u :=
  ⟨k.1.trans h.1, k.2.trans h.2⟩

theorem addUdl_limits {s t : Slope ℝ} (h : LimKept s t) {a : UdlArg ℝ}
    (ha : ∀ u, a = some u → u.minLength ≤ s.minExtL) : LimKept s (t.addUdl a).1 := by
  cases a with
  | none => exact h
  | some u =>
    unfold Slope.addUdl
    simp only
    split
    · rw [if_neg (by change ¬ t.minExtL < _; rw [h.2]; exact not_lt.mpr (ha u rfl))]
      exact h
    · exact h

theorem addLl_limits {s t : Slope ℝ} (h : LimKept s t) {a : Option (LineLoad ℝ)}
    (ha : ∀ u, a = some u → LlRoom s u) : LimKept s (t.addLl a).1 := by
  cases a with
  | none => exact h
  | some u =>
    unfold Slope.addLl
    simp only
    split
    · rw [if_neg (by change ¬ t.minExtL < _; rw [h.2]; exact not_lt.mpr (ha u rfl))]
      exact h
    · exact h

theorem analyseSlope_limits (s : Slope ℝ) (m) : LimKept s (s.analyseSlope m).1 := by
  unfold Slope.analyseSlope
  simp only
  split
  · split <;> exact ⟨rfl, rfl⟩
  · split
    · exact ⟨rfl, rfl⟩
    · split <;> exact ⟨rfl, rfl⟩

theorem tryOffset_limits {s : Slope ℝ} (h : WFS s) (o : ℝ)
    (hu : ∀ p ∈ s.udls, UdlRoom s (p.load.movedTo o)) (hl : ∀ p ∈ s.lls, LlRoom s (p.load.movedTo o)) :
    LimKept s (s.tryOffset o).1 := by
  obtain ⟨m, e⟩ := setDynamicOffset_small h o (fun p hp => (hu p hp).min (by
    intro l hl
    have := (h.2.udl p.load (List.mem_map_of_mem hp)).2 l
    apply this
    unfold Udl.movedTo at hl
    split at hl <;> exact hl)) hl
  unfold Slope.tryOffset
  rw [e]
  simp only [andThen_done]
  generalize ha : ({ s with udls := _, udlMax := m, lls := _, search := [] } : Slope ℝ) = a
  have h1 : LimKept s a := by rw [← ha]; exact ⟨rfl, rfl⟩
  refine andThen_inv (I := LimKept s) _ _ (h1.trans (analyseSlope_limits a none)) ?_
  intro b _ hb
  split <;> exact hb

theorem movedTo_twice (o o' : ℝ) (u : Udl ℝ) : (u.movedTo o).movedTo o' = u.movedTo o' := by
  unfold Udl.movedTo; split <;> simp_all

theorem movedTo_twice_ll (o o' : ℝ) (u : LineLoad ℝ) : (u.movedTo o).movedTo o' = u.movedTo o' := by
  unfold LineLoad.movedTo; split <;> simp_all

theorem Attempts.limits {s t : Slope ℝ} {l : List (ℝ × ℝ)} (hA : Attempts s l t) (hw : WFS s) {left : ℝ}
    (hr : ∀ o, min left 0 ≤ o → o ≤ max left 0 →
      (∀ p ∈ s.udls, UdlRoom s (p.load.movedTo o)) ∧ (∀ p ∈ s.lls, LlRoom s (p.load.movedTo o)))
    (hl : ∀ a ∈ l, a.1 ∈ Set.uIcc left 0) : LimKept s t ∧
    ∀ o ∈ Set.uIcc left 0, LimKept s (t.tryOffset o).1 := by
  -- the loads still have room
  have step : ∀ (l : List (ℝ × ℝ)) (t : Slope ℝ), Attempts s l t → LimKept s t →
      ∀ o ∈ Set.uIcc left 0, LimKept s (t.tryOffset o).1 := by
    intro l t hA hk o ho
    obtain ⟨w, _, h⟩ := hA.spec hw
    obtain ⟨h1, h2⟩ := hr o ho.1 ho.2
    refine hk.trans (tryOffset_limits w o ?_ ?_)
    · intro p hp
      unfold UdlRoom
      rw [hk.2]
      rcases h with ⟨_, h⟩ | ⟨o', _, _, h⟩
      · rw [h] at hp
        exact h1 p hp
      · have : p.load ∈ t.udls.map PUdl.load := List.mem_map_of_mem hp
        rw [h.1] at this
        obtain ⟨u, hu, e⟩ := List.mem_map.mp this
        obtain ⟨q, hq, rfl⟩ := List.mem_map.mp hu
        rw [← e, movedTo_twice]
        exact h1 q hq
    · intro p hp
      unfold LlRoom
      rw [hk.2]
      rcases h with ⟨_, h⟩ | ⟨o', _, _, h⟩
      · rw [h] at hp
        exact h2 p hp
      · have : p.load ∈ t.lls.map PLl.load := List.mem_map_of_mem hp
        rw [h.2] at this
        obtain ⟨u, hu, e⟩ := List.mem_map.mp this
        obtain ⟨q, hq, rfl⟩ := List.mem_map.mp hu
        rw [← e, movedTo_twice_ll]
        exact h2 q hq
  suffices LimKept s t from ⟨this, step l t hA this⟩
  induction hA with
  | nil d => exact ⟨rfl, rfl⟩
  | @snoc l t o f u h k ih =>
    have hk := ih (fun a ha => hl a (by simp [ha]))
    have := step l t h hk o (hl (o, f) (by simp))
    obtain ⟨v, e, hv⟩ := k.try
    rw [e] at this
    rw [hv]
    exact this

theorem analyseDynamic_limits {s : Slope ℝ} (hw : WFS s) (c : ℝ) (dec : Bool)
    (h : ∀ left, GreatestOffset s left → ∀ o, min left 0 ≤ o → o ≤ max left 0 →
      (∀ p ∈ s.udls, UdlRoom s (p.load.movedTo o)) ∧ (∀ p ∈ s.lls, LlRoom s (p.load.movedTo o))) :
    LimKept s (s.analyseDynamic c dec).1 := by
  generalize ht : (s.analyseDynamic c dec).1 = t
  generalize hx : (s.analyseDynamic c dec).2 = x
  rcases analyseDynamic_end hw c dec (t := t) (r := x) (by rw [← ht, ← hx]) with ⟨h, _⟩ | ⟨left, hg, hE⟩
  · rw [h]; exact ⟨rfl, rfl⟩
  · have hr := h left hg
    have two : ∀ {u : Slope ℝ} {l o y}, Attempts s l u → (∀ a ∈ l, a.1 ∈ Set.uIcc left 0) → o ∈ Set.uIcc left 0 →
        u.tryOffset o = (t, y) → LimKept s t := by
      intro u l o y hA hl ho e
      have := (hA.limits hw hr hl).2 o ho
      rwa [e] at this
    cases hE with
    | crestFails e => exact two (.nil s []) (by simp) (by simp) e
    | safe h => exact (h.limits hw hr (by simp)).1
    | farFails h _ _ e => exact two h (by simp) (by simp) e
    | failing h => exact (h.limits hw hr (by simp)).1
    | looped h _ _ _ _ _ _ ho _ => exact (h.limits hw hr (by simpa using fun a b h => ho (a, b) h)).1
    | @loopFails u f g m x h _ _ _ _ ho e =>
      have hl : ∀ a ∈ (0, f) :: (left, g) :: m, a.1 ∈ Set.uIcc left 0 := by simpa using fun a b h => ho (a, b) h
      rcases e with ⟨e, _⟩ | ⟨o, ho', e⟩
      · rw [e]; exact (h.limits hw hr hl).1
      · exact two h hl ho' e

theorem setMaterials_limits {s : Slope ℝ} (ms : List (Option (Material ℝ)))
    (h : ∀ m, some m ∈ ms → m.depth ≤ s.extH) (h' : ∀ l ∈ s.materials, l.mat.depth ≤ s.extH) :
    LimKept s (s.setMaterials ms).1 := by
  unfold Slope.setMaterials
  split
  · exact ⟨rfl, rfl⟩
  · simp only
    split
    · exact ⟨rfl, rfl⟩
    · rename_i d hd
      rw [if_neg]
      · rw [andThen_done]
        split <;> exact ⟨rfl, rfl⟩
      · apply not_lt.mpr
        obtain ⟨m, hm, rfl⟩ := List.mem_map.mp (List.mem_of_getLast? hd)
        have : m ∈ ms.filterMap id ++ s.materials.map Layer.mat := (sortByKey_perm _ _).mem_iff.mp hm
        rcases List.mem_append.mp this with hm | hm
        · obtain ⟨a, ha, e⟩ := List.mem_filterMap.mp hm
          subst e
          exact h m ha
        · obtain ⟨l, hl, rfl⟩ := List.mem_map.mp hm
          exact h' l hl

/-- C57, the part that holds: whatever the state and whether or not the call raises, a call that is not
about the limits or the boundary and needs no larger model leaves the limits as they are. What is
missing: the calls that enlarge the model (`C57_limits_lost`). -/
theorem C57_limits_kept_partial (s : Slope ℝ) (r : Reachable s) (o : Op ℝ) (hv : o.Valid) (h : o.KeepsLimits s) :
    (o.run s).1.lim1 = s.lim1 ∧ (o.run s).1.lim2 = s.lim2 ∧ (o.run s).1.lim3 = s.lim3 ∧
      (o.run s).1.lim4 = s.lim4 := by
  suffices k : LimKept s (o.run s).1 by
    have := (Prod.ext_iff.mp k.1).1
    simp only [Limits, Prod.mk.injEq] at this
    exact this
  cases o with
  | setExternalBoundary => exact h.elim
  | updateBoundaryOptions => exact h.elim
  | removeAnalysisLimits => exact h.elim
  | setAnalysisLimits => exact h.elim
  | setWaterTable d =>
    change LimKept s (s.setWaterTable d).1
    unfold Slope.setWaterTable
    split
    · exact ⟨rfl, rfl⟩
    · split <;> exact ⟨rfl, rfl⟩
  | removeWaterTable => exact ⟨rfl, rfl⟩
  | setUdls us =>
    refine andThen_inv (I := LimKept s) _ _ (forEach_inv_mem _ _ ?_ s ⟨rfl, rfl⟩) ?_
    · intro t a ha ht
      refine addUdl_limits ht ?_
      rintro u rfl
      exact (h u ha).min (hv u ha).facts.2.2
    · intro t _ ht
      exact ht
  | removeUdls us all =>
    change LimKept s (s.removeUdls us all).1
    obtain ⟨_, _, e⟩ := WFS.removeUdls_rest s us all
    rw [e]
    exact ⟨rfl, rfl⟩
  | setLls ls =>
    refine andThen_inv (I := LimKept s) _ _ (forEach_inv_mem _ _ ?_ s ⟨rfl, rfl⟩) ?_
    · intro t a ha ht
      refine addLl_limits ht ?_
      rintro u rfl
      exact h u ha
    · intro t _ ht
      exact ht
  | removeLls ls all =>
    change LimKept s (s.removeLls ls all).1
    obtain ⟨_, e⟩ := WFS.removeLls_rest s ls all
    rw [e]
    exact ⟨rfl, rfl⟩
  | setMaterials ms => exact setMaterials_limits ms h.1 h.2
  | removeMaterial m d all => exact ⟨rfl, rfl⟩
  | updateWaterAnalysisOptions auto H =>
    change LimKept s (s.updateWaterAnalysisOptions auto H).1
    unfold Slope.updateWaterAnalysisOptions
    split
    · exact ⟨rfl, rfl⟩
    · split <;> exact ⟨rfl, rfl⟩
  | updateAnalysisOptions n i f t m =>
    change LimKept s (s.updateAnalysisOptions n i f t m).1
    obtain ⟨_, _, _, _, _, _, _, e⟩ := updateAnalysisOptions_rest s n i f t m
    rw [e]
    exact ⟨rfl, rfl⟩
  | addSingleEntryExitPlane l r n =>
    change LimKept s (s.addSingleEntryExitPlane l r n).1
    unfold Slope.addSingleEntryExitPlane
    repeat' split
    all_goals exact ⟨rfl, rfl⟩
  | addSingleCircularPlane x y r =>
    change LimKept s (s.addSingleCircularPlane x y r).1
    unfold Slope.addSingleCircularPlane
    repeat' split
    all_goals exact ⟨rfl, rfl⟩
  | removeIndividualPlanes => exact ⟨rfl, rfl⟩
  | analyseSlope m => exact analyseSlope_limits s m
  | analyseDynamic c dec => exact analyseDynamic_limits r.wfs c dec h

/-- The example with the limits 1, 5, 7 and 14. -/
noncomputable def exLimited : Slope ℝ := { exSlope with lim1 := 1, lim2 := 5, lim3 := 7, lim4 := 14 }

theorem exLimited_reachable : Reachable exLimited := by
  have h := Reachable.call exSlope_reachable (.setAnalysisLimits _ (.num 1) (.num 14) (.num 5) (.num 7))
  have h' := (C22_limits_ordered exSlope exSlope_reachable).2.2.1 1 14 5 7 (by norm_num) (by norm_num)
    (by norm_num) (by norm_num) (by norm_num) (by norm_num)
  rw [h'] at h
  have e : exLimited = { exSlope with lim1 := 1, lim2 := min 5 exSlope.topX, lim3 := max 7 exSlope.topX,
                                      lim4 := min 14 exSlope.extL, search := [] } := by
    unfold exLimited
    rw [exSlope_topX, exSlope_extL, min_eq_left (by norm_num : (5 : ℝ) ≤ 6), max_eq_left (by norm_num : (6 : ℝ) ≤ 7),
      min_eq_left (by norm_num : (14 : ℝ) ≤ 15)]
    rfl
  rw [e]
  exact h

/-- A case of C57: a load 1 m behind the crest keeps the limits. -/
example : Limits ((Op.setLls [some (exLl 1)]).run exLimited).1 = (1, 5, 7, 14) := by
  have := C57_limits_kept_partial exLimited exLimited_reachable (.setLls [some (exLl 1)])
    (by intro u hu; simp at hu; subst hu; exact exLl_constructed _)
    (by
      intro u hu
      simp at hu
      subst hu
      change |(1 : ℝ)| * 3 ≤ 10
      norm_num)
  simp only [Limits, this]
  rfl

/-- C57 fails: adding a load 5 m behind the crest, which the model of 15 m already has room for, drops
the limits the user has set. -/
theorem C57_limits_lost : ∃ s t l, Reachable s ∧ LineLoad.Constructed l ∧ s.setLls [some l] = (t, .ok ()) ∧
    t.extL = s.extL ∧ t.topX = s.topX ∧ Limits s = (1, 5, 7, 14) ∧ Limits t = (0, 6, 6, 15) := by
  have g := exLimited_reachable.wf.geo
  have e := addLl_eq exLimited_reachable.sane g (exLl 5) (by norm_num [exLl])
  have e5 : (exLl 5).offset * 3 = 15 := by norm_num [exLl]
  have eH : exLimited.height = 3 := rfl
  have eL : exLimited.length = 3 := rfl
  rw [e5, if_pos (by change (10 : ℝ) < 15; norm_num), eH, eL] at e
  have e2 : exLimited.setLls [some (exLl 5)] =
      (((({ exLimited with lls := exLimited.lls ++ [placeLl exLimited.topX (exLl 5)], minExtL := 15 } :
        Slope ℝ).withGeo 3 3).updateLlCoordinates).resetResults, .ok ()) := by
    unfold Slope.setLls Slope.forEach
    rw [e]
    rfl
  have hL : ∀ l, totL ({ exLimited with lls := l, minExtL := 15 } : Slope ℝ) 3 3 = 15 := by
    intro l
    unfold totL
    norm_num
  refine ⟨exLimited, _, exLl 5, exLimited_reachable, exLl_constructed 5, e2, ?_, ?_, rfl, ?_⟩
  · change totL _ 3 3 = exSlope.extL
    rw [hL, exSlope_extL]
  · change (totL _ 3 3 - 3) / 2 = exSlope.topX
    rw [hL, exSlope_topX]
    norm_num
  · change ((0 : ℝ), (totL _ 3 3 - 3) / 2, (totL _ 3 3 - 3) / 2, totL _ 3 3) = (0, 6, 6, 15)
    rw [hL]
    norm_num

end PySlope
