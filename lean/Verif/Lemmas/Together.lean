import Verif.Props.Alike

/-! # Entering a list of loads: closed form -/

namespace PySlope

/-- The loads of a list of arguments that are taken: those of positive magnitude. -/
noncomputable def takenUdls (us : List (UdlArg ℝ)) : List (Udl ℝ) :=
  (us.filterMap id).filter (fun u => decide (0 < u.magnitude))

noncomputable def takenLls (us : List (Option (LineLoad ℝ))) : List (LineLoad ℝ) :=
  (us.filterMap id).filter (fun u => decide (0 < u.magnitude))

/-- The least length of the model once there is room for the loads. -/
noncomputable def roomUdls (P : List (Udl ℝ)) (m : ℝ) : ℝ := P.foldl (fun m u => max m u.minLength) m

noncomputable def roomLls (P : List (LineLoad ℝ)) (m : ℝ) : ℝ := P.foldl (fun m u => max m (u.offset * 3)) m

theorem le_roomUdls (P : List (Udl ℝ)) (m : ℝ) : m ≤ roomUdls P m := by
  induction P generalizing m with
  | nil => exact le_refl _
  | cons u P ih => exact (le_max_left _ _).trans (ih _)

theorem le_roomLls (P : List (LineLoad ℝ)) (m : ℝ) : m ≤ roomLls P m := by
  induction P generalizing m with
  | nil => exact le_refl _
  | cons u P ih => exact (le_max_left _ _).trans (ih _)

/-- The slope after the loads are entered, before their places are worked out again. -/
noncomputable def Slope.withUdls (s : Slope ℝ) (P : List (Udl ℝ)) : Slope ℝ :=
  if s.minExtL < roomUdls P s.minExtL then
    ({ s with udls := s.udls ++ P.map (placeUdl s.topX), minExtL := roomUdls P s.minExtL } :
      Slope ℝ).withGeo s.height s.length
  else { s with udls := s.udls ++ P.map (placeUdl s.topX) }

noncomputable def Slope.withLls (s : Slope ℝ) (P : List (LineLoad ℝ)) : Slope ℝ :=
  if s.minExtL < roomLls P s.minExtL then
    ({ s with lls := s.lls ++ P.map (placeLl s.topX), minExtL := roomLls P s.minExtL } :
      Slope ℝ).withGeo s.height s.length
  else { s with lls := s.lls ++ P.map (placeLl s.topX) }

theorem placeUdl_load (x : ℝ) (u : Udl ℝ) : (placeUdl x u).load = u := rfl
theorem placeLl_load (x : ℝ) (u : LineLoad ℝ) : (placeLl x u).load = u := rfl

theorem withUdls_append (s : Slope ℝ) (P Q : List (Udl ℝ)) :
    (s.withUdls P).withUdls Q = s.withUdls (P ++ Q) := by
  have e : roomUdls (P ++ Q) s.minExtL = roomUdls Q (roomUdls P s.minExtL) := by simp [roomUdls]
  have a := le_roomUdls P s.minExtL
  have b := le_roomUdls Q (roomUdls P s.minExtL)
  by_cases h : s.minExtL < roomUdls P s.minExtL
  · have e1 : s.withUdls P = ({ s with udls := s.udls ++ P.map (placeUdl s.topX), minExtL := roomUdls P s.minExtL } : Slope ℝ).withGeo
        s.height s.length := if_pos h
    have e2 : s.withUdls (P ++ Q) = ({ s with udls := s.udls ++ (P ++ Q).map (placeUdl s.topX), minExtL := roomUdls (P ++ Q) s.minExtL } :
          Slope ℝ).withGeo s.height s.length := by
      apply if_pos; rw [e]; exact h.trans_le b
    rw [e2, e1, e]
    generalize roomUdls P s.minExtL = m at *
    by_cases h' : m < roomUdls Q m
    · refine (if_pos h').trans ?_
      simp [Slope.withGeo, totH, totL, Function.comp_def, placeUdl_load, placeLl_load]
    · refine (if_neg h').trans ?_
      have : roomUdls Q m = m := le_antisymm (not_lt.mp h') b
      rw [this]
      simp [Slope.withGeo, totH, totL, Function.comp_def, placeUdl_load, placeLl_load]
  · have e1 : s.withUdls P = { s with udls := s.udls ++ P.map (placeUdl s.topX) } := if_neg h
    have e0 : roomUdls P s.minExtL = s.minExtL := le_antisymm (not_lt.mp h) a
    rw [e1]
    unfold Slope.withUdls
    rw [e, e0]
    simp

theorem withLls_append (s : Slope ℝ) (P Q : List (LineLoad ℝ)) :
    (s.withLls P).withLls Q = s.withLls (P ++ Q) := by
  have e : roomLls (P ++ Q) s.minExtL = roomLls Q (roomLls P s.minExtL) := by simp [roomLls]
  have a := le_roomLls P s.minExtL
  have b := le_roomLls Q (roomLls P s.minExtL)
  by_cases h : s.minExtL < roomLls P s.minExtL
  · have e1 : s.withLls P = ({ s with lls := s.lls ++ P.map (placeLl s.topX), minExtL := roomLls P s.minExtL } : Slope ℝ).withGeo
        s.height s.length := if_pos h
    have e2 : s.withLls (P ++ Q) = ({ s with lls := s.lls ++ (P ++ Q).map (placeLl s.topX), minExtL := roomLls (P ++ Q) s.minExtL } :
          Slope ℝ).withGeo s.height s.length := by
      apply if_pos; rw [e]; exact h.trans_le b
    rw [e2, e1, e]
    generalize roomLls P s.minExtL = m at *
    by_cases h' : m < roomLls Q m
    · refine (if_pos h').trans ?_
      simp [Slope.withGeo, totH, totL, Function.comp_def, placeUdl_load, placeLl_load]
    · refine (if_neg h').trans ?_
      have : roomLls Q m = m := le_antisymm (not_lt.mp h') b
      rw [this]
      simp [Slope.withGeo, totH, totL, Function.comp_def, placeUdl_load, placeLl_load]
  · have e1 : s.withLls P = { s with lls := s.lls ++ P.map (placeLl s.topX) } := if_neg h
    have e0 : roomLls P s.minExtL = s.minExtL := le_antisymm (not_lt.mp h) a
    rw [e1]
    unfold Slope.withLls
    rw [e, e0]
    simp

theorem withUdls_nil (s : Slope ℝ) : s.withUdls [] = s := by
  unfold Slope.withUdls
  rw [if_neg (by simp [roomUdls])]
  simp

theorem withLls_nil (s : Slope ℝ) : s.withLls [] = s := by
  unfold Slope.withLls
  rw [if_neg (by simp [roomLls])]
  simp

theorem addUdl_with {s : Slope ℝ} (h : WFS s) (u : UdlArg ℝ) :
    s.addUdl u = (s.withUdls (takenUdls [u]), .ok ()) := by
  rcases u with _ | u
  · rw [show takenUdls [none] = [] from by simp [takenUdls], withUdls_nil]; rfl
  · by_cases hm : 0 < u.magnitude
    · rw [addUdl_eq h.2 h.1.geo u hm, show takenUdls [some u] = [u] from by simp [takenUdls, hm]]
      unfold Slope.withUdls roomUdls
      simp only [List.foldl_cons, List.foldl_nil, List.map_cons, List.map_nil, lt_max_iff, lt_irrefl, false_or]
      by_cases hh : s.minExtL < u.minLength
      · rw [if_pos hh, if_pos hh, max_eq_right hh.le]
      · rw [if_neg hh, if_neg hh]
    · rw [show takenUdls [some u] = [] from by simp [takenUdls, hm], withUdls_nil]
      unfold Slope.addUdl
      simp only [lit_zero]
      rw [if_neg hm]

theorem addLl_with {s : Slope ℝ} (h : WFS s) (u : Option (LineLoad ℝ)) :
    s.addLl u = (s.withLls (takenLls [u]), .ok ()) := by
  rcases u with _ | u
  · rw [show takenLls [none] = [] from by simp [takenLls], withLls_nil]; rfl
  · by_cases hm : 0 < u.magnitude
    · rw [addLl_eq h.2 h.1.geo u hm, show takenLls [some u] = [u] from by simp [takenLls, hm]]
      unfold Slope.withLls roomLls
      simp only [List.foldl_cons, List.foldl_nil, List.map_cons, List.map_nil, lt_max_iff, lt_irrefl, false_or]
      by_cases hh : s.minExtL < u.offset * 3
      · rw [if_pos hh, if_pos hh, max_eq_right hh.le]
      · rw [if_neg hh, if_neg hh]
    · rw [show takenLls [some u] = [] from by simp [takenLls, hm], withLls_nil]
      unfold Slope.addLl
      simp only [lit_zero]
      rw [if_neg hm]

theorem takenUdls_append (a b : List (UdlArg ℝ)) : takenUdls (a ++ b) = takenUdls a ++ takenUdls b := by
  simp [takenUdls]

theorem takenLls_append (a b : List (Option (LineLoad ℝ))) : takenLls (a ++ b) = takenLls a ++ takenLls b := by
  simp [takenLls]

theorem forEach_addUdl_with {s : Slope ℝ} (h : WFS s) (us : List (UdlArg ℝ))
    (hu : ∀ v, some v ∈ us → ∀ l, v.length = some l → 0 < l) :
    Slope.forEach Slope.addUdl us s = (s.withUdls (takenUdls us), .ok ()) := by
  induction us generalizing s with
  | nil => rw [show takenUdls [] = [] from rfl, withUdls_nil]; rfl
  | cons a us ih =>
    have e := addUdl_with h a
    have w : WFS (s.withUdls (takenUdls [a])) := by
      have w := h.1.addUdl a
      have sn := h.2.addUdl h.1.geo a (fun v e => hu v (e ▸ List.mem_cons_self))
      rw [e] at w sn
      exact ⟨w, sn⟩
    rw [Slope.forEach, e, show a :: us = [a] ++ us from rfl, takenUdls_append, ← withUdls_append]
    exact ih w fun v hv => hu v (List.mem_cons_of_mem _ hv)

theorem forEach_addLl_with {s : Slope ℝ} (h : WFS s) (us : List (Option (LineLoad ℝ))) :
    Slope.forEach Slope.addLl us s = (s.withLls (takenLls us), .ok ()) := by
  induction us generalizing s with
  | nil => rw [show takenLls [] = [] from rfl, withLls_nil]; rfl
  | cons a us ih =>
    have e := addLl_with h a
    have w : WFS (s.withLls (takenLls [a])) := by
      have w := h.1.addLl a
      have sn := h.2.addLl h.1.geo a
      rw [e] at w sn
      exact ⟨w, sn⟩
    rw [Slope.forEach, e, show a :: us = [a] ++ us from rfl, takenLls_append, ← withLls_append]
    exact ih w

/-- What `set_udls` does last. -/
noncomputable def Slope.settleUdls (s : Slope ℝ) : Slope ℝ :=
  { s with
    udls := s.udls.map (fun p => placeUdl s.topX p.load)
    udlMax := maxMagnitude (s.udls.map (fun p => placeUdl s.topX p.load)) s.udlMax
    search := [] }

noncomputable def Slope.settleLls (s : Slope ℝ) : Slope ℝ :=
  { s with lls := s.lls.map (fun p => placeLl s.topX p.load), search := [] }

theorem setUdls_with {s : Slope ℝ} (h : WFS s) (us : List (UdlArg ℝ))
    (hu : ∀ v, some v ∈ us → ∀ l, v.length = some l → 0 < l) :
    s.setUdls us = ((s.withUdls (takenUdls us)).settleUdls, .ok ()) := by
  unfold Slope.setUdls
  rw [forEach_addUdl_with h us hu]
  rfl

theorem setLls_with {s : Slope ℝ} (h : WFS s) (us : List (Option (LineLoad ℝ))) :
    s.setLls us = ((s.withLls (takenLls us)).settleLls, .ok ()) := by
  unfold Slope.setLls
  rw [forEach_addLl_with h us]
  rfl

theorem maxMagnitude_append {K : Type} [PyNum K] (a b : List (PUdl K)) (o : UdlMax K) (x : List (PUdl K))
    (h : x.map (fun p => p.load.magnitude) = a.map (fun p => p.load.magnitude)) :
    maxMagnitude (x ++ b) (maxMagnitude a o) = maxMagnitude (x ++ b) o := by
  cases x with
  | nil =>
    have : a = [] := by simpa using h.symm
    subst this
    rfl
  | cons y x => rfl

theorem settle_withUdls (s : Slope ℝ) (Q : List (Udl ℝ)) :
    (s.settleUdls.withUdls Q).settleUdls = (s.withUdls Q).settleUdls := by
  unfold Slope.withUdls
  rw [show s.settleUdls.minExtL = s.minExtL from rfl]
  split
  · simp only [Slope.settleUdls, Slope.withGeo, totH, totL, List.map_append, List.map_map, Function.comp_def,
      placeUdl_load]
    rw [maxMagnitude_append]
    simp [Function.comp_def, placeUdl_load]
  · simp only [Slope.settleUdls, List.map_append, List.map_map, Function.comp_def, placeUdl_load]
    rw [maxMagnitude_append]
    simp [Function.comp_def, placeUdl_load]

theorem settle_withLls (s : Slope ℝ) (Q : List (LineLoad ℝ)) :
    (s.settleLls.withLls Q).settleLls = (s.withLls Q).settleLls := by
  unfold Slope.withLls
  rw [show s.settleLls.minExtL = s.minExtL from rfl]
  split
  · simp only [Slope.settleLls, Slope.withGeo, totH, totL, List.map_append, List.map_map, Function.comp_def,
      placeLl_load]
  · simp only [Slope.settleLls, List.map_append, List.map_map, Function.comp_def, placeLl_load]

end PySlope
