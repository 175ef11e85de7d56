import Verif.Lemmas.Heap

/-! # The heap model refines the value model: removals, materials, dynamic analysis -/

namespace PySlope

theorem Sim.removeUdls (s : HS ℝ) (rs : List Nat) (all : Bool) :
    Sim (s.removeUdls rs all) (s.view.removeUdls (rs.map fun r => (s.heap.udl r).load) all) := by
  have hf : ∀ (rs : List Nat) (l : List Nat),
      (rs.foldl (fun l r =>
        removeLoop (fun c => ((s.heap.udl c).load).matches ((s.heap.udl r).load))
          (fun a b => ((s.heap.udl a).load).eq ((s.heap.udl b).load)) l.length 0 l) l).map s.heap.udl =
      (rs.map fun r => (s.heap.udl r).load).foldl (fun l u =>
        removeLoop (fun (c : PUdl ℝ) => c.load.matches u) (fun a b => a.load.eq b.load)
          l.length 0 l) (l.map s.heap.udl) := by
    intro rs
    induction rs with
    | nil => exact fun l => rfl
    | cons r rs ih =>
      intro l
      rw [List.foldl_cons, ih, List.map_cons, List.foldl_cons,
        removeLoop_map s.heap.udl (fun c => c.load.matches (s.heap.udl r).load)
          (fun a b => a.load.eq b.load), List.length_map]
  have h := hf rs s.obj.us
  unfold HS.removeUdls Slope.removeUdls
  refine ⟨?_, rfl⟩
  simp only
  rw [show s.view.udls = s.obj.us.map s.heap.udl from rfl, ← h]
  generalize (rs.foldl _ s.obj.us) = l
  cases all
  · cases l with
    | nil => rfl
    | cons a l => rfl
  · rfl

theorem Sim.removeLls (s : HS ℝ) (rs : List Nat) (all : Bool) :
    Sim (s.removeLls rs all) (s.view.removeLls (rs.map fun r => (s.heap.ll r).load) all) := by
  have hf : ∀ (rs : List Nat) (l : List Nat),
      (rs.foldl (fun l r =>
        removeLoop (fun c => ((s.heap.ll c).load).matches ((s.heap.ll r).load))
          (fun a b => ((s.heap.ll a).load).eq ((s.heap.ll b).load)) l.length 0 l) l).map s.heap.ll =
      (rs.map fun r => (s.heap.ll r).load).foldl (fun l u =>
        removeLoop (fun (c : PLl ℝ) => c.load.matches u) (fun a b => a.load.eq b.load)
          l.length 0 l) (l.map s.heap.ll) := by
    intro rs
    induction rs with
    | nil => exact fun l => rfl
    | cons r rs ih =>
      intro l
      rw [List.foldl_cons, ih, List.map_cons, List.foldl_cons,
        removeLoop_map s.heap.ll (fun c => c.load.matches (s.heap.ll r).load)
          (fun a b => a.load.eq b.load), List.length_map]
  have h := hf rs s.obj.ls
  unfold HS.removeLls Slope.removeLls
  refine ⟨?_, rfl⟩
  simp only
  rw [show s.view.lls = s.obj.ls.map s.heap.ll from rfl, ← h]
  generalize (rs.foldl _ s.obj.ls) = l
  cases all <;> rfl

theorem Sim.removeDepth (s : HS ℝ) (d : Option ℝ) (all : Bool) :
    Sim (s.removeMaterial none d all) (s.view.removeMaterial none d all) := by
  unfold HS.removeMaterial Slope.removeMaterial
  refine ⟨?_, rfl⟩
  cases all with
  | true => rfl
  | false =>
    simp only [Bool.false_eq_true, if_false]
    cases d with
    | none => rfl
    | some x =>
      simp only
      by_cases hx : pyEq x (@OfNat.ofNat ℝ 0 (Lit.natLit 0)) = true
      · simp only [if_pos hx]; rfl
      · simp only [if_neg hx]
        rw [show s.view.materials = s.obj.ms.map s.heap.mat from rfl, List.find?_map]
        rw [show ((fun l : Layer ℝ => pyEq l.mat.depth x) ∘ s.heap.mat) =
          (fun r => pyEq (s.heap.mat r).mat.depth x) from rfl]
        cases s.obj.ms.find? (fun r => pyEq (s.heap.mat r).mat.depth x) with
        | none => rfl
        | some q =>
          simp only [Option.map_some]
          rw [← removeFirst_map s.heap.mat]
          rfl

theorem Sim.removeMaterial (s : HS ℝ) (r : Option Nat) (d : Option ℝ) (all : Bool) :
    Sim (s.removeMaterial r d all)
      (s.view.removeMaterial (r.map fun r => (s.heap.mat r).mat) d all) := by
  cases r with
  | none => exact Sim.removeDepth s d all
  | some r => exact Sim.removeDepth s (some (s.heap.mat r).mat.depth) all

theorem filterMap_id_map {α β : Type} (f : α → β) (l : List (Option α)) :
    (l.map (Option.map f)).filterMap id = (l.filterMap id).map f := by
  induction l with
  | nil => rfl
  | cons a l ih =>
    cases a with
    | none => exact ih
    | some a => exact congrArg (f a :: ·) ih

theorem Sim.setMaterials (s : HS ℝ) (args : List (Option Nat)) :
    Sim (s.setMaterials args)
      (s.view.setMaterials (args.map (Option.map fun r => (s.heap.mat r).mat))) := by
  unfold HS.setMaterials Slope.setMaterials
  have ea : (args.map (Option.map fun r => (s.heap.mat r).mat)).any (·.isNone) =
      args.any (·.isNone) := by
    rw [List.any_map]
    congr 1
    funext a
    cases a <;> rfl
  rw [ea]
  by_cases h1 : args.any (·.isNone) = true
  · rw [if_pos h1, if_pos h1]; exact ⟨rfl, rfl⟩
  · rw [if_neg h1, if_neg h1]
    have em : sortByKey Material.depth ((args.map (Option.map fun r => (s.heap.mat r).mat)).filterMap id ++
        s.view.materials.map Layer.mat) =
        (sortByKey (fun r => (s.heap.mat r).mat.depth) (args.filterMap id ++ s.obj.ms)).map
          (fun r => (s.heap.mat r).mat) := by
      rw [sortByKey_map (fun r => (s.heap.mat r).mat) Material.depth, List.map_append, filterMap_id_map]
      congr 2
      change (s.obj.ms.map s.heap.mat).map Layer.mat = _
      rw [List.map_map]; rfl
    simp only [em]
    generalize sortByKey (fun r => (s.heap.mat r).mat.depth) (args.filterMap id ++ s.obj.ms) = rs
    have ed : (rs.map (fun r => (s.heap.mat r).mat)).map Material.depth =
        rs.map (fun r => (s.heap.mat r).mat.depth) := by rw [List.map_map]; rfl
    rw [ed]
    cases (rs.map (fun r => (s.heap.mat r).mat.depth)).getLast? with
    | none => exact ⟨rfl, rfl⟩
    | some deepest =>
      simp only
      have hs : ∀ t : HS ℝ, Loads s.heap t → Sim
          (if setSizeNum (rs.map (fun r => (s.heap.mat r).mat.depth)) <
              (rs.map (fun r => (s.heap.mat r).mat.depth)).length then (t, .error .valueError)
            else (({ heap := t.heap.writeLayers t.obj.core.extH 0 rs, obj := { t.obj with ms := rs } } :
              HS ℝ).resetResults, .ok ()))
          (if setSizeNum (rs.map (fun r => (s.heap.mat r).mat.depth)) <
              (rs.map (fun r => (s.heap.mat r).mat.depth)).length then (t.view, .error .valueError)
            else (({ t.view with
                materials := mkLayers t.view.extH 0 (rs.map fun r => (s.heap.mat r).mat) } :
              Slope ℝ).resetResults, .ok ())) := by
        intro t ht
        by_cases hc : setSizeNum (rs.map (fun r => (s.heap.mat r).mat.depth)) <
              (rs.map (fun r => (s.heap.mat r).mat.depth)).length
        · rw [if_pos hc, if_pos hc]; exact ⟨rfl, rfl⟩
        · rw [if_neg hc, if_neg hc]
          refine ⟨?_, rfl⟩
          rw [setSizeNum_lt_iff, not_not] at hc
          have hn : rs.Nodup := hc.of_map
          obtain ⟨p1, p2⟩ := Heap.writeLayers_other t.obj.core.extH 0 rs t.heap
          change ({ t.obj.core with
            udls := t.obj.us.map (t.heap.writeLayers t.obj.core.extH 0 rs).udl,
            lls := t.obj.ls.map (t.heap.writeLayers t.obj.core.extH 0 rs).ll,
            materials := rs.map (t.heap.writeLayers t.obj.core.extH 0 rs).mat,
            search := [] } : Slope ℝ) = _
          rw [p1, p2, Heap.writeLayers_map _ _ _ _ hn]
          have : (rs.map fun r => (t.heap.mat r).mat) = rs.map fun r => (s.heap.mat r).mat :=
            List.map_congr_left (fun q _ => ht.2.2 q)
          rw [this]
          rfl
      have h0 : Loads s.heap s := ⟨fun _ => rfl, fun _ => rfl, fun _ => rfl⟩
      by_cases hx : s.obj.core.extH < deepest
      · have hx' : s.view.extH < deepest := hx
        rw [if_pos hx, if_pos hx']
        have h1 := Sim.updateBoundaryOptions s .none (.num deepest)
        refine h1.andThen (fun _ _ => ?_)
        rw [← h1.1]
        exact hs _ ((loads_stable s.heap).updateBoundaryOptions h0 _ _)
      · have hx' : ¬ s.view.extH < deepest := hx
        rw [if_neg hx, if_neg hx']
        exact hs s h0

/-! ## Dynamic analysis -/

theorem udl_movedTo_idem (o : ℝ) (u : Udl ℝ) : (u.movedTo o).movedTo o = u.movedTo o := by
  unfold Udl.movedTo; by_cases c : u.dynamic <;> simp [c]

theorem ll_movedTo_idem (o : ℝ) (u : LineLoad ℝ) : (u.movedTo o).movedTo o = u.movedTo o := by
  unfold LineLoad.movedTo; by_cases c : u.dynamic <;> simp [c]

theorem moveUdl_udl (h : Heap ℝ) (r : Nat) (o : ℝ) (q : Nat) :
    (h.moveUdl r o).udl q =
      if q = r then { h.udl q with load := (h.udl q).load.movedTo o } else h.udl q := by
  unfold Heap.moveUdl Udl.movedTo
  by_cases e : q = r
  · subst e
    by_cases c : (h.udl q).load.dynamic <;> simp [c, Heap.setUdl]
  · by_cases c : (h.udl r).load.dynamic <;> simp [c, Heap.setUdl, e]

theorem moveLl_ll (h : Heap ℝ) (r : Nat) (o : ℝ) (q : Nat) :
    (h.moveLl r o).ll q =
      if q = r then { h.ll q with load := (h.ll q).load.movedTo o } else h.ll q := by
  unfold Heap.moveLl LineLoad.movedTo
  by_cases e : q = r
  · subst e
    by_cases c : (h.ll q).load.dynamic <;> simp [c, Heap.setLl]
  · by_cases c : (h.ll r).load.dynamic <;> simp [c, Heap.setLl, e]

/-- The slope holds no other uniform loads than those of `A`. -/
theorem within_stable (A B : List Nat) : HStable (K := ℝ) (fun s => s.obj.us ⊆ A ∧ s.obj.ls ⊆ B) :=
  ⟨fun _ _ h => h, fun _ _ h => h, fun _ _ h => h⟩

theorem moveUdl_view {s : HS ℝ} {o : ℝ} (r : Nat)
    (hb : ∀ q ∈ s.obj.us, (s.heap.udl q).load.movedTo o = (s.heap.udl q).load) :
    ({ s with heap := s.heap.moveUdl r o } : HS ℝ).view = s.view := by
  obtain ⟨p1, p2⟩ := Heap.moveUdl_other s.heap r o
  unfold HS.view Obj.view
  simp only
  rw [p1, p2]
  have : s.obj.us.map (s.heap.moveUdl r o).udl = s.obj.us.map s.heap.udl := by
    refine List.map_congr_left (fun q hq => ?_)
    rw [moveUdl_udl]
    split
    · rw [hb q hq]
    · rfl
  rw [this]

theorem moveLl_view {s : HS ℝ} {o : ℝ} (r : Nat)
    (hb : ∀ q ∈ s.obj.ls, (s.heap.ll q).load.movedTo o = (s.heap.ll q).load) :
    ({ s with heap := s.heap.moveLl r o } : HS ℝ).view = s.view := by
  obtain ⟨p1, p2⟩ := Heap.moveLl_other s.heap r o
  unfold HS.view Obj.view
  simp only
  rw [p1, p2]
  have : s.obj.ls.map (s.heap.moveLl r o).ll = s.obj.ls.map s.heap.ll := by
    refine List.map_congr_left (fun q hq => ?_)
    rw [moveLl_ll]
    split
    · rw [hb q hq]
    · rfl
  rw [this]

theorem Sim.moveUdls (o : ℝ) (h0 : Heap ℝ) (us : List Nat) {s : HS ℝ} (w : WFS s.view)
    (hp : ∀ q ∈ us, ∀ l, (h0.udl q).load.length = some l → 0 < l)
    (ha : ∀ q, (s.heap.udl q).load.movedTo o = (h0.udl q).load.movedTo o)
    (hb : ∀ q ∈ s.obj.us, (s.heap.udl q).load.movedTo o = (s.heap.udl q).load) :
    Sim (HS.forEach (fun s r =>
        ({ s with heap := s.heap.moveUdl r o } : HS ℝ).setUdls [some r]) us s)
      (Slope.forEach (fun (s : Slope ℝ) (p : PUdl ℝ) =>
        let u := if p.load.dynamic then { p.load with offset := o } else p.load
        s.setUdls [some u]) (us.map h0.udl) s.view) := by
  induction us generalizing s with
  | nil => exact ⟨rfl, rfl⟩
  | cons r us ih =>
    simp only [HS.forEach, Slope.forEach, List.map_cons]
    have ev := moveUdl_view r hb
    set s1 : HS ℝ := { s with heap := s.heap.moveUdl r o } with hs1
    have el : (s1.heap.udl r).load = (h0.udl r).load.movedTo o := by
      rw [← ha]
      simp [hs1, moveUdl_udl]
    have h1 : Sim (s1.setUdls [some r]) (s.view.setUdls [some ((h0.udl r).load.movedTo o)]) := by
      have := Sim.setUdls (s := s1) (by rw [ev]; exact w.1.geo) (by rw [ev]; exact w.2.minL) [some r]
      rw [ev] at this
      simpa [el] using this
    refine Sim.andThen h1 (fun _ _ => ?_)
    obtain ⟨t, e1, e2, -⟩ := setUdls_spec w [some ((h0.udl r).load.movedTo o)] (by
      intro v hv l hl
      simp only [List.mem_singleton, Option.some.injEq] at hv
      subst hv
      rw [movedTo_length] at hl
      exact hp r (by simp) l hl)
    change Sim _ (Slope.forEach _ _ (s.view.setUdls [some ((h0.udl r).load.movedTo o)]).1)
    rw [← h1.1]
    have hl := ((loads_stable s1.heap).setUdls (s := s1) ⟨fun _ => rfl, fun _ => rfl, fun _ => rfl⟩
      [some r] (fun _ _ _ h => h)).1
    have hw := ((within_stable (s.obj.us ++ [r]) s.obj.ls).setUdls (s := s1)
      ⟨by intro q hq; exact List.mem_append_left _ hq, fun q hq => hq⟩
      [some r] (fun q hq t h => ⟨by
        obtain rfl : q = r := by simpa using hq
        intro x hx
        rcases List.mem_append.mp hx with hx | hx
        · exact h.1 hx
        · exact List.mem_append_right _ hx, h.2⟩)).1
    have h1l : ∀ q, (s1.heap.udl q).load.movedTo o = (s.heap.udl q).load.movedTo o := by
      intro q
      simp only [hs1, moveUdl_udl]
      split
      · exact udl_movedTo_idem _ _
      · rfl
    refine ih (by rw [h1.1, e1]; exact e2) (fun q hq => hp q (by simp [hq])) ?_ ?_
    · intro q; rw [hl, h1l, ha]
    · intro q hq
      rw [hl]
      rcases List.mem_append.mp (hw hq) with hq | hq
      · rw [h1l, hb q hq]
        simp only [hs1, moveUdl_udl]
        split
        · exact (hb q hq).symm
        · rfl
      · obtain rfl : q = r := by simpa using hq
        rw [el, udl_movedTo_idem]

theorem Sim.moveLls (o : ℝ) (h0 : Heap ℝ) (us : List Nat) {s : HS ℝ} (w : WFS s.view)
    (ha : ∀ q, (s.heap.ll q).load.movedTo o = (h0.ll q).load.movedTo o)
    (hb : ∀ q ∈ s.obj.ls, (s.heap.ll q).load.movedTo o = (s.heap.ll q).load) :
    Sim (HS.forEach (fun s r =>
        ({ s with heap := s.heap.moveLl r o } : HS ℝ).setLls [some r]) us s)
      (Slope.forEach (fun (s : Slope ℝ) (p : PLl ℝ) =>
        let u := if p.load.dynamic then { p.load with offset := o } else p.load
        s.setLls [some u]) (us.map h0.ll) s.view) := by
  induction us generalizing s with
  | nil => exact ⟨rfl, rfl⟩
  | cons r us ih =>
    simp only [HS.forEach, Slope.forEach, List.map_cons]
    have ev := moveLl_view r hb
    set s1 : HS ℝ := { s with heap := s.heap.moveLl r o } with hs1
    have el : (s1.heap.ll r).load = (h0.ll r).load.movedTo o := by
      rw [← ha]
      simp [hs1, moveLl_ll]
    have h1 : Sim (s1.setLls [some r]) (s.view.setLls [some ((h0.ll r).load.movedTo o)]) := by
      have := Sim.setLls (s := s1) (by rw [ev]; exact w.1.geo) (by rw [ev]; exact w.2.minL) [some r]
      rw [ev] at this
      simpa [el] using this
    refine Sim.andThen h1 (fun _ _ => ?_)
    obtain ⟨t, e1, e2, -⟩ := setLls_spec w [some ((h0.ll r).load.movedTo o)]
    change Sim _ (Slope.forEach _ _ (s.view.setLls [some ((h0.ll r).load.movedTo o)]).1)
    rw [← h1.1]
    have hl := ((loads_stable s1.heap).setLls (s := s1) ⟨fun _ => rfl, fun _ => rfl, fun _ => rfl⟩
      [some r] (fun _ _ _ h => h)).2.1
    have hw := ((within_stable s.obj.us (s.obj.ls ++ [r])).setLls (s := s1)
      ⟨fun q hq => hq, by intro q hq; exact List.mem_append_left _ hq⟩
      [some r] (fun q hq t h => ⟨h.1, by
        obtain rfl : q = r := by simpa using hq
        intro x hx
        rcases List.mem_append.mp hx with hx | hx
        · exact h.2 hx
        · exact List.mem_append_right _ hx⟩)).2
    have h1l : ∀ q, (s1.heap.ll q).load.movedTo o = (s.heap.ll q).load.movedTo o := by
      intro q
      simp only [hs1, moveLl_ll]
      split
      · exact ll_movedTo_idem _ _
      · rfl
    refine ih (by rw [h1.1, e1]; exact e2) ?_ ?_
    · intro q; rw [hl, h1l, ha]
    · intro q hq
      rw [hl]
      rcases List.mem_append.mp (hw hq) with hq | hq
      · rw [h1l, hb q hq]
        simp only [hs1, moveLl_ll]
        split
        · exact (hb q hq).symm
        · rfl
      · obtain rfl : q = r := by simpa using hq
        rw [el, ll_movedTo_idem]

theorem Sim.setDynamicOffset {s : HS ℝ} (w : WFS s.view) (o : ℝ) :
    Sim (s.setDynamicOffset o) (s.view.setDynamicOffset o) := by
  unfold HS.setDynamicOffset Slope.setDynamicOffset
  have w1 := w.removeUdls [] true
  have w2 := w1.removeLls [] true
  have h1 : Sim (s.removeUdls [] true) (s.view.removeUdls [] true) := Sim.removeUdls s [] true
  refine h1.andThen (fun _ _ => ?_)
  have h2 : Sim ((s.removeUdls [] true).1.removeLls [] true) ((s.view.removeUdls [] true).1.removeLls [] true) := by
    rw [← h1.1]; exact Sim.removeLls _ [] true
  refine h2.andThen (fun _ _ => ?_)
  have hv : s.view.udls = s.obj.us.map s.heap.udl := rfl
  have hv' : s.view.lls = s.obj.ls.map s.heap.ll := rfl
  rw [hv, hv', ← h2.1]
  rw [← h2.1] at w2
  have hheap : ((s.removeUdls [] true).1.removeLls [] true).1.heap = s.heap := rfl
  have hus : ((s.removeUdls [] true).1.removeLls [] true).1.obj.us = [] := rfl
  have hls : ((s.removeUdls [] true).1.removeLls [] true).1.obj.ls = [] := rfl
  generalize ((s.removeUdls [] true).1.removeLls [] true).1 = t at *
  have h3 := Sim.moveUdls o s.heap s.obj.us w2 (fun q hq => (w.2.udl _ (by
      rw [hv, List.map_map]; exact List.mem_map_of_mem (f := PUdl.load ∘ s.heap.udl) hq)).2)
    (fun q => by rw [hheap]) (by rw [hus]; simp)
  refine h3.andThen (fun _ _ => ?_)
  obtain ⟨u, e1, e2, -⟩ := forEach_udls o (s.obj.us.map s.heap.udl) w2 (fun p hp =>
    w.2.udl _ (by rw [hv]; exact List.mem_map_of_mem hp))
  have hw3 : WFS (HS.forEach (fun s r =>
        ({ s with heap := s.heap.moveUdl r o } : HS ℝ).setUdls [some r]) s.obj.us t).1.view := by
    rw [h3.1]
    refine Eq.mp (congrArg WFS ?_) e2
    exact (congrArg Prod.fst e1).symm
  have hl : ∀ q, (((HS.forEach (fun s r =>
        ({ s with heap := s.heap.moveUdl r o } : HS ℝ).setUdls [some r]) s.obj.us t).1.heap.ll q).load =
        (s.heap.ll q).load) ∧ (HS.forEach (fun s r =>
        ({ s with heap := s.heap.moveUdl r o } : HS ℝ).setUdls [some r]) s.obj.us t).1.obj.ls = [] := by
    intro q
    have S : HStable (K := ℝ) (fun t => (t.heap.ll q).load = (s.heap.ll q).load ∧ t.obj.ls = []) := by
      refine ⟨fun _ _ h => h, fun t x h => ⟨?_, h.2⟩, fun t x h => ⟨?_, h.2⟩⟩
      · simp only [(Heap.placeUdls_other x t.obj.us t.heap).1]; exact h.1
      · simp only [h.2, Heap.placeLls]; exact h.1
    refine HS.forEach_inv (I := fun t => (t.heap.ll q).load = (s.heap.ll q).load ∧ t.obj.ls = []) _ _
      (fun t a _ h => S.setUdls ?_ _ (fun _ _ _ h => h)) t ⟨by rw [hheap], hls⟩
    simp only [(Heap.moveUdl_other t.heap a o).1]
    exact h
  rw [← h3.1]
  refine Sim.moveLls o s.heap s.obj.ls hw3 (fun q => by rw [(hl q).1]) ?_
  rw [(hl 0).2]; simp

theorem Sim.analyseSlope (s : HS ℝ) (m : Option ℝ) :
    Sim (s.own (·.analyseSlope m)) (s.view.analyseSlope m) := by
  obtain ⟨h1, h2, h3, -⟩ := analyseSlope_ground s.view m
  exact Sim.own ⟨h2, h3, h1.materials⟩

theorem Sim.tryOffset {s : HS ℝ} (w : WFS s.view) (o : ℝ) :
    Sim (s.tryOffset o) (s.view.tryOffset o) := by
  unfold HS.tryOffset Slope.tryOffset
  have h1 := Sim.setDynamicOffset w o
  refine h1.andThen (fun _ _ => ?_)
  rw [← h1.1]
  generalize (s.setDynamicOffset o).1 = t
  have h2 := Sim.analyseSlope t none
  refine h2.andThen (fun _ _ => ?_)
  rw [← h2.1]
  generalize (t.own (·.analyseSlope none)).1 = u
  cases u.view.getMinFos with
  | error e => exact ⟨rfl, rfl⟩
  | ok f =>
    cases f with
    | none => exact ⟨rfl, rfl⟩
    | some f => exact ⟨rfl, rfl⟩

theorem Sim.dynLoop (c : ℝ) (d : Bool) (n : Nat) {s : HS ℝ} (w : WFS s.view) (l r p : ℝ) :
    Sim (s.dynLoop c d n l r p) (s.view.dynLoop c d n l r p) := by
  induction n generalizing s l r p with
  | zero => exact ⟨rfl, rfl⟩
  | succ n ih =>
    unfold HS.dynLoop Slope.dynLoop
    simp only
    rw [show s.view.dynResults = s.obj.core.dynResults from rfl]
    split
    · rename_i e he
      rw [he]
      exact ⟨rfl, rfl⟩
    · rename_i mid he
      rw [he]
      have h1 := Sim.tryOffset w mid
      have hw := w.tryOffset mid
      refine h1.andThen (fun f _ => ?_)
      rw [← h1.1] at hw ⊢
      split
      · exact ⟨rfl, rfl⟩
      · split
        · exact ih hw _ _ _
        · exact ih hw _ _ _

theorem Sim.analyseDynamic {s : HS ℝ} (w : WFS s.view) (c : ℝ) (d : Bool) :
    Sim (s.analyseDynamic c d) (s.view.analyseDynamic c d) := by
  unfold HS.analyseDynamic Slope.analyseDynamic
  have w := w.dyn []
  set s0 : HS ℝ := { s with obj := { s.obj with core := { s.obj.core with dynResults := [] } } } with hs0
  have e : ({ s.view with dynResults := [] } : Slope ℝ) = s0.view := rfl
  simp only [e] at w ⊢
  have ev : maxOffset s.view.topX s.view.udls s.view.length =
      maxOffset s0.obj.core.topX s0.view.udls s0.obj.core.length := by rw [hs0]; rfl
  rw [ev]
  cases maxOffset s0.obj.core.topX s0.view.udls s0.obj.core.length with
  | error e => exact ⟨rfl, rfl⟩
  | ok left =>
    simp only
    have h1 := Sim.tryOffset w (@OfNat.ofNat ℝ 0 (Lit.natLit 0))
    have w1 := w.tryOffset (@OfNat.ofNat ℝ 0 (Lit.natLit 0))
    refine h1.andThen (fun f _ => ?_)
    rw [← h1.1] at w1 ⊢
    split
    · exact ⟨rfl, rfl⟩
    · generalize (s0.tryOffset _).1 = s1 at *
      generalize left - _ = lf at *
      have h2 := Sim.tryOffset w1 lf
      have w2 := w1.tryOffset lf
      refine h2.andThen (fun f _ => ?_)
      rw [← h2.1] at w2 ⊢
      split
      · exact ⟨rfl, rfl⟩
      · have h3 := Sim.dynLoop c d 10 w2 lf (@OfNat.ofNat ℝ 0 (Lit.natLit 0)) (@OfNat.ofNat ℝ 0 (Lit.natLit 0))
        refine h3.andThen (fun _ _ => ⟨?_, rfl⟩)
        exact congrArg Slope.sortDynResults h3.1

end PySlope
