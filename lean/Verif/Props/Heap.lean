import Verif.Spec.World
import Verif.Lemmas.HeapOps
import Verif.Props.PlotBoundary

/-! # Properties C64-C67: several slopes, shared objects -/

namespace PySlope

/-! ## One call -/

/-- A call on a slope does to what the slope sees what the same call does in the model without
references, with the same outcome. -/
theorem HOp.sim (s : HS ℝ) (w : WFS s.view) (op : HOp) :
    Sim (op.run s) ((op.deref s.heap).run s.view) := by
  cases op with
  | setExternalBoundary a b c => exact Sim.setExternalBoundary s a b c
  | setWaterTable d =>
    refine Sim.own ?_
    unfold Slope.setWaterTable
    split
    · exact ⟨rfl, rfl, rfl⟩
    · split <;> exact ⟨rfl, rfl, rfl⟩
  | removeWaterTable => exact Sim.own ⟨rfl, rfl, rfl⟩
  | setUdls us => exact Sim.setUdls w.1.geo w.2.minL us
  | removeUdls us all => exact Sim.removeUdls s us all
  | setLls ls => exact Sim.setLls w.1.geo w.2.minL ls
  | removeLls ls all => exact Sim.removeLls s ls all
  | setMaterials ms => exact Sim.setMaterials s ms
  | removeMaterial m d all => exact Sim.removeMaterial s m d all
  | updateWaterAnalysisOptions auto h =>
    refine Sim.own ?_
    unfold Slope.updateWaterAnalysisOptions
    split
    · exact ⟨rfl, rfl, rfl⟩
    · split <;> exact ⟨rfl, rfl, rfl⟩
  | updateAnalysisOptions n i f t m =>
    obtain ⟨_, _, _, _, _, _, _, e⟩ := updateAnalysisOptions_rest s.view n i f t m
    exact Sim.own (f := (·.updateAnalysisOptions n i f t m)) (by
      simp only [e]; exact ⟨trivial, trivial, trivial⟩)
  | updateBoundaryOptions l h => exact Sim.updateBoundaryOptions s l h
  | removeAnalysisLimits =>
    refine Sim.own ?_
    have h0 : 0 < s.view.topX := w.1.l1.trans_lt (w.1.l12.trans_le w.1.l2)
    have h1 : s.view.topX < s.view.extL := (w.1.l3.trans_lt w.1.l34).trans_le w.1.l4
    rw [removeAnalysisLimits_eq _ h0 h1]
    exact ⟨rfl, rfl, rfl⟩
  | setAnalysisLimits a b c d =>
    refine Sim.own (f := (·.setAnalysisLimits a b c d)) ?_
    rcases WFS.setAnalysisLimits_rest s.view a b c d with ⟨_, _, _, _, e⟩ | ⟨_, e⟩ <;> simp only [e] <;>
      exact ⟨trivial, trivial, trivial⟩
  | addSingleEntryExitPlane l r n =>
    refine Sim.own ?_
    unfold Slope.addSingleEntryExitPlane
    split
    · split <;> exact ⟨rfl, rfl, rfl⟩
    · exact ⟨rfl, rfl, rfl⟩
  | addSingleCircularPlane x y r =>
    refine Sim.own ?_
    unfold Slope.addSingleCircularPlane
    split
    · exact ⟨rfl, rfl, rfl⟩
    · split
      · exact ⟨rfl, rfl, rfl⟩
      · split <;> exact ⟨rfl, rfl, rfl⟩
  | removeIndividualPlanes => exact Sim.own ⟨rfl, rfl, rfl⟩
  | analyseSlope m => exact Sim.analyseSlope s m
  | analyseDynamic c d =>
    have h := Sim.analyseDynamic w c d
    exact ⟨h.1, by simp only [HOp.run, HOp.deref, Op.run]; rw [h.2]⟩

/-- The objects outside `U`, `L` and `M` are those of `h0`, and the slope holds objects of `U`, `L`
and `M` only. -/
structure Frame (U L M : Nat → Prop) (h0 : Heap ℝ) (s : HS ℝ) : Prop where
  udl : ∀ r, ¬ U r → s.heap.udl r = h0.udl r
  ll : ∀ r, ¬ L r → s.heap.ll r = h0.ll r
  mat : ∀ r, ¬ M r → s.heap.mat r = h0.mat r
  us : ∀ r ∈ s.obj.us, U r
  ls : ∀ r ∈ s.obj.ls, L r
  ms : ∀ r ∈ s.obj.ms, M r

theorem frame_stable (U L M : Nat → Prop) (h0 : Heap ℝ) : HStable (Frame U L M h0) where
  core _ _ h := ⟨h.1, h.2, h.3, h.4, h.5, h.6⟩
  placeUdls s x h := by
    obtain ⟨h1, h2⟩ := Heap.placeUdls_other x s.obj.us s.heap
    refine ⟨fun q hq => ?_, fun q hq => ?_, fun q hq => ?_, h.4, h.5, h.6⟩
    · simp only [Heap.placeUdls_udl]
      rw [if_neg (fun hm => hq (h.us q hm))]
      exact h.udl q hq
    · simp only [h1]; exact h.ll q hq
    · simp only [h2]; exact h.mat q hq
  placeLls s x h := by
    obtain ⟨h1, h2⟩ := Heap.placeLls_other x s.obj.ls s.heap
    refine ⟨fun q hq => ?_, fun q hq => ?_, fun q hq => ?_, h.4, h.5, h.6⟩
    · simp only [h1]; exact h.udl q hq
    · simp only [Heap.placeLls_ll]
      rw [if_neg (fun hm => hq (h.ls q hm))]
      exact h.ll q hq
    · simp only [h2]; exact h.mat q hq

section
variable {U L M : Nat → Prop} {h0 : Heap ℝ} {s : HS ℝ}

theorem Frame.subU (h : Frame U L M h0 s) {l : List Nat} (hl : l.Sublist s.obj.us) :
    Frame U L M h0 { s with obj := { s.obj with us := l } } :=
  ⟨h.1, h.2, h.3, fun r hr => h.4 r (hl.subset hr), h.5, h.6⟩

theorem Frame.subL (h : Frame U L M h0 s) {l : List Nat} (hl : l.Sublist s.obj.ls) :
    Frame U L M h0 { s with obj := { s.obj with ls := l } } :=
  ⟨h.1, h.2, h.3, h.4, fun r hr => h.5 r (hl.subset hr), h.6⟩

theorem Frame.subM (h : Frame U L M h0 s) {l : List Nat} (hl : l.Sublist s.obj.ms) :
    Frame U L M h0 { s with obj := { s.obj with ms := l } } :=
  ⟨h.1, h.2, h.3, h.4, h.5, fun r hr => h.6 r (hl.subset hr)⟩

theorem Frame.addU (h : Frame U L M h0 s) {q : Nat} (hq : U q) :
    Frame U L M h0 { s with obj := { s.obj with us := s.obj.us ++ [q] } } :=
  ⟨h.1, h.2, h.3, by
    intro r hr
    rcases List.mem_append.mp hr with hr | hr
    · exact h.4 r hr
    · rw [List.mem_singleton.mp hr]; exact hq, h.5, h.6⟩

theorem Frame.addL (h : Frame U L M h0 s) {q : Nat} (hq : L q) :
    Frame U L M h0 { s with obj := { s.obj with ls := s.obj.ls ++ [q] } } :=
  ⟨h.1, h.2, h.3, h.4, by
    intro r hr
    rcases List.mem_append.mp hr with hr | hr
    · exact h.5 r hr
    · rw [List.mem_singleton.mp hr]; exact hq, h.6⟩

theorem Frame.moveUdl (h : Frame U L M h0 s) {q : Nat} (hq : U q) (o : ℝ) :
    Frame U L M h0 { s with heap := s.heap.moveUdl q o } := by
  obtain ⟨h1, h2⟩ := Heap.moveUdl_other s.heap q o
  refine ⟨fun r hr => ?_, fun r hr => ?_, fun r hr => ?_, h.4, h.5, h.6⟩
  · simp only [moveUdl_udl]
    rw [if_neg (show ¬ r = q from fun e => hr (e ▸ hq))]
    exact h.udl r hr
  · simp only [h1]; exact h.ll r hr
  · simp only [h2]; exact h.mat r hr

theorem Frame.moveLl (h : Frame U L M h0 s) {q : Nat} (hq : L q) (o : ℝ) :
    Frame U L M h0 { s with heap := s.heap.moveLl q o } := by
  obtain ⟨h1, h2⟩ := Heap.moveLl_other s.heap q o
  refine ⟨fun r hr => ?_, fun r hr => ?_, fun r hr => ?_, h.4, h.5, h.6⟩
  · simp only [h1]; exact h.udl r hr
  · simp only [moveLl_ll]
    rw [if_neg (show ¬ r = q from fun e => hr (e ▸ hq))]
    exact h.ll r hr
  · simp only [h2]; exact h.mat r hr

theorem Frame.dynOffset (h : Frame U L M h0 s) (o : ℝ) : Frame U L M h0 (s.setDynamicOffset o).1 :=
  (frame_stable U L M h0).setDynamicOffset h o (fun _ _ hl h => h.subU hl)
    (fun _ _ hl h => h.subL hl) (fun q hq _ h' => h'.addU (h.us q hq))
    (fun q hq _ h' => h'.addL (h.ls q hq)) (fun q hq _ h' => h'.moveUdl (h.us q hq) o)
    (fun q hq _ h' => h'.moveLl (h.ls q hq) o)

/-- A call changes no object but those the slope holds and those it is given. -/
theorem HOp.frame (op : HOp) (h : Frame U L M h0 s) (hu : ∀ r, op.GivenUdl r → U r)
    (hl : ∀ r, op.GivenLl r → L r) (hm : ∀ r, op.GivenMat r → M r) :
    Frame U L M h0 (op.run s).1 := by
  have S := frame_stable U L M h0
  cases op with
  | setExternalBoundary a b c => exact S.setExternalBoundary h a b c
  | setUdls us => exact S.setUdls h us (fun q hq _ h' => h'.addU (hu q hq))
  | removeUdls us all => exact S.removeUdls h us all (fun _ _ hl h => h.subU hl)
  | setLls ls => exact S.setLls h ls (fun q hq _ h' => h'.addL (hl q hq))
  | removeLls ls all => exact S.removeLls h ls all (fun _ _ hl h => h.subL hl)
  | setMaterials ms =>
    refine S.setMaterials h ms (fun t x rs hr h' => ?_)
    have hM : ∀ r ∈ rs, M r := fun r hr' => (hr r hr').elim (h'.ms r) (hm r)
    obtain ⟨p1, p2⟩ := Heap.writeLayers_other x 0 rs t.heap
    refine ⟨fun q hq => ?_, fun q hq => ?_, fun q hq => ?_, h'.4, h'.5, hM⟩
    · simp only [p1]; exact h'.udl q hq
    · simp only [p2]; exact h'.ll q hq
    · simp only
      rw [Heap.writeLayers_notMem _ _ _ _ _ (fun hm => hq (hM q hm))]
      exact h'.mat q hq
  | removeMaterial m d all => exact S.removeMaterial h m d all (fun _ _ hl h => h.subM hl)
  | updateBoundaryOptions l h' => exact S.updateBoundaryOptions h l h'
  | analyseDynamic c d => exact S.analyseDynamic h (fun _ o h => h.dynOffset o) c d
  | _ => exact S.own h _

end

/-! ## Worlds without sharing -/

/-- The invariant of programs that share no objects between slopes. -/
structure Apart (w : World) : Prop where
  reach : ∀ i σ, w.slope i = some σ → Reachable (σ.view w.heap)
  us : ∀ i j σ τ, i ≠ j → w.slope i = some σ → w.slope j = some τ → ∀ r ∈ σ.us, r ∉ τ.us
  ls : ∀ i j σ τ, i ≠ j → w.slope i = some σ → w.slope j = some τ → ∀ r ∈ σ.ls, r ∉ τ.ls
  ms : ∀ i j σ τ, i ≠ j → w.slope i = some σ → w.slope j = some τ → ∀ r ∈ σ.ms, r ∉ τ.ms

theorem Obj.view_congr (τ : Obj ℝ) {h h' : Heap ℝ} (hu : ∀ r ∈ τ.us, h'.udl r = h.udl r)
    (hl : ∀ r ∈ τ.ls, h'.ll r = h.ll r) (hm : ∀ r ∈ τ.ms, h'.mat r = h.mat r) :
    τ.view h' = τ.view h := by
  unfold Obj.view
  rw [List.map_congr_left hu, List.map_congr_left hl, List.map_congr_left hm]

/-- A call that is given no object of `τ` leaves what `τ` sees. -/
theorem HOp.other (op : HOp) (h : Heap ℝ) (σ τ : Obj ℝ) (hu : ∀ r ∈ σ.us, r ∉ τ.us)
    (hl : ∀ r ∈ σ.ls, r ∉ τ.ls) (hm : ∀ r ∈ σ.ms, r ∉ τ.ms)
    (hg : ∀ r, (op.GivenUdl r → r ∉ τ.us) ∧ (op.GivenLl r → r ∉ τ.ls) ∧ (op.GivenMat r → r ∉ τ.ms)) :
    τ.view (op.run ⟨h, σ⟩).1.heap = τ.view h ∧
      (∀ r ∈ (op.run ⟨h, σ⟩).1.obj.us, r ∉ τ.us) ∧ (∀ r ∈ (op.run ⟨h, σ⟩).1.obj.ls, r ∉ τ.ls) ∧
      ∀ r ∈ (op.run ⟨h, σ⟩).1.obj.ms, r ∉ τ.ms := by
  have f : Frame (· ∉ τ.us) (· ∉ τ.ls) (· ∉ τ.ms) h (op.run ⟨h, σ⟩).1 :=
    op.frame ⟨fun _ _ => rfl, fun _ _ => rfl, fun _ _ => rfl, hu, hl, hm⟩ (fun r => (hg r).1)
      (fun r => (hg r).2.1) (fun r => (hg r).2.2)
  exact ⟨τ.view_congr (fun r hr => f.udl r (not_not.mpr hr)) (fun r hr => f.ll r (not_not.mpr hr))
    (fun r hr => f.mat r (not_not.mpr hr)), f.us, f.ls, f.ms⟩

theorem World.slope_put (w : World) (i j : Nat) (h : Heap ℝ) (σ : Obj ℝ) :
    (w.put i h σ).slope j = if j = i then some σ else w.slope j := rfl

theorem Apart.step {w w' : World} (a : Apart w) (st : Step Unshared w w') : Apart w' := by
  cases st with
  | @newSlope i x y z s hn e =>
    have hs : ∀ j τ, (w.put i w.heap (.fresh s)).slope j = some τ →
        (j = i ∧ τ = .fresh s) ∨ w.slope j = some τ := by
      intro j τ h
      rw [World.slope_put] at h
      split at h
      · rename_i hj; cases h; exact .inl ⟨hj, rfl⟩
      · exact .inr h
    have hu : (Obj.fresh s).us = [] := rfl
    have hl : (Obj.fresh s).ls = [] := rfl
    have hm : (Obj.fresh s).ms = [] := rfl
    refine ⟨fun j τ h => ?_, fun j k σ τ hjk h1 h2 => ?_, fun j k σ τ hjk h1 h2 => ?_,
      fun j k σ τ hjk h1 h2 => ?_⟩
    · rcases hs j τ h with ⟨_, rfl⟩ | h
      · have e0 : (Obj.fresh s).view w.heap = s := by
          have h1 : s.udls = [] ∧ s.lls = [] ∧ s.materials = [] := by
            rw [new_eq] at e
            split at e
            · cases e
            · cases e; exact ⟨rfl, rfl, rfl⟩
          change ({ s with udls := [], lls := [], materials := [] } : Slope ℝ) = s
          obtain ⟨h1, h2, h3⟩ := h1
          rw [← h1, ← h2, ← h3]
        change Reachable ((Obj.fresh s).view w.heap)
        rw [e0]
        exact .init e
      · exact a.reach j τ h
    · rcases hs j σ h1 with ⟨_, rfl⟩ | h1 <;> rcases hs k τ h2 with ⟨_, rfl⟩ | h2
      · simp [hu]
      · simp [hu]
      · simp [hu]
      · exact a.us j k σ τ hjk h1 h2
    · rcases hs j σ h1 with ⟨_, rfl⟩ | h1 <;> rcases hs k τ h2 with ⟨_, rfl⟩ | h2
      · simp [hl]
      · simp [hl]
      · simp [hl]
      · exact a.ls j k σ τ hjk h1 h2
    · rcases hs j σ h1 with ⟨_, rfl⟩ | h1 <;> rcases hs k τ h2 with ⟨_, rfl⟩ | h2
      · simp [hm]
      · simp [hm]
      · simp [hm]
      · exact a.ms j k σ τ hjk h1 h2
  | @newUdl r p hp hn =>
    refine ⟨fun j τ h => ?_, a.us, a.ls, a.ms⟩
    have : τ.view (w.heap.setUdl r p) = τ.view w.heap := by
      refine τ.view_congr (fun q hq => ?_) (fun _ _ => rfl) (fun _ _ => rfl)
      simp only [Heap.setUdl]
      rw [if_neg]
      rintro rfl
      exact hn j τ h hq
    simp only [this]
    exact a.reach j τ h
  | @newLl r p hp hn =>
    refine ⟨fun j τ h => ?_, a.us, a.ls, a.ms⟩
    have : τ.view (w.heap.setLl r p) = τ.view w.heap := by
      refine τ.view_congr (fun _ _ => rfl) (fun q hq => ?_) (fun _ _ => rfl)
      simp only [Heap.setLl]
      rw [if_neg]
      rintro rfl
      exact hn j τ h hq
    simp only [this]
    exact a.reach j τ h
  | @newMat r p hp hn =>
    refine ⟨fun j τ h => ?_, a.us, a.ls, a.ms⟩
    have : τ.view (w.heap.setMat r p) = τ.view w.heap := by
      refine τ.view_congr (fun _ _ => rfl) (fun _ _ => rfl) (fun q hq => ?_)
      simp only [Heap.setMat]
      rw [if_neg]
      rintro rfl
      exact hn j τ h hq
    simp only [this]
    exact a.reach j τ h
  | @call i σ op hi hp hv =>
    have ho : ∀ j τ, j ≠ i → w.slope j = some τ → _ := fun j τ hj hτ =>
      op.other w.heap σ τ (a.us i j σ τ hj.symm hi hτ) (a.ls i j σ τ hj.symm hi hτ)
        (a.ms i j σ τ hj.symm hi hτ) (hp j τ hj hτ)
    set s' := (op.run ⟨w.heap, σ⟩).1 with hs'
    have hs : ∀ j τ, (w.put i s'.heap s'.obj).slope j = some τ →
        (j = i ∧ τ = s'.obj) ∨ (j ≠ i ∧ w.slope j = some τ) := by
      intro j τ h
      rw [World.slope_put] at h
      split at h
      · rename_i hj; cases h; exact .inl ⟨hj, rfl⟩
      · rename_i hj; exact .inr ⟨hj, h⟩
    refine ⟨fun j τ h => ?_, fun j k x y hjk h1 h2 r hr => ?_, fun j k x y hjk h1 h2 r hr => ?_,
      fun j k x y hjk h1 h2 r hr => ?_⟩
    · rcases hs j τ h with ⟨_, rfl⟩ | ⟨hj, h⟩
      · have r := a.reach i σ hi
        have := (op.sim ⟨w.heap, σ⟩ r.wfs).1
        change s'.view = _ at this
        change Reachable s'.view
        rw [this]
        exact r.call (Op.call hv)
      · change Reachable (τ.view s'.heap)
        rw [(ho j τ hj h).1]
        exact a.reach j τ h
    · rcases hs j x h1 with ⟨h1', rfl⟩ | ⟨h1', h1⟩ <;> rcases hs k y h2 with ⟨h2', rfl⟩ | ⟨h2', h2⟩
      · exact absurd (h1'.trans h2'.symm) hjk
      · exact (ho k y h2' h2).2.1 r hr
      · exact fun h => (ho j x h1' h1).2.1 r h hr
      · exact a.us j k x y hjk h1 h2 r hr
    · rcases hs j x h1 with ⟨h1', rfl⟩ | ⟨h1', h1⟩ <;> rcases hs k y h2 with ⟨h2', rfl⟩ | ⟨h2', h2⟩
      · exact absurd (h1'.trans h2'.symm) hjk
      · exact (ho k y h2' h2).2.2.1 r hr
      · exact fun h => (ho j x h1' h1).2.2.1 r h hr
      · exact a.ls j k x y hjk h1 h2 r hr
    · rcases hs j x h1 with ⟨h1', rfl⟩ | ⟨h1', h1⟩ <;> rcases hs k y h2 with ⟨h2', rfl⟩ | ⟨h2', h2⟩
      · exact absurd (h1'.trans h2'.symm) hjk
      · exact (ho k y h2' h2).2.2.2 r hr
      · exact fun h => (ho j x h1' h1).2.2.2 r h hr
      · exact a.ms j k x y hjk h1 h2 r hr

theorem World.Reach.apart {w : World} (h : World.Reach Unshared w) : Apart w := by
  induction h with
  | start h => exact ⟨fun _ _ h => (by cases h), fun _ _ _ _ _ h => (by cases h),
      fun _ _ _ _ _ h => (by cases h), fun _ _ _ _ _ h => (by cases h)⟩
  | step _ st ih => exact ih.step st

/-- C64: in every program in which no load or material is given to two slopes, a call on one slope,
whether it returns or raises, changes nothing that any other slope sees. -/
theorem C64_slopes_independent (w : World) (hr : World.Reach Unshared w) (i : Nat) (σ : Obj ℝ)
    (op : HOp) (hi : w.slope i = some σ) (hp : Unshared w i op) (j : Nat) (hj : j ≠ i) :
    (w.put i (op.run ⟨w.heap, σ⟩).1.heap (op.run ⟨w.heap, σ⟩).1.obj).view j = w.view j := by
  unfold World.view
  rw [World.slope_put, if_neg hj]
  cases hτ : w.slope j with
  | none => rfl
  | some τ =>
    have a := hr.apart
    exact congrArg some (op.other w.heap σ τ (a.us i j σ τ hj.symm hi hτ)
      (a.ls i j σ τ hj.symm hi hτ) (a.ms i j σ τ hj.symm hi hτ) (hp j τ hj hτ)).1

/-- C66: in every program in which no load or material is given to two slopes, every slope sees at
every time a state that the model without references reaches, and every call does to it, and
returns or raises, what it does in that model: the references cannot be told from copies. -/
theorem C66_references_as_copies (w : World) (hr : World.Reach Unshared w) (i : Nat) (σ : Obj ℝ)
    (hi : w.slope i = some σ) :
    Reachable (σ.view w.heap) ∧ ∀ op : HOp,
      (op.run ⟨w.heap, σ⟩).1.view = ((op.deref w.heap).run (σ.view w.heap)).1 ∧
      (op.run ⟨w.heap, σ⟩).2 = ((op.deref w.heap).run (σ.view w.heap)).2 := by
  have r := hr.apart.reach i σ hi
  exact ⟨r, fun op => op.sim ⟨w.heap, σ⟩ r.wfs⟩

/-! ## What a call writes into the objects -/

theorem HOp.loads (op : HOp) (hop : ∀ c d, op ≠ .analyseDynamic c d) (h0 : Heap ℝ) (s : HS ℝ)
    (h : Loads h0 s) : Loads h0 (op.run s).1 := by
  have S := loads_stable h0
  cases op with
  | setExternalBoundary a b c => exact S.setExternalBoundary h a b c
  | setUdls us => exact S.setUdls h us (fun q hq _ h' => h')
  | removeUdls us all => exact S.removeUdls h us all (fun _ _ hl h => h)
  | setLls ls => exact S.setLls h ls (fun q hq _ h' => h')
  | removeLls ls all => exact S.removeLls h ls all (fun _ _ hl h => h)
  | setMaterials ms =>
    refine S.setMaterials h ms (fun t x rs hr h' => ?_)
    obtain ⟨p1, p2⟩ := Heap.writeLayers_other x 0 rs t.heap
    refine ⟨fun q => ?_, fun q => ?_, fun q => ?_⟩
    · simp only [p1]; exact h'.1 q
    · simp only [p2]; exact h'.2.1 q
    · simp only [Heap.writeLayers_mat]; exact h'.2.2 q
  | removeMaterial m d all => exact S.removeMaterial h m d all (fun _ _ hl h => h)
  | updateBoundaryOptions l h' => exact S.updateBoundaryOptions h l h'
  | analyseDynamic c d => exact absurd rfl (hop c d)
  | _ => exact S.own h _

/-- The objects are those of `h0` up to coordinates, levels, colours and the offsets of dynamic
loads. -/
def Kept (h0 : Heap ℝ) (s : HS ℝ) : Prop :=
  (∀ r, (s.heap.udl r).load = { (h0.udl r).load with offset := (s.heap.udl r).load.offset } ∧
    ((h0.udl r).load.dynamic = false → (s.heap.udl r).load = (h0.udl r).load)) ∧
  (∀ r, (s.heap.ll r).load = { (h0.ll r).load with offset := (s.heap.ll r).load.offset } ∧
    ((h0.ll r).load.dynamic = false → (s.heap.ll r).load = (h0.ll r).load)) ∧
  ∀ r, (s.heap.mat r).mat = (h0.mat r).mat

theorem kept_stable (h0 : Heap ℝ) : HStable (Kept h0) where
  core _ _ h := h
  placeUdls s x h := by
    have hl : ∀ q, ((s.heap.placeUdls x s.obj.us).udl q).load = (s.heap.udl q).load := by
      intro q; rw [Heap.placeUdls_udl]; split <;> rfl
    obtain ⟨h1, h2⟩ := Heap.placeUdls_other x s.obj.us s.heap
    refine ⟨fun q => ?_, fun q => ?_, fun q => ?_⟩
    · simp only [hl]; exact h.1 q
    · simp only [h1]; exact h.2.1 q
    · simp only [h2]; exact h.2.2 q
  placeLls s x h := by
    have hl : ∀ q, ((s.heap.placeLls x s.obj.ls).ll q).load = (s.heap.ll q).load := by
      intro q; rw [Heap.placeLls_ll]; split <;> rfl
    obtain ⟨h1, h2⟩ := Heap.placeLls_other x s.obj.ls s.heap
    refine ⟨fun q => ?_, fun q => ?_, fun q => ?_⟩
    · simp only [h1]; exact h.1 q
    · simp only [hl]; exact h.2.1 q
    · simp only [h2]; exact h.2.2 q

theorem Kept.dynOffset {h0 : Heap ℝ} {s : HS ℝ} (h : Kept h0 s) (o : ℝ) :
    Kept h0 (s.setDynamicOffset o).1 := by
  refine (kept_stable h0).setDynamicOffset h o (fun _ _ _ h => h) (fun _ _ _ h => h)
    (fun _ _ _ h => h) (fun _ _ _ h => h) (fun q _ t h => ?_) (fun q _ t h => ?_)
  · obtain ⟨h1, h2⟩ := Heap.moveUdl_other t.heap q o
    refine ⟨fun r => ?_, fun r => ?_, fun r => ?_⟩
    · simp only [moveUdl_udl]
      obtain ⟨a, b⟩ := h.1 r
      have hd : (t.heap.udl r).load.dynamic = (h0.udl r).load.dynamic := by rw [a]
      split
      · unfold Udl.movedTo
        cases hc : (t.heap.udl r).load.dynamic with
        | true =>
          simp only [if_true]
          refine ⟨by rw [a]; simp [hd.symm.trans hc], fun h => ?_⟩
          rw [hd, h] at hc; cases hc
        | false => simp only [Bool.false_eq_true, if_false]; exact ⟨a, b⟩
      · exact ⟨a, b⟩
    · simp only [h1]; exact h.2.1 r
    · simp only [h2]; exact h.2.2 r
  · obtain ⟨h1, h2⟩ := Heap.moveLl_other t.heap q o
    refine ⟨fun r => ?_, fun r => ?_, fun r => ?_⟩
    · simp only [h1]; exact h.1 r
    · simp only [moveLl_ll]
      obtain ⟨a, b⟩ := h.2.1 r
      have hd : (t.heap.ll r).load.dynamic = (h0.ll r).load.dynamic := by rw [a]
      split
      · unfold LineLoad.movedTo
        cases hc : (t.heap.ll r).load.dynamic with
        | true =>
          simp only [if_true]
          refine ⟨by rw [a]; simp [hd.symm.trans hc], fun h => ?_⟩
          rw [hd, h] at hc; cases hc
        | false => simp only [Bool.false_eq_true, if_false]; exact ⟨a, b⟩
      · exact ⟨a, b⟩
    · simp only [h2]; exact h.2.2 r

/-- C67: no call on a slope, returning or raising, changes the unit weight, friction angle,
cohesion, depth, name or chosen colour of any material, nor the magnitude, length, colour or kind of
any load. The offset of a load can change in a dynamic analysis only, only if the load is dynamic,
and only if the slope holds it. -/
theorem C67_objects_keep_values (h : Heap ℝ) (σ : Obj ℝ) (op : HOp) (r : Nat) :
    ((op.run ⟨h, σ⟩).1.heap.mat r).mat = (h.mat r).mat ∧
    ((op.run ⟨h, σ⟩).1.heap.udl r).load = { (h.udl r).load with
        offset := ((op.run ⟨h, σ⟩).1.heap.udl r).load.offset } ∧
    ((op.run ⟨h, σ⟩).1.heap.ll r).load = { (h.ll r).load with
        offset := ((op.run ⟨h, σ⟩).1.heap.ll r).load.offset } ∧
    (((op.run ⟨h, σ⟩).1.heap.udl r).load.offset ≠ (h.udl r).load.offset →
      (h.udl r).load.dynamic = true ∧ r ∈ σ.us ∧ ∃ c d, op = .analyseDynamic c d) ∧
    (((op.run ⟨h, σ⟩).1.heap.ll r).load.offset ≠ (h.ll r).load.offset →
      (h.ll r).load.dynamic = true ∧ r ∈ σ.ls ∧ ∃ c d, op = .analyseDynamic c d) := by
  by_cases hop : ∃ c d, op = .analyseDynamic c d
  · obtain ⟨c, d, rfl⟩ := hop
    have k0 : Kept h ⟨h, σ⟩ :=
      ⟨fun _ => ⟨rfl, fun _ => rfl⟩, fun _ => ⟨rfl, fun _ => rfl⟩, fun _ => rfl⟩
    have k : Kept h ((HOp.analyseDynamic c d).run ⟨h, σ⟩).1 :=
      (kept_stable h).analyseDynamic k0 (fun _ o h => h.dynOffset o) c d
    have f : Frame (· ∈ σ.us) (· ∈ σ.ls) (· ∈ σ.ms) h ((HOp.analyseDynamic c d).run ⟨h, σ⟩).1 :=
      HOp.frame _ ⟨fun _ _ => rfl, fun _ _ => rfl, fun _ _ => rfl, fun _ h => h, fun _ h => h,
        fun _ h => h⟩ (fun _ h => h.elim) (fun _ h => h.elim) (fun _ h => h.elim)
    refine ⟨k.2.2 r, (k.1 r).1, (k.2.1 r).1, fun hne => ⟨?_, ?_, c, d, rfl⟩,
      fun hne => ⟨?_, ?_, c, d, rfl⟩⟩
    · by_contra hd
      exact hne (by rw [(k.1 r).2 (by simpa using hd)])
    · by_contra hd
      exact hne (by rw [f.udl r hd])
    · by_contra hd
      exact hne (by rw [(k.2.1 r).2 (by simpa using hd)])
    · by_contra hd
      exact hne (by rw [f.ll r hd])
  · have l := op.loads (fun c d e => hop ⟨c, d, e⟩) h ⟨h, σ⟩
      ⟨fun _ => rfl, fun _ => rfl, fun _ => rfl⟩
    exact ⟨l.2.2 r, by rw [l.1 r], by rw [l.2.1 r], fun hne => absurd (by rw [l.1 r]) hne,
      fun hne => absurd (by rw [l.2.1 r]) hne⟩

/-! ## Sharing -/

/-- `Slope(height=6, length=6)`: a 30 by 18 model. -/
noncomputable def exTall : Slope ℝ := freshSlope 6 6

theorem exTall_new : Slope.new (.num 6) (.num 30) (.num 6) = .ok exTall := by
  rw [new_eq]
  have e : boundaryInputs (.num 6) (.num 30) (.num 6) = .ok ((6 : ℝ), (6 : ℝ)) := by
    have h90 : ¬ ((@OfNat.ofNat ℝ 90 (Lit.natLit 90)) < 30) := not_lt.mpr (by
      change (30 : ℝ) ≤ 90; norm_num)
    have h1 : ¬ ((30 : ℝ) < 0) := by norm_num
    have h2 : ¬ ((6 : ℝ) < 0) := by norm_num
    simp [boundaryInputs, assertStrictlyPositiveNumber, assertPositiveNumber, assertRange,
      PyCmp.ltb, PyCmp.eqb, bind, Except.bind, pure, Except.pure, PyVal.get!, h90, h1, h2]
    norm_num
  rw [e]; rfl

theorem exTall_reachable : Reachable exTall := .init exTall_new

theorem exTall_extH : exTall.extH = 18 := by
  change max (max (3 * (6 : ℝ)) 6) (5 * 6 / 2) = 18
  rw [max_eq_left, max_eq_left] <;> norm_num

/-- The two slopes, with no materials, and two materials at addresses 0 and 1. -/
noncomputable def exWorld (h : Heap ℝ) : World :=
  { heap := (h.setMat 0 ⟨exMat 1, 0, ""⟩).setMat 1 ⟨exMat 2, 0, ""⟩
    slope := fun i => if i = 1 then some (.fresh exTall) else if i = 0 then some (.fresh exSlope)
      else none }

theorem exWorld_reach (P) (h : Heap ℝ) : World.Reach P (exWorld h) := by
  have h0 := World.Reach.start (P := P) h
  have h1 := h0.step (.newMat (r := 0) (p := ⟨exMat 1, 0, ""⟩) (exMat_constructed _)
    (fun _ _ h => (by cases h)))
  have h2 := h1.step (.newMat (r := 1) (p := ⟨exMat 2, 0, ""⟩) (exMat_constructed _)
    (fun _ _ h => (by cases h)))
  have h3 := h2.step (.newSlope (i := 0) rfl exSlope_new)
  exact h3.step (.newSlope (i := 1) rfl exTall_new)

/-- The world after `a.set_materials(m0, m1)` on the first slope. -/
noncomputable def exWorld1 (h : Heap ℝ) : World :=
  (exWorld h).put 0 ((HOp.setMaterials [some 0, some 1]).run ⟨(exWorld h).heap, .fresh exSlope⟩).1.heap
    ((HOp.setMaterials [some 0, some 1]).run ⟨(exWorld h).heap, .fresh exSlope⟩).1.obj

theorem exWorld1_reach (P) (h : Heap ℝ) (hP : P (exWorld h) 0 (.setMaterials [some 0, some 1])) :
    World.Reach P (exWorld1 h) := by
  refine (exWorld_reach P h).step (.call (σ := .fresh exSlope) rfl hP ?_)
  intro m hm
  have e0 : ((exWorld h).heap.mat 0).mat = exMat 1 := rfl
  have e1 : ((exWorld h).heap.mat 1).mat = exMat 2 := rfl
  simp only [List.map_cons, Option.map_some, List.map_nil, e0, e1, List.mem_cons, Option.some.injEq,
    List.not_mem_nil, or_false] at hm
  rcases hm with rfl | rfl <;> exact exMat_constructed _

/-- The same history meets the hypotheses of C64 and C66, with a slope that holds two materials. -/
example (h : Heap ℝ) : World.Reach Unshared (exWorld1 h) := by
  refine exWorld1_reach _ h ?_
  intro j τ hj hτ r
  refine ⟨fun h => h.elim, fun h => h.elim, fun _ => ?_⟩
  change (if j = 1 then some (Obj.fresh exTall) else if j = 0 then some (Obj.fresh exSlope) else none)
    = some τ at hτ
  rw [if_neg hj] at hτ
  split at hτ
  · cases hτ; exact List.not_mem_nil
  · cases hτ

theorem exSlope_two : exSlope.setMaterials [some (exMat 1), some (exMat 2)] =
    (({ exSlope with materials := mkLayers exSlope.extH 0 [exMat 1, exMat 2] } :
      Slope ℝ).resetResults, .ok ()) := by
  have d1 : (exMat 1).depth = 1 := by simp [exMat]
  have d2 : (exMat 2).depth = 2 := by simp [exMat]
  have ea : exSlope.allMats [exMat 1, exMat 2] = [exMat 1, exMat 2] := by
    unfold Slope.allMats sortByKey
    apply List.mergeSort_of_pairwise
    simp [d1, d2]
  have es := setMaterials_eq exSlope_reachable.wf.geo [exMat 1, exMat 2] 2 (by
    rw [ea]; simp [d2])
  rw [ea, if_pos (by simp [d1, d2])] at es
  have ed : exSlope.deepen 2 = exSlope := by
    unfold Slope.deepen; rw [if_neg]; simp; norm_num
  rw [ed] at es
  exact es

/-- What the first slope sees and holds in `exWorld1`. -/
theorem exWorld1_first (h : Heap ℝ) : ∃ σ, (exWorld1 h).slope 0 = some σ ∧ σ.ms = [0, 1] ∧
    ((exWorld1 h).heap.mat 0).mat = exMat 1 ∧ ((exWorld1 h).heap.mat 1).mat = exMat 2 ∧
    σ.view (exWorld1 h).heap =
      ({ exSlope with materials := mkLayers exSlope.extH 0 [exMat 1, exMat 2] } :
        Slope ℝ).resetResults := by
  have d1 : (exMat 1).depth = 1 := by simp [exMat]
  have d2 : (exMat 2).depth = 2 := by simp [exMat]
  have e0 : ((exWorld h).heap.mat 0).mat = exMat 1 := rfl
  have e1 : ((exWorld h).heap.mat 1).mat = exMat 2 := rfl
  have ev : (Obj.fresh exSlope).view (exWorld h).heap = exSlope := rfl
  have w : WFS (HS.view (⟨(exWorld h).heap, .fresh exSlope⟩ : HS ℝ)) := exSlope_reachable.wfs
  have sm := HOp.sim _ w (.setMaterials [some 0, some 1])
  have fr := HOp.frame (U := fun _ => False) (L := fun _ => False) (M := fun r => r = 0 ∨ r = 1)
    (h0 := (exWorld h).heap) (s := ⟨(exWorld h).heap, .fresh exSlope⟩)
    (.setMaterials [some 0, some 1])
    ⟨fun _ _ => rfl, fun _ _ => rfl, fun _ _ => rfl, fun _ h => (by cases h),
      fun _ h => (by cases h), fun _ h => (by cases h)⟩ (fun _ h => h.elim) (fun _ h => h.elim)
    (by
      intro r hr
      change some r ∈ [some 0, some 1] at hr
      simpa using hr)
  have lo := HOp.loads (.setMaterials [some 0, some 1]) (fun _ _ h => (by cases h))
    (exWorld h).heap ⟨(exWorld h).heap, .fresh exSlope⟩ ⟨fun _ => rfl, fun _ => rfl, fun _ => rfl⟩
  have es := exSlope_two
  obtain ⟨v1, -⟩ := sm
  change _ = (exSlope.setMaterials [some (exMat 1), some (exMat 2)]).1 at v1
  rw [es] at v1
  refine ⟨_, rfl, ?_, (lo.2.2 0).trans e0, (lo.2.2 1).trans e1, v1⟩
  set o := (HOp.setMaterials [some 0, some 1]).run ⟨(exWorld h).heap, .fresh exSlope⟩ with ho
  have hm : o.1.obj.ms.map (fun r => (o.1.heap.mat r).mat) = [exMat 1, exMat 2] := by
    have := congrArg (fun s : Slope ℝ => s.materials.map Layer.mat) v1
    have e : ∀ l : List Nat, (l.map o.1.heap.mat).map Layer.mat
        = l.map fun r => (o.1.heap.mat r).mat := by intro l; simp
    rw [← e]
    exact this
  have hne : exMat 1 ≠ exMat 2 := by
    intro h; have := congrArg Material.depth h; rw [d1, d2] at this; norm_num at this
  have k0 : (o.1.heap.mat 0).mat = exMat 1 := (lo.2.2 0).trans e0
  have k1 : (o.1.heap.mat 1).mat = exMat 2 := (lo.2.2 1).trans e1
  match hl : o.1.obj.ms with
  | [] => rw [hl] at hm; cases hm
  | [a] => rw [hl] at hm; simp at hm
  | a :: b :: c :: t => rw [hl] at hm; simp at hm
  | [a, b] =>
    rw [hl] at hm
    simp only [List.map_cons, List.map_nil, List.cons.injEq, and_true] at hm
    have ha := fr.ms a (by rw [hl]; simp)
    have hb := fr.ms b (by rw [hl]; simp)
    rcases ha with rfl | rfl
    · rcases hb with rfl | rfl
      · exact absurd (k0.symm.trans hm.2) hne
      · rfl
    · exact absurd (hm.1.symm.trans k1) hne

/-- A slope of the size of the example whose first layer has a level above the top of the model:
`plot_boundary` raises. -/
theorem plotBoundary_raises {q : Slope ℝ} {a b : Layer ℝ} {y : ℝ} (hm : q.materials = [a, b])
    (ha : a.rl = y) (hH : q.extH < y) (hT : q.topY ≤ q.extH) (hB : q.botY ≤ q.topY) :
    q.plotBoundary = .error .typeError := by
  have hx : q.getExternalX y = .ok none := by
    unfold Slope.getExternalX
    rw [if_neg (by linarith), if_neg (by linarith), pyEq_real, pyEq_real, if_neg (by
      simp; linarith), if_neg (by simp; linarith)]
  unfold Slope.plotBoundary
  rw [if_neg (by rw [hm]; simp)]
  unfold Slope.outlines
  rw [hm]
  simp [Slope.outlinesFrom, Slope.layerOutline, ha, hx, bottomLine, bind, Except.bind, pure,
    Except.pure]

/-- C65 is violated: two slopes of different heights are given the same material. The call on the
second moves the layer of the first above the ground, and `plot_boundary` of the first, which
worked, raises `TypeError`. -/
theorem C65_shared_violated : ∃ (w : World) (s : Slope ℝ), World.Reach AnyCall w ∧
    w.view 0 = some s ∧ (∃ p, s.plotBoundary = .ok p) ∧ s.materials.map Layer.rl = [8, 7] ∧
    ∃ (w' : World) (s' : Slope ℝ) (τ : Obj ℝ), Step AnyCall w w' ∧
      w.slope 1 = some τ ∧
      w' = w.put 1 ((HOp.setMaterials [some 0]).run ⟨w.heap, τ⟩).1.heap
        ((HOp.setMaterials [some 0]).run ⟨w.heap, τ⟩).1.obj ∧
      w'.view 0 = some s' ∧ s'.materials.map Layer.rl = [17, 7] ∧ s'.extH = 9 ∧
      s'.plotBoundary = .error .typeError := by
  have h : Heap ℝ := ⟨fun _ => ⟨⟨0, 0, none, "", false⟩, 0, 0⟩, fun _ => ⟨⟨0, 0, "", false⟩, 0⟩,
    fun _ => ⟨exMat 1, 0, ""⟩⟩
  have d1 : (exMat 1).depth = 1 := by simp [exMat]
  have d2 : (exMat 2).depth = 2 := by simp [exMat]
  obtain ⟨σ, h1, h2, h3, h4, h5⟩ := exWorld1_first h
  have hW := exWorld1_reach AnyCall h trivial
  have hs1 : (exWorld1 h).slope 1 = some (.fresh exTall) := rfl
  generalize exWorld1 h = w at h1 h3 h4 h5 hW hs1
  have hL : σ.ms.map w.heap.mat = mkLayers exSlope.extH 0 [exMat 1, exMat 2] :=
    congrArg Slope.materials h5
  rw [h2] at hL
  have l0 : w.heap.mat 0 = mkLayer exSlope.extH 0 (exMat 1) := by
    have := congrArg List.head? hL; exact Option.some.inj this
  have l1 : (w.heap.mat 1).rl = 7 := by
    have := congrArg (fun l => (l.map Layer.rl).getLast?) hL
    have e : some (w.heap.mat 1).rl = some (exSlope.extH - (exMat 2).depth) := this
    rw [Option.some.inj e, exSlope_extH, d2]; norm_num
  have tw : WFS (HS.view (⟨w.heap, .fresh exTall⟩ : HS ℝ)) := (exTall_reachable).wfs
  have sm := (HOp.sim _ tw (.setMaterials [some 0])).1
  have ed : exTall.deepen (exMat 1).depth = exTall := by
    unfold Slope.deepen; rw [if_neg]; rw [exTall_extH, d1]; norm_num
  have e2 : (HOp.deref w.heap (.setMaterials [some 0])).run exTall
      = (({ exTall with materials := [mkLayer exTall.extH 0 (exMat 1)] } : Slope ℝ).resetResults,
        .ok ()) := by
    have := setMaterials_one (exTall_reachable).wf.geo rfl (exMat 1)
    rw [ed] at this
    change exTall.setMaterials [some (w.heap.mat 0).mat] = _
    rw [h3]; exact this
  have fr := HOp.frame (U := fun _ => False) (L := fun _ => False) (M := fun r => r = 0)
    (h0 := w.heap) (s := ⟨w.heap, .fresh exTall⟩) (.setMaterials [some 0])
    ⟨fun _ _ => rfl, fun _ _ => rfl, fun _ _ => rfl, fun _ h => (by cases h),
      fun _ h => (by cases h), fun _ h => (by cases h)⟩ (fun _ h => h.elim) (fun _ h => h.elim)
    (by
      intro r hr
      change some r ∈ [some 0] at hr
      simpa using hr)
  change _ = ((HOp.deref w.heap (.setMaterials [some 0])).run exTall).1 at sm
  rw [e2] at sm
  set o := (HOp.setMaterials [some 0]).run ⟨w.heap, .fresh exTall⟩ with ho
  have cH : σ.core.extH = exSlope.extH := by
    have := congrArg Slope.extH h5; exact this
  have cT : σ.core.topY = exSlope.topY := by
    have := congrArg Slope.topY h5; exact this
  have cB : σ.core.botY = exSlope.botY := by
    have := congrArg Slope.botY h5; exact this
  have n0 : (o.1.heap.mat 0).rl = 17 := by
    have hl : o.1.obj.ms.map o.1.heap.mat = [mkLayer exTall.extH 0 (exMat 1)] :=
      congrArg Slope.materials sm
    match hq : o.1.obj.ms with
    | [] => rw [hq] at hl; cases hl
    | a :: b :: c => rw [hq] at hl; simp at hl
    | [a] =>
      rw [hq] at hl
      have ha : a = 0 := fr.ms a (by rw [hq]; simp)
      rw [ha] at hl
      have : o.1.heap.mat 0 = mkLayer exTall.extH 0 (exMat 1) := by
        have := congrArg List.head? hl; exact Option.some.inj this
      rw [this]
      change exTall.extH - (exMat 1).depth = 17
      rw [exTall_extH, d1]; norm_num
  have n1 : (o.1.heap.mat 1).rl = 7 := by
    rw [fr.mat 1 (by decide)]; exact l1
  have hv : w.view 0 = some (({ exSlope with
      materials := mkLayers exSlope.extH 0 [exMat 1, exMat 2] } : Slope ℝ).resetResults) := by
    unfold World.view; rw [h1]; exact congrArg some h5
  refine ⟨w, _, hW, hv, ?_, ?_, _, σ.view
    o.1.heap, .fresh exTall, .call hs1 trivial ?_, hs1, rfl, ?_, ?_, ?_, ?_⟩
  · have r1 : Reachable (exSlope.setMaterials [some (exMat 1), some (exMat 2)]).1 :=
      exSlope_reachable.call (.setMaterials _ _ (by
        intro m hm; simp at hm; rcases hm with rfl | rfl <;> exact exMat_constructed _))
    rw [exSlope_two] at r1
    obtain ⟨b, hb, -⟩ := C62_plot_ends_partial _ r1 (by
      intro l hl
      obtain ⟨q1, q2⟩ := mkLayers_rl _ _ _ l hl
      rw [show (({ exSlope with materials := mkLayers exSlope.extH 0 [exMat 1, exMat 2] } :
        Slope ℝ).resetResults).topY = 9 from exSlope_topY]
      rw [exSlope_extH] at q1
      refine ⟨q1, ?_⟩
      simp only [List.mem_cons, List.not_mem_nil, or_false] at q2
      rcases q2 with q | q <;> rw [q] <;> simp [d1, d2] <;> norm_num) (fun y hy => (by cases hy))
      (Or.inl rfl)
    exact ⟨b, hb⟩
  · change [exSlope.extH - (exMat 1).depth, exSlope.extH - (exMat 2).depth] = _
    rw [exSlope_extH, d1, d2]; norm_num
  · intro m hm
    simp only [List.map_cons, Option.map_some, List.map_nil, h3, List.mem_cons, Option.some.injEq,
      List.not_mem_nil, or_false] at hm
    rw [hm]; exact exMat_constructed _
  · unfold World.view
    rw [World.slope_put, if_neg (by decide), h1]; rfl
  · change (σ.ms.map _).map Layer.rl = _
    rw [h2]
    change [Layer.rl _, Layer.rl _] = _
    rw [n0, n1]
  · exact cH.trans exSlope_extH
  · refine plotBoundary_raises (y := 17) (a := o.1.heap.mat 0) (b := o.1.heap.mat 1) ?_ n0 ?_ ?_ ?_
    · change σ.ms.map _ = _
      rw [h2]; rfl
    · exact cH.trans_lt (by rw [exSlope_extH]; norm_num)
    · change σ.core.topY ≤ σ.core.extH
      rw [cT, cH]; simp
    · change σ.core.botY ≤ σ.core.topY
      rw [cT, cB]; simp; norm_num

/-- C65, the part that holds however the objects are shared: a call on one slope changes in what
another sees at most the positions of its loads, the levels and drawing colours of its layers, and,
if the call is a dynamic analysis, the offsets of dynamic loads. The other keeps its geometry, water,
limits, options and results, and the same loads and materials in the same order. Missing: the
positions and levels can become wrong for the other slope (`C65_shared_violated`). -/
theorem C65_shared_partial (h : Heap ℝ) (σ τ : Obj ℝ) (op : HOp) :
    ∃ us ls ms, τ.view (op.run ⟨h, σ⟩).1.heap =
        { τ.view h with udls := us, lls := ls, materials := ms } ∧
      ms.map Layer.mat = (τ.view h).materials.map Layer.mat ∧
      us.map (fun u => (u.load.magnitude, u.load.length, u.load.color, u.load.dynamic)) =
        (τ.view h).udls.map
          (fun u => (u.load.magnitude, u.load.length, u.load.color, u.load.dynamic)) ∧
      ls.map (fun u => (u.load.magnitude, u.load.color, u.load.dynamic)) =
        (τ.view h).lls.map (fun u => (u.load.magnitude, u.load.color, u.load.dynamic)) ∧
      ((∀ c d, op ≠ .analyseDynamic c d) →
        us.map (·.load) = (τ.view h).udls.map (·.load) ∧
        ls.map (·.load) = (τ.view h).lls.map (·.load)) := by
  refine ⟨_, _, _, rfl, ?_, ?_, ?_, fun hop => ⟨?_, ?_⟩⟩
  all_goals simp only [Obj.view, List.map_map]; apply List.map_congr_left; intro r _
  · exact (C67_objects_keep_values h σ op r).1
  · simp only [Function.comp]
    rw [(C67_objects_keep_values h σ op r).2.1]
  · simp only [Function.comp]
    rw [(C67_objects_keep_values h σ op r).2.2.1]
  · exact (op.loads hop h ⟨h, σ⟩ ⟨fun _ => rfl, fun _ => rfl, fun _ => rfl⟩).1 r
  · exact (op.loads hop h ⟨h, σ⟩ ⟨fun _ => rfl, fun _ => rfl, fun _ => rfl⟩).2.1 r

/-- C65 and C67 are met by `set_materials` on the first slope of the example, which holds two
materials. -/
example (h : Heap ℝ) : ∃ σ, (exWorld1 h).slope 0 = some σ ∧ σ.ms.length = 2 := by
  obtain ⟨σ, h1, h2, _⟩ := exWorld1_first h
  exact ⟨σ, h1, by rw [h2]; rfl⟩

end PySlope
