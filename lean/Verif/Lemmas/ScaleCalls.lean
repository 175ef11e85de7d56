import Verif.Lemmas.Scaling
import Verif.Lemmas.WFCalls
import Verif.Model.Dynamic
import Verif.Spec.Scale
import Verif.Lemmas.Heap
import Verif.Lemmas.Stable

/-! # Calls on a slope and on the same slope with weights, cohesions and loads multiplied by `k` -/

namespace PySlope

noncomputable def UdlMax.times (k : ℝ) : UdlMax ℝ → UdlMax ℝ
  | .unset => .unset
  | .num x => .num (k * x)
  | .obj u => .obj (u.times k)

/-- The state with materials and loads multiplied. -/
noncomputable def Slope.times (k : ℝ) (s : Slope ℝ) : Slope ℝ :=
  { s with
    materials := s.materials.map fun l => { l with mat := l.mat.times k }
    udls := s.udls.map fun u => { u with load := u.load.times k }
    lls := s.lls.map fun u => { u with load := u.load.times k }
    udlMax := s.udlMax.times k }

/-- `f'` does to the multiplied state what `f` does to the state. -/
def Comm {α : Type} (k : ℝ) (f f' : Slope ℝ → Out ℝ α) : Prop :=
  ∀ s, f' (s.times k) = ((f s).1.times k, (f s).2)

variable {k : ℝ}

theorem Comm.andThen {α β : Type} {f f' : Slope ℝ → Out ℝ α} {g g' : Slope ℝ → α → Out ℝ β}
    (h1 : Comm k f f') (h2 : ∀ a, Comm k (g · a) (g' · a)) :
    Comm k (fun s => (f s).andThen g) (fun s => (f' s).andThen g') := by
  intro s
  simp only [Out.andThen]
  rw [h1 s]
  cases (f s).2 with
  | error e => rfl
  | ok a => exact h2 a _

theorem Comm.forEach {α β : Type} {f : Slope ℝ → α → Out ℝ Unit} {f' : Slope ℝ → β → Out ℝ Unit}
    {h : α → β} (h1 : ∀ a, Comm k (f · a) (f' · (h a))) (l : List α) :
    Comm k (Slope.forEach f l) (Slope.forEach f' (l.map h)) := by
  induction l with
  | nil => intro s; rfl
  | cons a l ih => exact (h1 a).andThen fun _ => ih

theorem Comm.done : Comm k (fun s => (s.resetResults, Except.ok ())) (fun s => (s.resetResults, Except.ok ())) :=
  fun _ => rfl

/-- The limits a call of `set_analysis_limits` leaves, given the results of its checks. -/
def limitsGo {K : Type} [PyNum K] (mk : K → K → K → K → Slope K) (top : K) (A B : Except PyErr K)
    (C : Except PyErr (PyVal K)) (D : PyVal K → Except PyErr (PyVal K)) (E : PyVal K → Except PyErr K) :
    Except PyErr (Slope K) := do
  let lx ← A
  let lxr ← B
  let rxl ← C
  let rx ← D rxl
  let lx := pyMax lx (@OfNat.ofNat K 0 (Lit.natLit 0))
  let lxr := pyMin lxr top
  let rx ← E rx
  let rxl := pyMax rxl.get! top
  if lxr ≤ lx ∨ rx ≤ rxl then throw PyErr.valueError
  pure (mk lx lxr rxl rx)

theorem limitsGo_map {K : Type} [PyNum K] (f : Slope K → Slope K) (mk : K → K → K → K → Slope K) (top : K) (A B : Except PyErr K)
    (C : Except PyErr (PyVal K)) (D : PyVal K → Except PyErr (PyVal K)) (E : PyVal K → Except PyErr K) :
    limitsGo (fun a b c d => f (mk a b c d)) top A B C D E = (limitsGo mk top A B C D E).map f := by
  unfold limitsGo
  rcases A with _ | A
  · rfl
  rcases B with _ | B
  · rfl
  rcases C with _ | C
  · rfl
  simp only [bind, Except.bind]
  rcases D C with _ | x
  · rfl
  simp only
  rcases E x with _ | y
  · rfl
  simp only
  by_cases h : pyMin B top ≤ pyMax A (@OfNat.ofNat K 0 (Lit.natLit 0)) ∨ y ≤ pyMax C.get! top
  · simp only [if_pos h]
    rfl
  · simp only [if_neg h]
    rfl

/-- `set_analysis_limits` as a function of the limits and the two lengths it reads. -/
def limitsFor {K : Type} [PyNum K] (mk : K → K → K → K → Slope K) (l1 l2 l3 l4 top ext : K)
    (a b c d : PyVal K) : Except PyErr (Slope K) :=
  limitsGo mk top
    (match a with
      | .none => pure l1
      | v => do assertPositiveNumber (@OfNat.ofNat K 0 (Lit.natLit 0)) v; pure v.get!)
    (match c with
      | .none => pure l2
      | v => do assertStrictlyPositiveNumber (@OfNat.ofNat K 0 (Lit.natLit 0)) v; pure v.get!)
    (match d with
      | .none => pure (PyVal.num l3)
      | v => do assertStrictlyPositiveNumber (@OfNat.ofNat K 0 (Lit.natLit 0)) b; pure v)
    (fun rxl => match b with
      | .none => pure (PyVal.num l4)
      | v => do assertStrictlyPositiveNumber (@OfNat.ofNat K 0 (Lit.natLit 0)) rxl; pure v)
    (fun rx => match rx with
      | .num x | .numSub x => pure (pyMin x ext)
      | _ => throw .typeError)

theorem setAnalysisLimits_go {K : Type} [PyNum K] (s : Slope K) (a b c d : PyVal K) :
    s.setAnalysisLimits a b c d =
    match limitsFor (fun l1 l2 l3 l4 => { s with lim1 := l1, lim2 := l2, lim3 := l3, lim4 := l4 })
      s.lim1 s.lim2 s.lim3 s.lim4 s.topX s.extL a b c d with
    | .ok s' => (s'.resetResults, .ok ())
    | .error e => (s, .error e) := by
  cases a <;> cases b <;> cases c <;> cases d <;> rfl

theorem times_setAnalysisLimits (a b c d : PyVal ℝ) :
    Comm k (·.setAnalysisLimits a b c d) (·.setAnalysisLimits a b c d) := by
  intro s
  simp only
  obtain ⟨t, ht⟩ : ∃ t, t = s.times k := ⟨_, rfl⟩
  have e : limitsFor (fun l1 l2 l3 l4 => { t with lim1 := l1, lim2 := l2, lim3 := l3, lim4 := l4 })
      t.lim1 t.lim2 t.lim3 t.lim4 t.topX t.extL a b c d =
      (limitsFor (fun l1 l2 l3 l4 => { s with lim1 := l1, lim2 := l2, lim3 := l3, lim4 := l4 })
      s.lim1 s.lim2 s.lim3 s.lim4 s.topX s.extL a b c d).map (Slope.times k) := by
    unfold limitsFor
    rw [← limitsGo_map (Slope.times k), ht]
    rfl
  rw [← ht, setAnalysisLimits_go, setAnalysisLimits_go s, e, ht]
  generalize limitsFor (K := ℝ) _ _ _ _ _ _ _ _ _ _ _ = g
  cases g <;> rfl

theorem times_removeAnalysisLimits : Comm k Slope.removeAnalysisLimits Slope.removeAnalysisLimits := by
  intro s
  exact Comm.andThen (times_setAnalysisLimits (.num (@OfNat.ofNat ℝ 0 (Lit.natLit 0))) (.num s.extL) (.num s.topX)
    (.num s.topX)) (fun _ => Comm.done) s

theorem times_applyBoundary (h l : ℝ) : Comm k (·.applyBoundary h l) (·.applyBoundary h l) := by
  intro s
  unfold Slope.applyBoundary
  simp only
  refine Eq.trans ?_ (Comm.andThen times_removeAnalysisLimits (fun _ => Comm.done) _)
  congr 2
  simp [Slope.times, Slope.updateUdlCoordinates, Slope.updateLlCoordinates, List.map_map, Function.comp_def,
    placeUdl, placeLl, Udl.times, LineLoad.times]

theorem times_setExternalBoundary (a b c : PyVal ℝ) :
    Comm k (·.setExternalBoundary a b c) (·.setExternalBoundary a b c) := by
  intro s
  unfold Slope.setExternalBoundary
  simp only
  cases boundaryInputs a b c with
  | error e => rfl
  | ok x => exact times_applyBoundary _ _ s

theorem times_updateBoundaryOptions (a b : PyVal ℝ) :
    Comm k (·.updateBoundaryOptions a b) (·.updateBoundaryOptions a b) := by
  unfold Slope.updateBoundaryOptions
  refine Comm.andThen ?_ fun _ => Comm.andThen ?_ fun _ => Comm.andThen ?_ fun _ => Comm.done
  · intro s
    simp only
    split
    · split <;> rfl
    · rfl
  · intro s
    simp only
    split
    · split <;> rfl
    · rfl
  · intro s
    simp only
    have e : (s.times k).extBoundary = s.extBoundary := rfl
    rw [e]
    cases s.extBoundary with
    | none => rfl
    | some _ => exact times_setExternalBoundary _ _ _ s

theorem times_setWaterTable (d : PyVal ℝ) : Comm k (·.setWaterTable d) (·.setWaterTable d) := by
  intro s
  unfold Slope.setWaterTable
  cases d with
  | none => rfl
  | num x => simp only; cases assertPositiveNumber (@OfNat.ofNat ℝ 0 (Lit.natLit 0)) (PyVal.num x) <;> rfl
  | numSub x => simp only; cases assertPositiveNumber (@OfNat.ofNat ℝ 0 (Lit.natLit 0)) (PyVal.numSub x) <;> rfl
  | other x => simp only; cases assertPositiveNumber (@OfNat.ofNat ℝ 0 (Lit.natLit 0)) (PyVal.other x) <;> rfl

theorem times_updateWaterAnalysisOptions (a : Bool) (h : PyVal ℝ) :
    Comm k (·.updateWaterAnalysisOptions a h) (·.updateWaterAnalysisOptions a h) := by
  intro s
  unfold Slope.updateWaterAnalysisOptions
  simp only
  split
  · rfl
  · split <;> rfl

theorem times_updateAnalysisOptions (n i : Option Int) (f t : Option ℝ) (m : Option Int) :
    Comm k (·.updateAnalysisOptions n i f t m) (·.updateAnalysisOptions n i f t m) := by
  intro s
  unfold Slope.updateAnalysisOptions
  simp only
  cases n <;> cases i <;> cases f <;> cases t <;> cases m <;> simp only <;> repeat' split
  all_goals rfl

/-! ## Loads -/

theorem times_addUdl (hk : 0 < k) (u : UdlArg ℝ) :
    Comm k (·.addUdl u) (·.addUdl (u.map (Udl.times k))) := by
  intro s
  cases u with
  | none => rfl
  | some u =>
    simp only [Slope.addUdl, Option.map_some, lit_zero]
    have h1 : 0 < (u.times k).magnitude ↔ 0 < u.magnitude := mul_pos_iff_of_pos_left hk
    have h2 : (u.times k).minLength = u.minLength := rfl
    have h3 : ({ s.times k with udls := (s.times k).udls ++ [placeUdl (s.times k).topX (u.times k)] } : Slope ℝ) =
        ({ s with udls := s.udls ++ [placeUdl s.topX u] } : Slope ℝ).times k := by
      simp [Slope.times, placeUdl, Udl.times]
    by_cases h : 0 < u.magnitude
    · rw [if_pos (h1.mpr h), if_pos h, h2]
      by_cases h4 : s.minExtL < u.minLength
      · rw [if_pos h4, if_pos (show (Slope.times k _).minExtL < _ from h4), h3]
        exact times_updateBoundaryOptions _ _ _
      · rw [if_neg h4, if_neg (show ¬ (Slope.times k _).minExtL < _ from h4), h3]
    · rw [if_neg (fun c => h (h1.mp c)), if_neg h]

theorem times_addLl (hk : 0 < k) (u : Option (LineLoad ℝ)) :
    Comm k (·.addLl u) (·.addLl (u.map (LineLoad.times k))) := by
  intro s
  cases u with
  | none => rfl
  | some u =>
    simp only [Slope.addLl, Option.map_some, lit_zero]
    have h1 : 0 < (u.times k).magnitude ↔ 0 < u.magnitude := mul_pos_iff_of_pos_left hk
    have h3 : ({ s.times k with lls := (s.times k).lls ++ [placeLl (s.times k).topX (u.times k)] } : Slope ℝ) =
        ({ s with lls := s.lls ++ [placeLl s.topX u] } : Slope ℝ).times k := by
      simp [Slope.times, placeLl, LineLoad.times]
    have h2 : (u.times k).offset = u.offset := rfl
    by_cases h : 0 < u.magnitude
    · rw [if_pos (h1.mpr h), if_pos h, h2]
      split
      · rename_i h4
        rw [if_pos (show s.minExtL < _ from h4), h3]
        exact times_updateBoundaryOptions _ _ _
      · rename_i h4
        rw [if_neg (show ¬ s.minExtL < _ from h4), h3]
    · rw [if_neg (fun c => h (h1.mp c)), if_neg h]

theorem times_maxMagnitude (hk : 0 < k) (us : List (PUdl ℝ)) (m : UdlMax ℝ) :
    maxMagnitude (us.map fun u => { u with load := u.load.times k }) (m.times k) =
      (maxMagnitude us m).times k := by
  cases us with
  | nil => rfl
  | cons u us =>
    simp only [maxMagnitude, List.map_cons, UdlMax.times, UdlMax.num.injEq, Udl.times, pyMax_real]
    generalize u.load.magnitude = x
    induction us generalizing x with
    | nil => rfl
    | cons v us ih =>
      simp only [List.map_cons, List.foldl_cons]
      rw [← mul_max_of_nonneg _ _ hk.le]
      exact ih _

theorem times_setUdls (hk : 0 < k) (us : List (UdlArg ℝ)) :
    Comm k (·.setUdls us) (·.setUdls (us.map (Option.map (Udl.times k)))) := by
  refine Comm.andThen (Comm.forEach (times_addUdl hk) us) fun _ => ?_
  intro s
  simp only [Slope.updateUdlCoordinates]
  have e : (s.times k).udls.map (fun p => placeUdl (s.times k).topX p.load) =
      (s.udls.map fun p => placeUdl s.topX p.load).map fun u => { u with load := u.load.times k } := by
    simp [Slope.times, placeUdl, Udl.times]
  rw [e]
  have := times_maxMagnitude hk (s.udls.map fun p => placeUdl s.topX p.load) s.udlMax
  rw [show (s.times k).udlMax = s.udlMax.times k from rfl, this]
  rfl

theorem times_setLls (hk : 0 < k) (us : List (Option (LineLoad ℝ))) :
    Comm k (·.setLls us) (·.setLls (us.map (Option.map (LineLoad.times k)))) := by
  refine Comm.andThen (Comm.forEach (times_addLl hk) us) fun _ => ?_
  intro s
  simp [Slope.updateLlCoordinates, Slope.times, placeLl, LineLoad.times, Slope.resetResults]

theorem times_pyEq (hk : 0 < k) (a b : ℝ) : pyEq (k * a) (k * b) = pyEq a b := by
  rw [pyEq_real, pyEq_real]
  simp [hk.ne']

theorem times_removeUdl (hk : 0 < k) (us : List (Udl ℝ)) (l : List (PUdl ℝ)) :
    (us.map (Udl.times k)).foldl (fun l u => removeLoop (fun (c : PUdl ℝ) => c.load.matches u)
      (fun a b => a.load.eq b.load) l.length 0 l) (l.map fun u => { u with load := u.load.times k }) =
    (us.foldl (fun l u => removeLoop (fun (c : PUdl ℝ) => c.load.matches u)
      (fun a b => a.load.eq b.load) l.length 0 l) l).map fun u => { u with load := u.load.times k } := by
  induction us generalizing l with
  | nil => rfl
  | cons u us ih =>
    simp only [List.map_cons, List.foldl_cons, List.length_map]
    rw [← removeLoop_map, ← ih]
    simp only [Udl.matches, Udl.eq, Udl.times, times_pyEq hk]

theorem times_removeLl (hk : 0 < k) (us : List (LineLoad ℝ)) (l : List (PLl ℝ)) :
    (us.map (LineLoad.times k)).foldl (fun l u => removeLoop (fun (c : PLl ℝ) => c.load.matches u)
      (fun a b => a.load.eq b.load) l.length 0 l) (l.map fun u => { u with load := u.load.times k }) =
    (us.foldl (fun l u => removeLoop (fun (c : PLl ℝ) => c.load.matches u)
      (fun a b => a.load.eq b.load) l.length 0 l) l).map fun u => { u with load := u.load.times k } := by
  induction us generalizing l with
  | nil => rfl
  | cons u us ih =>
    simp only [List.map_cons, List.foldl_cons, List.length_map]
    rw [← removeLoop_map, ← ih]
    simp only [LineLoad.matches, LineLoad.eq, LineLoad.times, times_pyEq hk]

theorem times_maxUdl (hk : 0 < k) (us : List (PUdl ℝ)) (u : Udl ℝ) :
    maxUdl (u.times k) (us.map fun u => { u with load := u.load.times k }) = (maxUdl u us).times k := by
  induction us generalizing u with
  | nil => rfl
  | cons v us ih =>
    simp only [List.map_cons, maxUdl]
    rw [← ih]
    congr 1
    have : (u.times k).magnitude < (v.load.times k).magnitude ↔ u.magnitude < v.load.magnitude :=
      mul_lt_mul_iff_right₀ hk
    by_cases h : u.magnitude < v.load.magnitude
    · rw [if_pos h, if_pos (this.mpr h)]
    · rw [if_neg h, if_neg (fun c => h (this.mp c))]

theorem times_removeUdls (hk : 0 < k) (us : List (Udl ℝ)) (all : Bool) :
    Comm k (·.removeUdls us all) (·.removeUdls (us.map (Udl.times k)) all) := by
  intro s
  have e := times_removeUdl hk us s.udls
  unfold Slope.removeUdls
  simp only
  rw [show (s.times k).udls = s.udls.map fun u => { u with load := u.load.times k } from rfl, e]
  generalize List.foldl _ _ _ = l
  cases all
  · simp only [Bool.false_eq_true, if_false]
    cases l with
    | nil => rfl
    | cons u l =>
      simp only [List.map_cons]
      rw [times_maxUdl hk]
      rfl
  · simp [Slope.times, UdlMax.times, Slope.resetResults]

theorem times_removeLls (hk : 0 < k) (us : List (LineLoad ℝ)) (all : Bool) :
    Comm k (·.removeLls us all) (·.removeLls (us.map (LineLoad.times k)) all) := by
  intro s
  have e := times_removeLl hk us s.lls
  unfold Slope.removeLls
  simp only
  rw [show (s.times k).lls = s.lls.map fun u => { u with load := u.load.times k } from rfl, e]
  cases all <;> rfl

/-! ## Materials -/

theorem times_mkLayers (H : ℝ) (i : Nat) (ms : List (Material ℝ)) :
    mkLayers H i (ms.map (Material.times k)) =
      (mkLayers H i ms).map fun l => { l with mat := l.mat.times k } := by
  induction ms generalizing i with
  | nil => rfl
  | cons m ms ih =>
    simp only [List.map_cons, mkLayers, ih]
    rfl

theorem times_setMaterials (ms : List (Option (Material ℝ))) :
    Comm k (·.setMaterials ms) (·.setMaterials (ms.map (Option.map (Material.times k)))) := by
  intro s
  unfold Slope.setMaterials
  simp only
  have e1 : (ms.map (Option.map (Material.times k))).any (·.isNone) = ms.any (·.isNone) := by
    rw [List.any_map]
    congr 1
    funext m
    cases m <;> rfl
  have e2 : sortByKey Material.depth ((ms.map (Option.map (Material.times k))).filterMap id ++
      (s.times k).materials.map Layer.mat) =
      (sortByKey Material.depth (ms.filterMap id ++ s.materials.map Layer.mat)).map (Material.times k) := by
    have : (ms.map (Option.map (Material.times k))).filterMap id ++ (s.times k).materials.map Layer.mat =
        (ms.filterMap id ++ s.materials.map Layer.mat).map (Material.times k) := by
      rw [List.map_append]
      congr 1
      · rw [List.filterMap_map]
        clear e1
        induction ms with
        | nil => rfl
        | cons m ms ih =>
          cases m with
          | none => simpa using ih
          | some m => simpa using ih
      · simp [Slope.times]
    rw [this, ← sortByKey_map]
    rfl
  rw [e1, e2]
  generalize sortByKey Material.depth (ms.filterMap id ++ s.materials.map Layer.mat) = l
  have e3 : (l.map (Material.times k)).map Material.depth = l.map Material.depth := by
    rw [List.map_map]
    rfl
  rw [e3]
  split
  · rfl
  · cases (l.map Material.depth).getLast? with
    | none => rfl
    | some deepest =>
      simp only
      have c1 : Comm k (fun s : Slope ℝ => if s.extH < deepest then s.updateBoundaryOptions .none (.num deepest)
          else (s, .ok ())) (fun s : Slope ℝ => if s.extH < deepest then s.updateBoundaryOptions .none (.num deepest)
          else (s, .ok ())) := by
        intro s
        simp only
        by_cases h : s.extH < deepest
        · rw [if_pos h, if_pos (show (s.times k).extH < deepest from h)]
          exact times_updateBoundaryOptions _ _ s
        · rw [if_neg h, if_neg (show ¬ (s.times k).extH < deepest from h)]
      refine Comm.andThen c1 (fun _ => ?_) s
      intro s
      simp only
      split
      · rfl
      · rw [times_mkLayers]
        rfl

theorem times_layer_eq (hk : 0 < k) (a b : Layer ℝ) :
    Layer.eq { a with mat := a.mat.times k } { b with mat := b.mat.times k } = Layer.eq a b := by
  unfold Layer.eq Material.times
  simp only [times_pyEq hk]

/-- The layers without the one at a depth, as in `removeMaterial`. -/
def layersWithout {K : Type} [PyNum K] (ms : List (Layer K)) (d : K) : List (Layer K) :=
  if pyEq d (@OfNat.ofNat K 0 (Lit.natLit 0)) then ms
  else match ms.find? (fun l => pyEq l.mat.depth d) with
    | none => ms
    | some m => removeFirst (m.eq ·) ms

theorem removeMaterial_form {K : Type} [PyNum K] (s : Slope K) (m : Option (Material K)) (d : Option K)
    (all : Bool) : s.removeMaterial m d all =
      (({ s with materials := if all then [] else
        match (match m with | some m => some m.depth | none => d) with
        | none => s.materials
        | some d => layersWithout s.materials d } : Slope K).resetResults, .ok ()) := by
  cases m <;> cases d <;> rfl

theorem times_layersWithout (hk : 0 < k) (ms : List (Layer ℝ)) (d : ℝ) :
    layersWithout (ms.map fun l => { l with mat := l.mat.times k }) d =
      (layersWithout ms d).map fun l => { l with mat := l.mat.times k } := by
  unfold layersWithout
  by_cases h : pyEq d (@OfNat.ofNat ℝ 0 (Lit.natLit 0)) = true
  · rw [if_pos h, if_pos h]
  rw [if_neg h, if_neg h, List.find?_map]
  rw [show ((fun (l : Layer ℝ) => pyEq l.mat.depth d) ∘ fun l : Layer ℝ => { l with mat := l.mat.times k }) =
    fun l => pyEq l.mat.depth d from rfl]
  cases ms.find? (fun l => pyEq l.mat.depth d) with
  | none => rfl
  | some x =>
    simp only [Option.map_some]
    rw [← removeFirst_map]
    simp only [times_layer_eq hk]

theorem times_removeMaterial (hk : 0 < k) (m : Option (Material ℝ)) (d : Option ℝ) (all : Bool) :
    Comm k (·.removeMaterial m d all) (·.removeMaterial (m.map (Material.times k)) d all) := by
  intro s
  simp only [removeMaterial_form]
  have e := times_layersWithout hk s.materials
  cases all
  · cases m with
    | some m =>
      simp only [Option.map_some, Bool.false_eq_true, if_false]
      rw [show layersWithout (s.times k).materials (m.times k).depth = _ from e m.depth]
      rfl
    | none =>
      cases d with
      | none => rfl
      | some d =>
        simp only [Option.map_none, Bool.false_eq_true, if_false]
        rw [show layersWithout (s.times k).materials d = _ from e d]
        rfl
  · rfl

/-! ## Planes -/

theorem times_frame (s : Slope ℝ) : SameFrame s (s.times k) := by constructor <;> rfl

theorem times_scaled (s : Slope ℝ) : Scaled k s (s.times k) := by
  refine ⟨times_frame s, ?_, ?_, ?_⟩
  · exact List.forall₂_map_right_iff.mpr (List.forall₂_same.mpr fun l _ => ⟨rfl, rfl, rfl, rfl, rfl⟩)
  · exact List.forall₂_map_right_iff.mpr (List.forall₂_same.mpr fun l _ => ⟨rfl, rfl, rfl⟩)
  · exact List.forall₂_map_right_iff.mpr (List.forall₂_same.mpr fun l _ => ⟨rfl, rfl⟩)

theorem times_addSingleEntryExitPlane (l r : ℝ) (n : Int) :
    Comm k (·.addSingleEntryExitPlane l r n) (·.addSingleEntryExitPlane l r n) := by
  intro s
  unfold Slope.addSingleEntryExitPlane
  simp only
  rw [(times_frame s).getExternalY, (times_frame s).generatePlanes]
  cases s.getExternalY l with
  | none => rfl
  | some a =>
    cases s.getExternalY r with
    | none => rfl
    | some b =>
      simp only
      cases s.generatePlanes (l, a) (r, b) n <;> rfl

theorem times_addSingleCircularPlane (x y r : ℝ) :
    Comm k (·.addSingleCircularPlane x y r) (·.addSingleCircularPlane x y r) := by
  intro s
  unfold Slope.addSingleCircularPlane
  simp only
  rw [(times_frame s).circleExternalIntersection]
  cases s.circleExternalIntersection x y r with
  | error e => rfl
  | ok l =>
    simp only
    split
    · rfl
    · split <;> rfl

/-! ## Analyses of a dry slope -/

/-- There is no water (also: a level of 0). -/
def NoWater (s : Slope ℝ) : Prop := s.waterRL = none ∨ s.waterRL = some 0

theorem times_fillFos {s t : Slope ℝ} (h : ∀ cx cy r, t.bishop cx cy r none none = s.bishop cx cy r none none)
    (ps : List (Plane ℝ)) : t.fillFos ps = s.fillFos ps := by
  induction ps with
  | nil => rfl
  | cons p ps ih => simp only [Slope.fillFos, h, ih]

theorem times_analyseSlope (hk : 0 < k) {s : Slope ℝ} (hd : NoWater s) (m : Option ℝ) :
    (s.times k).analyseSlope m = ((s.analyseSlope m).1.times k, (s.analyseSlope m).2) := by
  have hx : s.waterX = .ok none := by
    unfold Slope.waterX
    rcases hd with hd | hd <;> rw [hd]
    simp
  have hf := times_fillFos fun cx cy r => (times_scaled (k := k) s).bishop hk hx cx cy r none none
  have hp : (s.times k).entryExitPlanes = s.entryExitPlanes :=
    (times_frame s).entryExitPlanes (by simp [Slope.times, Function.comp_def])
      (by simp [Slope.times, Function.comp_def])
  unfold Slope.analyseSlope
  rw [show (s.times k).individual = s.individual from rfl, hp]
  cases s.individual with
  | cons a l =>
    simp only [hf]
    generalize s.fillFos _ = x
    obtain ⟨x, e⟩ := x
    cases e <;> rfl
  | nil =>
    simp only
    cases s.entryExitPlanes with
    | error e => rfl
    | ok ps =>
      simp only [hf]
      generalize s.fillFos _ = x
      obtain ⟨x, e⟩ := x
      cases e <;> rfl

theorem times_setDynamicOffset (hk : 0 < k) (o : ℝ) :
    Comm k (·.setDynamicOffset o) (·.setDynamicOffset o) := by
  intro s
  unfold Slope.setDynamicOffset
  simp only
  refine Comm.andThen (times_removeUdls hk [] true) (fun _ => Comm.andThen (times_removeLls hk [] true)
    (fun _ => Comm.andThen ?_ fun _ => ?_)) s
  · refine Comm.forEach (h := fun p : PUdl ℝ => { p with load := p.load.times k }) ?_ s.udls
    intro p s
    have := times_setUdls hk [some (if p.load.dynamic then { p.load with offset := o } else p.load)] s
    simp only at this ⊢
    rw [← this]
    cases h : p.load.dynamic <;> simp [Udl.times, h]
  · refine Comm.forEach (h := fun p : PLl ℝ => { p with load := p.load.times k }) ?_ s.lls
    intro p s
    have := times_setLls hk [some (if p.load.dynamic then { p.load with offset := o } else p.load)] s
    simp only at this ⊢
    rw [← this]
    cases h : p.load.dynamic <;> simp [LineLoad.times, h]

theorem stable_dry : Stable NoWater :=
  ⟨fun _ _ h => h, fun _ _ h => h, fun _ _ _ h => h, fun _ _ _ h => h, fun _ _ h => h, fun _ _ _ h => h,
    fun _ _ h => h⟩

/-- The same for slopes without water, which stay without. -/
def CommDry {α : Type} (k : ℝ) (f f' : Slope ℝ → Out ℝ α) : Prop :=
  ∀ s, NoWater s → f' (s.times k) = ((f s).1.times k, (f s).2) ∧ NoWater (f s).1

theorem CommDry.andThen {α β : Type} {f f' : Slope ℝ → Out ℝ α} {g g' : Slope ℝ → α → Out ℝ β}
    (h1 : CommDry k f f') (h2 : ∀ a, CommDry k (g · a) (g' · a)) :
    CommDry k (fun s => (f s).andThen g) (fun s => (f' s).andThen g') := by
  intro s hd
  obtain ⟨e1, e2⟩ := h1 s hd
  simp only [Out.andThen]
  rw [e1]
  cases (f s).2 with
  | error e => exact ⟨rfl, e2⟩
  | ok a => exact h2 a _ e2

theorem times_tryOffset (hk : 0 < k) (o : ℝ) : CommDry k (·.tryOffset o) (·.tryOffset o) := by
  unfold Slope.tryOffset
  refine CommDry.andThen (fun s hd => ⟨times_setDynamicOffset hk o s, stable_dry.steady.setDynamicOffset hd o⟩)
    fun _ => CommDry.andThen (fun s hd => ⟨times_analyseSlope hk hd none, stable_dry.analyseSlope hd none⟩)
      fun _ => ?_
  intro s hd
  simp only
  rw [show (s.times k).getMinFos = s.getMinFos from rfl]
  rcases s.getMinFos with e | _ | f
  · exact ⟨rfl, hd⟩
  · exact ⟨rfl, hd⟩
  · exact ⟨rfl, hd⟩

theorem times_dynLoop (hk : 0 < k) (c : ℝ) (d : Bool) (n : Nat) (l r p : ℝ) :
    CommDry k (fun s => s.dynLoop c d n l r p) (fun s => s.dynLoop c d n l r p) := by
  induction n generalizing l r p with
  | zero => exact fun s hd => ⟨rfl, hd⟩
  | succ n ih =>
    intro s hd
    simp only [Slope.dynLoop]
    rw [show (s.times k).dynResults = s.dynResults from rfl]
    generalize (do
      let lf ← dictGet s.dynResults l
      let rf ← dictGet s.dynResults r
      let m ← pyDiv (lf - rf) (l - r)
      if d then throw .typeError
      let q ← pyDiv (c - rf) m
      pure (r + q) : Except PyErr ℝ) = mid
    cases mid with
    | error e => exact ⟨rfl, hd⟩
    | ok mid =>
      refine CommDry.andThen (times_tryOffset hk mid) (fun f => ?_) s hd
      intro s hd
      simp only
      split
      · exact ⟨rfl, hd⟩
      · split
        · exact ih _ _ _ s hd
        · exact ih _ _ _ s hd

theorem times_maxOffset (top : ℝ) (us : List (PUdl ℝ)) (l : ℝ) :
    maxOffset top (us.map fun u => { u with load := u.load.times k }) l = maxOffset top us l := by
  induction us generalizing l with
  | nil => rfl
  | cons u us ih =>
    simp only [List.map_cons, maxOffset, Udl.times] at ih ⊢
    split
    · split
      · rfl
      · exact ih _
    · exact ih _

theorem times_analyseDynamic (hk : 0 < k) (c : ℝ) (d : Bool) :
    CommDry k (·.analyseDynamic c d) (·.analyseDynamic c d) := by
  intro s hd
  simp only [Slope.analyseDynamic]
  rw [show maxOffset (s.times k).topX (s.times k).udls (s.times k).length = maxOffset s.topX s.udls s.length from
    times_maxOffset _ _ _]
  cases maxOffset s.topX s.udls s.length with
  | error e => exact ⟨rfl, hd⟩
  | ok left =>
    simp only
    refine CommDry.andThen (times_tryOffset hk _) (fun f => ?_) { s with dynResults := [] } hd
    intro s hd
    simp only
    split
    · exact ⟨rfl, hd⟩
    · refine CommDry.andThen (times_tryOffset hk _) (fun f => ?_) s hd
      intro s hd
      simp only
      split
      · exact ⟨rfl, hd⟩
      · exact CommDry.andThen (times_dynLoop hk _ _ _ _ _ _) (fun _ s hd => ⟨rfl, hd⟩) s hd

end PySlope
