import Verif.Props.RoundingSearch
import Verif.Spec.RoundingDynamic
import Verif.Lemmas.Dynamic
import Verif.Lemmas.ScaleCalls

/-! # Dynamic analysis with rounding errors -/

namespace PySlope
open Filter Topology Lit

section dyn
variable {K : Type} [PyNum K]

/-- A slope with other results of a dynamic analysis. -/
def Slope.withDyn (d : List (K × K)) (s : Slope K) : Slope K := { s with dynResults := d }

/-- A call that does not look at the results of a dynamic analysis. -/
def Blind (d : List (K × K)) {α : Type} (f : Slope K → Out K α) : Prop :=
  ∀ s : Slope K, f (s.withDyn d) = ((f s).1.withDyn d, (f s).2)

variable {d : List (K × K)}

theorem Blind.done {α : Type} {x : Except PyErr α} : Blind d fun s : Slope K => (s.resetResults, x) := fun _ => rfl

theorem Blind.andThen {α β : Type} {f : Slope K → Out K α} {g : Slope K → α → Out K β} (hf : Blind d f)
    (hg : ∀ a, Blind d fun s => g s a) : Blind d fun s => (f s).andThen g := by
  intro s
  simp only [hf s]
  unfold Out.andThen
  cases h : (f s).2 with
  | error e => rfl
  | ok a => exact hg a _

theorem blind_setAnalysisLimits (a b c e : PyVal K) : Blind d (·.setAnalysisLimits a b c e) := by
  intro s
  simp only
  obtain ⟨t, ht⟩ : ∃ t, t = s.withDyn d := ⟨_, rfl⟩
  have k : limitsFor (fun l1 l2 l3 l4 => { t with lim1 := l1, lim2 := l2, lim3 := l3, lim4 := l4 })
      t.lim1 t.lim2 t.lim3 t.lim4 t.topX t.extL a b c e =
      (limitsFor (fun l1 l2 l3 l4 => { s with lim1 := l1, lim2 := l2, lim3 := l3, lim4 := l4 })
      s.lim1 s.lim2 s.lim3 s.lim4 s.topX s.extL a b c e).map (Slope.withDyn d) := by
    unfold limitsFor
    rw [← limitsGo_map (Slope.withDyn d), ht]
    rfl
  rw [← ht, setAnalysisLimits_go, setAnalysisLimits_go s, k, ht]
  generalize limitsFor (K := K) _ _ _ _ _ _ _ _ _ _ _ = g
  cases g <;> rfl

theorem blind_removeAnalysisLimits : Blind d (Slope.removeAnalysisLimits (K := K)) := by
  intro s
  exact Blind.andThen (blind_setAnalysisLimits (.num (@OfNat.ofNat K 0 (Lit.natLit 0))) (.num s.extL) (.num s.topX)
    (.num s.topX)) (fun _ => Blind.done) s

theorem blind_applyBoundary (h l : K) : Blind d (·.applyBoundary h l) := by
  intro s
  unfold Slope.applyBoundary
  simp only
  refine Eq.trans ?_ (Blind.andThen blind_removeAnalysisLimits (fun _ => Blind.done) _)
  rfl

theorem blind_setExternalBoundary (a b c : PyVal K) : Blind d (·.setExternalBoundary a b c) := by
  intro s
  unfold Slope.setExternalBoundary
  simp only
  cases boundaryInputs a b c with
  | error e => rfl
  | ok x => exact blind_applyBoundary _ _ s

theorem blind_updateBoundaryOptions (a b : PyVal K) : Blind d (·.updateBoundaryOptions a b) := by
  unfold Slope.updateBoundaryOptions
  refine Blind.andThen ?_ fun _ => Blind.andThen ?_ fun _ => Blind.andThen ?_ fun _ => Blind.done
  · intro s
    simp only
    split
    · split <;> rfl
    · rfl
  · intro s
    simp only
    split
    · split <;> rfl
    · rfl
  · intro s
    simp only
    have e : (s.withDyn d).extBoundary = s.extBoundary := rfl
    rw [e]
    cases s.extBoundary with
    | none => rfl
    | some _ => exact blind_setExternalBoundary _ _ _ s

theorem blind_addUdl (u : UdlArg K) : Blind d (·.addUdl u) := by
  intro s
  cases u with
  | none => rfl
  | some u =>
    simp only [Slope.addUdl]
    have h3 : ({ s.withDyn d with udls := (s.withDyn d).udls ++ [placeUdl (s.withDyn d).topX u] } : Slope K) =
        ({ s with udls := s.udls ++ [placeUdl s.topX u] } : Slope K).withDyn d := rfl
    by_cases h : (@OfNat.ofNat K 0 (Lit.natLit 0)) < u.magnitude
    · rw [if_pos h, if_pos h]
      by_cases h4 : s.minExtL < u.minLength
      · rw [if_pos h4, if_pos (show (Slope.withDyn d _).minExtL < _ from h4), h3]
        exact blind_updateBoundaryOptions _ _ _
      · rw [if_neg h4, if_neg (show ¬ (Slope.withDyn d _).minExtL < _ from h4), h3]
    · rw [if_neg h, if_neg h]

theorem blind_addLl (u : Option (LineLoad K)) : Blind d (·.addLl u) := by
  intro s
  cases u with
  | none => rfl
  | some u =>
    simp only [Slope.addLl]
    have h3 : ({ s.withDyn d with lls := (s.withDyn d).lls ++ [placeLl (s.withDyn d).topX u] } : Slope K) =
        ({ s with lls := s.lls ++ [placeLl s.topX u] } : Slope K).withDyn d := rfl
    by_cases h : (@OfNat.ofNat K 0 (Lit.natLit 0)) < u.magnitude
    · rw [if_pos h, if_pos h]
      by_cases h4 : s.minExtL < u.offset * (@OfNat.ofNat K 3 (Lit.natLit 3))
      · rw [if_pos h4, if_pos (show (Slope.withDyn d _).minExtL < _ from h4), h3]
        exact blind_updateBoundaryOptions _ _ _
      · rw [if_neg h4, if_neg (show ¬ (Slope.withDyn d _).minExtL < _ from h4), h3]
    · rw [if_neg h, if_neg h]

theorem Blind.forEach {α : Type} {f : Slope K → α → Out K Unit} (h : ∀ a, Blind d (f · a)) :
    ∀ l : List α, Blind d (Slope.forEach f l)
  | [] => fun _ => rfl
  | a :: l => Blind.andThen (h a) fun _ => Blind.forEach h l

theorem blind_setUdls (us : List (UdlArg K)) : Blind d (·.setUdls us) :=
  Blind.andThen (Blind.forEach blind_addUdl us) fun _ _ => rfl

theorem blind_setLls (us : List (Option (LineLoad K))) : Blind d (·.setLls us) :=
  Blind.andThen (Blind.forEach blind_addLl us) fun _ _ => rfl

theorem offsetCalls_blind {s : Slope K} {o : K} {c : Op K} (h : c ∈ offsetCalls s o) : Blind d (Op.run · c) := by
  unfold offsetCalls at h
  simp only [List.mem_cons, List.mem_append, List.mem_map] at h
  rcases h with rfl | rfl | ⟨p, -, rfl⟩ | ⟨p, -, rfl⟩
  · exact fun _ => rfl
  · exact fun _ => rfl
  · exact blind_setUdls _
  · exact blind_setLls _

theorem runAll_withDyn : ∀ (os : List (Op K)), (∀ c ∈ os, Blind d (Op.run · c)) → ∀ s : Slope K,
    runAll os (s.withDyn d) = (runAll os s).withDyn d
  | [], _, _ => rfl
  | o :: os, h, s => by
    unfold runAll
    have := h o List.mem_cons_self s
    simp only at this
    rw [this]
    exact runAll_withDyn os (fun c hc => h c (List.mem_cons_of_mem _ hc)) _

theorem blind_analyseSlope (m : Option K) : Blind d (·.analyseSlope m) := by
  intro s
  have same : SameSetup s (s.withDyn d) := by constructor <;> rfl
  simp only
  unfold Slope.analyseSlope
  simp only [same.fillFos, same.entryExitPlanes]
  have e : (s.withDyn d).individual = s.individual := rfl
  rw [e]
  cases s.individual with
  | cons p ps =>
    simp only
    cases (s.fillFos (p :: ps)).2 <;> rfl
  | nil =>
    simp only
    cases s.entryExitPlanes with
    | error e => rfl
    | ok ps =>
      simp only
      cases (s.fillFos ps).2 <;> rfl

end dyn

section run
variable {K : Type} [PyNum K]

/-- Moving the loads is a list of calls. -/
theorem forEach_run {α : Type} {f : Slope K → α → Out K Unit} {g : α → Op K} (h : ∀ s a, f s a = (g a).run s) (rest : List (Op K)) :
    ∀ (l : List α) (s : Slope K), NoRaise (l.map g ++ rest) s →
      Slope.forEach f l s = (runAll (l.map g) s, .ok ()) ∧ NoRaise rest (runAll (l.map g) s)
  | [], _, n => ⟨rfl, n⟩
  | a :: l, s, n => by
    obtain ⟨n1, n2⟩ := n
    unfold Slope.forEach
    rw [h]
    unfold Out.andThen
    rw [n1]
    exact forEach_run h rest l _ n2

theorem noRaise_of {os : List (Op ℝ)} : ∀ {s : Slope ℝ}, NoTiesRun os s → NoRaise os s := by
  induction os with
  | nil => exact fun _ => trivial
  | cons o os ih => exact fun h => ⟨h.2.1, ih h.2.2⟩

theorem andThen_goes {α β : Type} (s : Slope K) (a : α) (f : Slope K → α → Out K β) : Out.andThen (s, .ok a) f = f s a := rfl

/-- The state after all loads are removed. -/
theorem cleared_eq (s : Slope K) : ((s.removeUdls [] true).1.removeLls [] true).1 =
    { s with udls := [], udlMax := .num 0, lls := [], search := [] } := rfl

/-- Moving the loads, if none of the calls raises. -/
theorem setDynamicOffset_run {s : Slope K} {o : K} (h : NoRaise (offsetCalls s o) s) :
    s.setDynamicOffset o = (runAll (offsetCalls s o) s, .ok ()) := by
  obtain ⟨-, -, h⟩ := h
  have e1 := forEach_run (f := fun s (p : PUdl K) =>
    s.setUdls [some (if p.load.dynamic then { p.load with offset := o } else p.load)])
    (g := fun p : PUdl K => Op.setUdls [some (p.load.movedTo o)]) (fun _ _ => rfl)
    (s.lls.map fun p => Op.setLls [some (p.load.movedTo o)]) s.udls _ h
  have e2 := forEach_run (f := fun s (p : PLl K) =>
    s.setLls [some (if p.load.dynamic then { p.load with offset := o } else p.load)])
    (g := fun p : PLl K => Op.setLls [some (p.load.movedTo o)]) (fun _ _ => rfl) [] s.lls _ (by
      rw [List.append_nil]; exact e1.2)
  have e : runAll (offsetCalls s o) s = runAll (s.lls.map fun p => Op.setLls [some (p.load.movedTo o)])
      (runAll (s.udls.map fun p => Op.setUdls [some (p.load.movedTo o)]) ((s.removeUdls [] true).1.removeLls [] true).1) := by
    unfold offsetCalls
    exact runAll_append _ _ _
  rw [e]
  unfold Slope.setDynamicOffset
  simp only
  rw [show s.removeUdls [] true = ((s.removeUdls [] true).1, .ok ()) from rfl, andThen_goes,
    show (s.removeUdls [] true).1.removeLls [] true = (((s.removeUdls [] true).1.removeLls [] true).1, .ok ()) from rfl, andThen_goes]
  refine Eq.trans (congrArg (fun x => Out.andThen x _) e1.1) ?_
  exact e2.1

theorem noRaise_withDyn {d : List (K × K)} : ∀ (os : List (Op K)), (∀ c ∈ os, Blind d (Op.run · c)) → ∀ s : Slope K,
    NoRaise os s → NoRaise os (s.withDyn d)
  | [], _, _, _ => trivial
  | o :: os, h, s, n => by
    have := h o List.mem_cons_self s
    simp only at this
    refine ⟨by rw [this]; exact n.1, ?_⟩
    rw [this]
    exact noRaise_withDyn os (fun c hc => h c (List.mem_cons_of_mem _ hc)) _ n.2

/-- Moving the loads keeps the results. -/
theorem setDynamicOffset_dyn (s : Slope K) (o : K) : (s.setDynamicOffset o).1.dynResults = s.dynResults := by
  have b : Blind s.dynResults (fun t : Slope K => (((t.removeUdls [] true).andThen fun t _ =>
      (t.removeLls [] true).andThen fun t _ =>
      (Slope.forEach (fun s (p : PUdl K) => s.setUdls [some (p.load.movedTo o)]) s.udls t).andThen fun t _ =>
      Slope.forEach (fun s (p : PLl K) => s.setLls [some (p.load.movedTo o)]) s.lls t) : Out K Unit)) :=
    Blind.andThen (fun _ => rfl) fun _ => Blind.andThen (fun _ => rfl) fun _ =>
      Blind.andThen (Blind.forEach (fun _ => blind_setUdls _) _) fun _ => Blind.forEach (fun _ => blind_setLls _) _
  have e := congrArg (fun x : Out K Unit => x.1.dynResults) (b s)
  exact e

theorem dictSet_fresh {k v : K} : ∀ {d : List (K × K)}, (∀ e ∈ d, pyEq e.1 k = false) → dictSet d k v = d ++ [(k, v)]
  | [], _ => rfl
  | (k', v') :: d, h => by
    unfold dictSet
    rw [if_neg (by rw [h _ List.mem_cons_self]; exact Bool.false_ne_true), dictSet_fresh fun e he => h e (List.mem_cons_of_mem _ he)]
    rfl

theorem dictGet_old {d x : List (K × K)} {k v : K} (h : dictGet d k = .ok v) : dictGet (d ++ x) k = .ok v := by
  unfold dictGet at h ⊢
  rw [List.find?_append]
  cases hf : d.find? (fun e => pyEq e.1 k) with
  | none => rw [hf] at h; cases h
  | some e => rw [hf] at h; exact h

theorem dictGet_new {d : List (K × K)} {k v : K} (h : ∀ e ∈ d, pyEq e.1 k = false) (r : pyEq k k = true) :
    dictGet (d ++ [(k, v)]) k = .ok v := by
  unfold dictGet
  rw [List.find?_append, List.find?_eq_none.mpr (fun e he => by rw [h e he]; exact Bool.false_ne_true)]
  simp [r]

theorem roundInt_of {y : K} {z : ℤ} (hf : PyNum.floor y = z ∨ PyNum.floor y = z - 1) (h1 : y - ofInt z < 0.5)
    (h2 : (0.5 : K) < y - ofInt (z - 1)) (h3 : ¬ y - ofInt (z - 1) < 0.5) : roundInt y = z := by
  unfold roundInt
  rcases hf with hf | hf
  · simp only [hf]
    rw [if_pos h1]
  · simp only [hf]
    rw [if_neg h3, if_pos h2]
    omega

theorem floor_near {a : ℝ} {z : ℤ} (h : |a - z| < 1 / 2) : ⌊a⌋ = z ∨ ⌊a⌋ = z - 1 := by
  rw [abs_lt] at h
  rcases le_or_gt (z : ℝ) a with c | c
  · exact .inl (Int.floor_eq_iff.mpr ⟨c, by linarith⟩)
  · exact .inr (Int.floor_eq_iff.mpr ⟨by push_cast; linarith, by push_cast; linarith⟩)

theorem pyRound_exact {a : ℝ} {z : ℤ} (h : |a * 1000 - z| < 1 / 2) : pyRound a 3 = z / 1000 := by
  have k : roundInt (a * 1000) = z := by
    refine roundInt_of (floor_near h) ?_ ?_ ?_ <;> rw [abs_lt] at h <;> simp only [ofInt_real] <;> push_cast <;> norm_num <;> linarith
  unfold pyRound
  norm_num [k]

/-- The next offset tried. -/
theorem dynMid_of {d : List (K × K)} {crit left right lf rf : K} (hl : dictGet d left = .ok lf) (hr : dictGet d right = .ok rf)
    (h1 : pyEq (left - right) 0 = false) (h2 : pyEq ((lf - rf) / (left - right)) 0 = false) :
    (do
      let lf ← dictGet d left
      let rf ← dictGet d right
      let m ← pyDiv (lf - rf) (left - right)
      if (false : Bool) then throw .typeError
      let q ← pyDiv (crit - rf) m
      pure (right + q) : Except PyErr K) = .ok (right + (crit - rf) / ((lf - rf) / (left - right))) := by
  rw [hl, hr]
  simp only [Bind.bind, Except.bind, Pure.pure, Except.pure, pyDiv, h1, h2, Bool.false_eq_true, if_false]

/-- The test that ends the loop. -/
def dynStops (crit prev f : K) : Bool :=
  !(pyEq prev f) && (decide (pyAbs (prev - f) ≤ 0.01) || decide (pyAbs (f - crit) ≤ 0.01)) && decide (crit ≤ pyRound f 3)

/-- One turn of the loop that does not raise. -/
theorem dynLoop_turn {k : ℕ} {s s' : Slope K} {crit left right prev lf rf f : K} (hl : dictGet s.dynResults left = .ok lf)
    (hr : dictGet s.dynResults right = .ok rf) (h1 : pyEq (left - right) 0 = false)
    (h2 : pyEq ((lf - rf) / (left - right)) 0 = false)
    (ht : s.tryOffset (right + (crit - rf) / ((lf - rf) / (left - right))) = (s', .ok f)) :
    s.dynLoop crit false (k + 1) left right prev =
      if dynStops crit prev f then (s', .ok ())
      else if f < crit then s'.dynLoop crit false k left (right + (crit - rf) / ((lf - rf) / (left - right))) f
      else s'.dynLoop crit false k (right + (crit - rf) / ((lf - rf) / (left - right))) right f := by
  rw [Slope.dynLoop]
  have := dynMid_of (crit := crit) hl hr h1 h2
  simp only [this, ht]
  rfl

end run

namespace Better
variable {K : ℕ → Type} [∀ n, PyNum (K n)] {val : ∀ n, K n → ℝ} {e : ℕ → ℝ} (B : Better val e)
include B

theorem setUdl {S : ∀ n, Slope (K n)} {s : Slope ℝ} (b : LimSlope val S s) {f : ∀ n, Udl (K n)} {u : Udl ℝ} (h : LimUdl val f u)
    (nt : NoTiesCall s (.setUdls [some u])) : Goes val (fun n => (S n).setUdls [some (f n)]) (s.setUdls [some u]) := by
  obtain ⟨n1, n2⟩ := nt
  have G := (B.addUdl b h (n1 u List.mem_cons_self).1 (by
    have := (List.nodup_cons.mp n2).1
    simpa using this)).1
  have G' : Goes val (fun n => Slope.forEach Slope.addUdl [some (f n)] (S n)) (Slope.forEach Slope.addUdl [some u] s) :=
    G.andThen (f := fun n s _ => (s, .ok ())) (g := fun s _ => (s, .ok ())) fun k => k.same
  unfold Slope.setUdls
  refine G'.andThen (f := fun n (s : Slope (K n)) _ => (({ s.updateUdlCoordinates with
    udlMax := maxMagnitude s.updateUdlCoordinates.udls s.updateUdlCoordinates.udlMax } : Slope (K n)).resetResults, .ok ()))
    (g := fun (s : Slope ℝ) _ => (({ s.updateUdlCoordinates with
    udlMax := maxMagnitude s.updateUdlCoordinates.udls s.updateUdlCoordinates.udlMax } : Slope ℝ).resetResults, .ok ())) fun k => ?_
  refine ⟨?_, .of_forall fun n => rfl, rfl⟩
  exact { k with udls := k.udls.map fun x y r => B.placeUdl r.load k.topX }

theorem setLl {S : ∀ n, Slope (K n)} {s : Slope ℝ} (b : LimSlope val S s) {f : ∀ n, LineLoad (K n)} {u : LineLoad ℝ}
    (h : LimLl val f u) (nt : NoTiesCall s (.setLls [some u])) :
    Goes val (fun n => (S n).setLls [some (f n)]) (s.setLls [some u]) := by
  obtain ⟨n1, n2⟩ := nt
  have G := (B.addLl b h (n1 u List.mem_cons_self) (by
    have := (List.nodup_cons.mp n2).1
    simpa using this)).1
  have G' : Goes val (fun n => Slope.forEach Slope.addLl [some (f n)] (S n)) (Slope.forEach Slope.addLl [some u] s) :=
    G.andThen (f := fun n s _ => (s, .ok ())) (g := fun s _ => (s, .ok ())) fun k => k.same
  unfold Slope.setLls
  refine G'.andThen (f := fun n (s : Slope (K n)) _ => (s.updateLlCoordinates.resetResults, .ok ()))
    (g := fun (s : Slope ℝ) _ => (s.updateLlCoordinates.resetResults, .ok ())) fun k => ?_
  refine ⟨?_, .of_forall fun n => rfl, rfl⟩
  exact { k with lls := k.lls.map fun x y r => B.placeLl r.load k.topX }

omit B in
/-- A loop over calls without coincidences. -/
theorem loop {X : ℕ → Type} {Y : Type} {f : ∀ n, Slope (K n) → X n → Out (K n) Unit} {c : Y → Op ℝ}
    (L : List ((∀ n, X n) × Y)) (rest : List (Op ℝ))
    (step : ∀ p ∈ L, ∀ (S : ∀ n, Slope (K n)) (s : Slope ℝ), LimSlope val S s → NoTiesCall s (c p.2) →
      Goes val (fun n => f n (S n) (p.1 n)) ((c p.2).run s)) :
    ∀ (S : ∀ n, Slope (K n)) (s : Slope ℝ), LimSlope val S s → NoTiesRun (L.map (fun p => c p.2) ++ rest) s →
      Goes val (fun n => Slope.forEach (f n) (L.map fun p => p.1 n) (S n)) (PySlope.runAll (L.map fun p => c p.2) s, .ok ()) ∧
        NoTiesRun rest (PySlope.runAll (L.map fun p => c p.2) s) := by
  induction L with
  | nil => intro S s b n; exact ⟨b.same, n⟩
  | cons p L ih =>
    intro S s b n
    obtain ⟨n1, n2, n3⟩ := n
    have G := step p List.mem_cons_self S s b n1
    obtain ⟨i1, i2⟩ := ih (fun q hq => step q (List.mem_cons_of_mem _ hq)) _ _ G.1 n3
    refine ⟨?_, i2⟩
    refine i1.congr ?_
    filter_upwards [G.2.1] with n hn
    rw [List.map_cons]
    change Out.andThen (f n (S n) (p.1 n)) _ = _
    unfold Out.andThen
    rw [hn]

omit B in
/-- The states after all loads are removed. -/
theorem cleared {S : ∀ n, Slope (K n)} {s : Slope ℝ} (b : LimSlope val S s) :
    LimSlope val (fun n => (((S n).removeUdls [] true).1.removeLls [] true).1) ((s.removeUdls [] true).1.removeLls [] true).1 :=
  by
  simp only [cleared_eq]
  exact { b with udls := LimList.nil, lls := LimList.nil }

omit B in
theorem movedUdl {f : ∀ n, Udl (K n)} {u : Udl ℝ} (h : LimUdl val f u) {o' : ∀ n, K n} {o : ℝ} (ho : Lim val o' o) :
    LimUdl val (fun n => (f n).movedTo (o' n)) (u.movedTo o) := by
  have e : ∀ᶠ n in atTop, (f n).movedTo (o' n) = if u.dynamic then { f n with offset := o' n } else f n := by
    filter_upwards [h.dynamic] with n hn
    unfold Udl.movedTo
    cases hd : u.dynamic <;> simp [hn, hd]
  unfold Udl.movedTo at e ⊢
  cases hd : u.dynamic with
  | false =>
    simp only [hd, Bool.false_eq_true, if_false] at e ⊢
    exact ⟨h.magnitude.congr (e.mono fun n k => by rw [k]), h.offset.congr (e.mono fun n k => by rw [k]),
      h.length.congr (e.mono fun n k => by rw [k]), h.pos, (e.and h.dynamic).mono fun n k => by rw [k.1, k.2]⟩
  | true =>
    simp only [hd, if_true] at e ⊢
    exact ⟨h.magnitude.congr (e.mono fun n k => by rw [k]), ho.congr (e.mono fun n k => by rw [k]),
      h.length.congr (e.mono fun n k => by rw [k]), h.pos, (e.and h.dynamic).mono fun n k => by rw [k.1]; exact k.2.trans hd⟩

omit B in
theorem movedLl {f : ∀ n, LineLoad (K n)} {u : LineLoad ℝ} (h : LimLl val f u) {o' : ∀ n, K n} {o : ℝ} (ho : Lim val o' o) :
    LimLl val (fun n => (f n).movedTo (o' n)) (u.movedTo o) := by
  have e : ∀ᶠ n in atTop, (f n).movedTo (o' n) = if u.dynamic then { f n with offset := o' n } else f n := by
    filter_upwards [h.dynamic] with n hn
    unfold LineLoad.movedTo
    cases hd : u.dynamic <;> simp [hn, hd]
  unfold LineLoad.movedTo at e ⊢
  cases hd : u.dynamic with
  | false =>
    simp only [hd, Bool.false_eq_true, if_false] at e ⊢
    exact ⟨h.magnitude.congr (e.mono fun n k => by rw [k]), h.offset.congr (e.mono fun n k => by rw [k]),
      (e.and h.dynamic).mono fun n k => by rw [k.1, k.2]⟩
  | true =>
    simp only [hd, if_true] at e ⊢
    exact ⟨h.magnitude.congr (e.mono fun n k => by rw [k]), ho.congr (e.mono fun n k => by rw [k]),
      (e.and h.dynamic).mono fun n k => by rw [k.1]; exact k.2.trans hd⟩

/-- Moving the loads. -/
theorem setDynamicOffset {S : ∀ n, Slope (K n)} {s : Slope ℝ} (b : LimSlope val S s) {o' : ∀ n, K n} {o : ℝ} (ho : Lim val o' o)
    (nt : NoTiesRun (offsetCalls s o) s) :
    Goes val (fun n => (S n).setDynamicOffset (o' n)) (PySlope.runAll (offsetCalls s o) s, .ok ()) := by
  have e : PySlope.runAll (offsetCalls s o) s = PySlope.runAll (s.lls.map fun p => Op.setLls [some (p.load.movedTo o)])
      (PySlope.runAll (s.udls.map fun p => Op.setUdls [some (p.load.movedTo o)])
        ((s.removeUdls [] true).1.removeLls [] true).1) := by
    unfold offsetCalls
    exact runAll_append _ _ _
  rw [e]
  have nt' : NoTiesRun (s.udls.map (fun p => Op.setUdls [some (p.load.movedTo o)]) ++
    s.lls.map (fun p => Op.setLls [some (p.load.movedTo o)])) ((s.removeUdls [] true).1.removeLls [] true).1 := nt.2.2.2.2
  have b2 := cleared b
  generalize ht : ((s.removeUdls [] true).1.removeLls [] true).1 = t at nt' b2
  obtain ⟨L, l1, l2, l3⟩ := b.udls
  obtain ⟨M, m1, m2, m3⟩ := b.lls
  rw [l2, List.map_map, m2, List.map_map] at nt'
  rw [l2, m2, List.map_map, List.map_map]
  obtain ⟨g1, n1⟩ := loop (val := val) (c := fun p : PUdl ℝ => Op.setUdls [some (p.load.movedTo o)])
    (f := fun n s (p : PUdl (K n)) => s.setUdls [some (p.load.movedTo (o' n))]) L _
    (fun p hp S s b nc => B.setUdl b (movedUdl (l3 p hp).load ho) nc) _ _ b2 nt'
  obtain ⟨g2, -⟩ := loop (val := val) (c := fun p : PLl ℝ => Op.setLls [some (p.load.movedTo o)])
    (f := fun n s (p : PLl (K n)) => s.setLls [some (p.load.movedTo (o' n))]) M []
    (fun p hp S s b nc => B.setLl b (movedLl (m3 p hp).load ho) nc) _ _ g1.1 (by rw [List.append_nil]; exact n1)
  refine g2.congr ?_
  filter_upwards [g1.2.1, l1, m1] with n k1 k2 k3
  unfold Slope.setDynamicOffset
  simp only
  rw [show (S n).removeUdls [] true = (((S n).removeUdls [] true).1, .ok ()) from rfl, andThen_goes,
    show ((S n).removeUdls [] true).1.removeLls [] true = ((((S n).removeUdls [] true).1.removeLls [] true).1, .ok ()) from rfl,
    andThen_goes, k2, k3]
  change Out.andThen (Slope.forEach (fun s (p : PUdl (K n)) => s.setUdls [some (p.load.movedTo (o' n))]) (L.map fun p => p.1 n) _)
    (fun s _ => Slope.forEach (fun s (p : PLl (K n)) => s.setLls [some (p.load.movedTo (o' n))]) (M.map fun p => p.1 n) s) = _
  unfold Out.andThen
  rw [k1]

omit B in
theorem analyseSlope_ok {K : Type} [PyNum K] {t : Slope K} {m : Option K} (h : (t.analyseSlope m).2 = .ok ()) :
    ∃ x, (t.analyseSlope m).1 = { t with search := x, individual := t.individual.map (withFos t) } := by
  revert h
  unfold Slope.analyseSlope
  cases hi : t.individual with
  | cons p ps =>
    simp only
    rcases fillFos_cases t (p :: ps) with ⟨h1, h2⟩ | ⟨pre, p', post, e, h0, h2, h3, h4⟩
    · rw [h1]
      exact fun _ => ⟨_, rfl⟩
    · rw [h4]
      intro h; cases h
  | nil =>
    simp only
    cases t.entryExitPlanes with
    | error e => intro h; cases h
    | ok ps =>
      simp only
      rcases fillFos_cases t ps with ⟨h1, h2⟩ | ⟨pre, p', post, e, h0, h2, h3, h4⟩
      · rw [h1]
        exact fun _ => ⟨_, rfl⟩
      · rw [h4]
        intro h; cases h

/-- What is reported goes to what is reported exactly. -/
theorem analysis {S : ∀ n, Slope (K n)} {s : Slope ℝ} (b : LimSlope val S s) {t : Slope ℝ} {d : List (ℝ × ℝ)} (rs : Reachable t)
    (hs : s = t.withDyn d) (na : NoTiesAnalysis s) :
    ∃ F, (s.analyseSlope none).2 = .ok () ∧ (s.analyseSlope none).1.getMinFos = .ok (some F) ∧
      (∀ δ > 0, ∀ᶠ n in atTop, ((S n).analyseSlope none).2 = .ok () ∧
        ∃ F', ((S n).analyseSlope none).1.getMinFos = .ok (some F') ∧ |val n F' - F| ≤ δ) := by
  obtain ⟨ps, hne, hps, hv⟩ := na
  have hsame : SameSetup t s := by subst hs; constructor <;> rfl
  have hgeo : Geo s := by 
    have g := rs.wf.geo
    subst hs
    exact ⟨g.1, g.2, g.3, g.4, g.5, g.6, g.7, g.8, g.9, g.10, g.11, g.12⟩
  classical
  choose! f hf using fun p hp => (hv p hp).1
  have same : SameSetup s { s with individual := ps } := by constructor <;> rfl
  have key : ∀ δ > 0, ∃ F, (({ s with individual := ps } : Slope ℝ).analyseSlope none).1.getMinFos = .ok (some F) ∧
    ∃ ε > 0, ∀ (K : Type) [PyNum K] (val : K → ℝ), Accurate ε val → ∀ t : Slope K, Close ε val { s with individual := ps } t →
      List.Forall₂ (fun p p' => |val p'.cx - p.cx| ≤ ε ∧ |val p'.cy - p.cy| ≤ ε ∧ |val p'.radius - p.radius| ≤ ε)
        ps t.individual →
      (t.analyseSlope none).2 = .ok () ∧ ∃ F', (t.analyseSlope none).1.getMinFos = .ok (some F') ∧ |val F' - F| ≤ δ := by
    intro δ hδ
    refine report_close { s with individual := ps } hne f (fun p hp => by rw [same.bishop]; exact hf p hp) δ fun p hp => ?_
    have ne := (hv p hp).2.1
    have nb := (hv p hp).2.2
    have hfp := hf p hp
    rw [hsame.bishop] at hfp
    subst hs
    obtain ⟨ε, hε, k⟩ := C110_circle t rs p.cx p.cy p.radius (f p) hfp
      ⟨ne.1, ne.2, ne.3, ne.4, ne.5, ne.6, ne.7, ne.8, ne.9⟩ (fun l q h => by
        have nb := nb l q h
        exact ⟨⟨nb.1.1, nb.1.2, nb.1.3, nb.1.4, nb.1.5⟩, nb.2, nb.3, nb.4⟩) δ hδ
    exact ⟨ε, hε, fun K _ val acc t c => k K val acc t
        ⟨c.1, c.2, c.3, c.4, c.5, c.6, c.7, c.8, c.9, c.10, c.11, c.12, c.13, c.14, c.15⟩⟩
  have real : (s.analyseSlope none).2 = (({ s with individual := ps } : Slope ℝ).analyseSlope none).2 ∧
      (s.analyseSlope none).1.getMinFos = (({ s with individual := ps } : Slope ℝ).analyseSlope none).1.getMinFos := by
    rcases hps with ⟨-, rfl⟩ | ⟨h1, h2, -⟩
    · exact ⟨rfl, rfl⟩
    · exact search_report h1 h2 hne
  obtain ⟨o1, p0, m0, r0, l0⟩ := report_least (val := id) (fun _ _ => Iff.rfl) (t := { s with individual := ps }) hne f
    (fun p hp => by rw [same.bishop]; exact hf p hp)
  refine ⟨f p0, real.1.trans o1, real.2.trans r0, ?_⟩
  intro δ hδ
  obtain ⟨F, hF, ε0, hε0, key⟩ := key δ hδ
  rw [r0] at hF
  injection hF with hF
  injection hF with hF
  subst hF
  obtain ⟨P, hP, mach⟩ : ∃ P : ∀ n, List (Plane (K n)), LimList (LimPlane val) P ps ∧
      ∀ᶠ n in atTop, P n ≠ [] → (((S n).analyseSlope none).2 = (({ S n with individual := P n } : Slope (K n)).analyseSlope none).2 ∧
      ((S n).analyseSlope none).1.getMinFos = (({ S n with individual := P n } : Slope (K n)).analyseSlope none).1.getMinFos) := by
    rcases hps with ⟨-, rfl⟩ | ⟨h1, h2, h3⟩
    · exact ⟨fun n => (S n).individual, b.individual, .of_forall fun n _ => ⟨rfl, rfl⟩⟩
    · obtain ⟨P, r1, r2⟩ := B.search hgeo b h3 h2
      refine ⟨P, r1, ?_⟩
      have m4 := b.individual.near (P := fun n (_ : Plane ℝ) (_ : Plane (K n)) => True) (fun _ _ _ => .of_forall fun _ => trivial)
      filter_upwards [r2, m4] with n w1 w2 w3
      rw [h1, List.forall₂_nil_left_iff] at w2
      exact search_report w2 w1 w3
  have m3 := hP.near (P := fun n p p' => |val n p'.cx - p.cx| ≤ ε0 ∧ |val n p'.cy - p.cy| ≤ ε0 ∧
    |val n p'.radius - p.radius| ≤ ε0) (fun x y r => by
      filter_upwards [r.cx.near hε0, r.cy.near hε0, r.radius.near hε0] with n a b c
      exact ⟨a, b, c⟩)
  filter_upwards [b.close hε0, m3, B.zero.eventually (gt_mem_nhds hε0), mach] with n w3 w4 w5 w6
  have hne' : P n ≠ [] := by
    intro e
    rw [e, List.forall₂_nil_right_iff] at w4
    exact hne w4
  obtain ⟨v1, F', v2, v3⟩ := key (K n) (val n) ((B.acc n).mono w5.le) { S n with individual := P n }
    ⟨w3.1, w3.2, w3.3, w3.4, w3.5, w3.6, w3.7, w3.8, w3.9, w3.10, w3.11, w3.12, w3.13, w3.14, w3.15⟩ w4
  obtain ⟨x1, x2⟩ := w6 hne'
  exact ⟨x1.trans v1, F', x2.trans v2, v3⟩

/-- One offset. -/
theorem tryOffset {S : ∀ n, Slope (K n)} {s : Slope ℝ} (b : LimSlope val S s) {t : Slope ℝ} {d : List (ℝ × ℝ)} (rs : Reachable t)
    (hs : s = t.withDyn d) {o' : ∀ n, K n} {o : ℝ} (ho : Lim val o' o) (fresh : ∀ e ∈ s.dynResults, e.1 ≠ o) (nt : NoTiesOffset s o) :
    ∃ s' F, AfterOffset s o s' F ∧ s.tryOffset o = (s', .ok F) ∧ (∃ t' d', Reachable t' ∧ s' = t'.withDyn d') ∧
      ∃ (S' : ∀ n, Slope (K n)) (F' : ∀ n, K n), LimSlope val S' s' ∧ Lim val F' F ∧
        ∀ᶠ n in atTop, (S n).tryOffset (o' n) = (S' n, .ok (F' n)) ∧
          (S' n).dynResults = (S n).dynResults ++ [(o' n, F' n)] ∧ ∀ e ∈ (S n).dynResults, pyEq e.1 (o' n) = false := by
  obtain ⟨valid, run, na⟩ := nt
  have G := B.setDynamicOffset b ho run
  have ec : offsetCalls s o = offsetCalls t o := by rw [hs]; rfl
  have eu : PySlope.runAll (offsetCalls s o) s = (PySlope.runAll (offsetCalls t o) t).withDyn d := by
    rw [ec, hs]
    exact runAll_withDyn _ (fun c hc => offsetCalls_blind hc) t
  have ru : Reachable (PySlope.runAll (offsetCalls t o) t) := reachable_runAll rs (by rw [← ec]; exact valid)
  obtain ⟨F, a1, a2, a3⟩ := B.analysis G.1 ru eu na
  have ed : d = s.dynResults := by rw [hs]; rfl
  generalize hu : PySlope.runAll (offsetCalls s o) s = u at *
  have hG : LimSlope val (fun n => ((S n).setDynamicOffset (o' n)).1) u := G.1
  obtain ⟨x, hx⟩ := analyseSlope_ok a1
  have udyn : u.dynResults = s.dynResults := by rw [eu, ed]; rfl
  have hdf : ∀ e ∈ s.dynResults, pyEq e.1 o = false := fun e he => by rw [pyEq_real]; exact decide_eq_false (fresh e he)
  have real : s.tryOffset o = ({ (u.analyseSlope none).1 with dynResults := s.dynResults ++ [(o, F)] }, .ok F) := by
    unfold Slope.tryOffset
    rw [setDynamicOffset_run (noRaise_of run), hu, andThen_goes]
    rw [show u.analyseSlope none = ((u.analyseSlope none).1, .ok ()) from Prod.ext rfl a1, andThen_goes]
    simp only [a2]
    have : (u.analyseSlope none).1.dynResults = s.dynResults := by rw [hx]; exact udyn
    rw [this, dictSet_fresh hdf]
  refine ⟨_, F, ⟨by rw [hu]; exact a2, by rw [hu]⟩, real, ?_, ?_⟩
  · refine ⟨((PySlope.runAll (offsetCalls t o) t).analyseSlope none).1, s.dynResults ++ [(o, F)], .call ru (.analyseSlope _ _), ?_⟩
    rw [eu]
    have := blind_analyseSlope (d := d) none (PySlope.runAll (offsetCalls t o) t)
    simp only at this
    rw [this]
    rfl
  · have dflt : ∀ n, ∃ F' : K n, ∀ G', (((S n).setDynamicOffset (o' n)).1.analyseSlope none).1.getMinFos = .ok (some G') → F' = G' := by
      intro n
      by_cases h : ∃ G', (((S n).setDynamicOffset (o' n)).1.analyseSlope none).1.getMinFos = .ok (some G')
      · obtain ⟨G', h⟩ := h
        refine ⟨G', fun H hH => ?_⟩
        rw [h] at hH
        injection hH with hH
        injection hH
      · exact ⟨(S n).extL, fun H hH => absurd ⟨H, hH⟩ h⟩
    choose F' hF' using dflt
    have lF : Lim val F' F := by
      refine Metric.tendsto_atTop.mpr fun δ hδ => ?_
      obtain ⟨N, hN⟩ := eventually_atTop.mp (a3 (δ / 2) (by linarith))
      refine ⟨N, fun n hn => ?_⟩
      obtain ⟨-, H, h1, h2⟩ := hN n hn
      rw [hF' n H h1, Real.dist_eq]
      linarith
    have ev : ∀ᶠ n in atTop, (((S n).setDynamicOffset (o' n)).1.analyseSlope none).2 = .ok () ∧
        (((S n).setDynamicOffset (o' n)).1.analyseSlope none).1.getMinFos = .ok (some (F' n)) := by
      filter_upwards [a3 1 one_pos] with n hn
      obtain ⟨h1, H, h2, -⟩ := hn
      exact ⟨h1, by rw [hF' n H h2]; exact h2⟩
    have fr : ∀ᶠ n in atTop, ∀ e ∈ (S n).dynResults, pyEq e.1 (o' n) = false := by
      obtain ⟨L, l1, l2, l3⟩ := b.dynResults
      have : ∀ᶠ n in atTop, ∀ p ∈ L, pyEq (p.1 n).1 (o' n) = false := eventually_list fun p hp =>
        B.not_eq (l3 p hp).fst ho (fresh p.2 (by rw [l2]; exact List.mem_map_of_mem hp))
      filter_upwards [l1, this] with n h1 h2 e he
      rw [h1] at he
      obtain ⟨p, hp, rfl⟩ := List.mem_map.mp he
      exact h2 p hp
    refine ⟨fun n => { (((S n).setDynamicOffset (o' n)).1.analyseSlope none).1 with
      dynResults := (S n).dynResults ++ [(o' n, F' n)] }, F', ?_, lF, ?_⟩
    · rw [hx]
      have hl : LimSlope val (fun n => { ((S n).setDynamicOffset (o' n)).1 with
          search := (((S n).setDynamicOffset (o' n)).1.analyseSlope none).1.search
          individual := ((S n).setDynamicOffset (o' n)).1.individual.map (withFos ((S n).setDynamicOffset (o' n)).1)
          dynResults := (S n).dynResults ++ [(o' n, F' n)] })
          { u with search := x, individual := u.individual.map (withFos u), dynResults := s.dynResults ++ [(o, F)] } :=
        { hG with
          individual := hG.individual.map fun p q r => ⟨r.cx, r.cy, r.radius⟩
          dynResults := b.dynResults.append (.one ⟨ho, lF⟩) }
      refine hl.congr ?_
      filter_upwards [ev] with n hn
      obtain ⟨y, hy⟩ := analyseSlope_ok hn.1
      rw [hy]
    · filter_upwards [G.2.1, ev, fr] with n h1 h2 h3
      refine ⟨?_, rfl, h3⟩
      unfold Slope.tryOffset
      rw [show (S n).setDynamicOffset (o' n) = (((S n).setDynamicOffset (o' n)).1, .ok ()) from Prod.ext rfl h1, andThen_goes]
      rw [show ((S n).setDynamicOffset (o' n)).1.analyseSlope none =
        ((((S n).setDynamicOffset (o' n)).1.analyseSlope none).1, .ok ()) from Prod.ext rfl h2.1, andThen_goes]
      simp only [h2.2]
      obtain ⟨y, hy⟩ := analyseSlope_ok h2.1
      have : (((S n).setDynamicOffset (o' n)).1.analyseSlope none).1.dynResults = (S n).dynResults := by
        rw [hy]; exact setDynamicOffset_dyn _ _
      rw [this, dictSet_fresh h3]

/-- Rounding to three decimals. -/
theorem pyRound (fl : ∀ n, AccurateFloor (val n)) {x : ∀ n, K n} {a : ℝ} (hx : Lim val x a) {z : ℤ} (h : |a * 1000 - z| < 1 / 2) :
    Lim val (fun n => PySlope.pyRound (x n) 3) (z / 1000) := by
  have hy := B.mul hx (B.nat (10 ^ 3))
  have e : a * ((10 ^ 3 : ℕ) : ℝ) = a * 1000 := by norm_num
  rw [e] at hy
  have half := B.sci 5 true 1
  have h1 := B.sub hy (B.int z)
  have h2 := B.sub hy (B.int (z - 1))
  have hh := abs_lt.mp h
  have near : ∀ᶠ n in atTop, |val n (x n * ((10 ^ 3 : ℕ) : K n)) - z| < 1 / 2 := by
    have : Tendsto (fun n => |val n (x n * ((10 ^ 3 : ℕ) : K n)) - z|) atTop (𝓝 |a * 1000 - z|) := (Tendsto.sub_const hy _).abs
    exact this.eventually (gt_mem_nhds h)
  have key : ∀ᶠ n in atTop, roundInt (x n * ((10 ^ 3 : ℕ) : K n)) = z := by
    filter_upwards [near, B.lt h1 half (by norm_num; linarith), B.lt half h2 (by push_cast; norm_num; linarith),
      B.not_lt h2 half (by push_cast; norm_num; linarith)] with n k1 k2 k3 k4
    exact roundInt_of (by rw [fl n]; exact floor_near k1) k2 k3 k4
  have := B.div (B.int z) (B.nat (10 ^ 3)) (by norm_num)
  rw [show ((10 ^ 3 : ℕ) : ℝ) = 1000 by norm_num] at this
  refine this.congr (key.mono fun n hn => ?_)
  unfold PySlope.pyRound
  rw [hn]

theorem pyEq_refl (n : ℕ) (x : K n) : pyEq x x = true := by
  have : x ≤ x := ((B.acc n).le x x).mpr le_rfl
  unfold pyEq
  simp [this]

theorem dynStops (fl : ∀ n, AccurateFloor (val n)) {c' p' f' : ∀ n, K n} {crit prev F : ℝ} (hc : Lim val c' crit) (hp : Lim val p' prev)
    (hF : Lim val f' F) (n1 : F ≠ prev) {z : ℤ} (hz : |F * 1000 - z| < 1 / 2)
    (st : (|prev - F| < 0.01 ∨ |F - crit| < 0.01) ∧ crit < (z : ℝ) / 1000) :
    PySlope.dynStops crit prev F = true ∧ ∀ᶠ n in atTop, PySlope.dynStops (c' n) (p' n) (f' n) = true := by
  have cent := B.sci 1 true 2
  constructor
  · unfold PySlope.dynStops
    rw [pyEq_real, decide_eq_false n1.symm, pyRound_exact hz, decide_eq_true st.2.le, pyAbs_real, pyAbs_real]
    rcases st.1 with h | h
    · rw [decide_eq_true (p := |prev - F| ≤ 0.01) h.le]; rfl
    · rw [decide_eq_true (p := |F - crit| ≤ 0.01) h.le]; simp
  · have e1 : ∀ᶠ n in atTop, (decide (PySlope.pyAbs (p' n - f' n) ≤ 0.01) || decide (PySlope.pyAbs (f' n - c' n) ≤ 0.01)) = true := by
      rcases st.1 with h | h
      · filter_upwards [B.le (B.pyAbs (B.sub hp hF)) cent h] with n k
        rw [Bool.or_eq_true]
        exact .inl (decide_eq_true k)
      · filter_upwards [B.le (B.pyAbs (B.sub hF hc)) cent h] with n k
        rw [Bool.or_eq_true]
        exact .inr (decide_eq_true k)
    filter_upwards [B.not_eq hp hF n1.symm, e1, B.le hc (B.pyRound fl hF hz) st.2] with n k1 k2 k3
    unfold PySlope.dynStops
    rw [k1, k2, decide_eq_true k3]
    rfl

theorem not_dynStops (fl : ∀ n, AccurateFloor (val n)) {c' p' f' : ∀ n, K n} {crit prev F : ℝ} (hc : Lim val c' crit)
    (hp : Lim val p' prev) (hF : Lim val f' F) (n2 : |prev - F| ≠ 0.01) (n3 : |F - crit| ≠ 0.01) {z : ℤ}
    (hz : |F * 1000 - z| < 1 / 2) (hz' : (z : ℝ) / 1000 ≠ crit)
    (st : ¬ ((|prev - F| < 0.01 ∨ |F - crit| < 0.01) ∧ crit < (z : ℝ) / 1000)) :
    ¬ PySlope.dynStops crit prev F = true ∧ ∀ᶠ n in atTop, ¬ PySlope.dynStops (c' n) (p' n) (f' n) = true := by
  have cent := B.sci 1 true 2
  by_cases c : crit < (z : ℝ) / 1000
  · have h1 : 0.01 < |prev - F| := lt_of_le_of_ne (_root_.not_lt.mp fun h => st ⟨.inl h, c⟩) n2.symm
    have h2 : 0.01 < |F - crit| := lt_of_le_of_ne (_root_.not_lt.mp fun h => st ⟨.inr h, c⟩) n3.symm
    constructor
    · unfold PySlope.dynStops
      rw [pyAbs_real, pyAbs_real, decide_eq_false (p := |prev - F| ≤ 0.01) h1.not_ge, decide_eq_false (p := |F - crit| ≤ 0.01) h2.not_ge]
      simp
    · filter_upwards [B.not_le (B.pyAbs (B.sub hp hF)) cent h1, B.not_le (B.pyAbs (B.sub hF hc)) cent h2] with n k1 k2
      unfold PySlope.dynStops
      rw [decide_eq_false k1, decide_eq_false k2]
      simp
  · have c' : (z : ℝ) / 1000 < crit := lt_of_le_of_ne (_root_.not_lt.mp c) hz'
    constructor
    · unfold PySlope.dynStops
      rw [pyRound_exact hz, decide_eq_false c'.not_ge]
      simp
    · filter_upwards [B.not_le hc (B.pyRound fl hF hz) c'] with n k1
      unfold PySlope.dynStops
      rw [decide_eq_false k1]
      simp

/-- The turns of a dynamic analysis. -/
theorem dynLoop (fl : ∀ n, AccurateFloor (val n)) {c' : ∀ n, K n} {crit : ℝ} (hc : Lim val c' crit) : ∀ (k : ℕ)
    {S : ∀ n, Slope (K n)} {s : Slope ℝ}, LimSlope val S s → ∀ {t : Slope ℝ} {d : List (ℝ × ℝ)}, Reachable t → s = t.withDyn d →
    ∀ {l' f' r' g' p' : ∀ n, K n} {left lf right rf prev : ℝ}, Lim val l' left → Lim val f' lf → Lim val r' right → Lim val g' rf →
    Lim val p' prev → dictGet s.dynResults left = .ok lf → dictGet s.dynResults right = .ok rf →
    (∀ᶠ n in atTop, dictGet (S n).dynResults (l' n) = .ok (f' n)) → (∀ᶠ n in atTop, dictGet (S n).dynResults (r' n) = .ok (g' n)) →
    left ≠ right → rf < crit → crit < lf → NoTiesTurns crit k left lf right rf prev s →
    ∃ s', s.dynLoop crit false k left right prev = (s', .ok ()) ∧ ∃ S' : ∀ n, Slope (K n), LimSlope val S' s' ∧
      ∀ᶠ n in atTop, (S n).dynLoop (c' n) false k (l' n) (r' n) (p' n) = (S' n, .ok ())
  | 0, S, s, b, _, _, _, _, _, _, _, _, _, _, _, _, _, _, _, _, _, _, _, _, _, _, _, _, _, _, _ =>
    ⟨s, rfl, S, b, .of_forall fun n => rfl⟩
  | k + 1, S, s, b, t, d, rs, hs, l', f', r', g', p', left, lf, right, rf, prev, hl, hf, hr, hg, hp, el, er, ml, mr, ne, lo, hi, nt => by
    obtain ⟨fresh, no, next⟩ := nt
    have d1 : left - right ≠ 0 := sub_ne_zero.mpr ne
    have d2 : (lf - rf) / (left - right) ≠ 0 := div_ne_zero (by linarith) d1
    have em : right + (crit - rf) * (left - right) / (lf - rf) = right + (crit - rf) / ((lf - rf) / (left - right)) := by
      rw [div_div_eq_mul_div]
    have lm := B.div (B.sub hf hg) (B.sub hl hr) d1
    have hm := B.add hr (B.div (B.sub hc hg) lm d2)
    rw [em] at fresh no next
    obtain ⟨s', F, af, ht, ⟨t', d', rs', hs'⟩, S', F', b', hF, ev⟩ := B.tryOffset b rs hs hm fresh no
    obtain ⟨n1, n2, n3, n4, z, z1, z2, n5⟩ := next s' F af
    have turn := dynLoop_turn (k := k) (prev := prev) el er (by rw [lit_zero, pyEq_real]; exact decide_eq_false d1)
      (by rw [lit_zero, pyEq_real]; exact decide_eq_false d2) ht
    have mturn : ∀ᶠ n in atTop, (S n).dynLoop (c' n) false (k + 1) (l' n) (r' n) (p' n) =
        if PySlope.dynStops (c' n) (p' n) (F' n) then (S' n, .ok ())
        else if F' n < c' n then (S' n).dynLoop (c' n) false k (l' n) (r' n + (c' n - g' n) / ((f' n - g' n) / (l' n - r' n))) (F' n)
        else (S' n).dynLoop (c' n) false k (r' n + (c' n - g' n) / ((f' n - g' n) / (l' n - r' n))) (r' n) (F' n) := by
      filter_upwards [ml, mr, B.not_eq (B.sub hl hr) B.zero' d1, B.not_eq lm B.zero' d2, ev] with n k1 k2 k3 k4 k5
      exact dynLoop_turn (k := k) (prev := p' n) k1 k2 k3 k4 k5.1
    have rdyn : s'.dynResults = s.dynResults ++ [(right + (crit - rf) / ((lf - rf) / (left - right)), F)] := by rw [af.2]
    have rfr : ∀ e ∈ s.dynResults, pyEq e.1 (right + (crit - rf) / ((lf - rf) / (left - right))) = false :=
      fun e he => by rw [pyEq_real]; exact decide_eq_false (fresh e he)
    by_cases st : (|prev - F| < 0.01 ∨ |F - crit| < 0.01) ∧ crit < (z : ℝ) / 1000
    · obtain ⟨q1, q2⟩ := B.dynStops fl hc hp hF n1 z1 st
      refine ⟨s', by rw [turn, if_pos q1], S', b', ?_⟩
      filter_upwards [mturn, q2] with n k1 k2
      rw [k1, if_pos k2]
    · obtain ⟨q1, q2⟩ := B.not_dynStops fl hc hp hF n2 n3 z1 z2 st
      obtain ⟨i1, i2⟩ := n5 st
      have nold : ∀ {x y : ∀ n, K n}, (∀ᶠ n in atTop, dictGet (S n).dynResults (x n) = .ok (y n)) →
          ∀ᶠ n in atTop, dictGet (S' n).dynResults (x n) = .ok (y n) := by
        intro x y h
        filter_upwards [h, ev] with n k1 k2
        rw [k2.2.1]
        exact dictGet_old k1
      have nnew : ∀ᶠ n in atTop, dictGet (S' n).dynResults (r' n + (c' n - g' n) / ((f' n - g' n) / (l' n - r' n))) = .ok (F' n) := by
        filter_upwards [ev] with n k2
        rw [k2.2.1]
        exact dictGet_new k2.2.2 (B.pyEq_refl n _)
      have rnew : dictGet s'.dynResults (right + (crit - rf) / ((lf - rf) / (left - right))) = .ok F := by
        rw [rdyn]; exact dictGet_new rfr (by rw [pyEq_real]; exact decide_eq_true rfl)
      have between : right + (crit - rf) / ((lf - rf) / (left - right)) ≠ left ∧
          right + (crit - rf) / ((lf - rf) / (left - right)) ≠ right := by
        rw [← em]
        have : (lf - rf) ≠ 0 := by linarith
        constructor
        · intro h
          have h' : (crit - rf) * (left - right) = (left - right) * (lf - rf) := by
            field_simp at h
            linarith
          have := mul_left_cancel₀ d1 (show (left - right) * (crit - rf) = (left - right) * (lf - rf) by linarith)
          linarith
        · intro h
          have h' : (crit - rf) * (left - right) / (lf - rf) = 0 := by linarith
          rw [div_eq_zero_iff] at h'
          rcases h' with h' | h'
          · rcases mul_eq_zero.mp h' with h' | h'
            · linarith
            · exact d1 h'
          · exact this h'
      rcases lt_or_gt_of_ne n4 with c | c
      · obtain ⟨s2, w1, S2, w2, w3⟩ := dynLoop fl hc k b' rs' hs' hl hf hm hF hF (by rw [rdyn]; exact dictGet_old el) rnew
          (nold ml) nnew between.1.symm c hi (i1 c)
        refine ⟨s2, by rw [turn, if_neg q1, if_pos c, w1], S2, w2, ?_⟩
        filter_upwards [mturn, q2, w3, B.lt hF hc c] with n k1 k2 k3 k4
        rw [k1, if_neg k2, if_pos k4, k3]
      · obtain ⟨s2, w1, S2, w2, w3⟩ := dynLoop fl hc k b' rs' hs' hm hF hr hg hF rnew (by rw [rdyn]; exact dictGet_old er)
          nnew (nold mr) between.2 lo c (i2 c)
        refine ⟨s2, by rw [turn, if_neg q1, if_neg c.not_gt, w1], S2, w2, ?_⟩
        filter_upwards [mturn, q2, w3, B.not_lt hF hc c] with n k1 k2 k3 k4
        rw [k1, if_neg k2, if_neg k4, k3]

end Better
end PySlope
