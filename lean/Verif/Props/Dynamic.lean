import Verif.Spec.ExampleDynamic

/-! # Properties of the dynamic analysis (C47-C51, C58, C59) -/

namespace PySlope

/-! ## The attempts of the example -/

theorem Attempts.first {s t : Slope ℝ} {l : List (ℝ × ℝ)} (h : Attempts s l t) {a m} (e : l = a :: m) :
    ∃ u, Attempts s [a] u := by
  induction h generalizing a m with
  | nil => cases e
  | @snoc l t o f u h k ih =>
    cases l with
    | nil => cases e; exact ⟨u, .snoc h k⟩
    | cons b l => cases e; exact ih rfl

theorem Attempt.try {s t : Slope ℝ} {o f : ℝ} (h : Attempt s o f t) :
    ∃ u, s.tryOffset o = (u, .ok f) ∧ t = { u with dynResults := t.dynResults } := by
  obtain ⟨a, b, d, h1, h2, h3, rfl⟩ := h
  unfold Slope.tryOffset
  rw [h1]
  simp only [andThen_done]
  rw [h2]
  simp only [andThen_done]
  rw [h3]
  exact ⟨_, rfl, rfl⟩

theorem DynState.attempts {c e o : ℝ} {s t : Slope ℝ} {l : List (ℝ × ℝ)} (h : Attempts s l t)
    (hs : DynState c e o s) (h3 : 3 ≤ e) (h4 : e ≤ 4) (hc : c ≠ 0) (hl : ∀ a ∈ l, 0 ≤ a.1 ∧ a.1 ≤ 10 / 3) :
    (∃ o', DynState c e o' t) ∧ ∀ a ∈ l, a.2 = cFos c e a.1 := by
  induction h with
  | nil d => exact ⟨⟨o, hs.dyn _⟩, by simp⟩
  | @snoc l t o f u h k ih =>
    obtain ⟨⟨o', h1⟩, h2⟩ := ih (fun a ha => hl a (by simp [ha]))
    obtain ⟨h5, h6⟩ := hl (o, f) (by simp)
    obtain ⟨v, e1, h7⟩ := h1.try h3 h4 hc h5 h6
    obtain ⟨w, e2, h8⟩ := k.try
    rw [e1] at e2
    obtain ⟨rfl, h9⟩ := Prod.mk.inj e2
    have h9 := Except.ok.inj h9
    refine ⟨⟨o, by rw [h8]; exact h7.dyn _⟩, ?_⟩
    intro a ha
    rcases List.mem_append.mp ha with ha | ha
    · exact h2 a ha
    · simp at ha; subst ha; exact h9.symm

theorem DynState.attempt {c e o : ℝ} {t : Slope ℝ} (h : DynState c e o t) (h3 : 3 ≤ e) (h4 : e ≤ 4)
    (hc : c ≠ 0) {o' : ℝ} (h0 : 0 ≤ o') (ho : o' ≤ 10 / 3) : ∃ u, Attempt t o' (cFos c e o') u := by
  obtain ⟨u, e1, _⟩ := h.try h3 h4 hc h0 ho
  obtain ⟨_, _, _, h4, _⟩ := tryOffset_spec h.wfs o'
  rw [e1] at h4
  exact ⟨u, (h4 _ rfl).1⟩

theorem exDyn_greatest (c e o : ℝ) : GreatestOffset (exDyn c e o) 2.99 := by
  have : (exDyn c e o).length = 3 := rfl
  refine ⟨.inl ?_, ?_, ?_⟩
  · rw [this]; norm_num
  · rw [this]; norm_num
  · intro p hp; cases hp

theorem exDyn_maxOffset (c e o : ℝ) :
    maxOffset (exDyn c e o).topX (exDyn c e o).udls (exDyn c e o).length = .ok 3 := rfl

theorem cFos_lt {c e o o' : ℝ} (h3 : 3 ≤ e) (h4 : e ≤ 4) (hc : c ≠ 0) (ho : e ≤ 6 - |o|)
    (ho' : 6 - |o'| < e) : cFos c e o < cFos c e o' := by
  unfold cFos
  have := cD_pos h3 h4
  have := cL_inside h3 h4 ho
  have hk := cK_pos h3 h4
  have : 0 < |c| := abs_pos.mpr hc
  rw [cL_outside h3 h4 ho']
  apply div_lt_div_of_pos_left <;> first | positivity | linarith

/-! ## C47 -/

/-- C47: moving the dynamic loads to an offset never raises, keeps every load in its order with all
but the offset of dynamic loads, puts each where its offset says, and touches neither the ground,
the water, the options nor the earlier dynamic results. -/
theorem C47_set_dynamic_offset (s : Slope ℝ) (r : Reachable s) (o : ℝ) :
    ∃ t, s.setDynamicOffset o = (t, .ok ()) ∧ Moved o s t ∧ SameGround s t ∧
      t.dynResults = s.dynResults ∧ t.individual = s.individual ∧
      (∀ p ∈ t.udls, p.right = t.topX - p.load.offset ∧
        (∀ l, p.load.length = some l → p.left = max 0 (p.right - l)) ∧
        (p.load.length = none → p.left = 0)) ∧
      (∀ p ∈ t.lls, p.coord = max 0 (t.topX - p.load.offset)) := by
  obtain ⟨t, h1, h2, h3, h4, h5, h6, _⟩ := setDynamicOffset_spec r.wfs o
  refine ⟨t, h1, h4, h3, h5, h6, ?_, ?_⟩
  · intro p hp
    have e := h2.1.udl p hp
    have hl := (h2.2.udl p.load (List.mem_map_of_mem hp)).2
    refine ⟨by rw [e]; rfl, ?_, ?_⟩
    · intro l h
      rw [e]
      simp only [placeUdl, h, pyEq_real, lit_zero, (hl l h).ne', decide_false, pyMax_real]
      rfl
    · intro h
      rw [e]; simp [placeUdl, h]
  · intro p hp
    rw [h2.1.ll p hp]; simp [placeLl]

/-- A failed attempt moves the loads too, and nothing else. -/
theorem Attempts.then {s u t : Slope ℝ} {l : List (ℝ × ℝ)} {o : ℝ} {r} (h : Attempts s l u) (hw : WFS s)
    (e : u.tryOffset o = (t, r)) : SameGround s t ∧ Moved o s t := by
  obtain ⟨h1, h2, h3⟩ := h.spec hw
  obtain ⟨k1, k2, _⟩ := tryOffset_spec h1 o
  rw [e] at k1 k2
  refine ⟨h2.trans k1, ?_⟩
  rcases h3 with ⟨_, h3⟩ | ⟨o', _, _, h3⟩
  · unfold Moved at k2 ⊢
    rw [h3] at k2
    exact k2
  · exact h3.trans k2

theorem Attempts.frame {s t : Slope ℝ} {l : List (ℝ × ℝ)} (h : Attempts s l t) (hw : WFS s) :
    SameGround s t ∧ ((t.udls = s.udls ∧ t.lls = s.lls) ∨ ∃ o, Moved o s t) := by
  obtain ⟨_, h2, h3⟩ := h.spec hw
  refine ⟨h2, ?_⟩
  rcases h3 with ⟨_, h3⟩ | ⟨o', _, _, h3⟩
  · left; rw [h3]; exact ⟨rfl, rfl⟩
  · exact .inr ⟨o', h3⟩

/-- C47: whatever the critical factor of safety and however the dynamic analysis ends, even by an
exception, it leaves the loads as they were or with the dynamic ones at some common offset. It never
touches the other attributes of a load, a load that is not dynamic, the ground, the water or the
options; the model can only get longer. -/
theorem C47_only_dynamic_loads_move (s : Slope ℝ) (r : Reachable s) (c : ℝ) (dec : Bool) :
    let t := (s.analyseDynamic c dec).1
    SameGround s t ∧ ((t.udls = s.udls ∧ t.lls = s.lls) ∨ ∃ o, Moved o s t) := by
  intro t
  have hw := r.wfs
  obtain ⟨h1, _⟩ | ⟨left, _, hE⟩ := analyseDynamic_end hw c dec (t := t) (r := (s.analyseDynamic c dec).2) rfl
  · rw [h1]; exact ⟨(SameGround.refl s).dyn _, .inl ⟨rfl, rfl⟩⟩
  · generalize (s.analyseDynamic c dec).2 = x at hE
    have two : ∀ {u : Slope ℝ} {l o y}, Attempts s l u → u.tryOffset o = (t, y) →
        SameGround s t ∧ ((t.udls = s.udls ∧ t.lls = s.lls) ∨ ∃ o, Moved o s t) :=
      fun h e => ⟨(h.then hw e).1, .inr ⟨_, (h.then hw e).2⟩⟩
    cases hE with
    | crestFails e => exact two (.nil s []) e
    | safe h => exact h.frame hw
    | farFails h _ _ e => exact two h e
    | failing h => exact h.frame hw
    | looped h => exact h.frame hw
    | loopFails h _ _ _ _ _ e =>
      rcases e with ⟨e, _⟩ | ⟨o, _, e⟩
      · rw [e]; exact h.frame hw
      · exact two h e

/-- A load moved from the crest to 2 m behind it. -/
example : ∃ p, ((exDyn 5 4 0).setDynamicOffset 2).1.lls = [p] ∧ p.load.magnitude = 100 ∧ p.load.offset = 2 ∧
    p.coord = max 0 (((exDyn 5 4 0).setDynamicOffset 2).1.topX - 2) := by
  have hr := exDyn_reachable (c := 5) (e := 4) (o := 0) (by norm_num) (by norm_num) (by norm_num)
  obtain ⟨t, h1, ⟨_, h2⟩, h3, _, _, _, h4⟩ := C47_set_dynamic_offset _ hr 2
  rw [h1]
  have h2 : t.lls.map PLl.load = [{ dynLl 0 with offset := 2 }] := h2
  obtain ⟨p, hp, hl⟩ := List.map_eq_singleton_iff.mp h2
  have := h4 p (by rw [hp]; simp)
  rw [hl] at this
  exact ⟨p, hp, by rw [hl]; rfl, by rw [hl], this⟩

/-! ## C48 -/

theorem Records.length_le {d l : List (ℝ × ℝ)} (h : Records d l) : d.length ≤ l.length := by
  have : (d.map Prod.fst).Subperm (l.map Prod.fst) := by
    apply List.subperm_of_subset h.1
    intro o ho
    obtain ⟨⟨o', f⟩, hm, rfl⟩ := List.mem_map.mp ho
    obtain ⟨l1, l2, rfl, _⟩ := (h.2 o' f).mp hm
    simp
  simpa using this.length_le

/-- C48: a dynamic analysis is at most 12 attempts, one after the other, each moving the loads to an
offset and analysing the slope. If it ends the dictionary of dynamic results holds the attempts made,
at most 12, each offset with its last factor of safety. If it raises, at most 11 attempts came before,
they are what is recorded, and the exception came from a further attempt or from the choice of the
offset. -/
theorem C48_bounded (s : Slope ℝ) (r : Reachable s) (c : ℝ) (dec : Bool) :
    ∃ l : List (ℝ × ℝ), l.length ≤ 12 ∧ ∀ t x, s.analyseDynamic c dec = (t, x) →
      (t.dynResults.length ≤ 12 ∧ Records t.dynResults l) ∧
      (∀ k, x = .ok k → l ≠ [] ∧ Attempts s l t) ∧
      (∀ e, x = .error e → l.length ≤ 11 ∧ ∃ u, Attempts s l u ∧
        (t = u ∨ ∃ o, u.tryOffset o = (t, .error e))) := by
  have hw := r.wfs
  suffices key : ∃ l : List (ℝ × ℝ), l.length ≤ 12 ∧
      Records (s.analyseDynamic c dec).1.dynResults l ∧
      (∀ k, (s.analyseDynamic c dec).2 = .ok k → l ≠ [] ∧ Attempts s l (s.analyseDynamic c dec).1) ∧
      (∀ e, (s.analyseDynamic c dec).2 = .error e → l.length ≤ 11 ∧ ∃ u, Attempts s l u ∧
        ((s.analyseDynamic c dec).1 = u ∨ ∃ o, u.tryOffset o = ((s.analyseDynamic c dec).1, .error e))) by
    obtain ⟨l, h1, h2, h3, h4⟩ := key
    refine ⟨l, h1, ?_⟩
    intro t x e
    rw [e] at h2 h3 h4
    exact ⟨⟨h2.length_le.trans h1, h2⟩, h3, h4⟩
  generalize ht : (s.analyseDynamic c dec).1 = t
  generalize hx : (s.analyseDynamic c dec).2 = x
  have hE := analyseDynamic_end hw c dec (t := t) (r := x) (by rw [← ht, ← hx])
  -- a failed attempt records nothing
  have fail : ∀ {u : Slope ℝ} {l o e}, Attempts s l u → u.tryOffset o = (t, .error e) →
      t.dynResults = u.dynResults := by
    intro u l o e h h'
    obtain ⟨_, _, _, _, k⟩ := tryOffset_spec (h.spec hw).1 o
    rw [h'] at k
    exact k e rfl
  rcases hE with ⟨h1, rfl, _⟩ | ⟨left, _, hE⟩
  · refine ⟨[], by simp, by rw [h1]; exact Records.nil, fun k hk => (by cases hk), ?_⟩
    intro e he
    exact ⟨by simp, t, by rw [h1]; exact .nil _ _, .inl rfl⟩
  · cases hE with
    | crestFails e =>
      refine ⟨[], by simp, ?_, fun k hk => (by cases hk), ?_⟩
      · rw [fail (.nil s []) e]; exact Records.nil
      · intro e' he
        cases he
        exact ⟨by simp, _, .nil s [], .inr ⟨_, e⟩⟩
    | @safe f h hr _ => exact ⟨[(0, f)], by simp, hr, fun k _ => ⟨by simp, h⟩, fun e he => (by cases he)⟩
    | @farFails u f e h hr _ e =>
      refine ⟨[(0, f)], by simp, ?_, fun k hk => (by cases hk), ?_⟩
      · rw [fail h e]; exact hr
      · intro e' he
        cases he
        exact ⟨by simp, _, h, .inr ⟨_, e⟩⟩
    | @failing f g h hr _ _ => exact ⟨[(0, f), (left, g)], by simp, hr, fun k _ => ⟨by simp, h⟩, fun e he => (by cases he)⟩
    | @looped f g m h hr _ _ _ _ hl _ _ =>
      exact ⟨(0, f) :: (left, g) :: m, by simp only [List.length_cons]; omega, hr, fun k _ => ⟨by simp, h⟩, fun e he => (by cases he)⟩
    | @loopFails u f g m e h hr _ _ hl _ h' =>
      refine ⟨(0, f) :: (left, g) :: m, by simp only [List.length_cons]; omega, ?_, fun k hk => (by cases hk), ?_⟩
      · rcases h' with ⟨h', _⟩ | ⟨o, _, h'⟩
        · rw [h']; exact hr
        · rw [fail h h']; exact hr
      · intro e' he
        cases he
        refine ⟨by simp only [List.length_cons]; omega, u, h, ?_⟩
        rcases h' with ⟨h', _⟩ | ⟨o, _, h'⟩
        · exact .inl h'
        · exact .inr ⟨o, h'⟩

/-! ## C49 -/

/-- C49, the part that holds: 0 is returned exactly when the first attempt, at the crest, is above
the critical value, and is then the only attempt; 1 is returned exactly when the crest attempt is not
above it and the second attempt, at the greatest offset tried, is below it; otherwise the loop is run
and the results are sorted by factor of safety. What is missing: the greatest offset tried is not
always the farthest place for the loads (`C49_not_farthest`). -/
theorem C49_return_codes_partial (s : Slope ℝ) (r : Reachable s) (c : ℝ) (dec : Bool) {t k}
    (e : s.analyseDynamic c dec = (t, .ok k)) :
    ∃ left, GreatestOffset s left ∧
      ((k = some 0 ∧ ∃ f, Attempts s [(0, f)] t ∧ c < f) ∨
       (k = some 1 ∧ ∃ f g, Attempts s [(0, f), (left, g)] t ∧ f ≤ c ∧ g < c) ∨
       (k = none ∧ ∃ f g m, Attempts s ((0, f) :: (left, g) :: m) t ∧ f ≤ c ∧ c ≤ g ∧ m ≠ [] ∧
         t.dynResults.Pairwise fun a b => a.2 ≤ b.2)) := by
  rcases analyseDynamic_end r.wfs c dec e with ⟨_, h, _⟩ | ⟨left, hg, hE⟩
  · cases h
  · refine ⟨left, hg, ?_⟩
    cases hE with
    | safe h _ h' => exact .inl ⟨rfl, _, h, h'⟩
    | failing h _ h1 h2 => exact .inr (.inl ⟨rfl, _, _, h, h1, h2⟩)
    | looped h _ h1 h2 _ h3 _ _ h4 => exact .inr (.inr ⟨rfl, _, _, _, h, h1, h2, h3, h4⟩)

/-- C49 fails: an analysis returns 1, unsafe with the loads farthest away, although a greater offset,
still on the model, was not tried and is safe. -/
theorem C49_not_farthest : ∃ (s : Slope ℝ) (c : ℝ) (t : Slope ℝ), Reachable s ∧ s.analyseDynamic c false = (t, .ok (some 1)) ∧
    ∃ o v f, 0 < s.topX - o ∧ Attempt s o f v ∧ c ≤ f := by
  have h3 : (3 : ℝ) ≤ 3 := le_rfl
  have h4 : (3 : ℝ) ≤ 4 := by norm_num
  have hs := exDyn_state (c := 5) (e := 3) (o := 0) h3 h4 (by norm_num)
  obtain ⟨v, hv⟩ := hs.attempt h3 h4 (by norm_num) (o' := 3.2) (by norm_num) (by norm_num)
  obtain ⟨u, e1, hu⟩ := (hs.dyn []).try h3 h4 (by norm_num) (o' := 0) le_rfl (by norm_num)
  obtain ⟨w, e2, hw⟩ := hu.try h3 h4 (by norm_num) (o' := 2.99) (by norm_num) (by norm_num)
  have l1 : cFos 5 3 0 < cFos 5 3 3.2 := cFos_lt h3 h4 (by norm_num) (by norm_num) (by norm_num [abs_of_pos])
  have l2 : cFos 5 3 2.99 < cFos 5 3 3.2 :=
    cFos_lt h3 h4 (by norm_num) (by norm_num [abs_of_pos]) (by norm_num [abs_of_pos])
  refine ⟨exDyn 5 3 0, cFos 5 3 3.2, w, exDyn_reachable h3 h4 (by norm_num), ?_, 3.2, v, _, ?_, hv, le_rfl⟩
  · unfold Slope.analyseDynamic
    simp only
    rw [exDyn_maxOffset]
    simp only
    rw [show (@OfNat.ofNat ℝ 0 (Lit.natLit 0)) = 0 from lit_zero, e1]
    simp only [andThen_done]
    rw [if_neg (not_lt.mpr l1.le), show ((3 : ℝ) - 0.01) = 2.99 by norm_num, e2]
    simp only [andThen_done]
    rw [if_pos l2]
  · rw [show (exDyn 5 3 0).topX = 6 from exSlope_topX]
    norm_num

/-! ## C50 -/

/-- C50 fails: with a dynamic distributed load without a length every dynamic analysis raises a
`TypeError` before the first attempt. -/
theorem C50_continuous_raises (s : Slope ℝ) (c : ℝ) (dec : Bool)
    (h : ∃ p ∈ s.udls, p.load.dynamic = true ∧ p.load.length = none) :
    s.analyseDynamic c dec = ({ s with dynResults := [] }, .error .typeError) := by
  obtain ⟨hm1, hm2⟩ := maxOffset_spec s.topX s.udls s.length
  unfold Slope.analyseDynamic
  simp only
  cases hm : maxOffset s.topX s.udls s.length with
  | error e => rw [(hm2 e hm).1]
  | ok left =>
    exfalso
    obtain ⟨p, hp, hd, hn⟩ := h
    obtain ⟨l, hl, _⟩ := (hm1 left hm).2.2 p hp hd
    rw [hn] at hl
    cases hl

/-- A dynamic load along the whole crest, `Udl(magnitude=20, dynamic=True)`. -/
noncomputable def dynUdl : Udl ℝ :=
  { magnitude := 20, offset := 0, length := none, color := "red", dynamic := true }

theorem dynUdl_constructed : Udl.Constructed dynUdl := by
  refine ⟨fun _ => true, .num 20, .num 0, .none, "red", true, ?_⟩
  rw [(C02_signs_do_not_matter _ _ _).2.2.1]
  simp [dynUdl]

/-- C50 fails on a slope that can be built with the API, for every critical value. -/
theorem C50_violated : ∃ s : Slope ℝ, Reachable s ∧ (∃ p ∈ s.udls, p.load.length = none) ∧
    ∀ c dec, ∃ t, s.analyseDynamic c dec = (t, .error .typeError) := by
  obtain ⟨m, h⟩ := setUdl_small (s := exClay 5 4) dynUdl (by norm_num [dynUdl])
    (by
      have : (exClay 5 4).minExtL = 10 := rfl
      rw [this]
      simp [Udl.minLength, dynUdl]
      norm_num) (by intro p hp; cases hp)
  have r := Reachable.call (exClay_reachable (c := 5) (e := 4) (by norm_num) (by norm_num))
    (.setUdls _ [some dynUdl] (by intro u hu; simp at hu; subst hu; exact dynUdl_constructed))
  rw [h] at r
  refine ⟨_, r, ⟨placeUdl (exClay 5 4).topX dynUdl, by simp, rfl⟩, fun c dec => ⟨_, C50_continuous_raises _ c dec ?_⟩⟩
  exact ⟨placeUdl (exClay 5 4).topX dynUdl, by simp, rfl, rfl⟩

/-- C50, the part that holds: if every dynamic distributed load has a length, other loads without a
length do no harm: when the loads can be analysed at the crest, that attempt is made and recorded. -/
theorem C50_static_continuous_partial (s : Slope ℝ) (r : Reachable s) (c : ℝ) (dec : Bool)
    (h : ∀ p ∈ s.udls, p.load.dynamic = true → p.load.length ≠ none) {u f}
    (hf : ({ s with dynResults := [] } : Slope ℝ).tryOffset 0 = (u, .ok f)) :
    ∃ f', (0, f') ∈ (s.analyseDynamic c dec).1.dynResults := by
  have hw := r.wfs
  obtain ⟨l, _, h2⟩ := C48_bounded s r c dec
  obtain ⟨⟨_, hR⟩, hk, he⟩ := h2 _ _ rfl
  generalize ht : (s.analyseDynamic c dec).1 = t at *
  generalize hx : (s.analyseDynamic c dec).2 = x at *
  have mem : ∀ {d l : List (ℝ × ℝ)} {f : ℝ}, Records d ((0, f) :: l) → ∃ f', (0, f') ∈ d := by
    intro d l f hR
    suffices ∀ l : List (ℝ × ℝ), (∃ f, (0, f) ∈ l) → ∃ f', ∃ l1 l2, l = l1 ++ (0, f') :: l2 ∧ ∀ f'', (0, f'') ∉ l2 by
      obtain ⟨f', h'⟩ := this ((0, f) :: l) ⟨f, by simp⟩
      exact ⟨f', (hR.2 0 f').mpr h'⟩
    intro l
    induction l with
    | nil => rintro ⟨f, hf⟩; cases hf
    | cons a l ih =>
      intro hex
      by_cases hl : ∃ f, (0, f) ∈ l
      · obtain ⟨f', l1, l2, e, h'⟩ := ih hl
        exact ⟨f', a :: l1, l2, by rw [e]; rfl, h'⟩
      · obtain ⟨f, hf⟩ := hex
        rcases List.mem_cons.mp hf with rfl | hf
        · exact ⟨f, [], l, rfl, fun f'' h'' => hl ⟨f'', h''⟩⟩
        · exact absurd ⟨f, hf⟩ hl
  have fail : ∀ {u : Slope ℝ} {l o e}, Attempts s l u → u.tryOffset o = (t, .error e) →
      t.dynResults = u.dynResults := by
    intro u l o e h h'
    obtain ⟨_, _, _, _, k⟩ := tryOffset_spec (h.spec hw).1 o
    rw [h'] at k
    exact k e rfl
  rcases analyseDynamic_end hw c dec (t := t) (r := x) (by rw [← ht, ← hx]) with ⟨_, _, p, hp, hd, hn⟩ | ⟨left, _, hE⟩
  · exact absurd hn (h p hp hd)
  · cases hE with
    | crestFails e => rw [hf] at e; cases e
    | safe h hr _ => exact mem hr
    | farFails h hr _ e => rw [fail h e]; exact mem hr
    | failing h hr _ _ => exact mem hr
    | looped h hr _ _ _ _ hl _ _ => exact mem hr
    | loopFails h hr _ _ hl _ h' =>
      rcases h' with ⟨h', _⟩ | ⟨o, _, h'⟩
      · rw [h']; exact mem hr
      · rw [fail h h']; exact mem hr

/-! ## C51 -/

theorem dynLoop_decimal {s t : Slope ℝ} {c left right prev : ℝ} {n : ℕ} {x}
    (h : s.dynLoop c false (n + 1) left right prev = (t, .ok x)) :
    s.dynLoop c true (n + 1) left right prev = (s, .error .typeError) := by
  unfold Slope.dynLoop at h ⊢
  simp only at h ⊢
  cases h1 : dictGet s.dynResults left with
  | error e =>
    rw [h1] at h
    simp only [Bind.bind, Except.bind] at h
    cases h
  | ok lf =>
    cases h2 : dictGet s.dynResults right with
    | error e =>
      rw [h1, h2] at h
      simp only [Bind.bind, Except.bind] at h
      cases h
    | ok rf =>
      cases h3 : pyDiv (lf - rf) (left - right) with
      | error e =>
        rw [h1, h2] at h
        simp only [Bind.bind, Except.bind, h3] at h
        cases h
      | ok m =>
        simp only [Bind.bind, Except.bind, h3, if_true]
        rfl

/-- C51, the part that holds: a dynamic analysis with a `Decimal` ends only where the same analysis
with a float does, and with the same result; and one that returns 0 or 1 with a float does the same
with a `Decimal`. -/
theorem C51_decimal_partial (s : Slope ℝ) (c : ℝ) (t k) :
    (s.analyseDynamic c true = (t, .ok k) → s.analyseDynamic c false = (t, .ok k)) ∧
    (k ≠ none → s.analyseDynamic c false = (t, .ok k) → s.analyseDynamic c true = (t, .ok k)) := by
  unfold Slope.analyseDynamic
  simp only
  cases maxOffset s.topX s.udls s.length with
  | error e => exact ⟨fun h => (by cases h), fun _ h => by cases h⟩
  | ok left' =>
    simp only
    cases (Slope.tryOffset { s with dynResults := [] } (@OfNat.ofNat ℝ 0 (Lit.natLit 0))) with
    | mk u v =>
    cases v with
    | error e => exact ⟨fun h => (by cases h), fun _ h => by cases h⟩
    | ok f =>
      simp only [andThen_done]
      split
      · exact ⟨id, fun _ => id⟩
      · cases Slope.tryOffset u (left' - 0.01) with
        | mk u v =>
        cases v with
        | error e => exact ⟨fun h => (by cases h), fun _ h => by cases h⟩
        | ok g =>
          simp only [andThen_done]
          split
          · exact ⟨id, fun _ => id⟩
          · constructor
            · intro h
              exfalso
              obtain ⟨w, _, hw, _⟩ := andThen_ok h
              unfold Slope.dynLoop at hw
              simp only [Bind.bind, Except.bind] at hw
              split at hw
              · cases hw
              · rename_i mid hmid
                split at hmid
                · cases hmid
                · split at hmid
                  · cases hmid
                  · split at hmid
                    · cases hmid
                    · simp only [if_true] at hmid
                      cases hmid
            · intro hk h
              obtain ⟨w, _, _, h'⟩ := andThen_ok h
              cases h'
              exact absurd rfl hk

/-- C51 fails: whenever the dynamic analysis with a float gets to the loop and ends, the same
analysis with a `Decimal` raises a `TypeError`. -/
theorem C51_decimal_raises (s : Slope ℝ) (c : ℝ) {t} (h : s.analyseDynamic c false = (t, .ok none)) :
    ∃ u, s.analyseDynamic c true = (u, .error .typeError) := by
  unfold Slope.analyseDynamic at h ⊢
  simp only at h ⊢
  cases hm : maxOffset s.topX s.udls s.length with
  | error e => rw [hm] at h; cases h
  | ok left' =>
    rw [hm] at h
    simp only at h ⊢
    cases ht : (Slope.tryOffset { s with dynResults := [] } (@OfNat.ofNat ℝ 0 (Lit.natLit 0))) with
    | mk u v =>
    rw [ht] at h
    cases v with
    | error e => cases h
    | ok f =>
      simp only [andThen_done] at h ⊢
      split at h
      · cases h
      · rename_i hc
        rw [if_neg hc]
        cases ht2 : Slope.tryOffset u (left' - 0.01) with
        | mk w v =>
        rw [ht2] at h
        cases v with
        | error e => cases h
        | ok g =>
          simp only [andThen_done] at h ⊢
          split at h
          · cases h
          · rename_i hc2
            rw [if_neg hc2]
            obtain ⟨w', x, hw, _⟩ := andThen_ok h
            rw [dynLoop_decimal hw]
            exact ⟨w, rfl⟩

/-! ## C59 -/

/-- C59: every offset recorded by a dynamic analysis lies between the crest and the greatest offset;
the loads are never moved over the crest (if the greatest offset is not negative). -/
theorem C59_offsets_in_range (s : Slope ℝ) (r : Reachable s) (c : ℝ) (dec : Bool) {left : ℝ}
    (hg : GreatestOffset s left) :
    ∀ o f, (o, f) ∈ (s.analyseDynamic c dec).1.dynResults → min left 0 ≤ o ∧ o ≤ max left 0 := by
  have hw := r.wfs
  generalize ht : (s.analyseDynamic c dec).1 = t
  generalize hx : (s.analyseDynamic c dec).2 = x
  have fail : ∀ {u : Slope ℝ} {l o e}, Attempts s l u → u.tryOffset o = (t, .error e) →
      t.dynResults = u.dynResults := by
    intro u l o e h h'
    obtain ⟨_, _, _, _, k⟩ := tryOffset_spec (h.spec hw).1 o
    rw [h'] at k
    exact k e rfl
  have uniq : ∀ {a b}, GreatestOffset s a → GreatestOffset s b → a ≤ b := by
    intro a b ha hb
    rcases ha.1 with h | ⟨p, hp, hd, l, hl, h⟩
    · have := hb.2.1; linarith
    · obtain ⟨l', hl', h'⟩ := hb.2.2 p hp hd
      rw [hl] at hl'
      cases hl'
      linarith
  have key : ∀ {d l : List (ℝ × ℝ)}, Records d l → (∀ a ∈ l, a.1 ∈ Set.uIcc left 0) →
      ∀ o f, (o, f) ∈ d → min left 0 ≤ o ∧ o ≤ max left 0 := by
    intro d l hR hl o f hof
    obtain ⟨l1, l2, rfl, _⟩ := (hR.2 o f).mp hof
    exact hl (o, f) (by simp)
  rcases analyseDynamic_end hw c dec (t := t) (r := x) (by rw [← ht, ← hx]) with ⟨h, _⟩ | ⟨left', hg', hE⟩
  · rw [h]; intro o f h; cases h
  · obtain rfl : left' = left := le_antisymm (uniq hg' hg) (uniq hg hg')
    cases hE with
    | crestFails e => rw [fail (.nil s []) e]; intro o f h; cases h
    | safe h hr _ => exact key hr (by simp)
    | farFails h hr _ e => rw [fail h e]; exact key hr (by simp)
    | failing h hr _ _ => exact key hr (by simp)
    | looped h hr _ _ _ _ hl ho _ => exact key hr (by simpa using fun a b h => ho (a, b) h)
    | loopFails h hr _ _ hl ho h' =>
      have := key hr (by simpa using fun a b h => ho (a, b) h)
      rcases h' with ⟨h', _⟩ | ⟨o, _, h'⟩
      · rw [h']; exact this
      · rw [fail h h']; exact this

/-! ## C58 -/

/-- C58, the part that holds: if no dynamic distributed load lacks a length, the greatest offset is
positive, the loads can be analysed at every offset from the crest to the greatest one, and the factor
of safety at the crest is not exactly the critical value, the dynamic analysis with a float ends
without an exception. What is missing: that last condition (`C58_zero_division`). -/
theorem C58_completes_partial (s : Slope ℝ) (r : Reachable s) (c : ℝ) {left : ℝ}
    (hg : GreatestOffset s left) (h0 : 0 < left)
    (hA : ∀ l u, Attempts s l u → (∀ a ∈ l, 0 ≤ a.1 ∧ a.1 ≤ left) → ∀ o, 0 ≤ o → o ≤ left →
      ∃ v f, Attempt u o f v)
    (hc : ∀ v, ¬ Attempts s [(0, c)] v) :
    ∃ t k, s.analyseDynamic c false = (t, .ok k) := by
  have hw := r.wfs
  have uniq : ∀ {a b}, GreatestOffset s a → GreatestOffset s b → a ≤ b := by
    intro a b ha hb
    rcases ha.1 with h | ⟨p, hp, hd, l, hl, h⟩
    · have := hb.2.1; linarith
    · obtain ⟨l', hl', h'⟩ := hb.2.2 p hp hd
      rw [hl] at hl'
      cases hl'
      linarith
  cases hs : s.analyseDynamic c false with
  | mk t x =>
  cases x with
  | ok k => exact ⟨t, k, rfl⟩
  | error e =>
    exfalso
    rcases analyseDynamic_end hw c false hs with ⟨_, _, p, hp, hd, hn⟩ | ⟨left', hg', hE⟩
    · obtain ⟨l, hl, _⟩ := hg.2.2 p hp hd
      rw [hn] at hl
      cases hl
    · obtain rfl : left' = left := le_antisymm (uniq hg' hg) (uniq hg hg')
      have hu : ∀ o, o ∈ Set.uIcc left' 0 → 0 ≤ o ∧ o ≤ left' := by
        intro o ho
        rw [Set.uIcc_of_ge h0.le] at ho
        exact ho
      cases hE with
      | crestFails e =>
        obtain ⟨v, f, h⟩ := hA [] _ (.nil s []) (by simp) 0 le_rfl h0.le
        obtain ⟨v, h, _⟩ := h.try
        rw [h] at e; cases e
      | farFails h _ _ e =>
        obtain ⟨v, f, h⟩ := hA _ _ h (by simpa using h0.le) left' h0.le le_rfl
        obtain ⟨v, h, _⟩ := h.try
        rw [h] at e; cases e
      | loopFails h hr hf hcg _ ho h' =>
        rcases h' with ⟨h', h'', _⟩ | ⟨o, hoo, h'⟩
        · rcases (h'' rfl).2 with h'' | h''
          · exact h0.ne' h''
          · obtain ⟨v, hv⟩ := h.first rfl
            rw [h''] at hv
            exact hc v hv
        · have := hA _ _ h (by
            intro a ha
            rcases List.mem_cons.mp ha with rfl | ha
            · exact ⟨le_rfl, h0.le⟩
            · rcases List.mem_cons.mp ha with rfl | ha
              · exact ⟨h0.le, le_rfl⟩
              · exact hu _ (ho a ha)) o (hu o hoo).1 (hu o hoo).2
          obtain ⟨v, f, h⟩ := this
          obtain ⟨v, h, _⟩ := h.try
          rw [h] at h'; cases h'

theorem exDyn_attempts {c e : ℝ} (h3 : 3 ≤ e) (h4 : e ≤ 4) (hc : c ≠ 0) :
    ∀ l u, Attempts (exDyn c e 0) l u → (∀ a ∈ l, 0 ≤ a.1 ∧ a.1 ≤ 2.99) → ∀ (o : ℝ), 0 ≤ o → o ≤ 2.99 →
      ∃ v f, Attempt u o f v := by
  intro l t hA hl o h0 ho
  obtain ⟨⟨o', ht⟩, _⟩ := DynState.attempts hA (exDyn_state h3 h4 (by norm_num)) h3 h4 hc
    (fun a ha => ⟨(hl a ha).1, by have := (hl a ha).2; norm_num at this ⊢; linarith⟩)
  obtain ⟨v, hv⟩ := ht.attempt h3 h4 hc h0 (by norm_num at ho ⊢; linarith)
  exact ⟨v, _, hv⟩

/-- An analysis that gets to the loop and ends: the critical value is reached at the greatest offset. -/
theorem exDyn_looped : ∃ t, (exDyn 5 4 0).analyseDynamic (cFos 5 4 2.99) false = (t, .ok none) := by
  have h3 : (3 : ℝ) ≤ 4 := by norm_num
  have h4 : (4 : ℝ) ≤ 4 := le_rfl
  have h5 : (5 : ℝ) ≠ 0 := by norm_num
  have hs := exDyn_state (c := 5) (e := 4) (o := 0) h3 h4 (by norm_num)
  have hr := exDyn_reachable (c := 5) (e := 4) (o := 0) h3 h4 (by norm_num)
  have l1 : cFos 5 4 0 < cFos 5 4 2.99 := cFos_lt h3 h4 h5 (by norm_num) (by norm_num [abs_of_pos])
  obtain ⟨t, k, ht⟩ := C58_completes_partial (exDyn 5 4 0) hr (cFos 5 4 2.99) (exDyn_greatest _ _ _)
    (by norm_num) (exDyn_attempts h3 h4 h5) (by
      intro v hv
      have := (DynState.attempts hv hs h3 h4 h5 (by norm_num)).2 _ (List.mem_singleton.mpr rfl)
      simp only at this
      linarith)
  refine ⟨t, ?_⟩
  obtain ⟨left, hg, h⟩ := C49_return_codes_partial _ hr _ _ ht
  have hleft : left = 2.99 := by
    rcases hg.1 with h | ⟨p, hp, _⟩
    · rw [show (exDyn 5 4 0).length = 3 from rfl] at h
      norm_num at h ⊢
      linarith
    · cases hp
  subst hleft
  rcases h with ⟨_, f, hA, hf⟩ | ⟨_, f, g, hA, hf, hg⟩ | ⟨rfl, _⟩
  · have := (DynState.attempts hA hs h3 h4 h5 (by norm_num)).2 (0, f) (by simp)
    simp only at this
    linarith
  · have := (DynState.attempts hA hs h3 h4 h5 (by
      intro a ha
      simp only [List.mem_cons, List.not_mem_nil, or_false] at ha
      rcases ha with rfl | rfl <;> norm_num)).2 (2.99, g) (by simp)
    simp only at this
    linarith
  · exact ht

/-- C51 fails on a slope that can be built with the API. -/
theorem C51_violated : ∃ (s : Slope ℝ) (c : ℝ) (t u : Slope ℝ), Reachable s ∧ s.analyseDynamic c false = (t, .ok none) ∧
    s.analyseDynamic c true = (u, .error .typeError) := by
  obtain ⟨t, ht⟩ := exDyn_looped
  obtain ⟨u, hu⟩ := C51_decimal_raises _ _ ht
  exact ⟨_, _, t, u, exDyn_reachable (by norm_num) (by norm_num) (by norm_num), ht, hu⟩

/-- Cases of C48 and C59: an analysis with at least three attempts, whose offsets lie in [0, 2.99]. -/
example : ∃ t l, (exDyn 5 4 0).analyseDynamic (cFos 5 4 2.99) false = (t, .ok none) ∧ 3 ≤ l.length ∧ l.length ≤ 12 ∧
    Attempts (exDyn 5 4 0) l t ∧ Records t.dynResults l ∧
    ∀ o f, (o, f) ∈ t.dynResults → 0 ≤ o ∧ o ≤ 2.99 := by
  obtain ⟨t, ht⟩ := exDyn_looped
  have hr := exDyn_reachable (c := 5) (e := 4) (o := 0) (by norm_num) (by norm_num) (by norm_num)
  have h59 := C59_offsets_in_range _ hr (cFos 5 4 2.99) false (exDyn_greatest 5 4 0)
  rw [ht] at h59
  rcases analyseDynamic_end hr.wfs _ _ ht with ⟨_, h, _⟩ | ⟨left, _, hE⟩
  · cases h
  · cases hE with
    | @looped f g m h hR _ _ _ hm hl _ _ =>
      refine ⟨t, (0, f) :: (left, g) :: m, ht, ?_, by simp only [List.length_cons]; omega, h, hR, ?_⟩
      · have := List.length_pos_iff.mpr hm
        simp only [List.length_cons]; omega
      · intro o f hof
        have := h59 o f hof
        rw [min_eq_right (by norm_num), max_eq_left (by norm_num)] at this
        exact this

theorem dyn_zero_division {s u v w : Slope ℝ} {c g left' left : ℝ} (hl : left = left' - 0.01) (h0 : left ≠ 0)
    (hm : maxOffset s.topX s.udls s.length = .ok left')
    (e1 : ({ s with dynResults := [] } : Slope ℝ).tryOffset 0 = (u, .ok c))
    (e2 : u.tryOffset left = (v, .ok g)) (e3 : v.tryOffset 0 = (w, .ok c)) (hg : c < g)
    (hr : pyRound c 3 < c) (hw : WFS s) :
    s.analyseDynamic c false = (w, .error .zeroDivision) := by
  obtain ⟨A1, R1⟩ := attempts_step hw (.nil s []) Records.nil e1
  obtain ⟨A2, R2⟩ := attempts_step hw A1 R1 e2
  obtain ⟨A3, R3⟩ := attempts_step hw A2 R2 e3
  have d1 : dictGet v.dynResults left = .ok g :=
    dictGet_mem R2.1 ((R2.2 _ _).mpr ⟨[(0, c)], [], rfl, by simp⟩)
  have d2 : dictGet v.dynResults 0 = .ok c :=
    dictGet_mem R2.1 ((R2.2 _ _).mpr ⟨[], [(left, g)], rfl, by simpa using h0.symm⟩)
  have d3 : dictGet w.dynResults 0 = .ok c :=
    dictGet_mem R3.1 ((R3.2 _ _).mpr ⟨[(0, c), (left, g)], [], rfl, by simp⟩)
  have p1 : pyDiv (g - c) (left - 0) = .ok ((g - c) / (left - 0)) := by simp [pyDiv, h0]
  have hm0 : (g - c) / (left - 0) ≠ 0 := div_ne_zero (by linarith [hg] : g - c ≠ 0) (by simpa using h0)
  have p2 : pyDiv (c - c) ((g - c) / (left - 0)) = .ok ((c - c) / ((g - c) / (left - 0))) := by
    simp only [pyDiv, pyEq_real, lit_zero, hm0, decide_false, Bool.false_eq_true, if_false]
  have p3 : pyDiv (c - c) (0 - 0) = .error .zeroDivision := by simp [pyDiv]
  have loop : v.dynLoop c false 10 left 0 0 = (w, .error .zeroDivision) := by
    unfold Slope.dynLoop
    simp only [d1, d2, Bind.bind, Except.bind, p1, p2, Bool.false_eq_true, if_false, pure, Except.pure]
    rw [sub_self, zero_div, add_zero, e3, andThen_done, if_neg, if_neg (lt_irrefl c)]
    · unfold Slope.dynLoop
      simp only [d3, Bind.bind, Except.bind, p3]
    · simp [hr]
  unfold Slope.analyseDynamic
  simp only
  rw [hm]
  simp only
  rw [show (@OfNat.ofNat ℝ 0 (Lit.natLit 0)) = 0 from lit_zero, e1]
  simp only [andThen_done]
  rw [if_neg (lt_irrefl c), ← hl, e2]
  simp only [andThen_done]
  rw [if_neg (not_lt.mpr hg.le), loop]
  rfl

/-- C58 fails: a slope with loads that can be analysed at every offset from the crest to the greatest
one, for which the dynamic analysis raises a `ZeroDivisionError`: the critical value is the factor of
safety at the crest. -/
theorem C58_zero_division : ∃ s c left t, Reachable s ∧ GreatestOffset s left ∧ 0 < left ∧
    (∀ l u, Attempts s l u → (∀ a ∈ l, 0 ≤ a.1 ∧ a.1 ≤ left) → ∀ o, 0 ≤ o → o ≤ left →
      ∃ v f, Attempt u o f v) ∧
    s.analyseDynamic c false = (t, .error .zeroDivision) := by
  have h3 : (3 : ℝ) ≤ 4 := by norm_num
  have h4 : (4 : ℝ) ≤ 4 := le_rfl
  have hD := cD_pos h3 h4
  have hK := cK_pos h3 h4
  have hL := cL_nonneg h3 h4 0
  obtain ⟨c, hc, hF⟩ : ∃ c : ℝ, c ≠ 0 ∧ cFos c 4 0 = 1.5004 := by
    refine ⟨1.5004 * (cD 4 + cL 4 0) / cK 4, by positivity, ?_⟩
    unfold cFos
    rw [abs_of_pos (by positivity)]
    field_simp
  have hs := exDyn_state (c := c) (e := 4) (o := 0) h3 h4 (by norm_num)
  obtain ⟨u, e1, hu⟩ := (hs.dyn []).try h3 h4 hc (o' := 0) le_rfl (by norm_num)
  obtain ⟨v, e2, hv⟩ := hu.try h3 h4 hc (o' := 2.99) (by norm_num) (by norm_num)
  obtain ⟨w, e3, hw⟩ := hv.try h3 h4 hc (o' := 0) le_rfl (by norm_num)
  have l1 : cFos c 4 0 < cFos c 4 2.99 := cFos_lt h3 h4 hc (by norm_num) (by norm_num [abs_of_pos])
  rw [hF] at e1 e3 l1
  refine ⟨exDyn c 4 0, 1.5004, 2.99, w, exDyn_reachable h3 h4 (by norm_num), exDyn_greatest _ _ _,
    by norm_num, ?_, ?_⟩
  · exact exDyn_attempts h3 h4 hc
  · refine dyn_zero_division (left' := 3) (by norm_num) (by norm_num) (exDyn_maxOffset _ _ _) e1 e2 e3 l1
      ?_ hs.wfs
    have hf : ⌊(15004 / 10000 * 1000 : ℝ)⌋ = 1500 := by
      rw [Int.floor_eq_iff]; norm_num
    have : roundInt (1.5004 * ((10 ^ 3 : ℕ) : ℝ)) = 1500 := by
      unfold roundInt
      have e : (1.5004 * ((10 ^ 3 : ℕ) : ℝ)) = 15004 / 10000 * 1000 := by norm_num
      rw [e]
      have hf' : PyNum.floor (15004 / 10000 * 1000 : ℝ) = 1500 := hf
      simp only [hf', ofInt_real]
      rw [if_pos (by norm_num)]
    unfold pyRound
    rw [this, ofInt_real]
    norm_num

end PySlope
