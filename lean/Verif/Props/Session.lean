import Verif.Spec.Session
import Verif.Props.WebTotal

/-! # What the pages of the web application show (C77) -/

namespace PySlope

variable {K : Type} [PyNum K]

/-- What is stored: nothing, nothing since a reset, the defaults, or a form. -/
inductive Shown (K : Type) where
  | nothing
  | cleared
  | defaults
  | form (f : WebForm K)

/-- The session stores what should be shown. -/
def Stores (isColor : String → Bool) (ses : Session K) : Shown K → Prop
  | .nothing => ses = Session.fresh
  | .cleared => ses = { forms := some none, plot := some none, search := some [] }
  | .defaults => ∃ s search p, firstSlope isColor = .ok s ∧ Shows s search p ∧
      ses = { forms := some none, plot := some (some p), search := some search }
  | .form f => ∃ s search p, f.createSlope isColor = .ok s ∧ Shows s search p ∧
      ses = { forms := some (some f), plot := some (some p), search := some search }

theorem Slope.pageData_ok {s : Slope K} {x : List (PagePlane K) × CriticalPlot K}
    (h : s.pageData = .ok x) : Shows s x.1 x.2 := by
  unfold Slope.pageData at h
  simp only [bind, Except.bind] at h
  split at h
  · cases h
  · rename_i p hp
    cases h
    refine ⟨hp, ?_, ?_⟩
    · rw [List.map_map]; exact List.map_id'' (fun _ => rfl) _
    · intro q hq
      obtain ⟨r, _, rfl⟩ := List.mem_map.mp hq
      rfl

theorem Slope.pageData_error {s : Slope K} {e : PyErr} :
    s.pageData = .error e ↔ s.plotCritical = .error e := by
  unfold Slope.pageData
  simp only [bind, Except.bind]
  constructor
  · intro h
    split at h
    · rename_i e' he; cases h; exact he
    · cases h
  · intro h; rw [h]

/-- A plot of the critical plane needs a plane. -/
theorem Shows.ne {s : Slope K} {search : List (PagePlane K)} {p : CriticalPlot K}
    (h : Shows s search p) : search ≠ [] := by
  rintro rfl
  obtain ⟨h1, h2, _⟩ := h
  unfold Slope.plotCritical at h1
  simp only [bind, Except.bind, ← h2, List.map_nil] at h1
  split at h1 <;> cases h1

/-- What a history leaves to be shown. -/
inductive After (isColor : String → Bool) : List (Request K) → Shown K → Prop
  | start : After isColor [] .nothing
  | reset {h x} : After isColor h x → After isColor (h ++ [.reset]) .cleared
  | pdf {h x m} : After isColor h x → After isColor (h ++ [.pdf m]) x
  | invalid {h x} : After isColor h x → After isColor (h ++ [.post none]) x
  | refused {h x f} : After isColor h x → ¬ Accepted isColor f → After isColor (h ++ [.post (some f)]) x
  | accepted {h x f} : After isColor h x → Accepted isColor f →
      After isColor (h ++ [.post (some f)]) (.form f)
  | again {h f} : After isColor h (.form f) → After isColor (h ++ [.get]) (.form f)
  | first {h x} : After isColor h x → (∀ f, x ≠ .form f) →
      (∃ s p, firstSlope (K := K) isColor = .ok s ∧ s.plotCritical = .ok p) →
      After isColor (h ++ [.get]) .defaults
  | failed {h x} : After isColor h x → (∀ f, x ≠ .form f) →
      (¬ ∃ s p, firstSlope (K := K) isColor = .ok s ∧ s.plotCritical = .ok p) →
      After isColor (h ++ [.get]) x

theorem Session.after_append (isColor : String → Bool) (ses : Session K) (h : List (Request K))
    (q : Request K) :
    ses.after isColor (h ++ [q]) = ((ses.after isColor h).serve isColor q).1 := by
  induction h generalizing ses with
  | nil => rfl
  | cons r h ih => exact ih _

/-- The answer to a page request when no form is stored. -/
theorem Session.get_first (isColor : String → Bool) {ses : Session K} {x : Shown K}
    (hs : Stores isColor ses x) (hx : ∀ f, x ≠ .form f) :
    (∃ s search p, firstSlope isColor = .ok s ∧ Shows s search p ∧
      ses.get isColor = ({ forms := some none, plot := some (some p), search := some search },
        .page none search p)) ∨
    ((¬ ∃ s p, firstSlope (K := K) isColor = .ok s ∧ s.plotCritical = .ok p) ∧
      ∃ e, ses.get isColor = (ses, .failed e)) := by
  have hf : ∀ f, ses.forms ≠ some (some f) := by
    intro f
    cases x with
    | nothing => rw [show ses = _ from hs]; simp [Session.fresh]
    | cleared => rw [show ses = _ from hs]; simp
    | defaults => obtain ⟨_, _, _, _, _, rfl⟩ := hs; simp
    | form f => exact absurd rfl (hx f)
  have key : ses.get isColor = match (do let s ← firstSlope isColor; s.pageData) with
    | .error e => (ses, .failed e)
    | .ok (search, p) =>
      ({ forms := some none, plot := some (some p), search := some search }, .page none search p) := by
    unfold Session.get
    split
    · rename_i f _ _ _ h _ _
      exact absurd h (hf f)
    · rfl
  rw [key]
  cases h1 : firstSlope (K := K) isColor with
  | error e =>
    right
    refine ⟨?_, e, rfl⟩
    rintro ⟨s, p, h, _⟩
    cases h
  | ok s =>
    simp only [bind, Except.bind]
    cases h2 : s.pageData with
    | error e =>
      right
      refine ⟨?_, e, rfl⟩
      rintro ⟨s', p, h, h'⟩
      cases h
      rw [Slope.pageData_error.mp h2] at h'
      cases h'
    | ok x =>
      exact .inl ⟨s, x.1, x.2, rfl, Slope.pageData_ok h2, rfl⟩

/-- The answer to a page request when a form is stored. -/
theorem Session.get_form (isColor : String → Bool) {ses : Session K} {f : WebForm K}
    (hs : Stores isColor ses (.form f)) : ∃ s search p, f.createSlope isColor = .ok s ∧
      Shows s search p ∧ ses.get isColor = (ses, .page (some f) search p) := by
  obtain ⟨s, search, p, h1, h2, rfl⟩ := hs
  refine ⟨s, search, p, h1, h2, ?_⟩
  cases search with
  | nil => exact absurd rfl h2.ne
  | cons q qs => rfl

/-- The answer to a form. -/
theorem Session.post_form (isColor : String → Bool) (ses : Session K) (f : WebForm K) :
    (∃ s search p, f.createSlope isColor = .ok s ∧ Shows s search p ∧
      ses.post isColor (some f) =
        ({ forms := some (some f), plot := some (some p), search := some search },
          .page (some f) search p)) ∨
    (¬ Accepted isColor f ∧ ∃ e, ses.post isColor (some f) = (ses, .failed e) ∧
      (f.createSlope isColor = .error e ∨
        ∃ s, f.createSlope isColor = .ok s ∧ s.plotCritical = .error e)) := by
  unfold Session.post
  simp only
  cases h1 : f.createSlope isColor with
  | error e =>
    right
    refine ⟨?_, e, rfl, .inl rfl⟩
    rintro ⟨s, p, h, _⟩
    rw [h1] at h
    cases h
  | ok s =>
    simp only [bind, Except.bind]
    cases h2 : s.pageData with
    | error e =>
      right
      refine ⟨?_, e, rfl, .inr ⟨s, rfl, Slope.pageData_error.mp h2⟩⟩
      rintro ⟨s', p, h, h'⟩
      rw [h1] at h
      cases h
      rw [Slope.pageData_error.mp h2] at h'
      cases h'
    | ok x => exact .inl ⟨s, x.1, x.2, rfl, Slope.pageData_ok h2, rfl⟩

theorem Shows.accepted {isColor : String → Bool} {f : WebForm K} {s : Slope K}
    {search : List (PagePlane K)} {p : CriticalPlot K} (h : f.createSlope isColor = .ok s)
    (h' : Shows s search p) : Accepted isColor f := ⟨s, p, h, h'.1⟩

/-- After every history the session stores what the history leaves. -/
theorem after_stores (isColor : String → Bool) (h : List (Request K)) :
    ∃ x, After isColor h x ∧ Stores isColor (Session.fresh.after isColor h) x := by
  induction h using List.reverseRecOn with
  | nil => exact ⟨_, .start, rfl⟩
  | append_singleton h q ih =>
    obtain ⟨x, hx, hs⟩ := ih
    rw [Session.after_append]
    cases q with
    | reset => exact ⟨_, .reset hx, rfl⟩
    | pdf m => exact ⟨x, .pdf hx, hs⟩
    | post f =>
      cases f with
      | none => exact ⟨x, .invalid hx, hs⟩
      | some f =>
        rcases Session.post_form isColor (Session.fresh.after isColor h) f with
          ⟨s, search, p, h1, h2, h3⟩ | ⟨h1, e, h3, _⟩
        · refine ⟨.form f, .accepted hx (h2.accepted h1), s, search, p, h1, h2, ?_⟩
          exact congrArg Prod.fst h3
        · refine ⟨x, .refused hx h1, ?_⟩
          rw [show ((Session.fresh.after isColor h).serve isColor (.post (some f))).1 = _ from
            congrArg Prod.fst h3]
          exact hs
    | get =>
      by_cases hf : ∃ f, x = .form f
      · obtain ⟨f, rfl⟩ := hf
        obtain ⟨s, search, p, h1, h2, h3⟩ := Session.get_form isColor hs
        refine ⟨.form f, .again hx, ?_⟩
        rw [show ((Session.fresh.after isColor h).serve isColor .get).1 = _ from congrArg Prod.fst h3]
        exact hs
      · push Not at hf
        rcases Session.get_first isColor hs hf with ⟨s, search, p, h1, h2, h3⟩ | ⟨h1, e, h3⟩
        · refine ⟨.defaults, .first hx hf ⟨s, p, h1, h2.1⟩, s, search, p, h1, h2, ?_⟩
          exact congrArg Prod.fst h3
        · refine ⟨x, .failed hx hf h1, ?_⟩
          rw [show ((Session.fresh.after isColor h).serve isColor .get).1 = _ from congrArg Prod.fst h3]
          exact hs

/-- A form is left exactly when it is the last one accepted. -/
theorem After.form_iff {isColor : String → Bool} {h : List (Request K)} {x : Shown K}
    (hx : After isColor h x) (f : WebForm K) : x = .form f ↔ LastAccepted isColor h f := by
  have snoc : ∀ {h : List (Request K)} {q : Request K} {f : WebForm K},
      LastAccepted isColor h f → q ≠ .reset → (∀ g, q = .post (some g) → ¬ Accepted isColor g) →
      LastAccepted isColor (h ++ [q]) f := by
    rintro h q f ⟨b, c, rfl, ha, hr, hp⟩ hq hg
    refine ⟨b, c ++ [q], by simp, ha, by simpa using ⟨hr, fun h => hq h.symm⟩, ?_⟩
    intro g hgm
    rcases List.mem_append.mp hgm with h | h
    · exact hp g h
    · exact hg g (List.mem_singleton.mp h).symm
  have unsnoc : ∀ {h : List (Request K)} {q : Request K} {f : WebForm K},
      LastAccepted isColor (h ++ [q]) f →
      (q = .post (some f) ∧ Accepted isColor f) ∨ (q ≠ .reset ∧
        (∀ g, q = .post (some g) → ¬ Accepted isColor g) ∧ LastAccepted isColor h f) := by
    rintro h q f ⟨b, c, e, ha, hr, hp⟩
    rcases List.eq_nil_or_concat c with rfl | ⟨c, q', rfl⟩
    · left
      have := List.append_inj' e (by simp)
      simp only [List.cons.injEq, and_true] at this
      exact ⟨this.2, ha⟩
    · right
      rw [List.concat_eq_append] at *
      have e' : h ++ [q] = (b ++ .post (some f) :: c) ++ [q'] := by rw [e]; simp
      obtain ⟨e1, e2⟩ := List.append_inj' e' rfl
      simp only [List.cons.injEq, and_true] at e2
      subst e2
      refine ⟨?_, ?_, b, c, e1, ha, ?_, ?_⟩
      · rintro rfl; exact hr (by simp)
      · rintro g rfl; exact hp g (by simp)
      · intro hm; exact hr (by simp [hm])
      · intro g hm; exact hp g (by simp [hm])
  induction hx with
  | start =>
    refine ⟨fun h => (by cases h), ?_⟩
    rintro ⟨b, c, e, _⟩
    simp at e
  | reset _ _ =>
    refine ⟨fun h => (by cases h), fun h => ?_⟩
    rcases unsnoc h with ⟨h, _⟩ | ⟨h, _⟩
    · cases h
    · exact absurd rfl h
  | pdf _ ih =>
    refine ih.trans ⟨fun h => snoc h (by simp) (by simp), fun h => ?_⟩
    rcases unsnoc h with ⟨h, _⟩ | ⟨_, _, h⟩
    · cases h
    · exact h
  | invalid _ ih =>
    refine ih.trans ⟨fun h => snoc h (by simp) (by simp), fun h => ?_⟩
    rcases unsnoc h with ⟨h, _⟩ | ⟨_, _, h⟩
    · cases h
    · exact h
  | @refused h x g _ hn ih =>
    refine ih.trans ⟨fun h => snoc h (by simp) (by rintro g' h; cases h; exact hn), fun h => ?_⟩
    rcases unsnoc h with ⟨h, ha⟩ | ⟨_, _, h⟩
    · cases h; exact absurd ha hn
    · exact h
  | @accepted h x g _ ha _ =>
    constructor
    · rintro h'
      cases h'
      exact ⟨h, [], rfl, ha, by simp, by simp⟩
    · intro h
      rcases unsnoc h with ⟨h, _⟩ | ⟨_, h, _⟩
      · cases h; rfl
      · exact absurd ha (h g rfl)
  | again _ ih =>
    refine ih.trans ⟨fun h => snoc h (by simp) (by simp), fun h => ?_⟩
    rcases unsnoc h with ⟨h, _⟩ | ⟨_, _, h⟩
    · cases h
    · exact h
  | first _ hx _ ih =>
    refine ⟨fun h => (by cases h), fun h => ?_⟩
    rcases unsnoc h with ⟨h, _⟩ | ⟨_, _, h⟩
    · cases h
    · exact absurd (ih.mpr h) (hx f)
  | failed _ hx _ ih =>
    refine ih.trans ⟨fun h => snoc h (by simp) (by simp), fun h => ?_⟩
    rcases unsnoc h with ⟨h, _⟩ | ⟨_, _, h⟩
    · cases h
    · exact h

/-- C77: whatever the visitor did before, the page shows the last form that was accepted since the
last reset, with the planes and the plot of the slope entered in it. If there is none it shows the
defaults, with the planes and the plot of the default slope, or fails because that slope cannot be
analysed or drawn. -/
theorem C77_page (isColor : String → Bool) (h : List (Request K)) :
    let answer := ((Session.fresh.after isColor h).serve isColor .get).2
    (∀ f, LastAccepted isColor h f → ∃ s search p, f.createSlope isColor = .ok s ∧
      Shows s search p ∧ answer = .page (some f) search p) ∧
    ((∀ f, ¬ LastAccepted isColor h f) →
      (∃ s search p, firstSlope isColor = .ok s ∧ Shows s search p ∧ answer = .page none search p) ∨
      ((¬ ∃ s p, firstSlope (K := K) isColor = .ok s ∧ s.plotCritical = .ok p) ∧
        ∃ e, answer = .failed e)) := by
  intro answer
  obtain ⟨x, hx, hs⟩ := after_stores isColor h
  constructor
  · intro f hf
    obtain rfl := (hx.form_iff f).mpr hf
    obtain ⟨s, search, p, h1, h2, h3⟩ := Session.get_form isColor hs
    exact ⟨s, search, p, h1, h2, congrArg Prod.snd h3⟩
  · intro hn
    rcases Session.get_first isColor hs (fun f e => hn f ((hx.form_iff f).mp e)) with
      ⟨s, search, p, h1, h2, h3⟩ | ⟨h1, e, h3⟩
    · exact .inl ⟨s, search, p, h1, h2, congrArg Prod.snd h3⟩
    · exact .inr ⟨h1, e, congrArg Prod.snd h3⟩

/-- C77, the answer to a form: the planes and the plot of the slope entered, or, if that slope cannot
be built, analysed or drawn, the exception that says so. A form that is not accepted changes nothing
of what is stored. -/
theorem C77_form (isColor : String → Bool) (ses : Session K) (f : WebForm K) :
    (Accepted isColor f → ∃ s search p, f.createSlope isColor = .ok s ∧ Shows s search p ∧
      (ses.serve isColor (.post (some f))).2 = .page (some f) search p) ∧
    (¬ Accepted isColor f → (ses.serve isColor (.post (some f))).1 = ses ∧
      ∃ e, (ses.serve isColor (.post (some f))).2 = .failed e ∧ (f.createSlope isColor = .error e ∨
        ∃ s, f.createSlope isColor = .ok s ∧ s.plotCritical = .error e)) := by
  rcases Session.post_form isColor ses f with ⟨s, search, p, h1, h2, h3⟩ | ⟨h1, e, h3, h4⟩
  · exact ⟨fun _ => ⟨s, search, p, h1, h2, congrArg Prod.snd h3⟩,
      fun h => absurd (h2.accepted h1) h⟩
  · exact ⟨fun h => absurd h h1, fun _ => ⟨congrArg Prod.fst h3, e, congrArg Prod.snd h3, h4⟩⟩

/-- C77, a reset, and a form that does not pass its checks: the browser is sent on, and after it has
followed the redirections the page is that of a visitor who has done nothing yet. -/
theorem C77_reset (isColor : String → Bool) (ses : Session K) (h : List (Request K)) :
    (ses.serve isColor .reset).2 = .toIndex ∧ (ses.serve isColor (.post none)).2 = .toReset ∧
    ((Session.fresh.after isColor (h ++ [.reset])).serve isColor .get).2 =
      ((Session.fresh : Session K).serve isColor .get).2 := by
  refine ⟨rfl, rfl, ?_⟩
  rw [Session.after_append]
  change (Session.get isColor _).2 = (Session.get isColor _).2
  unfold Session.get Session.serve Session.reset Session.fresh
  simp only
  cases (do let s ← firstSlope (K := K) isColor; s.pageData) <;> rfl

/-- A visitor who was shown a page since the last reset has a form or the defaults. -/
theorem After.visited {isColor : String → Bool} {h : List (Request K)} {x : Shown K}
    (hx : After isColor h x) (hv : Visited h)
    (ok : ∃ s p, firstSlope (K := K) isColor = .ok s ∧ s.plotCritical = .ok p) :
    x = .defaults ∨ ∃ f, x = .form f := by
  have unsnoc : ∀ {h : List (Request K)} {q : Request K}, Visited (h ++ [q]) →
      q ≠ .reset ∧ (q ≠ .get → Visited h) := by
    rintro h q ⟨b, c, e, hr⟩
    rcases List.eq_nil_or_concat c with rfl | ⟨c, q', rfl⟩
    · have := List.append_inj' e (by simp)
      simp only [List.cons.injEq, and_true] at this
      rw [this.2]
      exact ⟨by simp, fun h => absurd rfl h⟩
    · rw [List.concat_eq_append] at *
      have e' : h ++ [q] = (b ++ .get :: c) ++ [q'] := by rw [e]; simp
      obtain ⟨e1, e2⟩ := List.append_inj' e' rfl
      simp only [List.cons.injEq, and_true] at e2
      subst e2
      refine ⟨?_, fun _ => ⟨b, c, e1, ?_⟩⟩
      · rintro rfl; exact hr (by simp)
      · intro hm; exact hr (by simp [hm])
  induction hx with
  | start => obtain ⟨b, c, e, _⟩ := hv; simp at e
  | reset _ _ => exact absurd rfl (unsnoc hv).1
  | pdf _ ih => exact ih ((unsnoc hv).2 (by simp))
  | invalid _ ih => exact ih ((unsnoc hv).2 (by simp))
  | refused _ _ ih => exact ih ((unsnoc hv).2 (by simp))
  | accepted _ _ _ => exact .inr ⟨_, rfl⟩
  | again _ _ => exact .inr ⟨_, rfl⟩
  | first _ _ _ _ => exact .inl rfl
  | failed _ _ hn _ => exact absurd ok hn

/-- What `pdf` makes of a stored slope is what `plot_all_planes` draws. -/
theorem Session.pdf_of {s : Slope K} {search : List (PagePlane K)} {p : CriticalPlot K}
    (h : Shows s search p) {ses : Session K} (h1 : ses.plot = some (some p))
    (h2 : ses.search = some search) (m : Option K) :
    (m = none → (ses.pdf m).2 = .failed .valueError) ∧
    (∀ M, m = some M →
      (∃ lines, s.plotAllPlanes (some M) = .ok (p, lines) ∧ (ses.pdf m).2 = .report p lines) ∨
      (∃ e, s.plotAllPlanes (some M) = .error e ∧ (ses.pdf m).2 = .failed e)) := by
  obtain ⟨q, qs, rfl⟩ := List.exists_cons_of_ne_nil h.ne
  constructor
  · rintro rfl
    unfold Session.pdf
    simp only [h1, h2]
  · rintro M rfl
    have hp : s.plotAllPlanes (some M) = (planeTraces (some M) ((q :: qs).map Prod.fst)).map
        fun ts => (p, ts.reverse) := by
      unfold Slope.plotAllPlanes
      rw [h.1, h.2.1]
      simp only [bind, Except.bind]
      cases planeTraces (some M) s.search <;> rfl
    rw [hp]
    unfold Session.pdf
    simp only [h1, h2]
    cases planeTraces (some M) ((q :: qs).map Prod.fst) with
    | error e => exact .inr ⟨e, rfl, rfl⟩
    | ok ts => exact .inl ⟨_, rfl, rfl⟩

/-- C78: the report is what `plot_all_planes` draws for the slope the page shows: the one of the last
form accepted since the last reset, or else, if the visitor was shown the page since, the default
one. The factor must be a number. -/
theorem C78_report (isColor : String → Bool) (h : List (Request K)) (m : Option K) {s : Slope K}
    (hs : (∃ f, LastAccepted isColor h f ∧ f.createSlope isColor = .ok s) ∨
      ((∀ f, ¬ LastAccepted isColor h f) ∧ Visited h ∧ firstSlope isColor = .ok s ∧
        ∃ p, s.plotCritical = .ok p)) :
    let answer := ((Session.fresh.after isColor h).serve isColor (.pdf m)).2
    (m = none → answer = .failed .valueError) ∧
    (∀ M, m = some M →
      (∃ p lines, s.plotAllPlanes (some M) = .ok (p, lines) ∧ answer = .report p lines) ∨
      (∃ e, s.plotAllPlanes (some M) = .error e ∧ answer = .failed e)) := by
  intro answer
  obtain ⟨x, hx, st⟩ := after_stores isColor h
  obtain ⟨search, p, h1, h2, h3⟩ : ∃ search p, Shows s search p ∧
      (Session.fresh.after isColor h).plot = some (some p) ∧
      (Session.fresh.after isColor h).search = some search := by
    rcases hs with ⟨f, hf, hc⟩ | ⟨hn, hv, hc, p, hp⟩
    · obtain rfl := (hx.form_iff f).mpr hf
      obtain ⟨s', search, p, h1, h2, h3⟩ := st
      rw [hc] at h1
      cases h1
      exact ⟨search, p, h2, by rw [h3], by rw [h3]⟩
    · rcases hx.visited hv ⟨s, p, hc, hp⟩ with rfl | ⟨f, rfl⟩
      · obtain ⟨s', search, p, h1, h2, h3⟩ := st
        rw [hc] at h1
        cases h1
        exact ⟨search, p, h2, by rw [h3], by rw [h3]⟩
      · exact absurd ((hx.form_iff f).mp rfl) (hn f)
  obtain ⟨a, b⟩ := Session.pdf_of h1 h2 h3 m
  refine ⟨a, fun M hM => ?_⟩
  rcases b M hM with ⟨l, b1, b2⟩ | b
  · exact .inl ⟨p, l, b1, b2⟩
  · exact .inr b

/-- C78, when nothing is stored: a visitor who was shown nothing gets an exception, and one who was
shown nothing since a reset is sent to the page. -/
theorem C78_no_report (isColor : String → Bool) (h : List (Request K)) (m : Option K)
    (idle : List (Request K))
    (hi : ∀ q ∈ idle, q = .post none ∨ (∃ M, q = .pdf M) ∨
      ∃ f, q = .post (some f) ∧ ¬ Accepted isColor f) :
    ((Session.fresh.after isColor idle).serve isColor (.pdf m)).2 =
      (.failed .keyError : Response K) ∧
    ((Session.fresh.after isColor (h ++ .reset :: idle)).serve isColor (.pdf m)).2 =
      (.toIndex : Response K) := by
  have key : ∀ ses : Session K, ses.after isColor idle = ses := by
    clear h
    induction idle with
    | nil => intro ses; rfl
    | cons q rest ih =>
      intro ses
      have : (ses.serve isColor q).1 = ses := by
        rcases hi q List.mem_cons_self with rfl | ⟨M, rfl⟩ | ⟨f, rfl, hf⟩
        · rfl
        · rfl
        · exact ((C77_form isColor ses f).2 hf).1
      change Session.after isColor _ rest = _
      rw [this]
      exact ih (fun q hq => hi q (List.mem_cons_of_mem _ hq)) ses
  constructor
  · rw [key]; rfl
  · have app : ∀ (a b : List (Request K)) (ses : Session K),
        ses.after isColor (a ++ b) = (ses.after isColor a).after isColor b := by
      intro a b
      induction a with
      | nil => intro ses; rfl
      | cons q a ih => intro ses; exact ih _
    rw [app]
    change ((((Session.fresh.after isColor h).serve isColor .reset).1.after isColor idle).serve
      isColor (.pdf m)).2 = _
    rw [key]
    rfl

/-- A case of C77 and C78: a visitor comes to the page, sends a form that does not pass its checks,
and one that passes them but has the same depth twice. No form is accepted, the page was visited, and
a reset with these forms after it leaves nothing stored. -/
example (isColor : String → Bool) : ∃ f : WebForm ℝ, f.Valid ∧
    (∀ g, ¬ LastAccepted isColor [.get, .post none, .post (some f)] g) ∧
    Visited [.get, .post none, .post (some f)] ∧
    ((Session.fresh.after isColor [.get, .reset, .post none, .post (some f)]).serve isColor
      (.pdf (some 2))).2 = .toIndex := by
  obtain ⟨f, hv, _, hf⟩ := C71_default_materials
  have hn : ¬ Accepted isColor f := by
    rintro ⟨s, p, h, _⟩
    rw [hf] at h
    cases h
  refine ⟨f, hv, ?_, ⟨[], _, rfl, by simp⟩, ?_⟩
  · rintro g ⟨b, c, e, ha, _⟩
    have : Request.post (some g) ∈ [Request.get, .post none, .post (some f)] := by rw [e]; simp
    simp at this
    exact hn (this ▸ ha)
  · refine (C78_no_report isColor [.get] (some 2) [.post none, .post (some f)] ?_).2
    intro q hq
    simp at hq
    rcases hq with rfl | rfl
    · exact .inl rfl
    · exact .inr (.inr ⟨f, rfl, hn⟩)

end PySlope
