import Verif.Props.Version

/-! # What the version tells (C118, C119) -/

namespace PySlope
open Version
namespace Version

/-! ## Exceptions of the import -/

theorem git_utf8 {c : Computer} (hu : ∀ cmd args code, c.start cmd args ≠ .ran none code)
    (args : List String) : ∃ r, git c args = .ok r := by
  have : ∀ cmds, ∃ r, runCommand c args cmds = .ok r := by
    intro cmds
    induction cmds with
    | nil => exact ⟨_, rfl⟩
    | cons cmd more ih =>
      unfold runCommand
      split
      · exact ih
      · exact ⟨_, rfl⟩
      · rename_i code e; exact absurd e (hu cmd args code)
      · split <;> exact ⟨_, rfl⟩
  exact this _

theorem branchName_utf8 {c : Computer} (hu : ∀ cmd args code, c.start cmd args ≠ .ran none code) :
    (∃ r, branchName c = .ok r) ∨ branchName c = .error .notThisMethod := by
  obtain ⟨⟨o1, r1⟩, h1⟩ := git_utf8 hu ["rev-parse", "--abbrev-ref", "HEAD"]
  obtain ⟨⟨o2, r2⟩, h2⟩ := git_utf8 hu ["branch", "--contains"]
  simp only [branchName, h1, h2, bind, Except.bind, pure, Except.pure, throw, throwThe,
    MonadExceptOf.throw]
  repeat' split
  all_goals first
    | exact .inl ⟨_, rfl⟩
    | exact .inr rfl

theorem takeWhile_all {p : Char → Bool} (s : Str) : ∀ c ∈ s.takeWhile p, p c = true := by
  induction s with
  | nil => simp
  | cons a l ih =>
    by_cases ha : p a = true
    · rw [List.takeWhile_cons_of_pos ha]
      intro c hc
      rcases List.mem_cons.1 hc with rfl | hc
      · exact ha
      · exact ih c hc
    · rw [List.takeWhile_cons_of_neg ha]; simp

theorem intOf_digits {s : Str} (h0 : s ≠ []) (h : ∀ c ∈ s, isDig c = true) :
    ∃ n, intOf s = .ok n := by
  have hs : strip s = s := stripBy_self
    (fun c hc => isSpace_hex (isHex_dig (h c (List.mem_of_mem_head? hc))))
    (fun c hc => isSpace_hex (isHex_dig (h c (List.mem_of_mem_getLast? hc))))
  simp only [intOf, hs]
  rw [if_pos ⟨h0, List.all_eq_true.2 h⟩]
  exact ⟨_, rfl⟩

theorem matchDescribe_num {s tag num hex : Str} (h : matchDescribe s = some (tag, num, hex)) :
    ∃ n, intOf num = .ok n := by
  unfold matchDescribe at h
  simp only at h
  split at h
  · split at h
    · split at h
      · cases h
      · rename_i r _ t _ hne
        simp only [Option.some.injEq, Prod.mk.injEq] at h
        obtain ⟨-, rfl, -⟩ := h
        refine intOf_digits ?_ ?_
        · intro e
          exact hne (.inr (.inl (by simpa using e)))
        · intro c hc
          exact takeWhile_all _ c (List.mem_reverse.1 hc)
    · cases h
  · cases h

theorem piecesFrom_ok {c : Computer} (hd : ∃ r, commitDate c = .ok r)
    (hc : ∃ n, Prints c ["rev-list", "HEAD", "--count"] (numeral n)) (p d f : Str)
    (b : Option Str) : ∃ r, piecesFrom c p d f b = .ok r := by
  obtain ⟨r, hr⟩ := hd
  obtain ⟨n, hn⟩ := hc
  have hg : git c ["rev-list", "HEAD", "--count"] = .ok (some (numeral n), some 0) := by
    rw [git_prints hn, stripBy_newline]
    · exact fun ch hc => isSpace_hex (isHex_dig (isDig_numeral (List.mem_of_mem_head? hc)))
    · exact fun ch hc => isSpace_hex (isHex_dig (isDig_numeral (List.mem_of_mem_getLast? hc)))
  unfold piecesFrom
  simp only
  generalize (if endsWith "-dirty".toList d then d.take (d.length - 6) else d) = g
  split
  · split
    · exact ⟨_, rfl⟩
    · rename_i tag num hex hm
      obtain ⟨m, hm⟩ := matchDescribe_num hm
      split
      · exact ⟨_, rfl⟩
      · simp only [hm, hr, bind, Except.bind, pure, Except.pure]
        exact ⟨_, rfl⟩
  · simp only [hg, intOf_numeral, hr, bind, Except.bind, pure, Except.pure]
    exact ⟨_, rfl⟩

theorem render_version_ne (p : Pieces) : (render p).version ≠ [] := by
  unfold render
  cases p.error with
  | some e =>
    show "unknown".toList ≠ []
    decide
  | none =>
    show renderPep440 p ≠ []
    unfold renderPep440
    simp only
    split
    · split <;> simp
    · have : "0+untagged.".toList ≠ [] := by decide
      simp [this]

end Version

/-- C118, in part. The import never fails and the version is never empty, whatever git answers to
everything else (missing, not a repository, odd tags, unreadable descriptions), provided that what
it prints is UTF-8, that it tells the commit's date and that it counts the commits. Missing: those
three conditions, which the code does not check (see the theorems below). -/
theorem C118_import_partial {c : Computer}
    (hu : ∀ cmd args code, c.start cmd args ≠ .ran none code)
    (hd : ∃ d, Prints c ["show", "-s", "--format=%ci", "HEAD"] d ∧ ∃ ch ∈ d, isSpace ch = false)
    (hc : ∃ n, Prints c ["rev-list", "HEAD", "--count"] (numeral n)) :
    ∃ v, v ≠ [] ∧ importVersion c = .ok v := by
  obtain ⟨d, hd, hd'⟩ := hd
  have hdate := commitDate_ok hd hd'
  have key : (∃ p, piecesFromVcs c [] = .ok p) ∨ piecesFromVcs c [] = .error .notThisMethod := by
    obtain ⟨⟨o1, r1⟩, h1⟩ := git_utf8 hu ["rev-parse", "--git-dir"]
    obtain ⟨⟨o2, r2⟩, h2⟩ := git_utf8 hu (describeArgs [])
    obtain ⟨⟨o3, r3⟩, h3⟩ := git_utf8 hu ["rev-parse", "HEAD"]
    unfold piecesFromVcs
    simp only [h1, h2, h3, bind, Except.bind, throw, throwThe, MonadExceptOf.throw]
    by_cases hr : r1 = some 0
    · simp only [hr, ne_eq, not_true_eq_false, if_false]
      cases o2 with
      | none => exact .inr rfl
      | some o2 =>
        cases o3 with
        | none => exact .inr rfl
        | some o3 =>
          rcases branchName_utf8 hu with ⟨b, hb⟩ | hb
          · simp only [hb]
            exact .inl (piecesFrom_ok hdate hc _ _ _ _)
          · simp only [hb]
            exact .inr trivial
    · simp only [ne_eq, hr, not_false_eq_true, if_true]
      exact .inr trivial
  rw [importVersion, getVersions_vcs]
  rcases key with ⟨p, hp⟩ | hp
  · rw [hp]
    exact ⟨(render p).version, render_version_ne p, rfl⟩
  · rw [hp]
    exact ⟨unknownInfo.version, by decide, rfl⟩

namespace Version

/-! ## Reading a version back -/

theorem split_unique {x : Char} : ∀ {a b r s : Str}, x ∉ a → x ∉ b → a ++ x :: r = b ++ x :: s →
    a = b ∧ r = s
  | [], [], _, _, _, _, h => ⟨rfl, (List.cons.inj h).2⟩
  | [], c :: b, _, _, _, hb, h => by
    rw [List.nil_append, List.cons_append] at h
    exact absurd (by rw [(List.cons.inj h).1]; exact List.mem_cons_self) hb
  | c :: a, [], _, _, ha, _, h => by
    rw [List.nil_append, List.cons_append] at h
    exact absurd (by rw [← (List.cons.inj h).1]; exact List.mem_cons_self) ha
  | c :: a, d :: b, _, _, ha, hb, h => by
    rw [List.cons_append, List.cons_append] at h
    obtain ⟨e1, e2⟩ := List.cons.inj h
    obtain ⟨h1, h2⟩ := split_unique (fun m => ha (List.mem_cons_of_mem _ m))
      (fun m => hb (List.mem_cons_of_mem _ m)) e2
    exact ⟨by rw [e1, h1], h2⟩

/-- `.dirty` or nothing. -/
def dirtyMark (b : Bool) : Str := if b then ".dirty".toList else []

theorem hash_inj {x y : Str} {b b' : Bool} (hx : '.' ∉ x) (hy : '.' ∉ y)
    (h : x ++ dirtyMark b = y ++ dirtyMark b') : x = y ∧ b = b' := by
  have hm : dirtyMark true = '.' :: "dirty".toList := by decide
  have hf : dirtyMark false = [] := rfl
  cases b <;> cases b'
  · simp only [hf, List.append_nil] at h; exact ⟨h, rfl⟩
  · rw [hf, hm, List.append_nil] at h
    exact absurd (by rw [h]; simp) hx
  · rw [hf, hm, List.append_nil] at h
    exact absurd (by rw [← h]; simp) hy
  · rw [hm] at h; exact ⟨(split_unique hx hy h).1, rfl⟩

theorem tail_inj {m n : ℕ} {x y : Str} {b b' : Bool} (hx : '.' ∉ x) (hy : '.' ∉ y)
    (h : numeral m ++ ".g".toList ++ x ++ dirtyMark b = numeral n ++ ".g".toList ++ y ++ dirtyMark b') :
    m = n ∧ x = y ∧ b = b' := by
  have hg : ".g".toList = ['.', 'g'] := by decide
  have hd : ∀ k, '.' ∉ numeral k := fun k hk => absurd (isDig_numeral hk) (by decide)
  simp only [hg, List.append_assoc, List.cons_append, List.nil_append] at h
  obtain ⟨h1, h2⟩ := split_unique (hd m) (hd n) h
  obtain ⟨h3, h4⟩ := hash_inj hx hy (List.cons.inj h2).2
  exact ⟨numeral_inj h1, h3, h4⟩

theorem dot_hex {t : Str} (h : HexText t) : '.' ∉ t := fun hm => absurd (h.isHex hm) (by decide)

theorem version_none {t : Tree} (ht : t.tag = none) : t.version =
    ['0'] ++ '+' :: ("untagged.".toList ++
      (numeral t.commits ++ ".g".toList ++ t.full.take 7 ++ dirtyMark t.changed)) := by
  have : "0+untagged.".toList = ['0'] ++ '+' :: "untagged.".toList := by decide
  simp only [Tree.version, ht, this, dirtyMark, List.append_assoc, List.cons_append,
    List.nil_append]

theorem version_away {t : Tree} {g : Str} (ht : t.tag = some g) (hg : '+' ∉ g)
    (h : ¬ (t.commits = 0 ∧ t.changed = false)) : t.version =
    g ++ '+' :: (numeral t.commits ++ ".g".toList ++ t.hash ++ dirtyMark t.changed) := by
  simp only [Tree.version, ht, if_neg h, if_neg hg, dirtyMark, List.append_assoc,
    List.cons_append, List.nil_append]

theorem version_at {t : Tree} {g : Str} (ht : t.tag = some g)
    (h : t.commits = 0 ∧ t.changed = false) : t.version = g := by
  simp only [Tree.version, ht, if_pos h]

theorem numeral_ne_untagged (n : ℕ) (r s : Str) : numeral n ++ r ≠ "untagged.".toList ++ s := by
  intro h
  obtain ⟨a, l, e⟩ := List.exists_cons_of_ne_nil (numeral_ne_nil n)
  have hu : "untagged.".toList = 'u' :: "ntagged.".toList := by decide
  rw [e, hu, List.cons_append, List.cons_append] at h
  have ha : isDig a = true := isDig_numeral (by rw [e]; exact List.mem_cons_self)
  rw [(List.cons.inj h).1] at ha
  exact absurd ha (by decide)

end Version

/-- C119. The version identifies the source tree: if two trees whose tags hold no `+` report the
same version, they have the same tag, the same number of commits after it, the same answer to
whether files were changed and, away from a clean tag, the same abbreviated commit. -/
theorem C119_identifies {c₁ c₂ : Computer} {t₁ t₂ : Tree} (h₁ : t₁.Valid) (h₂ : t₂.Valid)
    (s₁ : t₁.Seen c₁) (s₂ : t₂.Seen c₂) (p₁ : ∀ g, t₁.tag = some g → '+' ∉ g)
    (p₂ : ∀ g, t₂.tag = some g → '+' ∉ g) (e : importVersion c₁ = importVersion c₂) :
    t₁.tag = t₂.tag ∧ t₁.commits = t₂.commits ∧ t₁.changed = t₂.changed ∧
      (t₁.tag = none → t₁.full.take 7 = t₂.full.take 7) ∧
      (t₁.tag ≠ none → t₁.commits ≠ 0 ∨ t₁.changed = true → t₁.hash = t₂.hash) := by
  rw [C117_version h₁ s₁, C117_version h₂ s₂] at e
  have e : t₁.version = t₂.version := Except.ok.inj e
  have tk : ∀ {t : Tree}, t.Valid → '.' ∉ t.full.take 7 :=
    fun h hm => dot_hex h.full (List.mem_of_mem_take hm)
  have z : '+' ∉ ['0'] := by decide
  cases a₁ : t₁.tag with
  | none =>
    rw [version_none a₁] at e
    cases a₂ : t₂.tag with
    | none =>
      rw [version_none a₂] at e
      obtain ⟨-, e⟩ := split_unique z z e
      obtain ⟨h1, h2, h3⟩ := tail_inj (tk h₁) (tk h₂) (List.append_cancel_left e)
      exact ⟨rfl, h1, h3, fun _ => h2, fun h => absurd rfl h⟩
    | some g =>
      exfalso
      by_cases hz : t₂.commits = 0 ∧ t₂.changed = false
      · rw [version_at a₂ hz] at e
        exact p₂ g a₂ (by rw [← e]; simp)
      · rw [version_away a₂ (p₂ g a₂) hz] at e
        obtain ⟨-, e⟩ := split_unique z (p₂ g a₂) e
        simp only [List.append_assoc] at e
        exact numeral_ne_untagged _ _ _ e.symm
  | some g =>
    have hg := p₁ g a₁
    by_cases hz : t₁.commits = 0 ∧ t₁.changed = false
    · rw [version_at a₁ hz] at e
      cases a₂ : t₂.tag with
      | none =>
        rw [version_none a₂] at e
        exact absurd (by rw [e]; simp) hg
      | some g' =>
        by_cases hz' : t₂.commits = 0 ∧ t₂.changed = false
        · rw [version_at a₂ hz'] at e
          refine ⟨by rw [e], by rw [hz.1, hz'.1], by rw [hz.2, hz'.2], fun h => (by cases h), ?_⟩
          rintro - (h | h)
          · exact absurd hz.1 h
          · rw [hz.2] at h; cases h
        · rw [version_away a₂ (p₂ g' a₂) hz'] at e
          exact absurd (by rw [e]; simp) hg
    · rw [version_away a₁ hg hz] at e
      cases a₂ : t₂.tag with
      | none =>
        exfalso
        rw [version_none a₂] at e
        obtain ⟨-, e⟩ := split_unique hg z e
        simp only [List.append_assoc] at e
        exact numeral_ne_untagged _ _ _ e
      | some g' =>
        by_cases hz' : t₂.commits = 0 ∧ t₂.changed = false
        · rw [version_at a₂ hz'] at e
          exact absurd (by rw [← e]; simp) (p₂ g' a₂)
        · rw [version_away a₂ (p₂ g' a₂) hz'] at e
          obtain ⟨e1, e2⟩ := split_unique hg (p₂ g' a₂) e
          obtain ⟨h1, h2, h3⟩ := tail_inj (dot_hex h₁.hash) (dot_hex h₂.hash) e2
          exact ⟨by rw [e1], h1, h3, fun h => (by cases h), fun _ _ => h2⟩

end PySlope
