import Verif.Lemmas.Version

/-! # `pyslope.__version__` (C117, C118) -/

namespace PySlope
open Version
namespace Version

/-- What `git describe` prints, without the mark for changed files. -/
def Tree.base (t : Tree) : Str :=
  match t.tag with
  | some g => g ++ ['-'] ++ numeral t.commits ++ ['-', 'g'] ++ t.hash
  | none => t.hash

theorem base_last (t : Tree) (h : t.Valid) : ∃ c, t.base.getLast? = some c ∧ isHex c = true := by
  have key : ∀ s : Str, ∃ c, (s ++ t.hash).getLast? = some c ∧ isHex c = true := by
    intro s
    cases e : t.hash.getLast? with
    | none => exact absurd (List.getLast?_eq_none_iff.1 e) h.hash.1
    | some d =>
      refine ⟨d, ?_, h.hash.isHex (List.mem_of_mem_getLast? e)⟩
      rw [List.getLast?_append, e]; rfl
  unfold Tree.base
  cases t.tag with
  | none => exact key []
  | some g => exact key _

theorem describe_dirty (t : Tree) (h : t.Valid) :
    endsWith "-dirty".toList t.describe = t.changed := by
  have hb : t.describe = t.base ++ (if t.changed then "-dirty".toList else []) := rfl
  unfold endsWith
  by_cases hd : t.changed = true
  · rw [hb, hd, if_pos rfl, List.isSuffixOf_iff_suffix]
    exact List.suffix_append _ _
  · have hf : t.changed = false := by simpa using hd
    rw [hb, if_neg hd, List.append_nil, hf, Bool.eq_false_iff, ne_eq, List.isSuffixOf_iff_suffix]
    rintro ⟨s, e⟩
    obtain ⟨c, h1, h2⟩ := base_last t h
    rw [← e, List.getLast?_append] at h1
    have : ("-dirty".toList).getLast? = some 'y' := by decide
    rw [this] at h1
    cases h1
    exact absurd h2 (by decide)

theorem describe_base (t : Tree) :
    (if t.changed then t.describe.take (t.describe.length - 6) else t.describe) = t.base := by
  have hb : t.describe = t.base ++ (if t.changed then "-dirty".toList else []) := rfl
  by_cases hd : t.changed = true
  · rw [if_pos hd, hb, if_pos hd]
    have : (t.base ++ "-dirty".toList).length - 6 = t.base.length := by
      rw [List.length_append]
      have : "-dirty".toList.length = 6 := by decide
      omega
    rw [this, List.take_left]
  · rw [if_neg hd, hb, if_neg hd, List.append_nil]

/-- The pieces a valid tree is read as. -/
theorem piecesFrom_tree {c : Computer} {t : Tree} (h : t.Valid) (hs : t.Seen c) (b : Option Str) :
    ∃ d, piecesFrom c [] t.describe t.full b = .ok
      { long := t.full, short := if t.tag = none then t.full.take 7 else t.hash, branch := b,
        dirty := t.changed, closestTag := t.tag, distance := t.commits, date := some d } := by
  obtain ⟨d, hd, hd'⟩ := hs.date
  obtain ⟨r, hr⟩ := commitDate_ok hd hd'
  refine ⟨r, ?_⟩
  unfold piecesFrom
  simp only [describe_dirty t h, describe_base t]
  cases ht : t.tag with
  | none =>
    have hb : t.base = t.hash := by simp only [Tree.base, ht]
    have hm : '-' ∉ t.hash := fun hm => absurd (h.hash.isHex hm) (by decide)
    have hc : git c ["rev-list", "HEAD", "--count"] = .ok (some (numeral t.commits), some 0) := by
      rw [git_prints (hs.count ht), stripBy_newline]
      · exact fun ch hc => isSpace_hex (isHex_dig (isDig_numeral (List.mem_of_mem_head? hc)))
      · exact fun ch hc => isSpace_hex (isHex_dig (isDig_numeral (List.mem_of_mem_getLast? hc)))
    rw [hb, if_neg hm]
    simp only [hc, bind, Except.bind, intOf_numeral, hr, pure, Except.pure, if_true]
  | some g =>
    obtain ⟨h1, h2, -⟩ := h.tag g ht
    have hb : t.base = g ++ ['-'] ++ numeral t.commits ++ ['-', 'g'] ++ t.hash := by
      simp only [Tree.base, ht]
    have hm : '-' ∈ t.base := by rw [hb]; simp
    rw [if_pos hm, hb, matchDescribe_text h1 h2 h.hash]
    have hp : startsWith [] g = true := by simp [startsWith]
    simp only [hp, not_true_eq_false, if_false, intOf_numeral, bind, Except.bind, hr, pure,
      Except.pure, List.length_nil, List.drop_zero, reduceCtorEq]

theorem piecesFromVcs_tree {c : Computer} {t : Tree} (h : t.Valid) (hs : t.Seen c) :
    ∃ b d, piecesFromVcs c [] = .ok
      { long := t.full, short := if t.tag = none then t.full.take 7 else t.hash, branch := b,
        dirty := t.changed, closestTag := t.tag, distance := t.commits, date := some d } := by
  obtain ⟨g, hg⟩ := hs.gitDir
  obtain ⟨b, hb⟩ := branchName_ok hs.branch hs.branches
  obtain ⟨d, hd⟩ := piecesFrom_tree h hs b
  refine ⟨b, d, ?_⟩
  have ha : describeArgs [] = ["describe", "--tags", "--dirty", "--always", "--long"] := by
    simp [describeArgs]
  have e1 : strip (stripBy isByteSpace (t.describe ++ ['\n'])) = t.describe :=
    strip_printed (describe_starts t h) (describe_ends t h)
  have e2 : strip (stripBy isByteSpace (t.full ++ ['\n'])) = t.full :=
    strip_printed (hex_starts h.full) (hex_ends h.full)
  unfold piecesFromVcs
  simp only [git_prints hg, ha, git_prints hs.describe, git_prints hs.full, hb, e1, e2, bind,
    Except.bind, ne_eq, not_true_eq_false, if_false]
  exact hd

theorem getVersions_vcs (c : Computer) :
    getVersions c keywords = match (piecesFromVcs c []).map render with
      | .error .notThisMethod => .ok unknownInfo
      | r => r := by
  simp only [getVersions, keywords_unexpanded]
  cases (piecesFromVcs c []).map render with
  | error e => cases e <;> rfl
  | ok _ => rfl

end Version

/-- C117. Whatever the tag is called (it may hold hyphens and digits of its own), however many
commits lie after it, and on either kind of platform: when git works, the version that
`import pyslope` reports is the one promised for that source tree. -/
theorem C117_version {c : Computer} {t : Tree} (h : t.Valid) (hs : t.Seen c) :
    importVersion c = .ok t.version := by
  obtain ⟨b, d, hp⟩ := piecesFromVcs_tree h hs
  rw [importVersion, getVersions_vcs, hp]
  simp only [Except.map, render]
  congr 1
  unfold renderPep440 Tree.version
  cases ht : t.tag with
  | none => simp [fmtD_eq]
  | some g =>
    obtain ⟨h1, -, -⟩ := h.tag g ht
    obtain ⟨a, l, e⟩ := List.exists_cons_of_ne_nil h1
    subst e
    by_cases hz : t.commits = 0 ∧ t.changed = false
    · simp only [if_pos hz]
      simp [hz.1, hz.2]
    · simp only [if_neg hz]
      have hz' : t.commits ≠ 0 ∨ t.changed = true := by
        by_cases h0 : t.commits = 0
        · right
          by_contra hc
          exact hz ⟨h0, by simpa using hc⟩
        · exact .inl h0
      simp only [if_pos hz', fmtD_eq, plusOrDot]
      by_cases hp : '+' ∈ a :: l <;> simp [hp]

/-- C117, the rest of the report: the full commit and whether files were changed. -/
theorem C117_report {c : Computer} {t : Tree} (h : t.Valid) (hs : t.Seen c) :
    ∃ d, getVersions c keywords = .ok
      { version := t.version, fullRevisionId := some t.full, dirty := some t.changed,
        error := none, date := some d } := by
  obtain ⟨b, d, hp⟩ := piecesFromVcs_tree h hs
  have hv := C117_version h hs
  refine ⟨d, ?_⟩
  rw [importVersion] at hv
  rw [getVersions_vcs, hp] at hv ⊢
  simp only [Except.map, render, Except.ok.injEq] at hv ⊢
  rw [hv]

/-- C118. When git is missing, refused, or reports that the directory is not a repository, and
also when `git describe` or `git rev-parse` fails (a repository with no commit yet), the import
works and the version is `0+unknown`. -/
theorem C118_no_git {c : Computer}
    (h : Fails c ["rev-parse", "--git-dir"] ∨
      (∃ d, Prints c ["rev-parse", "--git-dir"] d) ∧
        (Fails c ["describe", "--tags", "--dirty", "--always", "--long"] ∨
          (∃ d, Prints c ["describe", "--tags", "--dirty", "--always", "--long"] d) ∧
            Fails c ["rev-parse", "HEAD"])) :
    importVersion c = .ok "0+unknown".toList := by
  have ha : describeArgs [] = ["describe", "--tags", "--dirty", "--always", "--long"] := by
    simp [describeArgs]
  have key : piecesFromVcs c [] = .error .notThisMethod := by
    unfold piecesFromVcs
    rw [ha]
    rcases h with h | ⟨⟨d, hd⟩, h | ⟨⟨d', hd'⟩, h⟩⟩
    · obtain ⟨rc, h1, h2⟩ := git_fails h
      simp only [h1, bind, Except.bind, h2, ne_eq, not_false_eq_true, if_true]
      rfl
    · obtain ⟨rc, h1, h2⟩ := git_fails h
      simp only [git_prints hd, h1, bind, Except.bind, ne_eq, not_true_eq_false, if_false]
      rfl
    · obtain ⟨rc, h1, h2⟩ := git_fails h
      simp only [git_prints hd, git_prints hd', h1, bind, Except.bind, ne_eq, not_true_eq_false,
        if_false]
      rfl
  rw [importVersion, getVersions_vcs, key]
  rfl

end PySlope
