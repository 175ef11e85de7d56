import Verif.Props.VersionTells

/-! # Concrete computers for C117, C118 and C119 -/

namespace PySlope
open Version
namespace Version

theorem prints_git {c : Computer} {args : List String} {text : Str} (hw : c.windows = false)
    (h : c.start "git" args = .ran (some (text ++ ['\n'])) 0) : Prints c args text := by
  unfold Prints
  simp only [hw]
  exact h

/-- Git's answers in a source tree, with the last two questions left open. -/
def demoStart (describe : Launch) (count show_ : Launch) : String → List String → Launch :=
  fun cmd args =>
    if cmd = "git" then
      if args = ["rev-parse", "--git-dir"] then .ran (some ".git\n".toList) 0
      else if args = ["describe", "--tags", "--dirty", "--always", "--long"] then describe
      else if args = ["rev-parse", "HEAD"] then .ran (some "37b30a4c01d\n".toList) 0
      else if args = ["rev-parse", "--abbrev-ref", "HEAD"] then .ran (some "main\n".toList) 0
      else if args = ["branch", "--contains"] then .ran (some "* main\n".toList) 0
      else if args = ["rev-list", "HEAD", "--count"] then count
      else if args = ["show", "-s", "--format=%ci", "HEAD"] then show_
      else .ran (some []) 1
    else .notFound

def demoDate : Launch := .ran (some "2023-04-01 10:00:00 +1000\n".toList) 0

/-- A checkout four commits after the tag `v1.2-rc-3`, with changed files. -/
def demoTagged : Computer :=
  { windows := false
    start := demoStart (.ran (some "v1.2-rc-3-4-g37b30a4-dirty\n".toList) 0) .osError demoDate }

def demoTree : Tree :=
  { tag := some "v1.2-rc-3".toList, commits := 4, hash := "37b30a4".toList,
    full := "37b30a4c01d".toList, changed := true }

theorem hexText_of {t : Str} (h0 : t ≠ [])
    (h : t.all (fun c => decide (('0' ≤ c ∧ c ≤ '9') ∨ ('a' ≤ c ∧ c ≤ 'f'))) = true) :
    HexText t :=
  ⟨h0, fun c hc => by simpa using List.all_eq_true.1 h c hc⟩

theorem demoTree_valid : demoTree.Valid where
  hash := hexText_of (by decide) (by decide)
  full := hexText_of (by decide) (by decide)
  tag := by
    intro g hg
    cases hg
    exact ⟨by decide, by decide, by intro c hc; cases hc; decide⟩

theorem demoTree_seen : demoTree.Seen demoTagged where
  gitDir := ⟨".git".toList, prints_git rfl (by decide)⟩
  describe := prints_git rfl (by decide)
  full := prints_git rfl (by decide)
  branch := ⟨"main".toList, prints_git rfl (by decide)⟩
  branches := ⟨"* main".toList, prints_git rfl (by decide)⟩
  count := fun h => by cases h
  date := ⟨"2023-04-01 10:00:00 +1000".toList, prints_git rfl (by decide), '2', by decide,
    by decide⟩

/-- A checkout with no tag and 12 commits. -/
def demoUntagged : Computer :=
  { windows := false
    start := demoStart (.ran (some "37b30a4\n".toList) 0) (.ran (some "12\n".toList) 0) demoDate }

def bareTree : Tree :=
  { tag := none, commits := 12, hash := "37b30a4".toList, full := "37b30a4c01d".toList,
    changed := false }

theorem bareTree_valid : bareTree.Valid where
  hash := hexText_of (by decide) (by decide)
  full := hexText_of (by decide) (by decide)
  tag := fun g hg => by cases hg

theorem bareTree_seen : bareTree.Seen demoUntagged where
  gitDir := ⟨".git".toList, prints_git rfl (by decide)⟩
  describe := prints_git rfl (by decide)
  full := prints_git rfl (by decide)
  branch := ⟨"main".toList, prints_git rfl (by decide)⟩
  branches := ⟨"* main".toList, prints_git rfl (by decide)⟩
  count := fun _ => prints_git rfl (by decide)
  date := ⟨"2023-04-01 10:00:00 +1000".toList, prints_git rfl (by decide), '2', by decide,
    by decide⟩

end Version

/-- The hypotheses of C117 are met by a tag that itself holds hyphens and a number. -/
example : importVersion demoTagged = .ok "v1.2-rc-3+4.g37b30a4.dirty".toList := by
  rw [C117_version demoTree_valid demoTree_seen]; decide

example : importVersion demoUntagged = .ok "0+untagged.12.g37b30a4".toList := by
  rw [C117_version bareTree_valid bareTree_seen]; decide

/-- The hypotheses of `C118_no_git` are met where git is not installed. -/
example : importVersion { windows := true, start := fun _ _ => .notFound } =
    .ok "0+unknown".toList :=
  C118_no_git (.inl (.inr ⟨rfl, .inr rfl⟩))

/-- The hypotheses of `C118_import_partial` are met, with a description that cannot be read. -/
example : ∃ v, v ≠ [] ∧ importVersion
    { windows := false
      start := demoStart (.ran (some "what-is-this\n".toList) 0) (.ran (some "12\n".toList) 0)
        demoDate } = .ok v := by
  refine C118_import_partial ?_ ⟨"2023-04-01 10:00:00 +1000".toList, prints_git rfl (by decide),
    '2', by decide, by decide⟩ ⟨12, prints_git rfl (by decide)⟩
  intro cmd args code h
  simp only [demoStart, demoDate] at h
  repeat' split at h
  all_goals simp at h

/-- C118 fails: where git cannot tell the commit's date, `import pyslope` raises
`AttributeError`. -/
theorem C118_date_raises : ∃ c : Computer,
    (∃ d, Prints c ["describe", "--tags", "--dirty", "--always", "--long"] d) ∧
    Fails c ["show", "-s", "--format=%ci", "HEAD"] ∧
    importVersion c = .error (.py .attributeError) := by
  refine ⟨⟨false, demoStart (.ran (some "1.0-0-g37b30a4\n".toList) 0) .osError
    (.ran (some []) 128)⟩, ⟨"1.0-0-g37b30a4".toList, prints_git rfl (by decide)⟩,
    .inl (.inr ⟨[], 128, by decide, rfl⟩), by decide +kernel⟩

/-- C118 fails: where git prints nothing for the commit's date, `import pyslope` raises
`IndexError`. -/
theorem C118_blank_date_raises : ∃ c : Computer,
    (∃ d, Prints c ["describe", "--tags", "--dirty", "--always", "--long"] d) ∧
    Prints c ["show", "-s", "--format=%ci", "HEAD"] [] ∧
    importVersion c = .error (.py .indexError) := by
  refine ⟨⟨false, demoStart (.ran (some "1.0-0-g37b30a4\n".toList) 0) .osError
    (.ran (some ['\n']) 0)⟩, ⟨"1.0-0-g37b30a4".toList, prints_git rfl (by decide)⟩,
    prints_git rfl (by decide), by decide +kernel⟩

/-- C118 fails: where git cannot count the commits (`--count` came with git 1.7.2) of a repository
with no tag, `import pyslope` raises `TypeError`. -/
theorem C118_count_raises : ∃ c : Computer,
    (∃ d, Prints c ["describe", "--tags", "--dirty", "--always", "--long"] d) ∧
    Fails c ["rev-list", "HEAD", "--count"] ∧
    importVersion c = .error (.py .typeError) := by
  refine ⟨⟨false, demoStart (.ran (some "37b30a4\n".toList) 0) (.ran (some []) 129)
    demoDate⟩, ⟨"37b30a4".toList, prints_git rfl (by decide)⟩,
    .inl (.inr ⟨[], 129, by decide, rfl⟩), by decide +kernel⟩

/-- C118 fails: a tag name that is not UTF-8 makes `import pyslope` raise `UnicodeDecodeError`. -/
theorem C118_encoding_raises : ∃ c : Computer,
    (∃ d, Prints c ["rev-parse", "--git-dir"] d) ∧
    c.start "git" ["describe", "--tags", "--dirty", "--always", "--long"] = .ran none 0 ∧
    importVersion c = .error (.py .valueError) := by
  refine ⟨{ windows := false, start := demoStart (.ran none 0) .osError demoDate },
    ⟨".git".toList, prints_git rfl (by decide)⟩, rfl, by decide +kernel⟩

/-- The hypotheses of C119 are met: the two checkouts above differ, and so do their versions. -/
example : importVersion demoTagged ≠ importVersion demoUntagged := fun e =>
  absurd (C119_identifies demoTree_valid bareTree_valid demoTree_seen bareTree_seen
    (by intro g hg; cases hg; decide) (by intro g hg; cases hg) e).1 (by decide)

/-- The condition of C119 is needed: two commits after tag `1` and exactly at the tag `1+2.gabc`
give the same version. -/
theorem C119_plus_collides : ∃ t₁ t₂ : Tree, t₁.Valid ∧ t₂.Valid ∧ t₁.tag ≠ t₂.tag ∧
    t₁.commits ≠ t₂.commits ∧ t₁.version = t₂.version := by
  refine ⟨{ tag := some "1".toList, commits := 2, hash := "abc".toList, full := "abcd".toList,
            changed := false },
          { tag := some "1+2.gabc".toList, commits := 0, hash := "def".toList,
            full := "defa".toList, changed := false },
    ⟨hexText_of (by decide) (by decide), hexText_of (by decide) (by decide), ?_⟩,
    ⟨hexText_of (by decide) (by decide), hexText_of (by decide) (by decide), ?_⟩,
    by decide, by decide, by decide⟩
  · intro g hg; cases hg; exact ⟨by decide, by decide, by intro c hc; cases hc; decide⟩
  · intro g hg; cases hg; exact ⟨by decide, by decide, by intro c hc; cases hc; decide⟩

end PySlope
