import Verif.Model.Version

/-! # What the version of a source tree should be

Independent of how `_version.py` reads git's answers. -/

namespace PySlope
namespace Version

/-- Git, started with these arguments in the package's root directory, prints this text followed
by a newline and succeeds. On Windows there are two names to try. -/
def Prints (c : Computer) (args : List String) (text : Str) : Prop :=
  let good (cmd : String) := c.start cmd args = .ran (some (text ++ ['\n'])) 0
  if c.windows then good "git.cmd" ∨ (c.start "git.cmd" args = .notFound ∧ good "git.exe")
  else good "git"

/-- The decimal numeral of a natural number. -/
def numeral (n : ℕ) : Str := (toString n).toList

/-- Lower case hexadecimal digits, at least one. -/
def HexText (t : Str) : Prop := t ≠ [] ∧ ∀ c ∈ t, ('0' ≤ c ∧ c ≤ '9') ∨ ('a' ≤ c ∧ c ≤ 'f')

/-- What a source tree is at: the nearest tag if there is one, the number of commits since that
tag (or in all), the commit, in short and in full, and whether files were changed since. -/
structure Tree where
  tag : Option Str
  commits : ℕ
  hash : Str
  full : Str
  changed : Bool

/-- A tag is a line of text that does not start with white space; hashes are hexadecimal. -/
structure Tree.Valid (t : Tree) : Prop where
  hash : HexText t.hash
  full : HexText t.full
  tag : ∀ g, t.tag = some g → g ≠ [] ∧ '\n' ∉ g ∧ ∀ c, g.head? = some c → isSpace c = false

/-- `git describe --tags --dirty --always --long`: `TAG-NUM-gHEX[-dirty]` or `HEX[-dirty]`. -/
def Tree.describe (t : Tree) : Str :=
  (match t.tag with
    | some g => g ++ ['-'] ++ numeral t.commits ++ ['-', 'g'] ++ t.hash
    | none => t.hash) ++ (if t.changed then "-dirty".toList else [])

/-- Git works in the root directory and answers truthfully about the tree. -/
structure Tree.Seen (t : Tree) (c : Computer) : Prop where
  gitDir : ∃ d, Prints c ["rev-parse", "--git-dir"] d
  describe : Prints c ["describe", "--tags", "--dirty", "--always", "--long"] t.describe
  full : Prints c ["rev-parse", "HEAD"] t.full
  branch : ∃ b, Prints c ["rev-parse", "--abbrev-ref", "HEAD"] b
  branches : ∃ b, Prints c ["branch", "--contains"] b
  count : t.tag = none → Prints c ["rev-list", "HEAD", "--count"] (numeral t.commits)
  date : ∃ d, Prints c ["show", "-s", "--format=%ci", "HEAD"] d ∧ ∃ ch ∈ d, isSpace ch = false

/-- The version the documentation of `render_pep440` promises: `TAG[+DISTANCE.gHEX[.dirty]]`, with
`.` for `+` when the tag has a `+` already, and `0+untagged.DISTANCE.gHEX[.dirty]` with no tag. -/
def Tree.version (t : Tree) : Str :=
  let tail := numeral t.commits ++ ".g".toList
  let dirty := if t.changed then ".dirty".toList else []
  match t.tag with
  | some g =>
    if t.commits = 0 ∧ t.changed = false then g
    else g ++ [if '+' ∈ g then '.' else '+'] ++ tail ++ t.hash ++ dirty
  | none => "0+untagged.".toList ++ tail ++ t.full.take 7 ++ dirty

/-- Git cannot be used here: not installed, refused, or it reports a failure for this question. -/
def Fails (c : Computer) (args : List String) : Prop :=
  let bad (cmd : String) := c.start cmd args = .osError ∨
    ∃ out code, code ≠ 0 ∧ c.start cmd args = .ran (some out) code
  let gone (cmd : String) := c.start cmd args = .notFound
  if c.windows then bad "git.cmd" ∨ (gone "git.cmd" ∧ (bad "git.exe" ∨ gone "git.exe"))
  else bad "git" ∨ gone "git"

end Version
end PySlope
