import Verif.Model.Py

/-! # `pyslope.__version__` (`/repo/pyslope/_version.py`, `/repo/pyslope/__init__.py:7-9`)

Importing the package runs `get_versions`, which asks git about the directory that holds the
package. Text is a list of characters. `Computer` stands for the operating system: what happens
when a program is started with given arguments in the package's root directory. `verbose` is
`False` in the repository (`_version.py:48`), so the messages are not modelled. -/

namespace PySlope
namespace Version

abbrev Str := List Char

/-- An exception: the module's own `NotThisMethod` (`/repo/pyslope/_version.py:52-53`) or one of
Python's. `UnicodeDecodeError` is a `ValueError`. -/
inductive VErr where
  | notThisMethod
  | py (e : PyErr)
  deriving DecidableEq, Repr

/-- What `str.strip()` removes (`str.isspace`). -/
def isSpace (c : Char) : Bool :=
  let n := c.toNat
  (9 ≤ n && n ≤ 13) || (28 ≤ n && n ≤ 32) || n == 0x85 || n == 0xa0 || n == 0x1680
    || (0x2000 ≤ n && n ≤ 0x200a) || n == 0x2028 || n == 0x2029 || n == 0x202f || n == 0x205f
    || n == 0x3000

/-- What `bytes.strip()` removes. -/
def isByteSpace (c : Char) : Bool :=
  let n := c.toNat
  (9 ≤ n && n ≤ 13) || n == 32

/-- `s.strip(chars)`, with `chars` given by its test. -/
def stripBy (p : Char → Bool) (s : Str) : Str := ((s.dropWhile p).reverse.dropWhile p).reverse

/-- `s.strip()` -/
def strip (s : Str) : Str := stripBy isSpace s

/-- The line boundaries of `str.splitlines`. -/
def isBreak (c : Char) : Bool :=
  let n := c.toNat
  (10 ≤ n && n ≤ 13) || (28 ≤ n && n ≤ 30) || n == 0x85 || n == 0x2028 || n == 0x2029

/-- `s.splitlines()`: no line after a final line break, `\r\n` is one break. -/
def splitlines : Str → List Str
  | [] => []
  | [c] => if isBreak c then [[]] else [[c]]
  | c :: d :: rest =>
    if c = '\r' ∧ d = '\n' then [] :: splitlines rest
    else if isBreak c then [] :: splitlines (d :: rest)
    else
      match splitlines (d :: rest) with
      | [] => [[c]]
      | l :: ls => (c :: l) :: ls

/-- `s.split(sep)` for a single character. -/
def splitOn (sep : Char) : Str → List Str
  | [] => [[]]
  | c :: rest =>
    if c = sep then [] :: splitOn sep rest
    else
      match splitOn sep rest with
      | [] => [[c]]
      | l :: ls => (c :: l) :: ls

/-- `s.replace(" ", new, 1)` -/
def replaceSpace (new : Str) : Str → Str
  | [] => []
  | c :: rest => if c = ' ' then new ++ rest else c :: replaceSpace new rest

/-- `s.startswith(p)` -/
def startsWith (p s : Str) : Bool := p.isPrefixOf s

/-- `s.endswith(p)` -/
def endsWith (p s : Str) : Bool := p.isSuffixOf s

/-- `\d` of a regular expression. Simplified: ASCII digits only. -/
def isDig (c : Char) : Bool := c.isDigit

/-- `[0-9a-f]` -/
def isHex (c : Char) : Bool := isDig c || (97 ≤ c.toNat && c.toNat ≤ 102)

/-- `int(text)`. Simplified: digits with white space around them; a sign or an underscore, which
git does not print, counts as an error here. -/
def intOf (s : Str) : Except VErr Nat :=
  let s := strip s
  if s ≠ [] ∧ s.all isDig then .ok (Nat.ofDigitChars 10 s 0) else .error (.py .valueError)

/-- `"%d" % n` -/
def fmtD (n : Nat) : Str := Nat.toDigits 10 n

/-- `date.splitlines()[-1]`, then `.strip().replace(" ", "T", 1).replace(" ", "", 1)`
(`/repo/pyslope/_version.py:188`, `196`, `387-388`). -/
def tidyDate (d : Str) : Except VErr Str :=
  match (splitlines d).getLast? with
  | none => .error (.py .indexError)
  | some l => .ok (replaceSpace [] (replaceSpace ['T'] (strip l)))

/-! ## Running git -/

/-- What starting a program does: there is no such file, the system refuses for another reason, or
it runs, and then it leaves its output (`none` when the bytes are not UTF-8) and an exit code. -/
inductive Launch where
  | notFound
  | osError
  | ran (out : Option Str) (code : Int)
  deriving DecidableEq, Repr

/-- The operating system, as far as `_version.py` sees it: `sys.platform == "win32"`, and what
happens when a program is started with given arguments in the root directory. -/
structure Computer where
  windows : Bool
  start : String → List String → Launch

/-- `/repo/pyslope/_version.py:73-118` `run_command`: output (`None` when it failed) and exit code
(`None` when nothing was run). -/
def runCommand (c : Computer) (args : List String) :
    List String → Except VErr (Option Str × Option Int)
  | [] => .ok (none, none)
  | cmd :: more =>
    match c.start cmd args with
    | .notFound => runCommand c args more
    | .osError => .ok (none, none)
    | .ran none _ => .error (.py .valueError)
    | .ran (some out) code =>
      if code ≠ 0 then .ok (none, some code) else .ok (some (stripBy isByteSpace out), some code)

/-- `GITS`, `/repo/pyslope/_version.py:258-260`. -/
def gits (c : Computer) : List String := if c.windows then ["git.cmd", "git.exe"] else ["git"]

/-- `runner(GITS, args, cwd=root)` -/
def git (c : Computer) (args : List String) : Except VErr (Option Str × Option Int) :=
  runCommand c args (gits c)

/-! ## What git says about the source tree -/

/-- The dictionary `pieces`. The last three entries are missing from it when `error` is set; then
nobody reads them and they have the values given here. -/
structure Pieces where
  long : Str
  short : Str
  error : Option Str := none
  branch : Option Str
  dirty : Bool
  closestTag : Option Str := none
  distance : Nat := 0
  date : Option Str := none
  deriving DecidableEq, Repr

/-- `$` also stands before one final newline: the text, read from its end, without that. -/
def skipNewline : Str → Str
  | [] => []
  | c :: r => if c = '\n' then r else c :: r

/-- `re.search(r"^(.+)-(\d+)-g([0-9a-f]+)$", s)` (`/repo/pyslope/_version.py:348`). Read from the
end: `g` is not a hexadecimal digit, `-` is not a digit,
and `.` is anything but a newline. -/
def matchDescribe (s : Str) : Option (Str × Str × Str) :=
  let r := skipNewline s.reverse
  let hex := r.takeWhile isHex
  match r.dropWhile isHex with
  | 'g' :: '-' :: r =>
    let num := r.takeWhile isDig
    match r.dropWhile isDig with
    | '-' :: t =>
      if hex = [] ∨ num = [] ∨ t = [] ∨ '\n' ∈ t then none
      else some (t.reverse, num.reverse, hex.reverse)
    | _ => none
  | _ => none

/-- `branch_name`, `/repo/pyslope/_version.py:300-330`. -/
def branchName (c : Computer) : Except VErr (Option Str) := do
  let (b, rc) ← git c ["rev-parse", "--abbrev-ref", "HEAD"]
  match b with
  | none => throw .notThisMethod
  | some b =>
    if rc ≠ some 0 then throw .notThisMethod
    let b := strip b
    if b = "HEAD".toList then
      let (bs, rc) ← git c ["branch", "--contains"]
      match bs with
      | none => throw .notThisMethod
      | some bs =>
        if rc ≠ some 0 then throw .notThisMethod
        let lines := splitOn '\n' bs
        let lines := match lines with
          | [] => []
          | l :: ls => if '(' ∈ l then ls else l :: ls
        let names := lines.map (List.drop 2)
        if "master".toList ∈ names then pure (some "master".toList)
        else pure names.head?
    else pure (some b)

/-- `pieces["date"]`, `/repo/pyslope/_version.py:382-388`: `None.strip()` raises when git failed. -/
def commitDate (c : Computer) : Except VErr Str := do
  let (d, _) ← git c ["show", "-s", "--format=%ci", "HEAD"]
  match d with
  | none => throw (.py .attributeError)
  | some d => tidyDate (strip d)

/-- `"tag '%s' doesn't start with prefix '%s'"`, `/repo/pyslope/_version.py:362-365`. -/
def badTag (tag tagPrefix : Str) : Str :=
  "tag '".toList ++ tag ++ "' doesn't start with prefix '".toList ++ tagPrefix ++ "'".toList

/-- `/repo/pyslope/_version.py:351-353`. -/
def badDescribe (out : Str) : Str :=
  "unable to parse git-describe output: '".toList ++ out ++ "'".toList

/-- The end of `git_pieces_from_vcs`, `/repo/pyslope/_version.py:332-390`, from the text of
`git describe`, the full hash and the branch. `rindex("-dirty")` of a text that ends in `-dirty`
is where that ending starts. -/
def piecesFrom (c : Computer) (tagPrefix describeOut fullOut : Str) (branch : Option Str) :
    Except VErr Pieces := do
  let dirty := endsWith "-dirty".toList describeOut
  let g := if dirty then describeOut.take (describeOut.length - 6) else describeOut
  let p : Pieces :=
    { long := fullOut, short := fullOut.take 7, branch := branch, dirty := dirty }
  if '-' ∈ g then
    match matchDescribe g with
    | none => pure { p with error := some (badDescribe describeOut) }
    | some (tag, num, hex) =>
      if ¬ startsWith tagPrefix tag then pure { p with error := some (badTag tag tagPrefix) }
      else
        let n ← intOf num
        let date ← commitDate c
        pure { p with
          closestTag := some (tag.drop tagPrefix.length), distance := n, short := hex,
          date := some date }
  else
    let (count, _) ← git c ["rev-list", "HEAD", "--count"]
    match count with
    | none => throw (.py .typeError)
    | some count =>
      let n ← intOf count
      let date ← commitDate c
      pure { p with distance := n, date := some date }

/-- The arguments of `git describe`, `/repo/pyslope/_version.py:277-285`. -/
def describeArgs (tagPrefix : Str) : List String :=
  ["describe", "--tags", "--dirty", "--always", "--long"]
    ++ (if tagPrefix = [] then [] else ["--match", String.ofList (tagPrefix ++ ['*'])])

/-- `/repo/pyslope/_version.py:250-390` `git_pieces_from_vcs`. -/
def piecesFromVcs (c : Computer) (tagPrefix : Str) : Except VErr Pieces := do
  let (_, rc) ← git c ["rev-parse", "--git-dir"]
  if rc ≠ some 0 then throw .notThisMethod
  let (d, _) ← git c (describeArgs tagPrefix)
  match d with
  | none => throw .notThisMethod
  | some d =>
    let (f, _) ← git c ["rev-parse", "HEAD"]
    match f with
    | none => throw .notThisMethod
    | some f =>
      let b ← branchName c
      piecesFrom c tagPrefix (strip d) (strip f) b

/-! ## The version -/

/-- The dictionary that `get_versions` returns. -/
structure Info where
  version : Str
  fullRevisionId : Option Str
  dirty : Option Bool
  error : Option Str
  date : Option Str
  deriving DecidableEq, Repr

/-- `/repo/pyslope/_version.py:393-397` `plus_or_dot`. -/
def plusOrDot (tag : Str) : Str := if '+' ∈ tag then ['.'] else ['+']

/-- `/repo/pyslope/_version.py:400-421` `render_pep440`. An empty tag counts as none. -/
def renderPep440 (p : Pieces) : Str :=
  let isDirty := if p.dirty then ".dirty".toList else []
  match p.closestTag with
  | some (t :: ts) =>
    let tag := t :: ts
    if p.distance ≠ 0 ∨ p.dirty then
      tag ++ plusOrDot tag ++ fmtD p.distance ++ ".g".toList ++ p.short ++ isDirty
    else tag
  | _ => "0+untagged.".toList ++ fmtD p.distance ++ ".g".toList ++ p.short ++ isDirty

/-- `/repo/pyslope/_version.py:610-649` `render` with the style of the repository, `"pep440"`
(`_version.py:44`). The other styles cannot be reached without editing the file. -/
def render (p : Pieces) : Info :=
  match p.error with
  | some e =>
    { version := "unknown".toList, fullRevisionId := some p.long, dirty := none, error := some e,
      date := none }
  | none =>
    { version := renderPep440 p, fullRevisionId := some p.long, dirty := some p.dirty,
      error := none, date := p.date }

/-- The three strings that `git archive` fills in (`/repo/pyslope/_version.py:21-31`). -/
structure Keywords where
  refnames : Str
  full : Str
  date : Str
  deriving DecidableEq, Repr

/-- `/repo/pyslope/_version.py:21-31` `get_keywords`, as committed. -/
def keywords : Keywords :=
  { refnames := "$Format:%d$".toList, full := "$Format:%H$".toList, date := "$Format:%ci$".toList }

/-- `a <= b` for strings: code point by code point. -/
def strLe : Str → Str → Bool
  | [], _ => true
  | _ :: _, [] => false
  | a :: as, b :: bs => if a = b then strLe as bs else a.toNat < b.toNat

/-- One step of `sorted`. -/
def insertStr (a : Str) : List Str → List Str
  | [] => [a]
  | b :: bs => if strLe a b then a :: b :: bs else b :: insertStr a bs

/-- `sorted` of strings. -/
def sortStr : List Str → List Str
  | [] => []
  | a :: as => insertStr a (sortStr as)

/-- `{r.strip() for r in refnames.strip("()").split(",")}` (`/repo/pyslope/_version.py:202`), as a
list: that a set drops repetitions does not matter below. -/
def refsOf (refnames : Str) : List Str :=
  (splitOn ',' (stripBy (fun c => c = '(' || c = ')') refnames)).map strip

/-- `tags`, `/repo/pyslope/_version.py:205-215`. -/
def tagsOf (refs : List Str) : List Str :=
  let tags := (refs.filter (startsWith "tag: ".toList)).map (List.drop 5)
  if tags = [] then refs.filter (fun r => r.any isDig) else tags

/-- `ref.startswith(tag_prefix)` and `re.match(r"\d", r)`, `/repo/pyslope/_version.py:222-228`. -/
def suitable (tagPrefix ref : Str) : Bool :=
  startsWith tagPrefix ref &&
    match ref.drop tagPrefix.length with
    | [] => false
    | c :: _ => isDig c

/-- `/repo/pyslope/_version.py:179-247` `git_versions_from_keywords`. The three keywords are
always there in `get_keywords`. -/
def versionsFromKeywords (k : Keywords) (tagPrefix : Str) : Except VErr Info := do
  let date ← tidyDate k.date
  let refnames := strip k.refnames
  if startsWith "$Format".toList refnames then throw .notThisMethod
  match (sortStr (tagsOf (refsOf refnames))).find? (suitable tagPrefix) with
  | some ref =>
    pure { version := ref.drop tagPrefix.length, fullRevisionId := some (strip k.full),
           dirty := some false, error := none, date := some date }
  | none =>
    pure { version := "0+unknown".toList, fullRevisionId := some (strip k.full),
           dirty := some false, error := some "no suitable tags".toList, date := none }

/-- The answer when nothing else works, `/repo/pyslope/_version.py:697-703`. -/
def unknownInfo : Info :=
  { version := "0+unknown".toList, fullRevisionId := none, dirty := none,
    error := some "unable to compute version".toList, date := none }

/-- `/repo/pyslope/_version.py:652-703` `get_versions`, with the configuration of
`/repo/pyslope/_version.py:38-49`: no tag prefix and no parent directory prefix. `__file__` is
taken to exist. -/
def getVersions (c : Computer) (k : Keywords) : Except VErr Info :=
  match versionsFromKeywords k [] with
  | .error .notThisMethod =>
    match (piecesFromVcs c []).map render with
    | .error .notThisMethod => .ok unknownInfo
    | r => r
  | r => r

/-- `import pyslope; pyslope.__version__` (`/repo/pyslope/__init__.py:7-9`): an exception here is
an exception of the import. -/
def importVersion (c : Computer) : Except VErr Str := (getVersions c keywords).map Info.version

end Version
end PySlope
