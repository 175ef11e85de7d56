import Verif.Model.Version

/-! # What `git archive` writes into `_version.py` -/

namespace PySlope
namespace Version

/-- A name in the list of references: no comma or parenthesis, no white space at either end. -/
def RefName (n : Str) : Prop :=
  n ≠ [] ∧ ',' ∉ n ∧ '(' ∉ n ∧ ')' ∉ n ∧ (∀ c, n.head? = some c → isSpace c = false) ∧
    ∀ c, n.getLast? = some c → isSpace c = false

/-- Names separated by a comma and a blank. -/
def commas : List Str → Str
  | [] => []
  | [n] => n
  | n :: rest => n ++ ", ".toList ++ commas rest

/-- The expansion of `$Format:%d$`: ` (HEAD -> master, tag: 1.0)`. -/
def refLine (names : List Str) : Str := " (".toList ++ commas names ++ ")".toList

/-- Dictionary order by code points: `a` begins `b`, or is smaller where they first differ. -/
def NotAfter (a b : Str) : Prop :=
  a <+: b ∨ ∃ p x y r s, a = p ++ x :: r ∧ b = p ++ y :: s ∧ x < y

/-- A release tag among the references: `tag: ` and a name that begins with a digit. -/
def ReleaseTag (names : List Str) (v : Str) : Prop :=
  "tag: ".toList ++ v ∈ names ∧ ∃ c, v.head? = some c ∧ '0' ≤ c ∧ c ≤ '9'

end Version
end PySlope
