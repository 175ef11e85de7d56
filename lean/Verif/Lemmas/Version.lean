import Mathlib.Tactic.Common
import Mathlib.Tactic.NormNum
import Verif.Spec.Version

/-! # Reading git's answers -/

namespace PySlope
namespace Version

/-! ## Text -/

theorem dropWhile_head {p : Char → Bool} {s : Str} (h : ∀ c, s.head? = some c → p c = false) :
    s.dropWhile p = s := by
  cases s with
  | nil => rfl
  | cons a l => simp [List.dropWhile, h a rfl]

theorem stripBy_self {p : Char → Bool} {s : Str} (h : ∀ c, s.head? = some c → p c = false)
    (h' : ∀ c, s.getLast? = some c → p c = false) : stripBy p s = s := by
  have e : s.reverse.dropWhile p = s.reverse :=
    dropWhile_head (by intro c hc; rw [List.head?_reverse] at hc; exact h' c hc)
  rw [stripBy, dropWhile_head h, e, List.reverse_reverse]

theorem mem_dropWhile {p : Char → Bool} {c : Char} (hc : p c = false) :
    ∀ {s : Str}, c ∈ s → c ∈ s.dropWhile p
  | a :: l, h => by
    by_cases ha : p a = true
    · rw [List.dropWhile_cons_of_pos ha]
      rcases List.mem_cons.1 h with rfl | h
      · rw [hc] at ha; cases ha
      · exact mem_dropWhile hc h
    · rwa [List.dropWhile_cons_of_neg ha]

theorem mem_stripBy {p : Char → Bool} {c : Char} (hc : p c = false) {s : Str} (h : c ∈ s) :
    c ∈ stripBy p s := by
  have h1 := mem_dropWhile hc h
  have h2 := mem_dropWhile hc (List.mem_reverse.2 h1)
  exact List.mem_reverse.2 h2

theorem byteSpace_of_not {c : Char} (h : isSpace c = false) : isByteSpace c = false := by
  simp only [isSpace, isByteSpace, Bool.or_eq_false_iff, Bool.and_eq_false_iff,
    decide_eq_false_iff_not, beq_eq_false_iff_ne] at h ⊢
  omega

theorem stripBy_newline {s : Str} (h : ∀ c, s.head? = some c → isSpace c = false)
    (h' : ∀ c, s.getLast? = some c → isSpace c = false) :
    stripBy isByteSpace (s ++ ['\n']) = s := by
  cases s with
  | nil => decide
  | cons a l =>
    have ha : isByteSpace a = false := byteSpace_of_not (h a rfl)
    have e1 : ((a :: l) ++ ['\n']).dropWhile isByteSpace = (a :: l) ++ ['\n'] :=
      dropWhile_head (by intro c hc; simp at hc; subst hc; exact ha)
    have e2 : (a :: l).reverse.dropWhile isByteSpace = (a :: l).reverse :=
      dropWhile_head (by
        intro c hc; rw [List.head?_reverse] at hc; exact byteSpace_of_not (h' c hc))
    rw [stripBy, e1, List.reverse_append]
    show (List.dropWhile isByteSpace ('\n' :: (a :: l).reverse)).reverse = _
    rw [List.dropWhile_cons_of_pos (by decide), e2, List.reverse_reverse]

theorem strip_printed {s : Str} (h : ∀ c, s.head? = some c → isSpace c = false)
    (h' : ∀ c, s.getLast? = some c → isSpace c = false) :
    strip (stripBy isByteSpace (s ++ ['\n'])) = s := by
  rw [stripBy_newline h h']; exact stripBy_self h h'

theorem splitlines_ne_nil : ∀ {s : Str}, s ≠ [] → splitlines s ≠ []
  | [], h => absurd rfl h
  | [c], _ => by unfold splitlines; split <;> simp
  | c :: d :: rest, _ => by
    unfold splitlines
    split
    · simp
    · split
      · simp
      · split <;> simp

theorem tidyDate_ok {s : Str} (h : s ≠ []) : ∃ d, tidyDate s = .ok d := by
  have := splitlines_ne_nil h
  cases e : (splitlines s).getLast? with
  | none => exact absurd (List.getLast?_eq_none_iff.1 e) this
  | some l => exact ⟨_, by simp only [tidyDate, e]; rfl⟩

/-! ## Characters -/

theorem numeral_eq (n : ℕ) : numeral n = Nat.toDigits 10 n := by
  rw [numeral]; exact Nat.toList_repr

theorem fmtD_eq (n : ℕ) : fmtD n = numeral n := (numeral_eq n).symm

theorem numeral_ne_nil (n : ℕ) : numeral n ≠ [] := by
  rw [numeral_eq]; exact Nat.toDigits_ne_nil

theorem isDig_numeral {n : ℕ} {c : Char} (h : c ∈ numeral n) : isDig c = true := by
  rw [numeral_eq] at h
  exact Nat.isDigit_of_mem_toDigits (by norm_num) (by norm_num) h

theorem numeral_val (n : ℕ) : Nat.ofDigitChars 10 (numeral n) 0 = n := by
  rw [numeral_eq]; exact Nat.ofDigitChars_ten_toDigits

theorem numeral_inj {m n : ℕ} (h : numeral m = numeral n) : m = n := by
  rw [← numeral_val m, h, numeral_val]

theorem isDig_iff {c : Char} : isDig c = true ↔ 48 ≤ c.toNat ∧ c.toNat ≤ 57 := by
  simp only [isDig, Char.isDigit, Bool.and_eq_true, decide_eq_true_eq]
  constructor
  · rintro ⟨a, b⟩; exact ⟨UInt32.le_iff_toNat_le.1 a, UInt32.le_iff_toNat_le.1 b⟩
  · rintro ⟨a, b⟩; exact ⟨UInt32.le_iff_toNat_le.2 a, UInt32.le_iff_toNat_le.2 b⟩

theorem isHex_iff {c : Char} :
    isHex c = true ↔ (48 ≤ c.toNat ∧ c.toNat ≤ 57) ∨ (97 ≤ c.toNat ∧ c.toNat ≤ 102) := by
  simp only [isHex, Bool.or_eq_true, isDig_iff, Bool.and_eq_true, decide_eq_true_eq]

theorem char_le_iff {a b : Char} : a ≤ b ↔ a.toNat ≤ b.toNat := by
  rw [Char.le_def]; exact UInt32.le_iff_toNat_le

theorem HexText.isHex {t : Str} (h : HexText t) {c : Char} (hc : c ∈ t) : isHex c = true := by
  rw [isHex_iff]
  rcases h.2 c hc with ⟨a, b⟩ | ⟨a, b⟩
  · exact .inl ⟨char_le_iff.1 a, char_le_iff.1 b⟩
  · exact .inr ⟨char_le_iff.1 a, char_le_iff.1 b⟩

theorem isSpace_hex {c : Char} (h : isHex c = true) : isSpace c = false := by
  rw [isHex_iff] at h
  simp only [isSpace, Bool.or_eq_false_iff, Bool.and_eq_false_iff,
    decide_eq_false_iff_not, beq_eq_false_iff_ne]
  omega

theorem isHex_dig {c : Char} (h : isDig c = true) : isHex c = true := by
  rw [isHex_iff]; exact .inl (isDig_iff.1 h)

theorem intOf_numeral (n : ℕ) : intOf (numeral n) = .ok n := by
  have hs : strip (numeral n) = numeral n := stripBy_self
    (fun c hc => isSpace_hex (isHex_dig (isDig_numeral (List.mem_of_mem_head? hc))))
    (fun c hc => isSpace_hex (isHex_dig (isDig_numeral (List.mem_of_mem_getLast? hc))))
  have ha : (numeral n).all isDig = true := List.all_eq_true.2 fun c hc => isDig_numeral hc
  simp only [intOf, hs]
  rw [if_pos ⟨numeral_ne_nil n, ha⟩, numeral_val]

/-! ## `git describe` -/

theorem matchDescribe_text {tag hex : Str} {n : ℕ} (ht : tag ≠ []) (hn : '\n' ∉ tag)
    (hh : HexText hex) :
    matchDescribe (tag ++ ['-'] ++ numeral n ++ ['-', 'g'] ++ hex) = some (tag, numeral n, hex) := by
  have hr : (tag ++ ['-'] ++ numeral n ++ ['-', 'g'] ++ hex).reverse
      = hex.reverse ++ ('g' :: '-' :: ((numeral n).reverse ++ '-' :: tag.reverse)) := by
    simp
  have hx : ∀ c ∈ hex.reverse, isHex c = true := fun c hc => hh.isHex (List.mem_reverse.1 hc)
  have hd : ∀ c ∈ (numeral n).reverse, isDig c = true :=
    fun c hc => isDig_numeral (List.mem_reverse.1 hc)
  have hstart : skipNewline
      (hex.reverse ++ ('g' :: '-' :: ((numeral n).reverse ++ '-' :: tag.reverse)))
      = hex.reverse ++ ('g' :: '-' :: ((numeral n).reverse ++ '-' :: tag.reverse)) := by
    have hne : hex.reverse ≠ [] := by simpa using hh.1
    obtain ⟨a, l, e'⟩ := List.exists_cons_of_ne_nil hne
    have hb := hx a (by rw [e']; exact List.mem_cons_self)
    rw [e', List.cons_append, skipNewline, if_neg]
    rintro rfl
    exact absurd hb (by decide)
  unfold matchDescribe
  simp only [hr, hstart]
  rw [List.takeWhile_append_of_pos hx, List.dropWhile_append_of_pos hx]
  rw [List.takeWhile_cons_of_neg (by decide), List.dropWhile_cons_of_neg (by decide)]
  simp only
  rw [List.takeWhile_append_of_pos hd, List.dropWhile_append_of_pos hd]
  rw [List.takeWhile_cons_of_neg (by decide), List.dropWhile_cons_of_neg (by decide)]
  simp [hh.1, numeral_ne_nil, ht, hn]

theorem describe_ends (t : Tree) (h : t.Valid) :
    ∀ c, t.describe.getLast? = some c → isSpace c = false := by
  intro c hc
  unfold Tree.describe at hc
  by_cases hd : t.changed = true
  · rw [hd, if_pos rfl, List.getLast?_append] at hc
    have : ("-dirty".toList).getLast? = some 'y' := by decide
    rw [this] at hc
    cases hc
    decide
  · rw [if_neg hd, List.append_nil] at hc
    have key : ∀ s : Str, (s ++ t.hash).getLast? = some c → isSpace c = false := by
      intro s hs
      rw [List.getLast?_append] at hs
      cases e : t.hash.getLast? with
      | none => exact absurd (List.getLast?_eq_none_iff.1 e) h.hash.1
      | some d =>
        rw [e] at hs
        cases hs
        exact isSpace_hex (h.hash.isHex (List.mem_of_mem_getLast? e))
    cases ht : t.tag with
    | none => rw [ht] at hc; exact key [] hc
    | some g => rw [ht] at hc; exact key _ hc

theorem describe_starts (t : Tree) (h : t.Valid) :
    ∀ c, t.describe.head? = some c → isSpace c = false := by
  intro c hc
  unfold Tree.describe at hc
  cases ht : t.tag with
  | none =>
    obtain ⟨a, l, e⟩ := List.exists_cons_of_ne_nil h.hash.1
    rw [ht] at hc
    simp only [e, List.cons_append, List.head?_cons] at hc
    cases hc
    exact isSpace_hex (h.hash.isHex (by rw [e]; exact List.mem_cons_self))
  | some g =>
    obtain ⟨h1, -, h3⟩ := h.tag g ht
    obtain ⟨a, l, e⟩ := List.exists_cons_of_ne_nil h1
    rw [ht] at hc
    simp only [e, List.cons_append, List.head?_cons] at hc
    cases hc
    exact h3 _ (by rw [e]; rfl)

theorem hex_starts {t : Str} (h : HexText t) : ∀ c, t.head? = some c → isSpace c = false :=
  fun _ hc => isSpace_hex (h.isHex (List.mem_of_mem_head? hc))

theorem hex_ends {t : Str} (h : HexText t) : ∀ c, t.getLast? = some c → isSpace c = false :=
  fun _ hc => isSpace_hex (h.isHex (List.mem_of_mem_getLast? hc))

/-! ## Running git -/

theorem git_prints {c : Computer} {args : List String} {text : Str} (h : Prints c args text) :
    git c args = .ok (some (stripBy isByteSpace (text ++ ['\n'])), some 0) := by
  unfold Prints at h
  by_cases hw : c.windows = true
  · rw [if_pos hw] at h
    rcases h with h | ⟨h1, h2⟩
    · simp [git, gits, hw, runCommand, h]
    · simp [git, gits, hw, runCommand, h1, h2]
  · rw [if_neg hw] at h
    simp [git, gits, hw, runCommand, h]

theorem git_fails {c : Computer} {args : List String} (h : Fails c args) :
    ∃ rc, git c args = .ok (none, rc) ∧ rc ≠ some 0 := by
  unfold Fails at h
  by_cases hw : c.windows = true
  · rw [if_pos hw] at h
    rcases h with (h | ⟨out, code, h0, h⟩) | ⟨h1, (h | ⟨out, code, h0, h⟩) | h⟩
    · exact ⟨none, by simp [git, gits, hw, runCommand, h], by simp⟩
    · exact ⟨some code, by simp [git, gits, hw, runCommand, h, h0], by simpa using h0⟩
    · exact ⟨none, by simp [git, gits, hw, runCommand, h1, h], by simp⟩
    · exact ⟨some code, by simp [git, gits, hw, runCommand, h1, h, h0], by simpa using h0⟩
    · exact ⟨none, by simp [git, gits, hw, runCommand, h1, h], by simp⟩
  · rw [if_neg hw] at h
    rcases h with (h | ⟨out, code, h0, h⟩) | h
    · exact ⟨none, by simp [git, gits, hw, runCommand, h], by simp⟩
    · exact ⟨some code, by simp [git, gits, hw, runCommand, h, h0], by simpa using h0⟩
    · exact ⟨none, by simp [git, gits, hw, runCommand, h], by simp⟩

theorem keywords_unexpanded : versionsFromKeywords keywords [] = .error .notThisMethod := by
  decide +kernel

theorem commitDate_ok {c : Computer} {d : Str}
    (h : Prints c ["show", "-s", "--format=%ci", "HEAD"] d) (hd : ∃ ch ∈ d, isSpace ch = false) :
    ∃ r, commitDate c = .ok r := by
  obtain ⟨ch, h1, h2⟩ := hd
  have hm : ch ∈ strip (stripBy isByteSpace (d ++ ['\n'])) :=
    mem_stripBy h2 (mem_stripBy (byteSpace_of_not h2) (List.mem_append_left _ h1))
  obtain ⟨r, hr⟩ := tidyDate_ok (List.ne_nil_of_mem hm)
  exact ⟨r, by simp only [commitDate, git_prints h]; exact hr⟩

theorem branchName_ok {c : Computer} (h : ∃ b, Prints c ["rev-parse", "--abbrev-ref", "HEAD"] b)
    (h' : ∃ b, Prints c ["branch", "--contains"] b) : ∃ r, branchName c = .ok r := by
  obtain ⟨b, hb⟩ := h
  obtain ⟨b', hb'⟩ := h'
  simp only [branchName, git_prints hb, git_prints hb', bind, Except.bind]
  simp only [ne_eq, not_true_eq_false, if_false]
  split
  · simp only [pure, Except.pure]
    repeat' split
    all_goals exact ⟨_, rfl⟩
  · exact ⟨_, rfl⟩

end Version
end PySlope
