import Verif.Spec.VersionArchive
import Verif.Props.Version

/-! # The version of a downloaded archive (C120) -/

namespace PySlope
open Version
namespace Version

/-! ## Sorting -/

theorem strLe_refl : ∀ a : Str, strLe a a = true
  | [] => rfl
  | a :: as => by rw [strLe, if_pos rfl]; exact strLe_refl as

theorem strLe_total : ∀ a b : Str, strLe a b = true ∨ strLe b a = true
  | [], b => .inl (by simp [strLe])
  | a :: as, [] => .inr (by simp [strLe])
  | a :: as, b :: bs => by
    rw [strLe, strLe]
    by_cases h : a = b
    · rw [if_pos h, if_pos h.symm]; exact strLe_total as bs
    · rw [if_neg h, if_neg (fun e => h e.symm), decide_eq_true_eq, decide_eq_true_eq]
      have : a.toNat ≠ b.toNat := fun e => h (Char.toNat_inj.1 e)
      omega

theorem strLe_trans : ∀ {a b c : Str}, strLe a b = true → strLe b c = true → strLe a c = true
  | [], _, _, _, _ => by simp [strLe]
  | _ :: _, [], _, h, _ => by simp [strLe] at h
  | _ :: _, _ :: _, [], _, h => by simp [strLe] at h
  | a :: as, b :: bs, c :: cs, h, h' => by
    rw [strLe] at h h' ⊢
    by_cases e : a = b
    · subst e
      rw [if_pos rfl] at h
      by_cases e' : a = c
      · rw [if_pos e'] at h' ⊢
        exact strLe_trans h h'
      · rw [if_neg e'] at h' ⊢
        exact h'
    · rw [if_neg e, decide_eq_true_eq] at h
      by_cases e' : b = c
      · subst e'
        rw [if_neg e, decide_eq_true_eq]; exact h
      · rw [if_neg e', decide_eq_true_eq] at h'
        rw [if_neg, decide_eq_true_eq]
        · omega
        · rintro rfl; omega

theorem strLe_notAfter : ∀ {a b : Str}, strLe a b = true → NotAfter a b
  | [], _, _ => .inl List.nil_prefix
  | _ :: _, [], h => by simp [strLe] at h
  | a :: as, b :: bs, h => by
    rw [strLe] at h
    by_cases e : a = b
    · subst e
      rw [if_pos rfl] at h
      rcases strLe_notAfter h with h | ⟨p, x, y, r, s, h1, h2, h3⟩
      · exact .inl (by rwa [List.cons_prefix_cons, and_iff_right rfl])
      · exact .inr ⟨a :: p, x, y, r, s, by rw [h1]; rfl, by rw [h2]; rfl, h3⟩
    · rw [if_neg e, decide_eq_true_eq] at h
      exact .inr ⟨[], a, b, as, bs, rfl, rfl, Char.lt_def.2 (UInt32.lt_iff_toNat_lt.2 h)⟩

theorem mem_insertStr {a x : Str} : ∀ {l : List Str}, x ∈ insertStr a l ↔ x = a ∨ x ∈ l
  | [] => by simp [insertStr]
  | b :: bs => by
    unfold insertStr
    split
    · simp
    · rw [List.mem_cons, mem_insertStr, List.mem_cons]
      tauto

theorem mem_sortStr {x : Str} : ∀ {l : List Str}, x ∈ sortStr l ↔ x ∈ l
  | [] => by simp [sortStr]
  | a :: as => by rw [sortStr, mem_insertStr, mem_sortStr, List.mem_cons]

theorem insertStr_sorted {a : Str} : ∀ {l : List Str}, l.Pairwise (strLe · ·) →
    (insertStr a l).Pairwise (strLe · ·)
  | [], _ => by simp [insertStr]
  | b :: bs, h => by
    rw [List.pairwise_cons] at h
    unfold insertStr
    split
    · rename_i hle
      rw [List.pairwise_cons, List.pairwise_cons]
      refine ⟨?_, h⟩
      intro x hx
      rcases List.mem_cons.1 hx with rfl | hx
      · exact hle
      · exact strLe_trans hle (h.1 x hx)
    · rename_i hle
      have hle : strLe b a = true := (strLe_total a b).resolve_left hle
      rw [List.pairwise_cons]
      refine ⟨?_, insertStr_sorted h.2⟩
      intro x hx
      rcases mem_insertStr.1 hx with rfl | hx
      · exact hle
      · exact h.1 x hx

theorem sortStr_sorted : ∀ l : List Str, (sortStr l).Pairwise (strLe · ·)
  | [] => by simp [sortStr]
  | a :: as => by rw [sortStr]; exact insertStr_sorted (sortStr_sorted as)

/-- The first entry of a sorted list that passes a test is the least that passes it. -/
theorem find_least {p : Str → Bool} : ∀ {l : List Str}, l.Pairwise (strLe · ·) →
    ∀ {v}, l.find? p = some v → ∀ t ∈ l, p t = true → strLe v t = true
  | [], _, _, h, _, _, _ => by cases h
  | b :: bs, hs, v, h, t, ht, hp => by
    rw [List.pairwise_cons] at hs
    by_cases hb : p b = true
    · rw [List.find?_cons_of_pos hb] at h
      cases h
      rcases List.mem_cons.1 ht with rfl | ht
      · exact strLe_refl _
      · exact hs.1 t ht
    · rw [List.find?_cons_of_neg hb] at h
      rcases List.mem_cons.1 ht with rfl | ht
      · exact absurd hp hb
      · exact find_least hs.2 h t ht hp

/-! ## The list of references -/

theorem splitOn_none {x : Char} : ∀ {s : Str}, x ∉ s → splitOn x s = [s]
  | [], _ => rfl
  | c :: s, h => by
    rw [splitOn, if_neg (fun e => h (by rw [e]; exact List.mem_cons_self)),
      splitOn_none (fun m => h (List.mem_cons_of_mem _ m))]

theorem splitOn_append {x : Char} : ∀ {s : Str} (r : Str), x ∉ s →
    splitOn x (s ++ x :: r) = s :: splitOn x r
  | [], r, _ => by rw [List.nil_append, splitOn, if_pos rfl]
  | c :: s, r, h => by
    rw [List.cons_append, splitOn, if_neg (fun e => h (by rw [e]; exact List.mem_cons_self)),
      splitOn_append r (fun m => h (List.mem_cons_of_mem _ m))]

theorem strip_ref {n : Str} (h : RefName n) : strip n = n := stripBy_self h.2.2.2.2.1 h.2.2.2.2.2

theorem strip_blank {n : Str} (h : RefName n) : strip (' ' :: n) = n := by
  have : strip (' ' :: n) = strip n := by
    unfold strip stripBy
    rw [List.dropWhile_cons_of_pos (by decide)]
  rw [this, strip_ref h]

theorem split_commas : ∀ {names : List Str}, names ≠ [] → (∀ n ∈ names, RefName n) →
    (splitOn ',' (commas names)).map strip = names ∧
      (splitOn ',' (' ' :: commas names)).map strip = names
  | [], h, _ => absurd rfl h
  | [n], _, h => by
    have hn := h n List.mem_cons_self
    have hb : ',' ∉ ' ' :: n := by
      intro hm
      rcases List.mem_cons.1 hm with e | hm
      · exact absurd e (by decide)
      · exact hn.2.1 hm
    rw [commas, splitOn_none hn.2.1, splitOn_none hb]
    simp only [List.map_cons, List.map_nil, strip_ref hn, strip_blank hn, and_self]
  | n :: m :: rest, _, h => by
    have hn := h n List.mem_cons_self
    have ih := split_commas (names := m :: rest) (by simp)
      (fun k hk => h k (List.mem_cons_of_mem _ hk))
    have hb : ',' ∉ ' ' :: n := by
      intro hm
      rcases List.mem_cons.1 hm with e | hm
      · exact absurd e (by decide)
      · exact hn.2.1 hm
    have hc : ", ".toList = [',', ' '] := by decide
    have e : commas (n :: m :: rest) = n ++ ',' :: (' ' :: commas (m :: rest)) := by
      rw [commas, hc, List.append_assoc]; rfl
      simp
    rw [e, ← List.cons_append, splitOn_append _ hn.2.1, splitOn_append _ hb]
    simp only [List.map_cons, strip_ref hn, strip_blank hn, ih.2, and_self]

theorem paren_commas {x : Char} (hx : x = '(' ∨ x = ')') : ∀ {names : List Str},
    (∀ n ∈ names, RefName n) → x ∉ commas names
  | [], _ => by simp [commas]
  | [n], h => by
    have hn := h n List.mem_cons_self
    rw [commas]
    rcases hx with rfl | rfl
    · exact hn.2.2.1
    · exact hn.2.2.2.1
  | n :: m :: rest, h => by
    have hn := h n List.mem_cons_self
    have ih := paren_commas hx (names := m :: rest) (fun k hk => h k (List.mem_cons_of_mem _ hk))
    have hc : ", ".toList = [',', ' '] := by decide
    rw [commas, hc]
    · simp only [List.mem_append, List.mem_cons, List.not_mem_nil, or_false, not_or]
      refine ⟨⟨?_, ?_⟩, ih⟩
      · rcases hx with rfl | rfl
        · exact hn.2.2.1
        · exact hn.2.2.2.1
      · rcases hx with rfl | rfl <;> decide
    · simp

theorem refsOf_line {names : List Str} (h0 : names ≠ []) (h : ∀ n ∈ names, RefName n) :
    strip (refLine names) = '(' :: (commas names ++ [')']) ∧
      refsOf ('(' :: (commas names ++ [')'])) = names := by
  have h1 : refLine names = ' ' :: '(' :: (commas names ++ [')']) := by
    have a : " (".toList = [' ', '('] := by decide
    have b : ")".toList = [')'] := by decide
    rw [refLine, a, b]; rfl
  constructor
  · rw [h1]
    have : strip (' ' :: '(' :: (commas names ++ [')'])) = strip ('(' :: (commas names ++ [')'])) := by
      unfold strip stripBy
      rw [List.dropWhile_cons_of_pos (by decide)]
    rw [this]
    refine stripBy_self ?_ ?_
    · intro c hc; cases hc; decide
    · intro c hc
      rw [← List.cons_append, List.getLast?_append] at hc
      cases hc; decide
  · have hp : ∀ {q : Str}, '(' ∉ q → ')' ∉ q → ∀ c, q.head? = some c →
        (decide (c = '(') || decide (c = ')')) = false := by
      intro q a b c hc
      have hm := List.mem_of_mem_head? hc
      simp only [Bool.or_eq_false_iff, decide_eq_false_iff_not]
      exact ⟨fun e => a (e ▸ hm), fun e => b (e ▸ hm)⟩
    have a1 := paren_commas (.inl rfl) h
    have a2 := paren_commas (.inr rfl) h
    have key : stripBy (fun c => decide (c = '(') || decide (c = ')'))
        ('(' :: (commas names ++ [')'])) = commas names := by
      unfold stripBy
      rw [List.dropWhile_cons_of_pos (by decide)]
      have hne : commas names ≠ [] := by
        intro e
        have := (split_commas h0 h).1
        rw [e] at this
        have hn : names = [[]] := by rw [← this]; decide
        have := h [] (by rw [hn]; exact List.mem_cons_self)
        exact this.1 rfl
      obtain ⟨c, r, e⟩ := List.exists_cons_of_ne_nil hne
      have e1 : (commas names ++ [')']).dropWhile (fun c => decide (c = '(') || decide (c = ')'))
          = commas names ++ [')'] := by
        refine dropWhile_head ?_
        intro d hd
        refine hp a1 a2 d ?_
        rw [e] at hd ⊢
        exact hd
      rw [e1, List.reverse_append]
      show (List.dropWhile _ (')' :: (commas names).reverse)).reverse = _
      rw [List.dropWhile_cons_of_pos (by decide), dropWhile_head, List.reverse_reverse]
      exact hp (by simpa using a1) (by simpa using a2)
    rw [refsOf, key, (split_commas h0 h).1]

theorem suitable_iff {v : Str} :
    suitable [] v = true ↔ ∃ c, v.head? = some c ∧ '0' ≤ c ∧ c ≤ '9' := by
  have hd : ∀ c : Char, isDig c = true ↔ '0' ≤ c ∧ c ≤ '9' := by
    intro c
    rw [isDig_iff, char_le_iff, char_le_iff]; rfl
  cases v with
  | nil => simp [suitable]
  | cons c l =>
    simp only [suitable, startsWith, List.isPrefixOf_nil_left, List.length_nil, List.drop_zero,
      Bool.true_and, List.head?_cons, Option.some.injEq, exists_eq_left', hd]

theorem mem_tags {names : List Str} {v t : Str} (ht : "tag: ".toList ++ t ∈ names) :
    v ∈ tagsOf names ↔ "tag: ".toList ++ v ∈ names := by
  have hp : ∀ w : Str, w ∈ (names.filter (startsWith "tag: ".toList)).map (List.drop 5) ↔
      "tag: ".toList ++ w ∈ names := by
    intro w
    simp only [List.mem_map, List.mem_filter, startsWith, List.isPrefixOf_iff_prefix]
    constructor
    · rintro ⟨a, ⟨h1, r, h2⟩, h3⟩
      have : List.drop 5 a = r := by
        rw [← h2]; exact List.drop_left' (by decide)
      rw [this] at h3
      rw [← h3, h2]; exact h1
    · intro h
      exact ⟨_, ⟨h, w, rfl⟩, List.drop_left' (by decide)⟩
  unfold tagsOf
  simp only
  rw [if_neg (List.ne_nil_of_mem ((hp t).2 ht)), hp]

end Version

/-- C120. In an archive made by git (a download of a tag), where git has written the names that
point at the commit: the version is one of the release tags written there, and the first of them
in dictionary order; git is not asked, and the commit reported is the one written there. -/
theorem C120_archive {c : Computer} {k : Keywords} {names : List Str} {t : Str}
    (h : ∀ n ∈ names, RefName n) (hk : k.refnames = refLine names) (hd : k.date ≠ [])
    (ht : ReleaseTag names t) :
    ∃ v i, getVersions c k = .ok i ∧ i.version = v ∧ i.error = none ∧
      i.fullRevisionId = some (strip k.full) ∧ ReleaseTag names v ∧
      ∀ t', ReleaseTag names t' → NotAfter v t' := by
  have h0 : names ≠ [] := List.ne_nil_of_mem ht.1
  obtain ⟨e1, e2⟩ := refsOf_line h0 h
  obtain ⟨d, hd⟩ := tidyDate_ok hd
  have hf : startsWith "$Format".toList ('(' :: (commas names ++ [')'])) = false := by
    have : "$Format".toList = '$' :: "Format".toList := by decide
    rw [startsWith, this]
    simp [List.isPrefixOf]
  cases hv : (sortStr (tagsOf names)).find? (suitable []) with
  | none =>
    exfalso
    rw [List.find?_eq_none] at hv
    exact hv t (mem_sortStr.2 ((mem_tags ht.1).2 ht.1)) (suitable_iff.2 ht.2)
  | some v =>
    have hm := mem_sortStr.1 (List.mem_of_find?_eq_some hv)
    have hs := List.find?_some hv
    refine ⟨v, ⟨v, some (strip k.full), some false, none, some d⟩, ?_, rfl, rfl, rfl,
      ⟨(mem_tags ht.1).1 hm, suitable_iff.1 hs⟩, ?_⟩
    · have : versionsFromKeywords k [] = .ok
          { version := v, fullRevisionId := some (strip k.full), dirty := some false,
            error := none, date := some d } := by
        unfold versionsFromKeywords
        simp only [hd, hk, e1, e2, hf, hv, bind, Except.bind, pure, Except.pure,
          Bool.false_eq_true, if_false, List.length_nil, List.drop_zero]
      rw [getVersions, this]
    · intro t' ht'
      exact strLe_notAfter (find_least (sortStr_sorted _) hv t'
        (mem_sortStr.2 ((mem_tags ht.1).2 ht'.1)) (suitable_iff.2 ht'.2))

namespace Version

/-- The references of a commit with a branch and three tags, and what git writes for them. -/
def demoRefs : List Str :=
  ["HEAD -> main".toList, "tag: 2.0rc1".toList, "tag: nightly".toList, "tag: 2.0".toList]

def demoKeywords : Keywords :=
  { refnames := " (HEAD -> main, tag: 2.0rc1, tag: nightly, tag: 2.0)".toList
    full := "37b30a4c01d".toList, date := "2023-04-01 10:00:00 +1000".toList }

theorem demoRefs_ok : ∀ n ∈ demoRefs, RefName n := by
  intro n hn
  simp only [demoRefs, List.mem_cons, List.not_mem_nil, or_false] at hn
  rcases hn with rfl | rfl | rfl | rfl
  all_goals
    refine ⟨by decide, by decide, by decide, by decide, ?_, ?_⟩
    · intro c hc; cases hc; decide
    · intro c hc; cases hc; decide

end Version

/-- The hypotheses of C120 are met by that archive, also where git is not installed. -/
example : ∃ v i, getVersions { windows := false, start := fun _ _ => .notFound } demoKeywords
      = .ok i ∧ i.version = v ∧ i.error = none ∧
      i.fullRevisionId = some (strip demoKeywords.full) ∧ ReleaseTag demoRefs v ∧
      ∀ t', ReleaseTag demoRefs t' → NotAfter v t' :=
  C120_archive (t := "2.0rc1".toList) demoRefs_ok (by decide) (by decide)
    ⟨by decide, '2', by decide, by decide, by decide⟩

/-- And it is `2.0`. -/
example : (getVersions { windows := false, start := fun _ _ => .notFound } demoKeywords).map
    Info.version = .ok "2.0".toList := by decide +kernel

end PySlope
