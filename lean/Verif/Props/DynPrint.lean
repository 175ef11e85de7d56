import Verif.Spec.DynPrint
import Verif.Props.Dynamic
import Verif.Props.PlotCircle
import Verif.Props.Geometry

/-! # What `print_dynamic_results` prints (C108) -/

namespace PySlope

theorem digitsVal_foldl (a b : List Char) : digitsVal (a ++ b) =
    b.foldl (fun a c => 10 * a + (c.toNat - '0'.toNat)) (digitsVal a) := by
  unfold digitsVal
  rw [List.foldl_append]

theorem digitsVal_zeros (a : List Char) (n : ℕ) : digitsVal (a ++ List.replicate n '0') = 10 ^ n * digitsVal a := by
  induction n with
  | zero => simp
  | succ n ih =>
    rw [List.replicate_succ', ← List.append_assoc, digitsVal_foldl, ih]
    simp [pow_succ]
    ring

/-- Zeros after the point do not change the number. -/
theorem Decimal.pad {x : ℝ} {t : List Char} (h : Decimal x t) : Decimal x (padZeros t) ∧ 5 ≤ (padZeros t).length := by
  obtain ⟨ds, fs, h1, h2, rfl, rfl⟩ := h
  unfold padZeros
  generalize hk : 5 - (ds ++ '.' :: fs).length = k
  refine ⟨⟨ds, fs ++ List.replicate k '0', h1, ?_, by simp, ?_⟩, ?_⟩
  · intro c hc
    rcases List.mem_append.mp hc with hc | hc
    · exact h2 c hc
    · obtain rfl := List.eq_of_mem_replicate hc
      exact ⟨by decide, by decide⟩
  · rw [digitsVal_zeros, List.length_append, List.length_replicate]
    push_cast
    rw [pow_add, mul_comm ((10 : ℝ) ^ fs.length), mul_div_mul_left _ _ (by positivity)]
  · rw [List.length_append, List.length_replicate]
    omega

theorem round_thousandths {x : ℝ} (h0 : 0 ≤ x) (h1 : x < 10 ^ 16 - 1) :
    ∃ n : ℕ, pyRound x 3 = (n : ℝ) / 1000 ∧ (n : ℝ) / 1000 < 10 ^ 16 := by
  have he := pyRound_error x 3
  rw [abs_le] at he
  norm_num at he
  obtain ⟨n, hn⟩ := Int.eq_ofNat_of_zero_le ((roundInt_nonneg (x * 10 ^ 3)).mpr (by
    have : 0 ≤ x * 10 ^ 3 := by positivity
    linarith))
  have e : pyRound x 3 = (n : ℝ) / 1000 := by
    rw [pyRound_real, hn]
    push_cast
    norm_num
  refine ⟨n, e, ?_⟩
  rw [← e]
  linarith

/-- C108: after a dynamic analysis `print_dynamic_results` prints one line for each offset tried, and no
other: `Offset: x m, FOS: y`, the offset and the factor of safety of the last attempt there, both to three
digits. `str` is Python's; the numbers are from 0 to 10^16. -/
theorem C108_printed (str : ℝ → List Char) (hstr : PythonStr str) (s t : Slope ℝ) (r : Reachable s) (c : ℝ)
    (dec : Bool) {k} (e : s.analyseDynamic c dec = (t, .ok k))
    (hn : ∀ o f, (o, f) ∈ t.getDynamicResults → (0 ≤ o ∧ o < 10 ^ 16 - 1) ∧ 0 ≤ f ∧ f < 10 ^ 16 - 1) :
    ∃ l, l.length ≤ 12 ∧ Attempts s l t ∧ Records t.getDynamicResults l ∧
      List.Forall₂ (fun line (a : ℝ × ℝ) => LineSays line a.1 a.2) (t.printDynamicResults str)
        t.getDynamicResults := by
  obtain ⟨l, h1, h2⟩ := C48_bounded s r c dec
  obtain ⟨⟨_, h4⟩, h5, _⟩ := h2 t _ e
  refine ⟨l, h1, (h5 k rfl).2, h4, ?_⟩
  unfold Slope.printDynamicResults
  rw [List.forall₂_map_left_iff, List.forall₂_same]
  rintro ⟨o, f⟩ hm
  obtain ⟨⟨o1, o2⟩, f1, f2⟩ := hn o f hm
  obtain ⟨i, i1, i2⟩ := round_thousandths o1 o2
  obtain ⟨j, j1, j2⟩ := round_thousandths f1 f2
  have n3 : (1 / 2 / 10 ^ 3 : ℝ) = 0.0005 := by norm_num
  obtain ⟨p1, p2⟩ := (hstr i i2).pad
  obtain ⟨q1, q2⟩ := (hstr j j2).pad
  have eo := pyRound_error o 3
  have ef := pyRound_error f 3
  rw [n3] at eo ef
  rw [i1] at eo
  rw [j1] at ef
  refine ⟨(i : ℝ) / 1000, (j : ℝ) / 1000, _, _, ?_, p1, q1, p2, q2, eo, ef⟩
  simp only [i1, j1]

/-- Some `str` as Python's exists: digits, a point and three digits. -/
theorem pythonStr_exists : ∃ str, PythonStr str := by
  have key : ∀ n : ℕ, ∃ ds, IsDigits ds ∧ digitsVal ds = n := by
    intro n
    induction n using Nat.strong_induction_on with
    | _ n ih =>
      have dig : ∀ d : ℕ, d < 10 → ∃ ch : Char, ('0' ≤ ch ∧ ch ≤ '9') ∧ ch.toNat - '0'.toNat = d := by
        intro d hd
        interval_cases d
        exacts [⟨'0', by decide⟩, ⟨'1', by decide⟩, ⟨'2', by decide⟩, ⟨'3', by decide⟩, ⟨'4', by decide⟩,
          ⟨'5', by decide⟩, ⟨'6', by decide⟩, ⟨'7', by decide⟩, ⟨'8', by decide⟩, ⟨'9', by decide⟩]
      obtain ⟨ch, c1, c2⟩ := dig (n % 10) (Nat.mod_lt _ (by norm_num))
      rcases Nat.eq_zero_or_pos n with rfl | hp
      · exact ⟨[], (by intro c hc; cases hc), rfl⟩
      · obtain ⟨ds, d1, d2⟩ := ih (n / 10) (Nat.div_lt_self hp (by norm_num))
        refine ⟨ds ++ [ch], ?_, ?_⟩
        · intro c hc
          rcases List.mem_append.mp hc with hc | hc
          · exact d1 c hc
          · rw [List.mem_singleton] at hc
            rw [hc]; exact c1
        · rw [digitsVal_foldl, d2]
          simp only [List.foldl_cons, List.foldl_nil]
          rw [c2]
          omega
  have dec : ∀ n : ℕ, ∃ t, Decimal ((n : ℝ) / 1000) t := by
    intro n
    obtain ⟨q, q1, q2⟩ := key (n / 1000)
    have dig : ∀ d : ℕ, d < 10 → ∃ ch : Char, ('0' ≤ ch ∧ ch ≤ '9') ∧ ch.toNat - '0'.toNat = d := by
      intro d hd
      interval_cases d
      exacts [⟨'0', by decide⟩, ⟨'1', by decide⟩, ⟨'2', by decide⟩, ⟨'3', by decide⟩, ⟨'4', by decide⟩,
        ⟨'5', by decide⟩, ⟨'6', by decide⟩, ⟨'7', by decide⟩, ⟨'8', by decide⟩, ⟨'9', by decide⟩]
    obtain ⟨x, x1, x2⟩ := dig (n % 1000 / 100) (by omega)
    obtain ⟨y, y1, y2⟩ := dig (n % 100 / 10) (by omega)
    obtain ⟨z, z1, z2⟩ := dig (n % 10) (by omega)
    refine ⟨q ++ '.' :: [x, y, z], q, [x, y, z], q1, ?_, rfl, ?_⟩
    · intro c hc
      simp only [List.mem_cons, List.not_mem_nil, or_false] at hc
      rcases hc with rfl | rfl | rfl <;> assumption
    · have e : digitsVal [x, y, z] = n % 1000 := by
        unfold digitsVal
        simp only [List.foldl_cons, List.foldl_nil]
        rw [x2, y2, z2]
        omega
      rw [e, q2]
      have h := Nat.div_add_mod n 1000
      have h' : (1000 : ℝ) * ((n / 1000 : ℕ) : ℝ) + ((n % 1000 : ℕ) : ℝ) = n := by exact_mod_cast h
      simp only [List.length_cons, List.length_nil]
      norm_num
      linarith
  choose f hf using dec
  refine ⟨fun x => f ⌊x * 1000⌋₊, ?_⟩
  intro n _
  simp only [div_mul_cancel₀ _ (by norm_num : (1000 : ℝ) ≠ 0), Nat.floor_natCast]
  exact hf n

/-- The hypotheses of C108 are met by an analysis that tries both ends. -/
example : ∃ (str : ℝ → List Char) (s t : Slope ℝ) (c : ℝ), PythonStr str ∧ Reachable s ∧
    s.analyseDynamic c false = (t, .ok (some 1)) ∧ t.getDynamicResults.length = 2 ∧
    ∀ o f, (o, f) ∈ t.getDynamicResults → (0 ≤ o ∧ o < 10 ^ 16 - 1) ∧ 0 ≤ f ∧ f < 10 ^ 16 - 1 := by
  have h3 : (3 : ℝ) ≤ 4 := by norm_num
  have h4 : (4 : ℝ) ≤ 4 := le_rfl
  have hD := cD_pos h3 h4
  have hK := cK_pos h3 h4
  have hL := cL_nonneg h3 h4 2.99
  obtain ⟨c, hc, hF⟩ : ∃ c : ℝ, c ≠ 0 ∧ cFos c 4 2.99 = 1.5 := by
    refine ⟨1.5 * (cD 4 + cL 4 2.99) / cK 4, by positivity, ?_⟩
    unfold cFos
    rw [abs_of_pos (by positivity)]
    field_simp
  have l1 : cFos c 4 0 < 1.5 := hF ▸ cFos_lt h3 h4 hc (by norm_num) (by norm_num [abs_of_pos])
  have l0 : 0 ≤ cFos c 4 0 := by
    have := cL_nonneg h3 h4 0
    unfold cFos
    positivity
  have hs := exDyn_state (c := c) (e := 4) (o := 0) h3 h4 (by norm_num)
  obtain ⟨u, e1, hu⟩ := (hs.dyn []).try h3 h4 hc (o' := 0) le_rfl (by norm_num)
  obtain ⟨w, e2, hw⟩ := hu.try h3 h4 hc (o' := 2.99) (by norm_num) (by norm_num)
  obtain ⟨str, hstr⟩ := pythonStr_exists
  have hr := exDyn_reachable (c := c) (e := 4) (o := 0) h3 h4 (by norm_num)
  have ha : (exDyn c 4 0).analyseDynamic 2 false = (w, .ok (some 1)) := by
    unfold Slope.analyseDynamic
    simp only
    rw [exDyn_maxOffset]
    simp only
    rw [show (@OfNat.ofNat ℝ 0 (Lit.natLit 0)) = 0 from lit_zero, e1]
    simp only [andThen_done]
    rw [if_neg (by linarith), show ((3 : ℝ) - 0.01) = 2.99 by norm_num, e2]
    simp only [andThen_done]
    rw [if_pos (by rw [hF]; norm_num)]
  have hd : w.dynResults = [(0, cFos c 4 0), (2.99, cFos c 4 2.99)] := by
    have k1 := (tryOffset_spec (hs.dyn []).wfs 0).2.2.2.1
    rw [e1] at k1
    have k2 := (tryOffset_spec hu.wfs 2.99).2.2.2.1
    rw [e2] at k2
    rw [(k2 _ rfl).2, (k1 _ rfl).2]
    have : ¬ ((0 : ℝ) = 2.99) := by norm_num
    simp only [dictSet, pyEq_real, decide_eq_true_eq, if_neg this]
  refine ⟨str, _, w, 2, hstr, hr, ha, ?_, ?_⟩
  · unfold Slope.getDynamicResults; rw [hd]; rfl
  · unfold Slope.getDynamicResults
    rw [hd]
    intro o f hm
    simp only [List.mem_cons, List.not_mem_nil, or_false, Prod.mk.injEq] at hm
    rcases hm with ⟨rfl, rfl⟩ | ⟨rfl, rfl⟩
    · norm_num; exact ⟨l0, by linarith⟩
    · rw [hF]; norm_num

/-- C06: the coordinates `get_top_coordinates` and `get_bottom_coordinates` give are on the ground, the
second the slope's length right of the first and its height under it. -/
theorem C06_crest_and_toe (s : Slope ℝ) (r : Reachable s) :
    s.getExternalY s.getTopCoordinates.1 = some s.getTopCoordinates.2 ∧
    s.getExternalY s.getBottomCoordinates.1 = some s.getBottomCoordinates.2 ∧
    s.getBottomCoordinates.1 - s.getTopCoordinates.1 = s.length ∧
    s.getTopCoordinates.2 - s.getBottomCoordinates.2 = s.height := by
  have g := r.wf.geo
  obtain ⟨_, h2, h3, _⟩ := C06_ground_profile s r
  have := g.extL5
  have := g.lenPos
  have ht := g.topX
  have hb := g.botX
  refine ⟨h2 _ ?_ le_rfl, h3 _ le_rfl ?_, ?_, ?_⟩
  · change 0 ≤ s.topX; linarith
  · change s.botX ≤ s.extL; linarith
  · change s.botX - s.topX = _; linarith
  · change s.topY - s.botY = _; rw [g.topY, g.botY]; ring

end PySlope
