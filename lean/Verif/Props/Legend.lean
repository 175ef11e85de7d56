import Verif.Model.Legend
import Verif.Props.PlotFlat
import Verif.Spec.ExampleDynamic

/-! # What the plots say about the factor of safety (C107) -/

namespace PySlope

/-! ## The note -/

theorem colourOf_real (f : ℝ) : colourOf f = colourAt (min (pyRound f 1) 5) := by
  unfold colourOf
  rw [pyMin_real, show (@OfNat.ofNat ℝ 5 (Lit.natLit 5)) = 5 from lit_real 5]

theorem pyRound_int (n : ℤ) (k : ℕ) : pyRound ((n : ℝ) / 10 ^ k) k = (n : ℝ) / 10 ^ k := by
  rw [pyRound_real, div_mul_cancel₀ _ (by positivity), roundInt_int]

theorem round_five : pyRound (5 : ℝ) 1 = 5 := by
  have := pyRound_int 50 1
  norm_num at this
  exact this

/-- The colour of the line is the colour of the note. -/
theorem line_colour (x : ℝ) : (if (5 : ℝ) < x then colourAt 5 else colourAt (pyRound x 1)) = colourOf x := by
  rw [colourOf_real]
  split
  · rename_i h
    rw [min_eq_right (by rw [← round_five]; exact pyRound_mono h.le 1)]
  · rename_i h
    rw [min_eq_left (by rw [← round_five]; exact pyRound_mono (not_lt.mp h) 1)]

/-- C107, full statement: the figure of the critical failure says what the API reports. At the centre
`get_min_FOS_circle()` gives, to three digits, it writes `get_min_FOS()` to three digits, in the colour
of the line, which is the legend's colour for it, the same in every figure. Proved here: the position,
the radius, the number, and the colour of the number *as written*. `C107_two_colours`: the colour can be
one tenth off the one the same failure has among the lines of `plot_all_planes`. -/
theorem C107_note_partial (t : Slope ℝ) {b : BoundaryPlot ℝ} {line : List (ℝ × ℝ)} {colour : ℝ}
    (hp : t.plotCritical = .ok (b, line, colour)) :
    ∃ F cx cy r note, t.getMinFos = .ok (some F) ∧ t.getMinFosCircle = .ok (cx, cy, r) ∧
      t.criticalNote = .ok note ∧
      |note.x - cx| ≤ 0.0005 ∧ |note.y - cy| ≤ 0.0005 ∧ |note.radius - r| ≤ 0.0005 ∧
      |note.fos - F| ≤ 0.0005 ∧ (∃ n : ℤ, note.fos = n / 1000) ∧
      note.colour = colour ∧ |colour - min note.fos 5| ≤ 0.05 ∧ ∃ j : ℕ, j ≤ 50 ∧ colour = j / 10 := by
  have n3 : (1 / 2 / 10 ^ 3 : ℝ) = 0.0005 := by norm_num
  unfold Slope.criticalNote
  rw [hp]
  unfold Slope.getMinFos Slope.getMinFosCircle
  unfold Slope.plotCritical at hp
  simp only [bind, Except.bind] at hp ⊢
  cases hb : t.plotBoundary with
  | error e => rw [hb] at hp; cases hp
  | ok b' =>
    rw [hb] at hp
    cases hs : t.search with
    | nil => rw [hs] at hp; cases hp
    | cons p rest =>
      rw [hs] at hp
      simp only at hp ⊢
      cases hf : p.fos with
      | none => rw [hf] at hp; cases hp
      | some o =>
        cases o with
        | none => rw [hf] at hp; cases hp
        | some F =>
          rw [hf] at hp
          simp only at hp ⊢
          unfold failurePlane at hp
          simp only [bind, Except.bind, show (@OfNat.ofNat ℝ 5 (Lit.natLit 5)) = 5 from lit_real 5,
            line_colour] at hp
          cases hc : colourOf (pyRound F 3) with
          | error e => rw [hc] at hp; cases hp
          | ok c =>
            rw [hc] at hp
            simp only at hp
            have hcol : c = colour := by
              cases hA : arcPoints p.lc p.rc (circleCoordinates (pyRound p.cx 3) (pyRound p.cy 3)
                  (pyRound p.radius 3)) with
              | nil => rw [hA] at hp; cases hp
              | cons q arc => rw [hA] at hp; cases hp; rfl
            subst hcol
            obtain ⟨k1, k2⟩ := (C61_colour_partial (pyRound F 3)).2.1 c hc
            refine ⟨F, p.cx, p.cy, p.radius, ⟨pyRound p.cx 3, pyRound p.cy 3, pyRound p.radius 3, pyRound F 3, c⟩,
              rfl, rfl, ?_, ?_⟩
            · unfold noteOf
              simp only [bind, Except.bind]
              rw [hc]
              rfl
            · refine ⟨?_, ?_, ?_, ?_, ⟨roundInt (F * 10 ^ 3), ?_⟩, rfl, k2, k1⟩
              · rw [← n3]; exact pyRound_error _ _
              · rw [← n3]; exact pyRound_error _ _
              · rw [← n3]; exact pyRound_error _ _
              · rw [← n3]; exact pyRound_error _ _
              · change pyRound F 3 = _
                rw [pyRound_real]; norm_num

/-! ## The legend -/

theorem dictOrder_map {α β : Type} (ea : α → α → Bool) (eb : β → β → Bool) (g : α → β)
    (h : ∀ a b, eb (g a) (g b) = ea a b) (l : List α) :
    dictOrder eb (l.map g) = (dictOrder ea l).map g := by
  have key : ∀ (l acc : List α), (l.map g).foldl (fun acc k => if acc.any (fun a => eb a k) then acc
      else acc ++ [k]) (acc.map g) = (l.foldl (fun acc k => if acc.any (fun a => ea a k) then acc
      else acc ++ [k]) acc).map g := by
    intro l
    induction l with
    | nil => intro acc; rfl
    | cons a l ih =>
      intro acc
      simp only [List.map_cons, List.foldl_cons]
      have : ((acc.map g).any fun x => eb x (g a)) = acc.any fun x => ea x a := by
        rw [List.any_map]
        congr 1
        funext x
        exact h x a
      rw [this]
      split
      · exact ih acc
      · have := ih (acc ++ [a])
        rw [List.map_append] at this
        exact this
  exact key l []

theorem colourItems_real : (colourItems : List ℝ) = (List.range 51).map fun j : ℕ => (j : ℝ) / 10 := by
  have key : ∀ f p : ℕ, pyRound (((f : ℕ) : ℝ) / (@OfNat.ofNat ℝ 10 (Lit.natLit 10)) + ((p : ℕ) : ℝ)) 1 =
      ((f + 10 * p : ℕ) : ℝ) / 10 := by
    intro f p
    rw [show (@OfNat.ofNat ℝ 10 (Lit.natLit 10)) = ((10 : ℕ) : ℝ) from lit_real 10]
    have := pyRound_int ((f + 10 * p : ℕ) : ℤ) 1
    push_cast at this ⊢
    rw [pow_one] at this
    rw [← this]
    congr 1
    ring
  have e : (colourKeys : List ℝ) = ((List.range 5).flatMap fun p => (List.range 11).map fun f =>
      f + 10 * p).map fun j : ℕ => (j : ℝ) / 10 := by
    unfold colourKeys
    simp only [key, List.map_flatMap, List.map_map]
    rfl
  unfold colourItems
  rw [e, dictOrder_map (fun a b : ℕ => decide (a = b)) pyEq]
  · refine congrArg (List.map _) ?_
    decide +kernel
  · intro a b
    rw [pyEq_real]
    congr 1
    rw [eq_iff_iff, div_left_inj' (by norm_num), Nat.cast_inj]

/-- C107: the legend. One box for each tenth from 0 to 5, in order, each `0.008` of the height of the
figure, each starting where the one before ends; beside them the numbers 0 to 5, in order, each within
one and a half boxes of the top of its box. -/
theorem C107_legend :
    (legendBoxes : List (ℝ × ℝ × ℝ)) = (List.range 51).map (fun j : ℕ =>
      ((j : ℝ) / 10, 0.9 - 0.008 * (j : ℝ), 0.9 - 0.008 * ((j : ℝ) + 1))) ∧
    (legendLabels : List (ℝ × ℝ)).map Prod.fst = [0, 1, 2, 3, 4, 5] ∧
    ∀ l ∈ (legendLabels : List (ℝ × ℝ)), |l.2 - (0.9 - 0.08 * l.1)| ≤ 0.012 := by
  refine and_assoc.mp ⟨?_, ?_⟩
  swap
  · intro l hl
    unfold legendLabels at hl
    obtain ⟨k, -, rfl⟩ := List.mem_map.mp hl
    simp only
    rw [show (@OfNat.ofNat ℝ 5 (Lit.natLit 5)) = 5 from lit_real 5]
    rw [abs_le]
    split
    · constructor <;> norm_num <;> linarith
    · split <;> constructor <;> norm_num <;> linarith
  constructor
  · unfold legendBoxes
    rw [colourItems_real, List.map_map]
    apply List.map_congr_left
    intro j _
    simp only [Function.comp, Prod.mk.injEq, true_and]
    rw [show (@OfNat.ofNat ℝ 5 (Lit.natLit 5)) = 5 from lit_real 5]
    constructor <;> norm_num <;> ring
  · unfold legendLabels
    rw [colourItems_real, List.map_map]
    have e : ∀ j : ℕ, pyEq (pyRound ((j : ℝ) / 10) 1 - ofInt (PyNum.floor (pyRound ((j : ℝ) / 10) 1)))
        (@OfNat.ofNat ℝ 0 (Lit.natLit 0)) = decide (j % 10 = 0) := by
      intro j
      have := pyRound_int (j : ℤ) 1
      rw [pow_one] at this
      push_cast at this
      rw [this, lit_zero, pyEq_real, ofInt_real]
      change decide ((j : ℝ) / 10 - ((⌊(j : ℝ) / 10⌋ : ℤ) : ℝ) = 0) = _
      congr 1
      have hd := Nat.div_add_mod j 10
      have hd' : (10 : ℝ) * ((j / 10 : ℕ) : ℝ) + ((j % 10 : ℕ) : ℝ) = j := by exact_mod_cast hd
      have hfl : ⌊(j : ℝ) / 10⌋ = ((j / 10 : ℕ) : ℤ) := by
        have hm : ((j % 10 : ℕ) : ℝ) < 10 := by exact_mod_cast Nat.mod_lt j (by norm_num)
        have hm' : (0 : ℝ) ≤ ((j % 10 : ℕ) : ℝ) := Nat.cast_nonneg _
        rw [Int.floor_eq_iff, Int.cast_natCast]
        constructor <;> linarith
      rw [hfl, eq_iff_iff]
      have : (j : ℝ) / 10 - (((j / 10 : ℕ) : ℤ) : ℝ) = ((j % 10 : ℕ) : ℝ) / 10 := by
        rw [Int.cast_natCast]; linarith
      rw [this]
      constructor
      · intro h
        have : ((j % 10 : ℕ) : ℝ) = 0 := by linarith
        exact_mod_cast this
      · intro h
        rw [h]; simp
    rw [List.filter_map, List.map_map]
    have : (List.range 51).filter ((fun k : ℝ => pyEq (pyRound k 1 - ofInt (PyNum.floor (pyRound k 1)))
        (@OfNat.ofNat ℝ 0 (Lit.natLit 0))) ∘ fun j : ℕ => (j : ℝ) / 10) = [0, 10, 20, 30, 40, 50] := by
      rw [show ((fun k : ℝ => pyEq (pyRound k 1 - ofInt (PyNum.floor (pyRound k 1)))
        (@OfNat.ofNat ℝ 0 (Lit.natLit 0))) ∘ fun j : ℕ => (j : ℝ) / 10) = fun j : ℕ => decide (j % 10 = 0)
        from funext e]
      rfl
    rw [this]
    simp only [List.map_cons, List.map_nil, Function.comp]
    norm_num

/-- C107: every colour of the lines of `plot_all_planes`, and that of the critical one, is the colour of a
box of the legend, and of one only. -/
theorem C107_colours_in_legend (t : Slope ℝ) (m : Option ℝ) {b : BoundaryPlot ℝ} {line : List (ℝ × ℝ)}
    {colour : ℝ} {lines : List (List (ℝ × ℝ) × ℝ)}
    (h : t.plotAllPlanes m = .ok ((b, line, colour), lines)) :
    ∀ c, c = colour ∨ c ∈ lines.map Prod.snd →
      ∃! x, x ∈ (legendBoxes : List (ℝ × ℝ × ℝ)) ∧ x.1 = c := by
  have box : ∀ c : ℝ, (∃ j : ℕ, j ≤ 50 ∧ c = j / 10) →
      ∃! x, x ∈ (legendBoxes : List (ℝ × ℝ × ℝ)) ∧ x.1 = c := by
    rintro c ⟨j, hj, rfl⟩
    rw [C107_legend.1]
    refine ⟨_, ⟨List.mem_map.mpr ⟨j, List.mem_range.mpr (by omega), rfl⟩, rfl⟩, ?_⟩
    rintro x ⟨hx, e⟩
    obtain ⟨i, _, rfl⟩ := List.mem_map.mp hx
    simp only at e
    have : (i : ℝ) = j := by linarith
    rw [Nat.cast_inj] at this
    rw [this]
  have ok : ∀ f c : ℝ, colourOf f = .ok c → ∃ j : ℕ, j ≤ 50 ∧ c = j / 10 :=
    fun f c hc => ((C61_colour_partial f).2.1 c hc).1
  unfold Slope.plotAllPlanes at h
  simp only [bind, Except.bind] at h
  cases hp : t.plotCritical with
  | error e => rw [hp] at h; cases h
  | ok q =>
    rw [hp] at h
    simp only at h
    cases ht : planeTraces m t.search with
    | error e => rw [ht] at h; cases h
    | ok ts =>
      rw [ht] at h
      cases h
      intro c hc
      apply box
      rcases hc with rfl | hc
      · unfold Slope.plotCritical at hp
        simp only [bind, Except.bind] at hp
        cases hb : t.plotBoundary with
        | error e => rw [hb] at hp; cases hp
        | ok b' =>
          rw [hb] at hp
          cases hs : t.search with
          | nil => rw [hs] at hp; cases hp
          | cons p rest =>
            rw [hs] at hp
            simp only at hp
            cases hf : p.fos with
            | none => rw [hf] at hp; cases hp
            | some o =>
              cases o with
              | none => rw [hf] at hp; cases hp
              | some F =>
                rw [hf] at hp
                simp only at hp
                unfold failurePlane at hp
                simp only [bind, Except.bind, show (@OfNat.ofNat ℝ 5 (Lit.natLit 5)) = 5 from lit_real 5,
                  line_colour] at hp
                cases hc : colourOf (pyRound F 3) with
                | error e => rw [hc] at hp; cases hp
                | ok k =>
                  rw [hc] at hp
                  simp only at hp
                  cases hA : arcPoints p.lc p.rc (circleCoordinates (pyRound p.cx 3) (pyRound p.cy 3)
                      (pyRound p.radius 3)) with
                  | nil => rw [hA] at hp; cases hp
                  | cons q arc => rw [hA] at hp; cases hp; exact ok _ _ hc
      · have key : ∀ (ps : List (Plane ℝ)) ts, planeTraces m ps = .ok ts → ∀ c ∈ ts.map Prod.snd,
            ∃ f, colourOf f = .ok c := by
          intro ps
          induction ps with
          | nil => intro ts h; cases h; simp
          | cons p ps ih =>
            intro ts h
            unfold planeTraces at h
            simp only [bind, Except.bind] at h
            cases hf : p.fos with
            | none => rw [hf] at h; cases h
            | some o =>
              cases o with
              | none => rw [hf] at h; cases m <;> cases h
              | some f =>
                rw [hf] at h
                simp only at h
                cases hr : planeTraces m ps with
                | error e =>
                  rw [hr] at h
                  split_ifs at h
                  · cases hk : colourOf f <;> rw [hk] at h <;> cases h
                  · cases h
                | ok ts' =>
                  rw [hr] at h
                  split_ifs at h
                  · cases hk : colourOf f with
                    | error e => rw [hk] at h; cases h
                    | ok k =>
                      rw [hk] at h
                      cases h
                      intro c hc
                      simp only [List.map_cons, List.cons_append, List.nil_append, List.mem_cons] at hc
                      rcases hc with rfl | hc
                      · exact ⟨f, hk⟩
                      · exact ih ts' hr c hc
                  · cases h
                    exact ih ts' hr
        rw [List.map_reverse, List.mem_reverse] at hc
        obtain ⟨f, hf⟩ := key _ _ ht c hc
        exact ok _ _ hf

/-! ## The two colours of the critical failure -/

theorem roundInt_eq {y : ℝ} {n : ℤ} (h : |y - n| < 1 / 2) : roundInt y = n := by
  have h1 := roundInt_error y
  rw [abs_le] at h1
  rw [abs_lt] at h
  have a : ((roundInt y : ℤ) : ℝ) < (n : ℝ) + 1 := by linarith
  have b : (n : ℝ) - 1 < ((roundInt y : ℤ) : ℝ) := by linarith
  have a' : roundInt y < n + 1 := by exact_mod_cast a
  have b' : n - 1 < roundInt y := by exact_mod_cast b
  omega

/-- C107 (partial): the colour of a failure in the figure of the critical one, and its colour among the
lines of `plot_all_planes`: at most one step of the legend apart, and the same unless the factor of
safety is within 0.0005 of a value half way between two steps. -/
theorem C107_same_colour_partial {F c d : ℝ} (hc : colourOf (pyRound F 3) = .ok c) (hd : colourOf F = .ok d) :
    |c - d| ≤ 0.1 ∧ ((∀ n : ℤ, 0.0005 < |F - (n + 1 / 2) / 10|) → c = d) := by
  rw [colourOf_real] at hc hd
  obtain ⟨rfl, _⟩ := (colourAt_ok _ _).mp hc
  obtain ⟨rfl, _⟩ := (colourAt_ok _ _).mp hd
  have h3 := pyRound_error F 3
  norm_num at h3
  rw [abs_le] at h3
  set G := pyRound F 3 with hG
  have e1 := pyRound_real G 1
  have e2 := pyRound_real F 1
  have r1 := roundInt_error (G * 10 ^ 1)
  have r2 := roundInt_error (F * 10 ^ 1)
  rw [abs_le] at r1 r2
  norm_num at r1 r2 e1 e2
  constructor
  · have : |pyRound G 1 - pyRound F 1| ≤ 0.1 := by
      have a : ((roundInt (G * 10) : ℤ) : ℝ) < (roundInt (F * 10) : ℝ) + 2 := by linarith
      have b : ((roundInt (F * 10) : ℤ) : ℝ) < (roundInt (G * 10) : ℝ) + 2 := by linarith
      have a' : roundInt (G * 10) < roundInt (F * 10) + 2 := by exact_mod_cast a
      have b' : roundInt (F * 10) < roundInt (G * 10) + 2 := by exact_mod_cast b
      have a'' : ((roundInt (G * 10) : ℤ) : ℝ) ≤ (roundInt (F * 10) : ℝ) + 1 := by
        exact_mod_cast (by omega : roundInt (G * 10) ≤ roundInt (F * 10) + 1)
      have b'' : ((roundInt (F * 10) : ℤ) : ℝ) ≤ (roundInt (G * 10) : ℝ) + 1 := by
        exact_mod_cast (by omega : roundInt (F * 10) ≤ roundInt (G * 10) + 1)
      rw [e1, e2, abs_le]
      norm_num
      constructor <;> linarith
    exact (abs_min_sub_min_le_max _ _ _ _).trans (by
      rw [sub_self, abs_zero]
      exact max_le this (by norm_num))
  · intro h
    have : roundInt (G * 10) = roundInt (F * 10) := by
      apply roundInt_eq
      have k1 := h (roundInt (F * 10))
      have k2 := h (roundInt (F * 10) - 1)
      push_cast at k2
      have f1 : F - ((roundInt (F * 10) : ℝ) + 1 / 2) / 10 ≤ 0 := by linarith
      have f2 : 0 ≤ F - ((roundInt (F * 10) : ℝ) - 1 + 1 / 2) / 10 := by linarith
      rw [abs_of_nonpos f1] at k1
      rw [abs_of_nonneg f2] at k2
      norm_num at k1 k2
      rw [abs_lt]
      constructor <;> linarith
    rw [e1, e2, this]

/-- The hypotheses of `C107_same_colour_partial`, for a factor of safety of 1.5: one colour. -/
example : colourOf (pyRound (1.5 : ℝ) 3) = .ok 1.5 ∧ colourOf (1.5 : ℝ) = .ok 1.5 ∧
    ∀ n : ℤ, 0.0005 < |(1.5 : ℝ) - (n + 1 / 2) / 10| := by
  have e3 : pyRound (1.5 : ℝ) 3 = 1.5 := by
    have := pyRound_int 1500 3
    norm_num at this ⊢
    exact this
  have e1 : pyRound (1.5 : ℝ) 1 = 1.5 := by
    have := pyRound_int 15 1
    norm_num at this ⊢
    exact this
  have hc : colourOf (1.5 : ℝ) = .ok 1.5 := by
    rw [colourOf_real, e1, min_eq_left (by norm_num)]
    exact (colourAt_ok _ _).mpr ⟨rfl, 15, by norm_num, by norm_num⟩
  refine ⟨by rw [e3, hc], hc, fun n => ?_⟩
  rcases le_or_gt n 14 with h | h
  · have : (n : ℝ) ≤ 14 := by exact_mod_cast h
    rw [abs_of_nonneg (by norm_num; linarith)]
    norm_num; linarith
  · have : (15 : ℝ) ≤ n := by exact_mod_cast h
    rw [abs_of_nonpos (by norm_num; linarith)]
    norm_num; linarith

theorem two_roundings : colourOf (pyRound (1.34996 : ℝ) 3) = .ok 1.4 ∧ colourOf (1.34996 : ℝ) = .ok 1.3 := by
  have a : roundInt ((1.34996 : ℝ) * 10 ^ 3) = 1350 := by
    apply roundInt_eq
    norm_num [abs_lt]
  have b : roundInt ((1.34996 : ℝ) * 10 ^ 1) = 13 := by
    apply roundInt_eq
    norm_num [abs_lt]
  have c : roundInt ((1350 / 10 ^ 3 : ℝ) * 10 ^ 1) = 14 := by
    have hf : ⌊((1350 / 10 ^ 3 : ℝ) * 10 ^ 1)⌋ = 13 := by rw [Int.floor_eq_iff]; norm_num
    unfold roundInt
    have e : PyNum.floor ((1350 / 10 ^ 3 : ℝ) * 10 ^ 1) = 13 := hf
    simp only [ofInt_real, e]
    norm_num
  constructor
  · rw [colourOf_real, pyRound_real _ 3, a]
    push_cast
    rw [pyRound_real, c, min_eq_left (by norm_num)]
    exact (colourAt_ok _ _).mpr ⟨by norm_num, 14, by norm_num, by norm_num⟩
  · rw [colourOf_real, pyRound_real _ 1, b, min_eq_left (by norm_num)]
    exact (colourAt_ok _ _).mpr ⟨by norm_num, 13, by norm_num, by norm_num⟩

/-- C107 fails: a slope whose only failure has two colours in one figure. `plot_all_planes` draws it with
the note in the colour of 1.4 and among its lines in the colour of 1.3: the factor of safety, 1.34996, is
rounded to 1.35 and then to 1.4 for the note, and to 1.3 for the line. -/
theorem C107_two_colours : ∃ s t : Slope ℝ, Reachable s ∧ s.analyseSlope none = (t, .ok ()) ∧
    t.getMinFos = .ok (some 1.34996) ∧
    ∃ b line trace, t.plotAllPlanes (some 5) = .ok ((b, line, 1.4), [(trace, 1.3)]) := by
  have h3 : (3 : ℝ) ≤ 4 := by norm_num
  have h4 : (4 : ℝ) ≤ 4 := le_rfl
  have hD := cD_pos h3 h4
  have hK := cK_pos h3 h4
  have hL := cL_nonneg h3 h4 0
  obtain ⟨c, hc, hF⟩ : ∃ c : ℝ, c ≠ 0 ∧ cFos c 4 0 = 1.34996 := by
    refine ⟨1.34996 * (cD 4 + cL 4 0) / cK 4, by positivity, ?_⟩
    unfold cFos
    rw [abs_of_pos (by positivity)]
    field_simp
  have rs := exDyn_reachable (c := c) h3 h4 (o := 0) (by norm_num)
  have hb := exDyn_bishop h3 h4 hc (o := 0) (by norm_num)
  rw [hF] at hb
  set s := exDyn c 4 0 with hs
  have hi : s.individual = [cPlane 4] := rfl
  have hA := analyseSlope_of (s := s) (ps := s.individual) (.inl ⟨by rw [hi]; simp, rfl⟩) (by
    intro p hp x hx
    rw [hi, List.mem_singleton] at hp
    subst hp
    unfold FosRaises at hx
    change s.bishop 9 (6 + cRad 4) (cRad 4) none none = _ at hx
    rw [hb] at hx
    cases hx) none
  have hfo : fosOf s (cPlane 4) = some 1.34996 := fosOf_some.mpr hb
  set t := s.analysedTo none s.individual with ht
  have hsearch : t.search = [withFos s (cPlane 4)] := by
    rw [ht, hi]
    change tidySearch none [withFos s (cPlane 4)] = _
    rw [tidySearch_eq]
    have : (withFos s (cPlane 4)).fosVal.isSome := by
      rw [fosVal_withFos, hfo]; rfl
    simp [this, sortByKey, pySort, keeps]
  have hfos : (withFos s (cPlane 4)).fos = some (some 1.34996) := by unfold withFos; rw [hfo]
  have rt : Reachable t := by
    have := rs.call (.analyseSlope s none)
    rwa [hA] at this
  have hmin : t.getMinFos = .ok (some 1.34996) := by
    unfold Slope.getMinFos
    rw [hsearch]
    simp only [hfos]
  obtain ⟨b, hb', _⟩ := C62_plot_ends_partial t rt (by
    intro l hl
    change l ∈ [mkLayer exSlope.extH 0 (exFric 0 c)] at hl
    rw [List.mem_singleton] at hl
    subst hl
    refine ⟨rfl, ?_⟩
    change (exFric 0 c).depth ≤ exSlope.topY
    simp [exFric]
    norm_num) (by intro y hy; cases hy) (.inl rfl)
  have hpi := Real.pi_lt_d2
  have hR : cRad 4 = 17 / 3 := by unfold cRad; norm_num
  obtain ⟨line, colour, hp⟩ := C82_critical_drawn_partial s t none hA hb' (F := 1.34996) (cx := 9)
    (cy := 6 + cRad 4) (r := cRad 4) (l := (4, 9)) (rt := (9, 6)) hmin
    (by unfold Slope.getMinFosCircle; rw [hsearch]; rfl)
    (by unfold Slope.getMinFosEndPoints; rw [hsearch]; rfl) (by norm_num) (by rw [hR]; norm_num)
    (q := (19 / 3, 20 / 3)) (by rw [hR]; norm_num [OnCircle]) (by rw [hR]; norm_num)
    (by rw [hR]; norm_num; linarith) (by rw [hR]; norm_num; linarith) (by rw [hR]; norm_num; linarith)
  have hcol : colour = 1.4 := by
    unfold Slope.plotCritical at hp
    rw [hb', hsearch] at hp
    simp only [bind, Except.bind, hfos] at hp
    unfold failurePlane at hp
    simp only [bind, Except.bind, show (@OfNat.ofNat ℝ 5 (Lit.natLit 5)) = 5 from lit_real 5,
      line_colour, two_roundings.1] at hp
    generalize arcPoints (K := ℝ) _ _ _ = A at hp
    cases A with
    | nil => cases hp
    | cons q arc => cases hp; rfl
  subst hcol
  refine ⟨s, t, rs, hA, hmin, b, line, planeTrace (withFos s (cPlane 4)), ?_⟩
  unfold Slope.plotAllPlanes
  rw [hp, hsearch]
  simp only [bind, Except.bind, planeTraces, hfos, two_roundings.2]
  rw [if_pos (decide_eq_true (by norm_num))]
  rfl

/-- The hypotheses of `C107_note_partial` and `C107_colours_in_legend` are met by that slope: the note
says 1.35 and is in the colour of 1.4. -/
example : ∃ t : Slope ℝ, Reachable t ∧ (∃ b line, t.plotCritical = .ok (b, line, 1.4)) ∧
    (∃ x lines, t.plotAllPlanes (some 5) = .ok (x, lines)) ∧
    ∃ note, t.criticalNote = .ok note ∧ note.fos = 1.35 ∧ note.colour = 1.4 := by
  obtain ⟨s, t, rs, ha, hm, b, line, trace, h⟩ := C107_two_colours
  have hp : t.plotCritical = .ok (b, line, 1.4) := by
    have h' := h
    unfold Slope.plotAllPlanes at h'
    simp only [bind, Except.bind] at h'
    cases hc : t.plotCritical with
    | error e => rw [hc] at h'; cases h'
    | ok q =>
      rw [hc] at h'
      simp only at h'
      cases ht : planeTraces (some 5) t.search with
      | error e => rw [ht] at h'; cases h'
      | ok ts =>
        rw [ht] at h'
        injection h' with h'
        rw [(Prod.mk.inj h').1]
  have rt : Reachable t := by
    have := rs.call (.analyseSlope s none)
    rwa [ha] at this
  obtain ⟨F, cx, cy, r, note, e1, _, e3, _, _, _, e7, ⟨n, hn⟩, e9, _⟩ := C107_note_partial t hp
  refine ⟨t, rt, ⟨b, line, hp⟩, ⟨_, _, h⟩, note, e3, ?_, e9⟩
  rw [hm] at e1
  injection e1 with e1
  injection e1 with e1
  rw [hn, ← e1] at e7
  rw [hn]
  rw [abs_le] at e7
  norm_num at e7
  have a : (1349 : ℝ) < n := by linarith [e7.1]
  have c : (n : ℝ) < 1351 := by linarith [e7.2]
  have a' : (1349 : ℤ) < n := by exact_mod_cast a
  have c' : n < (1351 : ℤ) := by exact_mod_cast c
  obtain rfl : n = 1350 := by omega
  norm_num

end PySlope
