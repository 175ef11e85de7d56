import Verif.Spec.Draw
import Verif.Lemmas.UdlMax
import Verif.Lemmas.Round
import Verif.Props.PlotBoundary

/-! # Properties C84-C86: loads, limits and materials in a plot -/

namespace PySlope

/-! ## The text of a magnitude -/

theorem digitsVal_append (a b : List Char) : digitsVal (a ++ b) = digitsVal a * 10 ^ b.length + digitsVal b := by
  unfold digitsVal
  rw [List.foldl_append]
  generalize List.foldl (fun a c => 10 * a + (c.toNat - '0'.toNat)) 0 a = n
  induction b generalizing n with
  | nil => simp
  | cons c b ih =>
    rw [List.foldl_cons, List.foldl_cons, ih, ih (10 * 0 + _), List.length_cons, pow_succ]
    ring

theorem digit_lt {c : Char} (h : '0' ≤ c ∧ c ≤ '9') : c.toNat - '0'.toNat ≤ 9 := by
  have h2 : c.toNat ≤ '9'.toNat := h.2
  have : '9'.toNat = 57 := rfl
  have : '0'.toNat = 48 := rfl
  omega

theorem digitsVal_lt {a : List Char} (h : IsDigits a) : digitsVal a < 10 ^ a.length := by
  induction a using List.reverseRecOn with
  | nil => simp [digitsVal]
  | append_singleton a c ih =>
    rw [digitsVal_append]
    have h1 := ih fun x hx => h x (List.mem_append_left _ hx)
    have h2 := digit_lt (h c (by simp))
    have h3 : digitsVal [c] = c.toNat - '0'.toNat := by simp [digitsVal]
    rw [h3, List.length_append, List.length_singleton, pow_succ]
    omega

theorem digit_ne_point {c : Char} (h : '0' ≤ c ∧ c ≤ '9') : c ≠ '.' := by
  rintro rfl
  exact absurd h.1 (by decide)

theorem afterPoint_digits {ds fs : List Char} (h : IsDigits ds) (h' : IsDigits fs) :
    afterPoint (ds ++ '.' :: fs) = some fs := by
  have h1 : (ds ++ '.' :: fs).dropWhile (· ≠ '.') = '.' :: fs := by
    induction ds with
    | nil => simp
    | cons c ds ih =>
      have hc := digit_ne_point (h c (by simp))
      rw [List.cons_append, List.dropWhile_cons_of_pos (by simpa using hc)]
      exact ih fun x hx => h x (List.mem_cons_of_mem _ hx)
  have h2 : fs.takeWhile (· ≠ '.') = fs := by
    clear h1
    induction fs with
    | nil => rfl
    | cons c fs ih =>
      rw [List.takeWhile_cons_of_pos (by simpa using digit_ne_point (h' c (by simp))),
        ih fun x hx => h' x (List.mem_cons_of_mem _ hx)]
  unfold afterPoint
  rw [h1]
  simp only [h2]

theorem afterPoint_none {ds : List Char} (h : IsDigits ds) : afterPoint ds = none := by
  have : ds.dropWhile (· ≠ '.') = [] := by
    induction ds with
    | nil => rfl
    | cons c ds ih =>
      rw [List.dropWhile_cons_of_pos (by simpa using digit_ne_point (h c (by simp))),
        ih fun x hx => h x (List.mem_cons_of_mem _ hx)]
  unfold afterPoint
  rw [this]

/-- Rounding a number just over a multiple of the last digit. -/
theorem pyRound_near {x e : ℝ} {p : ℕ} (N : ℤ) (h : x * 10 ^ p = N + e) (h0 : 0 ≤ e) (h1 : e < 1 / 2) :
    |pyRound x p - x| = e / 10 ^ p := by
  have hp : (0 : ℝ) < 10 ^ p := by positivity
  have hr := roundInt_error (x * 10 ^ p)
  have hN : roundInt (x * 10 ^ p) = N := by
    rw [abs_le] at hr
    have a : (roundInt (x * 10 ^ p) : ℝ) < N + 1 := by linarith
    have b : (N : ℝ) - 1 < roundInt (x * 10 ^ p) := by linarith
    have a' : roundInt (x * 10 ^ p) < N + 1 := by exact_mod_cast a
    have b' : N - 1 < roundInt (x * 10 ^ p) := by exact_mod_cast b
    omega
  rw [pyRound_real, hN]
  have : (N : ℝ) / 10 ^ p - x = -(e / 10 ^ p) := by
    field_simp
    linarith
  rw [this, abs_neg, abs_of_nonneg (by positivity)]

/-- The digits a load is written with show its magnitude to within a thousandth. -/
theorem label_error {n : ℝ} {t : List Char} (h : StrOf n t) : |pyRound n (getPrecision t) - n| < 0.001 := by
  have tiny : (0 : ℝ) < 0.001 := by norm_num
  cases h with
  | int ds hd =>
    have := pyRound_near (x := digitsVal t) (e := 0) (p := getPrecision t) (digitsVal t * 10 ^ getPrecision t)
      (by push_cast; ring) le_rfl (by norm_num)
    rw [this, zero_div]
    exact tiny
  | large n t =>
    have := pyRound_near (x := n) (e := 0) (p := getPrecision t) (n * 10 ^ getPrecision t)
      (by push_cast; ring) le_rfl (by norm_num)
    rw [this, zero_div]
    exact tiny
  | small n t h0 h1 =>
    generalize getPrecision t = p
    by_cases hp : p ≤ 2
    · have hq : (1 : ℝ) ≤ 10 ^ p := one_le_pow₀ (by norm_num)
      have hq' : (10 : ℝ) ^ p ≤ 10 ^ 2 := pow_le_pow_right₀ (by norm_num) hp
      have hb : n * 10 ^ p < 1 / 2 := by
        norm_num at h1 hq'
        nlinarith
      have := pyRound_near (x := n) (e := n * 10 ^ p) (p := p) 0 (by push_cast; ring) (by positivity) hb
      rw [this, mul_div_cancel_right₀ _ (by positivity)]
      norm_num at h1 ⊢
      linarith
    · refine (pyRound_error n p).trans_lt ?_
      have hq : (10 : ℝ) ^ 3 ≤ 10 ^ p := pow_le_pow_right₀ (by norm_num) (by omega)
      rw [div_lt_iff₀ (by positivity)]
      norm_num at hq ⊢
      linarith
  | point ds fs hd hf =>
    unfold getPrecision
    rw [afterPoint_digits hd hf]
    simp only
    split
    · rename_i i hi
      have hz := List.find?_some hi
      have hr := List.mem_range.mp (List.mem_of_find?_eq_some hi)
      simp only [threeZeros, Bool.and_eq_true, beq_iff_eq] at hz
      obtain ⟨⟨z0, z1⟩, z2⟩ := hz
      have hsplit : fs = fs.take i ++ '0' :: '0' :: '0' :: fs.drop (i + 3) := by
        rw [List.getElem?_eq_some_iff] at z0 z1 z2
        obtain ⟨a0, b0⟩ := z0
        obtain ⟨a1, b1⟩ := z1
        obtain ⟨a2, b2⟩ := z2
        conv_lhs => rw [← List.take_append_drop i fs]
        rw [List.drop_eq_getElem_cons a0, List.drop_eq_getElem_cons a1, List.drop_eq_getElem_cons a2, b0, b1, b2]
      have hlen : fs.length = i + ((fs.drop (i + 3)).length + 3) := by
        rw [List.length_drop]; omega
      have hB : IsDigits (fs.drop (i + 3)) := fun c hc => hf c (List.mem_of_mem_drop hc)
      have hv : digitsVal fs = digitsVal (fs.take i) * 10 ^ ((fs.drop (i + 3)).length + 3) +
          digitsVal (fs.drop (i + 3)) := by
        conv_lhs => rw [hsplit]
        rw [digitsVal_append]
        rfl
      have hlt := digitsVal_lt hB
      generalize digitsVal (fs.take i) = A at hv
      generalize digitsVal (fs.drop (i + 3)) = B at hv hlt
      generalize (fs.drop (i + 3)).length = b at hv hlt hlen
      rw [hv, hlen]
      have hb : (0 : ℝ) < 10 ^ b := by positivity
      have hi' : (1 : ℝ) ≤ 10 ^ i := one_le_pow₀ (by norm_num)
      have hlt' : (B : ℝ) < 10 ^ b := by exact_mod_cast hlt
      have he : (B : ℝ) / 10 ^ (b + 3) < 0.001 := by
        rw [div_lt_iff₀ (by positivity), pow_add]
        norm_num
        linarith
      have := pyRound_near (x := digitsVal ds + ((A * 10 ^ (b + 3) + B : ℕ) : ℝ) / 10 ^ (i + (b + 3)))
        (e := (B : ℝ) / 10 ^ (b + 3)) (p := i) (digitsVal ds * 10 ^ i + A)
        (by push_cast; rw [pow_add (10 : ℝ) i]; field_simp; ring) (by positivity) (he.trans (by norm_num))
      rw [this]
      refine lt_of_le_of_lt ?_ he
      exact div_le_self (by positivity) hi'
    · have hp : (0 : ℝ) < 10 ^ fs.length := by positivity
      have := pyRound_near (x := digitsVal ds + digitsVal fs / 10 ^ fs.length) (e := 0) (p := fs.length)
        (digitsVal ds * 10 ^ fs.length + digitsVal fs)
        (by push_cast; field_simp; ring) le_rfl (by norm_num)
      rw [this, zero_div]
      exact tiny

/-! ## Arrows -/

theorem pyInt_real (x : ℝ) : pyInt x = if x < 0 then -⌊-x⌋ else ⌊x⌋ := by
  unfold pyInt
  rw [lit_zero]
  rfl

theorem cos_down : Real.cos (radians (-90 : ℝ)) = 0 := by
  rw [radians_real, show (-90 : ℝ) * (Real.pi / 180) = -(Real.pi / 2) by ring, Real.cos_neg, Real.cos_pi_div_two]

theorem sin_down : Real.sin (radians (-90 : ℝ)) = -1 := by
  rw [radians_real, show (-90 : ℝ) * (Real.pi / 180) = -(Real.pi / 2) by ring, Real.sin_neg, Real.sin_pi_div_two]

theorem head_bounds : (7 : ℝ) ≤ 10 * (√2 / 2) ∧ 10 * (√2 / 2) < 8 := by
  have h1 : (1.4 : ℝ) ≤ √2 := Real.le_sqrt_of_sq_le (by norm_num)
  have h2 : √2 < (1.6 : ℝ) := by rw [Real.sqrt_lt' (by norm_num)]; norm_num
  norm_num at h1 h2
  constructor <;> linarith

theorem floor_head : ⌊(10 : ℝ) * (√2 / 2)⌋ = 7 := by
  rw [Int.floor_eq_iff]
  have := head_bounds
  constructor <;> norm_num <;> linarith

theorem pyInt_head : pyInt ((10 : ℝ) * (√2 / 2)) = 7 := by
  rw [pyInt_real, if_neg (not_lt.mpr (by positivity)), floor_head]

theorem pyInt_head_neg : pyInt (-((10 : ℝ) * (√2 / 2))) = -7 := by
  rw [pyInt_real, if_pos (by have := head_bounds.1; linarith), neg_neg, floor_head]

theorem headLeft (x y : ℝ) (c : String) (w : ℕ) :
    drawLine x y (225 + -90) (10 * 1) c w = { x := x, y := y, dx := -7, dy := 7, color := c, width := w } := by
  have ha : radians ((225 : ℝ) + -90) = Real.pi - Real.pi / 4 := by rw [radians_real]; ring
  unfold drawLine
  change Stroke.mk x y (ofInt (pyInt (10 * 1 * Real.cos _))) (ofInt (pyInt (10 * 1 * Real.sin _))) c w = _
  rw [ha, Real.cos_pi_sub, Real.sin_pi_sub, Real.cos_pi_div_four, Real.sin_pi_div_four, mul_one, mul_neg,
    pyInt_head, pyInt_head_neg, ofInt_real, ofInt_real]
  norm_num

theorem headRight (x y : ℝ) (c : String) (w : ℕ) :
    drawLine x y (135 + -90) (10 * 1) c w = { x := x, y := y, dx := 7, dy := 7, color := c, width := w } := by
  have ha : radians ((135 : ℝ) + -90) = Real.pi / 4 := by rw [radians_real]; ring
  unfold drawLine
  change Stroke.mk x y (ofInt (pyInt (10 * 1 * Real.cos _))) (ofInt (pyInt (10 * 1 * Real.sin _))) c w = _
  rw [ha, Real.cos_pi_div_four, Real.sin_pi_div_four, mul_one, pyInt_head, ofInt_real]
  norm_num

theorem shaft (x y : ℝ) {len : ℝ} (h : 0 ≤ len) (c : String) (w : ℕ) :
    drawLine x y (-90) (-1 * len * 1) c w = { x := x, y := y, dx := 0, dy := ⌊len⌋, color := c, width := w } := by
  unfold drawLine
  change Stroke.mk x y (ofInt (pyInt (-1 * len * 1 * Real.cos _))) (ofInt (pyInt (-1 * len * 1 * Real.sin _))) c w = _
  rw [cos_down, sin_down, show -1 * len * 1 * (-1) = len by ring, mul_zero, pyInt_real, pyInt_real, ofInt_real,
    ofInt_real, if_neg (lt_irrefl _), if_neg (not_lt.mpr h)]
  simp

/-- The strokes of an arrow with a head of ten pixels. -/
theorem drawArrow_strokes {f x y len : ℝ} (hf : 0 < f) (hl : 0 ≤ len) (c : String) (w : ℕ)
    (lab : Option (ℕ × String)) :
    (drawArrow (-90) f x y c w 10 len lab).1 =
      [{ x := x, y := y, dx := -7, dy := 7, color := c, width := w },
        { x := x, y := y, dx := 7, dy := 7, color := c, width := w },
        { x := x, y := y, dx := 0, dy := ⌊len⌋, color := c, width := w }] := by
  have e : (drawArrow (-90) f x y c w 10 len lab).1 =
      [drawLine x y (225 + -90) (10 * 1) c w, drawLine x y (135 + -90) (10 * 1) c w,
        drawLine x y (-90) (-1 * len * 1) c w] := by
    unfold drawArrow drawArrowhead
    have h225 : (@OfNat.ofNat ℝ 225 (Lit.natLit 225)) = 225 := lit_real 225
    have h135 : (@OfNat.ofNat ℝ 135 (Lit.natLit 135)) = 135 := lit_real 135
    simp only [h225, h135, lit_zero, lit_one]
    rw [if_pos (.inl hf)]
    rw [if_pos hf]
    rcases lab with _ | ⟨p, u⟩ <;> rfl
  rw [e, headLeft, headRight, shaft x y hl]

theorem drawArrow_width {a f x y h len : ℝ} (c : String) (w : ℕ) (lab : Option (ℕ × String)) :
    ∀ k ∈ (drawArrow a f x y c w h len lab).1, k.width = w := by
  intro k hk
  unfold drawArrow drawArrowhead at hk
  split at hk
  · rcases lab with _ | ⟨p, u⟩ <;>
    · simp only [List.mem_append, List.mem_cons, List.not_mem_nil, or_false] at hk
      rcases hk with (rfl | rfl) | rfl <;> rfl
  · simp at hk

theorem drawArrow_note_none (a f x y h len : ℝ) (c : String) (w : ℕ) :
    (drawArrow a f x y c w h len none).2 = [] := by
  unfold drawArrow
  split <;> rfl

theorem drawArrow_note {f x y h len : ℝ} (hf : 0 < f) (hl : 10 ≤ len) (c : String) (w p : ℕ) (u : String) :
    ∃ n, (drawArrow (-90) f x y c w h len (some (p, u))).2 = [n] ∧ n.x = x ∧ n.y = y ∧ n.units = u ∧
      n.shown = pyRound f p ∧ n.xshift = 0 ∧ n.yshift = ⌊len⌋ * 1.3 := by
  unfold drawArrow
  rw [if_pos (.inl (by simpa using hf))]
  refine ⟨_, rfl, rfl, rfl, rfl, rfl, ?_, ?_⟩
  · show ofInt (pyInt (-len * _ * Real.cos _)) * (1.1 : ℝ) = 0
    rw [cos_down, mul_zero, pyInt_real, if_neg (lt_irrefl _), ofInt_real]
    simp
  · have e : (ofInt (pyInt (-len * (if 0 < f then 1 else -1) * Real.sin (radians (-90 : ℝ)))) : ℝ) = ⌊len⌋ := by
      rw [if_pos hf, sin_down, show -len * 1 * (-1) = len by ring, pyInt_real, ofInt_real,
        if_neg (not_lt.mpr (by linarith))]
    have h10 : (10 : ℝ) ≤ ⌊len⌋ := by
      have : (10 : ℤ) ≤ ⌊len⌋ := Int.le_floor.mpr (by exact_mod_cast hl)
      exact_mod_cast this
    have h5 : ¬ pyAbs ((⌊len⌋ : ℝ) * 1.3) < 5 := by
      rw [pyAbs_real, abs_of_nonneg (by positivity), not_lt]
      linarith
    simp only [lit_zero, lit_one]
    change (if pyAbs (ofInt (pyInt (-len * (if 0 < f then 1 else -1) * Real.sin (radians (-90 : ℝ)))) * (1.3 : ℝ)) < _
      then _ else ofInt (pyInt (-len * (if 0 < f then 1 else -1) * Real.sin (radians (-90 : ℝ)))) * (1.3 : ℝ)) = _
    rw [e, lit_real 5, if_neg]
    exact h5

/-! ## C84 -/

theorem visible_append (a b : List (Stroke ℝ)) : visible (a ++ b) = visible a ++ visible b := by
  unfold visible
  rw [List.filter_append, List.map_append]

theorem visible_none {a : List (Stroke ℝ)} (h : ∀ k ∈ a, k.width = 0) : visible a = [] := by
  unfold visible
  rw [List.filter_eq_nil_iff.mpr]
  · rfl
  · intro k hk
    simp [h k hk]

theorem udl_shown {s : Slope ℝ} (w : WFS s) {m : ℝ} (hm : 0 < m) {u : PUdl ℝ} (hu : u ∈ s.udls)
    {t : List Char} (ht : StrOf u.load.magnitude t) :
    UdlShown s m u (s.drawUdl (getPrecision t) u (100 * (u.load.magnitude / m))) := by
  have hp := (w.2.udl u.load (List.mem_map_of_mem hu)).1
  have hle : 0 ≤ 100 * (u.load.magnitude / m) := by positivity
  have h100 : 100 * (u.load.magnitude / m) = 100 * u.load.magnitude / m := by ring
  have hy := w.1.geo.topY
  have l90 : (@OfNat.ofNat ℝ 90 (Lit.natLit 90)) = 90 := lit_real 90
  have l10 : (@OfNat.ofNat ℝ 10 (Lit.natLit 10)) = 10 := lit_real 10
  have l2 : (@OfNat.ofNat ℝ 2 (Lit.natLit 2)) = 2 := lit_real 2
  refine ⟨?_, rfl, ?_, ?_⟩
  · unfold Slope.drawUdl
    rw [← h100, ← hy]
  · unfold Slope.drawUdl
    simp only [l90, l10]
    rw [visible_append, visible_append, drawArrow_strokes hp hle, drawArrow_strokes hp hle,
      visible_none (fun k hk => drawArrow_width _ _ _ k hk), List.append_nil, h100, hy]
    rfl
  · unfold Slope.drawUdl
    simp only [l2]
    rw [drawArrow_note_none, drawArrow_note_none, List.nil_append, List.append_nil]
    simp only [l90, l10]
    obtain ⟨n, e1, e2, e3, e4, e5, e6, e7⟩ := drawArrow_note
      (f := u.load.magnitude) (x := (u.left + u.right) / 2) (y := s.topY)
      (h := @OfNat.ofNat ℝ 0 (Lit.natLit 0)) (len := 100 * (u.load.magnitude / m) + 10)
      hp (by linarith) "black" 0 (getPrecision t) "kPa"
    refine ⟨n, e1, ⟨e2, e3.trans hy, e4, ?_⟩, e6, ?_⟩
    · rw [e5]
      exact label_error ht
    · rw [e7, ← h100]
      have := Int.lt_floor_add_one (100 * (u.load.magnitude / m) + 10)
      linarith

theorem ll_shown {s : Slope ℝ} (w : WFS s) {l : PLl ℝ} (hl : l ∈ s.lls) {t : List Char}
    (ht : StrOf l.load.magnitude t) : LlShown s l (s.drawLl (getPrecision t) l) := by
  have hp := w.2.ll l.load (List.mem_map_of_mem hl)
  have hy := w.1.geo.topY
  have l90 : (@OfNat.ofNat ℝ 90 (Lit.natLit 90)) = 90 := lit_real 90
  have l10 : (@OfNat.ofNat ℝ 10 (Lit.natLit 10)) = 10 := lit_real 10
  have l150 : (@OfNat.ofNat ℝ 150 (Lit.natLit 150)) = 150 := lit_real 150
  refine ⟨rfl, rfl, ?_, ?_⟩
  · unfold Slope.drawLl
    simp only [l90, l10, l150]
    rw [visible_append, drawArrow_strokes hp (by norm_num), drawArrow_strokes hp (by norm_num), hy]
    have : ⌊(150 : ℝ)⌋ = 150 := by norm_num
    rw [this]
    simp [visible, arrowDown]
  · unfold Slope.drawLl
    simp only
    rw [drawArrow_note_none, List.append_nil]
    simp only [l90, l150]
    obtain ⟨n, e1, e2, e3, e4, e5, e6, e7⟩ := drawArrow_note
      (f := l.load.magnitude) (x := l.coord) (y := s.topY)
      (h := @OfNat.ofNat ℝ 10 (Lit.natLit 10)) (len := 150)
      hp (by norm_num) "black" 2 (getPrecision t) "kN/m"
    refine ⟨n, e1, ⟨e2, e3.trans hy, e4, ?_⟩, e6, ?_⟩
    · rw [e5]
      exact label_error ht
    · rw [e7]
      norm_num

/-- The parts of a plot that ends. -/
theorem plotFull_ok {s : Slope ℝ} {str : ℝ → List Char} {tab : Bool} {f : FullPlot ℝ}
    (h : s.plotFull str tab = .ok f) (hm : s.materials ≠ []) :
    ∃ b, s.plotBoundary = .ok b ∧ s.arrowLengths s.udls = .ok b.arrows ∧ f =
      { ground := b
        loads := (s.udls.zip b.arrows).map (fun p =>
            s.drawUdl (getPrecision (str p.1.load.magnitude)) p.1 p.2) ++
          s.lls.map fun l => s.drawLl (getPrecision (str l.load.magnitude)) l
        limits := s.limitMarks
        tableLines := if tab then s.tableLines else []
        table := if tab then tableRows s.materials (s.tableTop - 0.05 / @OfNat.ofNat ℝ 2 (Lit.natLit 2)) else [] } := by
  have hn : ¬ s.materials.isEmpty = true := by simpa using hm
  unfold Slope.plotFull at h
  cases hb : s.plotBoundary with
  | error e => rw [hb] at h; cases h
  | ok b =>
    rw [hb] at h
    simp only [bind, Except.bind] at h
    rw [if_neg hn] at h
    cases h
    refine ⟨b, rfl, ?_, rfl⟩
    unfold Slope.plotBoundary at hb
    rw [if_neg hn] at hb
    simp only [bind, Except.bind] at hb
    split at hb
    · cases hb
    · split at hb
      · cases hb
      · rename_i a ha
        split at hb
        · cases hb
        · cases hb
          exact ha

theorem zip_map_self {α β γ : Type} (l : List α) (g : α → β) (h : α × β → γ) :
    (l.zip (l.map g)).map h = l.map fun a => h (a, g a) := by
  induction l with
  | nil => rfl
  | cons a l ih => simp only [List.map_cons, List.zip_cons_cons, ih]

/-- C84: in a plot that ends every uniform load is drawn as one rectangle over the stretch it loads, on the
level of the crest, with an arrow down at both ends, and every line load as an arrow down where it acts;
heights are in proportion to the magnitudes, a hundred pixels for the greatest; and the text at each
load says its magnitude to within a thousandth. -/
theorem C84_loads_drawn (s : Slope ℝ) (r : Reachable s) (hm : s.materials ≠ []) (str : ℝ → List Char)
    (hu : ∀ u ∈ s.udls, StrOf u.load.magnitude (str u.load.magnitude))
    (hl : ∀ l ∈ s.lls, StrOf l.load.magnitude (str l.load.magnitude)) (tab : Bool) (f : FullPlot ℝ) (hf : s.plotFull str tab = .ok f) :
    ∃ us ls most, f.loads = us ++ ls ∧ List.Forall₂ (UdlShown s most) s.udls us ∧
      List.Forall₂ (LlShown s) s.lls ls ∧
      (s.udls ≠ [] → ∃ u ∈ s.udls, u.load.magnitude = most) ∧ ∀ u ∈ s.udls, u.load.magnitude ≤ most := by
  obtain ⟨b, hb, ha, rfl⟩ := plotFull_ok hf hm
  have hls : List.Forall₂ (LlShown s) s.lls
      (s.lls.map fun l => s.drawLl (getPrecision (str l.load.magnitude)) l) := by
    rw [List.forall₂_map_right_iff]
    exact List.forall₂_same.mpr fun l h => ll_shown r.wfs h (hl l h)
  by_cases hne : s.udls = []
  · refine ⟨[], _, 1, by rw [hne]; rfl, ?_, hls, fun h => absurd hne h, ?_⟩
    · rw [hne]; exact .nil
    · rw [hne]; intro u h; cases h
  · have hmax : ∃ m, s.udlMax = .num m := by
      cases hq : s.udlMax with
      | num m => exact ⟨m, rfl⟩
      | unset =>
        obtain ⟨u, us, e⟩ := List.exists_cons_of_ne_nil hne
        rw [e] at ha
        simp [Slope.arrowLengths, hq, bind, Except.bind, throw, throwThe, MonadExceptOf.throw] at ha
      | obj o =>
        obtain ⟨u, us, e⟩ := List.exists_cons_of_ne_nil hne
        rw [e] at ha
        simp [Slope.arrowLengths, hq, bind, Except.bind, throw, throwThe, MonadExceptOf.throw] at ha
    obtain ⟨m, hmm⟩ := hmax
    obtain ⟨g1, g2⟩ := r.maxOk m hmm (by unfold Slope.mags; simpa using hne)
    unfold Slope.mags at g1 g2
    obtain ⟨u0, h0, e0⟩ := List.mem_map.mp g1
    have hpos : 0 < m := e0 ▸ (r.sane.udl u0.load (List.mem_map_of_mem h0)).1
    rw [arrowLengths_ok s hmm hpos.ne'] at ha
    have ha := Except.ok.inj ha
    refine ⟨_, _, m, rfl, ?_, hls, fun _ => ⟨u0, h0, e0⟩, fun u h => g2 _ (List.mem_map_of_mem h)⟩
    rw [← ha, zip_map_self, List.forall₂_map_right_iff]
    exact List.forall₂_same.mpr fun u h => udl_shown r.wfs hpos h (hu u h)

/-! ## C85 -/

theorem getExternalY_groundY {s : Slope ℝ} (g : Geo s) {x : ℝ} (h0 : 0 ≤ x) (h1 : x ≤ s.extL) :
    s.getExternalY x = some (groundY s x) := by
  unfold Slope.getExternalY groundY
  rw [lit_zero, if_neg (not_or.mpr ⟨not_lt.mpr h0, not_lt.mpr h1⟩), g.topY]
  by_cases h : x ≤ s.topX
  · rw [if_pos h, if_pos h]
  · rw [if_neg h, if_neg h, ← g.botX]
    by_cases h' : s.botX ≤ x
    · rw [if_pos h', if_neg (not_lt.mpr h'), g.botY]
    · rw [if_neg h', if_pos (not_le.mp h'), g.grad]

/-- C85: the marks of the analysis limits stand on the ground. A mark pointing right stands at the outer
limit of the entry points, one pointing left at the outer limit of the exit points; if the two ranges
do not meet, their inner ends are marked too; and every mark has a bar. -/
theorem C85_limits_drawn (s : Slope ℝ) (r : Reachable s) (hm : s.materials ≠ []) (str : ℝ → List Char)
    (tab : Bool) (f : FullPlot ℝ) (hf : s.plotFull str tab = .ok f) :
    (∀ k ∈ f.limits, k.y = some (groundY s k.x)) ∧
    (∀ x, (∃ k ∈ f.limits, k.glyph = "▶" ∧ k.x = x) ↔ x = s.lim1 ∨ (s.lim2 ≠ s.lim3 ∧ x = s.lim3)) ∧
    (∀ x, (∃ k ∈ f.limits, k.glyph = "◀" ∧ k.x = x) ↔ x = s.lim4 ∨ (s.lim2 ≠ s.lim3 ∧ x = s.lim2)) ∧
    (∀ x, (∃ k ∈ f.limits, k.glyph = "|" ∧ k.x = x) ↔
      x = s.lim1 ∨ x = s.lim4 ∨ (s.lim2 ≠ s.lim3 ∧ (x = s.lim2 ∨ x = s.lim3))) := by
  obtain ⟨b, _, _, rfl⟩ := plotFull_ok hf hm
  have w := r.wf
  have g := w.geo
  have b1 := w.l1; have b12 := w.l12; have b2 := w.l2; have b3 := w.l3; have b34 := w.l34; have b4 := w.l4
  have y1 := getExternalY_groundY g (x := s.lim1) (by linarith) (by linarith)
  have y2 := getExternalY_groundY g (x := s.lim2) (by linarith) (by linarith)
  have y3 := getExternalY_groundY g (x := s.lim3) (by linarith) (by linarith)
  have y4 := getExternalY_groundY g (x := s.lim4) (by linarith) (by linarith)
  unfold Slope.limitMarks
  by_cases h : s.lim2 = s.lim3
  · simp [h, y1, y4]
    refine ⟨fun x => eq_comm, fun x => eq_comm, fun x => ?_⟩
    rw [eq_comm (a := s.lim4), eq_comm (a := s.lim1)]
    tauto
  · simp [h, y1, y2, y3, y4]
    refine ⟨fun x => ?_, fun x => ?_, fun x => ?_⟩ <;>
      simp only [eq_comm (a := s.lim1), eq_comm (a := s.lim2), eq_comm (a := s.lim3), eq_comm (a := s.lim4)]
    tauto

/-! ## C86 -/

theorem tableRows_spec (ls : List (Layer ℝ)) (y : ℝ) :
    (tableRows ls y).length = ls.length ∧
    ∀ i (h : i < ls.length) (h' : i < (tableRows ls y).length),
      (tableRows ls y)[i].y = y - 0.05 * (i + 1) ∧ (tableRows ls y)[i].name = ls[i].mat.name ∧
      (tableRows ls y)[i].color = ls[i].color ∧ (tableRows ls y)[i].unitWeight = ls[i].mat.unitWeight ∧
      (tableRows ls y)[i].cohesion = ls[i].mat.cohesion ∧
      (tableRows ls y)[i].frictionAngle = ls[i].mat.frictionAngle := by
  induction ls generalizing y with
  | nil => exact ⟨rfl, fun i h => absurd h (Nat.not_lt_zero _)⟩
  | cons l ls ih =>
    obtain ⟨h1, h2⟩ := ih (y - 0.05)
    refine ⟨by simp [tableRows, h1], ?_⟩
    intro i h h'
    cases i with
    | zero =>
      refine ⟨?_, rfl, rfl, rfl, rfl, rfl⟩
      change y - 0.05 = _
      norm_num
    | succ i =>
      have h3 : i < (tableRows ls (y - 0.05)).length := by rw [h1]; simpa using h
      obtain ⟨a, b⟩ := h2 i (by simpa using h) h3
      refine ⟨?_, b⟩
      change (tableRows ls (y - 0.05))[i].y = _
      rw [a]
      push_cast
      ring

/-- C86: the table of materials has a row for each layer, from the top down, that says its name, colour,
unit weight, cohesion and friction angle as the analysis uses them. Each row is under its own line, over
the next one and inside the table. Without the table none is drawn. -/
theorem C86_material_table (s : Slope ℝ) (r : Reachable s) (hm : s.materials ≠ []) (str : ℝ → List Char)
    (tab : Bool) (f : FullPlot ℝ) (hf : s.plotFull str tab = .ok f) :
    (tab = false → f.table = [] ∧ f.tableLines = []) ∧
    (tab = true → s.materials.Pairwise (fun a b => a.mat.depth < b.mat.depth) ∧
      ∃ (h : f.table.length = s.materials.length) (h' : f.tableLines.length = s.materials.length),
      ∀ i (hi : i < s.materials.length),
        let row := f.table[i]
        let m := s.materials[i]
        row.name = m.mat.name ∧ row.color = m.color ∧ row.unitWeight = m.mat.unitWeight ∧
        row.cohesion = m.mat.cohesion ∧ row.frictionAngle = m.mat.frictionAngle ∧
        row.y < f.tableLines[i] ∧ 0.1 < row.y ∧ ∀ hj : i + 1 < s.materials.length, f.tableLines[i + 1] < row.y) := by
  obtain ⟨b, _, _, rfl⟩ := plotFull_ok hf hm
  have l2 : (@OfNat.ofNat ℝ 2 (Lit.natLit 2)) = 2 := lit_real 2
  refine ⟨fun h => by simp [h], ?_⟩
  rintro rfl
  refine ⟨r.wf.mats, ?_⟩
  simp only [if_true]
  obtain ⟨t1, t2⟩ := tableRows_spec s.materials (s.tableTop - 0.05 / @OfNat.ofNat ℝ 2 (Lit.natLit 2))
  have t3 : s.tableLines.length = s.materials.length := by simp [Slope.tableLines]
  refine ⟨t1, t3, fun i hi => ?_⟩
  obtain ⟨y, n, c, g, k, p⟩ := t2 i hi (by rw [t1]; exact hi)
  have line : ∀ j (hj : j < s.tableLines.length), s.tableLines[j] = s.tableTop - 0.05 - j * 0.05 := by
    intro j hj
    simp [Slope.tableLines]
  have top : s.tableTop = 0.1 + 0.05 * (s.materials.length + 1) := by
    unfold Slope.tableTop
    push_cast
    rfl
  have hi' : (i : ℝ) + 1 ≤ s.materials.length := by exact_mod_cast hi
  refine ⟨n, c, g, k, p, ?_, ?_, fun hj => ?_⟩
  · rw [y, line, l2]; norm_num; linarith
  · rw [y, top, l2]; norm_num; linarith
  · rw [y, line, l2]; push_cast; norm_num; linarith

/-- The example with two loads of 20 (`exLoaded`) is drawn without an exception. -/
theorem exLoaded_drawn (str : ℝ → List Char) (tab : Bool) :
    exLoaded.materials ≠ [] ∧ ∃ f, exLoaded.plotFull str tab = .ok f := by
  have hne : exLoaded.materials ≠ [] := by
    change exSoil.materials ≠ []
    simp [exSoil]
  refine ⟨hne, ?_⟩
  obtain ⟨b, hb, _⟩ := C62_plot_ends_partial exLoaded exLoaded_reachable (by
      intro l hl
      change l ∈ [mkLayer exSlope.extH 0 (exMat 2)] at hl
      rw [List.mem_singleton] at hl
      subst hl
      refine ⟨rfl, ?_⟩
      change (exMat 2).depth ≤ exSlope.topY
      simp [exMat]
      norm_num)
    (by intro y hy; change exSoil.waterRL = some y at hy; simp [exSoil] at hy)
    (Or.inr ⟨20, rfl⟩)
  unfold Slope.plotFull
  rw [hb]
  simp only [bind, Except.bind]
  split <;> exact ⟨_, rfl⟩

theorem str_twenty : StrOf 20 "20".toList := by
  have : (20 : ℝ) = (digitsVal "20".toList : ℕ) := by
    have e : digitsVal "20".toList = 20 := by decide
    rw [e]
    norm_num
  rw [this]
  exact .int _ (by unfold IsDigits; decide)

/-- A case of C84: a rectangle of 100 pixels from 3 to 5, an arrow at 5, and texts that say 20. -/
example : ∃ f, exLoaded.plotFull (fun _ => "20".toList) true = .ok f ∧
    ∃ us ls most, f.loads = us ++ ls ∧ List.Forall₂ (UdlShown exLoaded most) exLoaded.udls us ∧
      List.Forall₂ (LlShown exLoaded) exLoaded.lls ls ∧ us.length = 1 ∧ ls.length = 1 ∧ most = 20 := by
  obtain ⟨hne, f, hf⟩ := exLoaded_drawn (fun _ => "20".toList) true
  obtain ⟨us, ls, most, e, hu, hl, hm, _⟩ := C84_loads_drawn exLoaded exLoaded_reachable hne _ (by
      intro u h
      simp only [exLoaded, List.mem_singleton] at h
      subst h
      exact str_twenty) (by
      intro u h
      simp only [exLoaded, List.mem_singleton] at h
      subst h
      exact str_twenty) true f hf
  refine ⟨f, hf, us, ls, most, e, hu, hl, hu.length_eq.symm, hl.length_eq.symm, ?_⟩
  obtain ⟨u, h1, h2⟩ := hm (by simp [exLoaded])
  simp only [exLoaded, List.mem_singleton] at h1
  subst h1
  exact h2.symm

/-- A case of C85 and C86: the same plot has marks of limits at the ends of the model and one row. -/
example : ∃ f, exLoaded.plotFull (fun _ => "20".toList) true = .ok f ∧ f.table.length = 1 ∧
    ∃ k ∈ f.limits, k.glyph = "▶" ∧ k.x = exLoaded.lim1 := by
  obtain ⟨hne, f, hf⟩ := exLoaded_drawn (fun _ => "20".toList) true
  refine ⟨f, hf, ?_, ?_⟩
  · obtain ⟨_, h, _⟩ := (C86_material_table exLoaded exLoaded_reachable hne _ true f hf).2 rfl
    rw [h]; rfl
  · exact ((C85_limits_drawn exLoaded exLoaded_reachable hne _ true f hf).2.1 _).mpr (Or.inl rfl)

end PySlope
