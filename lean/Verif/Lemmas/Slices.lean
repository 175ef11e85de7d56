import Verif.Lemmas.Real

/-! # Closed form of the slices over the reals -/

namespace PySlope

/-- Centre of slice `i` of `n` between `xl` and `xr`. -/
noncomputable def centre (xl xr : ℝ) (n : Int) (i : ℕ) : ℝ := xl + ((i : ℝ) + 1 / 2) * ((xr - xl) / n)

theorem linspace_centre (xl xr : ℝ) {n : Int} (hn : 2 ≤ n) (i : ℕ) :
    linspace (xl + (xr - xl) / n / 2) (xr - (xr - xl) / n / 2) n i = centre xl xr n i := by
  have h1 : ((n : ℝ) - 1) ≠ 0 := by
    have : (2 : ℝ) ≤ n := by exact_mod_cast hn
    intro h; linarith
  have h2 : (n : ℝ) ≠ 0 := by
    have : (2 : ℝ) ≤ n := by exact_mod_cast hn
    intro h; linarith
  unfold linspace centre
  rw [ofInt_real]
  push_cast
  field_simp
  ring

/-- The slice at `x` of the circle `(cx, cy, r)`. -/
noncomputable def Slope.rowAt (s : Slope ℝ) (cx cy r x : ℝ) : Row ℝ :=
  { x := x
    yb := cy - √(r ^ 2 - (x - cx) ^ 2)
    yt := max (s.sliceTop x) (cy - √(r ^ 2 - (x - cx) ^ 2))
    cosA := √(r ^ 2 - (x - cx) ^ 2) / |r|
    sinA := (cx - x) / |r| }

theorem row_eq (s : Slope ℝ) (cx cy r x : ℝ) (h : (x - cx) ^ 2 < r ^ 2) :
    s.row cx cy r x = .ok (s.rowAt cx cy r x) := by
  have hd : 0 < r ^ 2 - (x - cx) ^ 2 := by linarith
  have hs : 0 < √(r ^ 2 - (x - cx) ^ 2) := Real.sqrt_pos.mpr hd
  have hr : 0 < |r| := by
    rw [abs_pos]; rintro rfl
    have := sq_nonneg (x - cx); norm_num at h; linarith
  have hdy : cy - (cy - √(r ^ 2 - (x - cx) ^ 2)) = √(r ^ 2 - (x - cx) ^ 2) := by ring
  have h1 : √(1 + ((cx - x) / √(r ^ 2 - (x - cx) ^ 2)) ^ 2) = |r| / √(r ^ 2 - (x - cx) ^ 2) := by
    rw [Real.sqrt_eq_iff_mul_self_eq (by positivity) (by positivity)]
    have := Real.mul_self_sqrt hd.le
    field_simp
    rw [sq_abs, Real.sq_sqrt hd.le]; ring
  unfold Slope.row Slope.rowAt
  simp only [sq_real, pyMax_real, pyEq_real, lit_zero]
  change (if decide (cy - (cy - √(r ^ 2 - (x - cx) ^ 2)) = 0) = true then _ else _) = _
  rw [hdy, if_neg (by simpa using hs.ne')]
  congr 1
  change ({ x := x, yb := _, yt := _, cosA := Real.cos (Real.arctan _),
            sinA := Real.sin (Real.arctan _) } : Row ℝ) = _
  congr 1
  · change Real.cos (Real.arctan ((cx - x) / (cy - (cy - √(r ^ 2 - (x - cx) ^ 2))))) = _
    rw [hdy, Real.cos_arctan, h1]
    field_simp
  · change Real.sin (Real.arctan ((cx - x) / (cy - (cy - √(r ^ 2 - (x - cx) ^ 2))))) = _
    rw [hdy, Real.sin_arctan, h1]
    field_simp

theorem row_side (s : Slope ℝ) (cx cy r x : ℝ) (h : (x - cx) ^ 2 = r ^ 2) :
    s.row cx cy r x = .error (.raise .nonreal) := by
  unfold Slope.row
  simp only [sq_real, pyMax_real, pyEq_real, lit_zero]
  change (if decide (cy - (cy - √(r ^ 2 - (x - cx) ^ 2)) = 0) = true then _ else _) = _
  rw [h]
  simp

theorem mapM_ok {α β ε : Type} (f : α → Except ε β) (g : α → β) (l : List α)
    (h : ∀ a ∈ l, f a = .ok (g a)) : l.mapM f = .ok (l.map g) := by
  induction l with
  | nil => rfl
  | cons a l ih =>
    rw [List.mapM_cons, h a (by simp), ih (fun b hb => h b (List.mem_cons_of_mem _ hb))]
    rfl

/-- If it succeeds every element did. -/
theorem mapM_ok_mem {α β ε : Type} {f : α → Except ε β} {l : List α} {r : List β}
    (h : l.mapM f = .ok r) : ∀ a ∈ l, ∃ b, f a = .ok b := by
  induction l generalizing r with
  | nil => simp
  | cons a l ih =>
    rw [List.mapM_cons] at h
    cases ha : f a with
    | error e => rw [ha] at h; cases h
    | ok b =>
      rw [ha] at h
      cases hl : l.mapM f with
      | error e => simp only [bind, Except.bind, hl] at h; cases h
      | ok bs =>
        intro x hx
        rcases List.mem_cons.mp hx with rfl | hx
        · exact ⟨b, ha⟩
        · exact ih hl x hx

/-- The slices of a circle between two abscissas. -/
noncomputable def Slope.rowsAt (s : Slope ℝ) (cx cy r xl xr : ℝ) : List (Row ℝ) :=
  (List.range s.slices.toNat).map fun i => s.rowAt cx cy r (centre xl xr s.slices i)

theorem rowAt_cos_pos (s : Slope ℝ) {cx cy r x : ℝ} (h : (x - cx) ^ 2 < r ^ 2) :
    0 < (s.rowAt cx cy r x).cosA := by
  have hs : 0 < √(r ^ 2 - (x - cx) ^ 2) := Real.sqrt_pos.mpr (by linarith)
  have hr : 0 < |r| := by
    rw [abs_pos]; rintro rfl
    have := sq_nonneg (x - cx); norm_num at h; linarith
  exact div_pos hs hr

theorem map_linspace (xl xr : ℝ) {n : Int} (hn : 2 ≤ n) :
    (List.range n.toNat).map (linspace (xl + (xr - xl) / n / 2) (xr - (xr - xl) / n / 2) n) =
      (List.range n.toNat).map (centre xl xr n) :=
  List.map_congr_left fun i _ => linspace_centre xl xr hn i

/-- The three outcomes of the slicing. -/
theorem sliceRows_eq (s : Slope ℝ) (hn : 2 ≤ s.slices) (cx cy r xl xr : ℝ)
    (h : ∀ i < s.slices.toNat, (centre xl xr s.slices i - cx) ^ 2 < r ^ 2) :
    s.sliceRows cx cy r xl xr = .ok (s.rowsAt cx cy r xl xr) := by
  unfold Slope.sliceRows
  simp only [ofInt_real]
  rw [show (@OfNat.ofNat ℝ 2 (Lit.natLit 2)) = 2 from rfl, map_linspace _ _ hn]
  have h1 : ((List.range s.slices.toNat).map (centre xl xr s.slices)).any
      (fun x => decide (sq r < sq (x - cx))) = false := by
    rw [List.any_eq_false]
    intro x hx
    obtain ⟨i, hi, rfl⟩ := List.mem_map.mp hx
    simp only [sq_real, decide_eq_true_eq, not_lt]
    exact (h i (List.mem_range.mp hi)).le
  rw [h1]
  have h2 : ((List.range s.slices.toNat).map (centre xl xr s.slices)).mapM (s.row cx cy r) =
      .ok (((List.range s.slices.toNat).map (centre xl xr s.slices)).map (s.rowAt cx cy r)) := by
    apply mapM_ok
    intro x hx
    obtain ⟨i, hi, rfl⟩ := List.mem_map.mp hx
    exact row_eq s cx cy r _ (h i (List.mem_range.mp hi))
  rw [h2, List.map_map]
  simp only [bind, Except.bind, pure, Except.pure, Bool.false_eq_true, if_false]
  have h3 : ((List.range s.slices.toNat).map ((s.rowAt cx cy r) ∘ (centre xl xr s.slices))).any
      (fun q => pyEq q.cosA (@OfNat.ofNat ℝ 0 (Lit.natLit 0))) = false := by
    rw [List.any_eq_false]
    intro q hq
    obtain ⟨i, hi, rfl⟩ := List.mem_map.mp hq
    have := rowAt_cos_pos s (cy := cy) (h i (List.mem_range.mp hi))
    simpa using this.ne'
  rw [h3]
  rfl

theorem sliceRows_ok {s : Slope ℝ} (hn : 2 ≤ s.slices) {cx cy r xl xr : ℝ} {rows : List (Row ℝ)}
    (e : s.sliceRows cx cy r xl xr = .ok rows) :
    rows = s.rowsAt cx cy r xl xr ∧
      ∀ i < s.slices.toNat, (centre xl xr s.slices i - cx) ^ 2 < r ^ 2 := by
  have key : ∀ i < s.slices.toNat, (centre xl xr s.slices i - cx) ^ 2 < r ^ 2 := by
    have e' := e
    unfold Slope.sliceRows at e'
    simp only [ofInt_real] at e'
    rw [show (@OfNat.ofNat ℝ 2 (Lit.natLit 2)) = 2 from rfl, map_linspace _ _ hn] at e'
    intro i hi
    have hm : centre xl xr s.slices i ∈
        (List.range s.slices.toNat).map (centre xl xr s.slices) :=
      List.mem_map_of_mem (List.mem_range.mpr hi)
    by_cases h1 : ((List.range s.slices.toNat).map (centre xl xr s.slices)).any
      (fun x => decide (sq r < sq (x - cx))) = true
    · rw [h1] at e'; cases e'
    · rw [Bool.not_eq_true, List.any_eq_false] at h1
      have h2 := h1 _ hm
      simp only [sq_real, decide_eq_true_eq, not_lt] at h2
      rcases lt_or_eq_of_le h2 with h3 | h3
      · exact h3
      · exfalso
        rw [← List.any_eq_false] at h1
        rw [h1] at e'
        simp only [bind, Except.bind, pure, Except.pure, Bool.false_eq_true, if_false] at e'
        split at e'
        · cases e'
        · rename_i v hv
          obtain ⟨b, hb⟩ := mapM_ok_mem hv _ hm
          rw [row_side s cx cy r _ h3] at hb
          cases hb
  refine ⟨?_, key⟩
  rw [sliceRows_eq s hn cx cy r xl xr key] at e
  cases e; rfl

/-- The centres are strictly between the ends. -/
theorem centre_mem {xl xr : ℝ} (h : xl < xr) {n : Int} (hn : 1 ≤ n) {i : ℕ} (hi : i < n.toNat) :
    xl < centre xl xr n i ∧ centre xl xr n i < xr := by
  have hn0 : (1 : ℝ) ≤ n := by exact_mod_cast hn
  have hi' : (i : ℝ) + 1 ≤ n := by
    have : (i : ℤ) + 1 ≤ n := by omega
    exact_mod_cast this
  have hw : 0 < (xr - xl) / n := div_pos (by linarith) (by linarith)
  have hi0 : (0 : ℝ) ≤ i := Nat.cast_nonneg i
  unfold centre
  constructor
  · nlinarith
  · have : ((i : ℝ) + 1 / 2) * ((xr - xl) / n) < n * ((xr - xl) / n) := by
      apply mul_lt_mul_of_pos_right _ hw; linarith
    have e : n * ((xr - xl) / n) = xr - xl := by field_simp
    linarith

/-- Between two points of the disc every centre is inside it. -/
theorem centre_inside {xl xr cx r : ℝ} (h : xl < xr) (hl : (xl - cx) ^ 2 ≤ r ^ 2)
    (hr : (xr - cx) ^ 2 ≤ r ^ 2) {n : Int} (hn : 1 ≤ n) {i : ℕ} (hi : i < n.toNat) :
    (centre xl xr n i - cx) ^ 2 < r ^ 2 := by
  obtain ⟨h1, h2⟩ := centre_mem h hn hi
  set x := centre xl xr n i
  rw [sq_le_sq] at hl hr
  rw [sq_lt_sq, abs_lt]
  have := abs_le.mp hl; have := abs_le.mp hr
  constructor <;> linarith

end PySlope
