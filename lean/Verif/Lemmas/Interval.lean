import Verif.Lemmas.Ieee754
import Verif.Props.Ieee

/-! # Exact and bounded arithmetic of doubles with infinities and NaN

Numbers with ten binary places are exact on every machine (`Dy`), and with such bounds on the arguments
the result of an operation is a number and has such bounds (`Btw`). -/

namespace PySlope
open Lit

/-- A number with ten binary places, less than `2^43` in size. -/
def Dy (x : ℝ) : Prop := ∃ m : ℤ, |m| < 2 ^ 53 ∧ x = m / 1024

theorem Dy.binary {x : ℝ} (h : Dy x) : Binary53 x := by
  obtain ⟨m, h1, h2⟩ := h
  refine ⟨m, -10, h1, ?_⟩
  rw [h2]
  norm_num [zpow_neg]
  ring

theorem Dy.lt {x : ℝ} (h : Dy x) : |x| < 2 ^ 1024 := by
  obtain ⟨m, h1, h2⟩ := h
  have h3 : |(m : ℝ)| < 2 ^ 53 := by exact_mod_cast h1
  rw [h2, abs_div, abs_of_pos (by norm_num : (0 : ℝ) < 1024)]
  have : |(m : ℝ)| / 1024 ≤ |(m : ℝ)| := div_le_self (abs_nonneg _) (by norm_num)
  have : (2 : ℝ) ^ 53 < 2 ^ 1024 := by
    apply pow_lt_pow_right₀ <;> norm_num
  exact lt_of_le_of_lt ‹_› (h3.trans this)

theorem Dy.zero : Dy 0 := ⟨0, by norm_num, by norm_num⟩
theorem Dy.one : Dy 1 := ⟨1024, by norm_num, by norm_num⟩
theorem Dy.ofNat (n : ℕ) [n.AtLeastTwo] (h : n < 2 ^ 43) : Dy ofNat(n) := by
  refine ⟨n * 1024, ?_, ?_⟩
  · rw [abs_of_nonneg (by positivity)]; norm_cast; omega
  · push_cast
    have : ((OfNat.ofNat n : ℝ)) = (n : ℝ) := rfl
    rw [this]; ring
theorem Dy.neg {x : ℝ} (h : Dy x) : Dy (-x) := by
  obtain ⟨m, h1, h2⟩ := h
  exact ⟨-m, by rwa [abs_neg], by rw [h2]; push_cast; ring⟩

theorem Dy.negOne : Dy (-1) := Dy.one.neg
theorem Dy.negOfNat (n : ℕ) [n.AtLeastTwo] (h : n < 2 ^ 43) : Dy (-ofNat(n)) := (Dy.ofNat n h).neg

/-- Proves `Dy` of an integer literal. -/
macro "dy" : tactic => `(tactic| first
  | exact Dy.zero
  | exact Dy.one
  | exact Dy.ofNat _ (by norm_num)
  | exact Dy.neg Dy.one
  | exact Dy.neg (Dy.ofNat _ (by norm_num)))

namespace X64

variable {A : Machine}

theorem ofReal_dy {x : ℝ} (h : Dy x) : ∃ a : F64 A, ofReal x = fin a ∧ a.val = x := by
  have e : A.rnd x = x := A.rounds.exact h.binary
  refine ⟨F64.mk x, ?_, e⟩
  unfold ofReal
  rw [if_pos (by rw [e]; exact h.lt)]

theorem ofReal_add {x y : ℝ} (hx : Dy x) (hy : Dy y) : (ofReal x + ofReal y : X64 A) = ofReal (x + y) := by
  obtain ⟨a, ha, ha'⟩ := ofReal_dy (A := A) hx
  obtain ⟨b, hb, hb'⟩ := ofReal_dy (A := A) hy
  rw [ha, hb, ← ha', ← hb']; rfl

theorem neg_val (b : F64 A) : F64.val (A := A) (⟨- b.val, Binary53.neg b.2⟩ : B64) = - b.val := rfl

theorem ofReal_sub {x y : ℝ} (hx : Dy x) (hy : Dy y) : (ofReal x - ofReal y : X64 A) = ofReal (x - y) := by
  obtain ⟨a, ha, ha'⟩ := ofReal_dy (A := A) hx
  obtain ⟨b, hb, hb'⟩ := ofReal_dy (A := A) hy
  rw [ha, hb, ← ha', ← hb', sub_eq_add_neg]; rfl

theorem ofReal_mul {x y : ℝ} (hx : Dy x) (hy : Dy y) : (ofReal x * ofReal y : X64 A) = ofReal (x * y) := by
  obtain ⟨a, ha, ha'⟩ := ofReal_dy (A := A) hx
  obtain ⟨b, hb, hb'⟩ := ofReal_dy (A := A) hy
  rw [ha, hb, ← ha', ← hb']; rfl

theorem ofReal_div {x y : ℝ} (hx : Dy x) (hy : Dy y) (h0 : y ≠ 0) :
    (ofReal x / ofReal y : X64 A) = ofReal (x / y) := by
  obtain ⟨a, ha, ha'⟩ := ofReal_dy (A := A) hx
  obtain ⟨b, hb, hb'⟩ := ofReal_dy (A := A) hy
  rw [ha, hb]
  rw [← hb'] at h0
  show (if b.val = 0 then _ else ofReal (a.val / b.val)) = _
  rw [if_neg h0, ha', hb']

theorem ofReal_lt {x y : ℝ} (hx : Dy x) (hy : Dy y) : (ofReal x : X64 A) < ofReal y ↔ x < y := by
  obtain ⟨a, ha, ha'⟩ := ofReal_dy (A := A) hx
  obtain ⟨b, hb, hb'⟩ := ofReal_dy (A := A) hy
  rw [ha, hb, ← ha', ← hb']; rfl

theorem ofReal_le {x y : ℝ} (hx : Dy x) (hy : Dy y) : (ofReal x : X64 A) ≤ ofReal y ↔ x ≤ y := by
  obtain ⟨a, ha, ha'⟩ := ofReal_dy (A := A) hx
  obtain ⟨b, hb, hb'⟩ := ofReal_dy (A := A) hy
  rw [ha, hb, ← ha', ← hb']; rfl

theorem ofReal_neg {x : ℝ} (hx : Dy x) : (-(ofReal x) : X64 A) = ofReal (-x) := by
  obtain ⟨a, ha, ha'⟩ := ofReal_dy (A := A) hx
  obtain ⟨b, hb, hb'⟩ := ofReal_dy (A := A) hx.neg
  rw [ha, hb]
  have e : (⟨- a.val, Binary53.neg a.2⟩ : F64 A) = b := Subtype.ext (by
    show - a.val = b.val
    rw [ha', hb'])
  show neg (fin a) = fin b
  rw [← e]; rfl

theorem lit_eq (n : ℕ) : (@OfNat.ofNat (X64 A) n (Lit.natLit n)) = ofReal (n : ℝ) := rfl

theorem ofReal_pyEq {x y : ℝ} (hx : Dy x) (hy : Dy y) : pyEq (ofReal x : X64 A) (ofReal y) = decide (x = y) := by
  unfold pyEq
  rw [Bool.eq_iff_iff]
  simp only [Bool.and_eq_true, decide_eq_true_eq, ofReal_le hx hy, ofReal_le hy hx]
  exact ⟨fun h => le_antisymm h.1 h.2, fun h => ⟨h.le, h.ge⟩⟩

/-- A number between two bounds. -/
def Btw (x : X64 A) (lo hi : ℝ) : Prop := ∃ a : F64 A, x = fin a ∧ lo ≤ a.val ∧ a.val ≤ hi

theorem Btw.ofReal {y lo hi : ℝ} (h1 : lo ≤ y) (h2 : y ≤ hi) (hl : Dy lo) (hh : Dy hi) :
    Btw (X64.ofReal y : X64 A) lo hi := by
  have b1 : lo ≤ A.rnd y := by rw [← A.rounds.exact hl.binary]; exact A.rounds.mono h1
  have b2 : A.rnd y ≤ hi := by rw [← A.rounds.exact hh.binary]; exact A.rounds.mono h2
  refine ⟨F64.mk y, ?_, b1, b2⟩
  unfold X64.ofReal
  rw [if_pos]
  exact lt_of_le_of_lt (abs_le_max_abs_abs b1 b2) (max_lt hl.lt hh.lt)

theorem Btw.dy {x : ℝ} (h : Dy x) : Btw (X64.ofReal x : X64 A) x x := Btw.ofReal le_rfl le_rfl h h

theorem Btw.weaken {x : X64 A} {a b c d : ℝ} (h : Btw x a b) (h1 : c ≤ a) (h2 : b ≤ d) : Btw x c d := by
  obtain ⟨y, e, h3, h4⟩ := h
  exact ⟨y, e, h1.trans h3, h4.trans h2⟩

theorem Btw.add {x y : X64 A} {a b c d lo hi : ℝ} (hx : Btw x a b) (hy : Btw y c d)
    (h1 : lo ≤ a + c) (h2 : b + d ≤ hi) (hl : Dy lo) (hh : Dy hi) : Btw (x + y) lo hi := by
  obtain ⟨u, rfl, u1, u2⟩ := hx
  obtain ⟨v, rfl, v1, v2⟩ := hy
  exact Btw.ofReal (y := u.val + v.val) (by linarith) (by linarith) hl hh

theorem Btw.sub {x y : X64 A} {a b c d lo hi : ℝ} (hx : Btw x a b) (hy : Btw y c d)
    (h1 : lo ≤ a - d) (h2 : b - c ≤ hi) (hl : Dy lo) (hh : Dy hi) : Btw (x - y) lo hi := by
  obtain ⟨u, rfl, u1, u2⟩ := hx
  obtain ⟨v, rfl, v1, v2⟩ := hy
  have := Btw.ofReal (A := A) (y := u.val + -v.val) (lo := lo) (hi := hi) (by linarith) (by linarith) hl hh
  exact this

/-- Product, with the bounds on the exact product as hypotheses. -/
theorem Btw.mul {x y : X64 A} {a b c d lo hi : ℝ} (hx : Btw x a b) (hy : Btw y c d)
    (h : ∀ u v, a ≤ u → u ≤ b → c ≤ v → v ≤ d → lo ≤ u * v ∧ u * v ≤ hi) (hl : Dy lo) (hh : Dy hi) :
    Btw (x * y) lo hi := by
  obtain ⟨u, rfl, u1, u2⟩ := hx
  obtain ⟨v, rfl, v1, v2⟩ := hy
  obtain ⟨h1, h2⟩ := h _ _ u1 u2 v1 v2
  exact Btw.ofReal (y := u.val * v.val) h1 h2 hl hh

/-- Product of two numbers that are not negative. -/
theorem Btw.mulNonneg {x y : X64 A} {a b c d lo hi : ℝ} (hx : Btw x a b) (hy : Btw y c d) (ha : 0 ≤ a)
    (hc : 0 ≤ c) (h1 : lo ≤ a * c) (h2 : b * d ≤ hi) (hl : Dy lo) (hh : Dy hi) : Btw (x * y) lo hi :=
  hx.mul hy (fun _ _ u1 u2 v1 v2 => ⟨h1.trans (mul_le_mul u1 v1 hc (ha.trans u1)),
    (mul_le_mul u2 v2 (hc.trans v1) (ha.trans (u1.trans u2))).trans h2⟩) hl hh

/-- Quotient by a positive number. -/
theorem Btw.div {x y : X64 A} {a b c d lo hi : ℝ} (hx : Btw x a b) (hy : Btw y c d) (hc : 0 < c)
    (h : ∀ u v, a ≤ u → u ≤ b → c ≤ v → v ≤ d → lo * v ≤ u ∧ u ≤ hi * v) (hl : Dy lo) (hh : Dy hi) :
    Btw (x / y) lo hi := by
  obtain ⟨u, rfl, u1, u2⟩ := hx
  obtain ⟨v, rfl, v1, v2⟩ := hy
  have hv : 0 < v.val := lt_of_lt_of_le hc v1
  obtain ⟨h1, h2⟩ := h _ _ u1 u2 v1 v2
  have := Btw.ofReal (A := A) (y := u.val / v.val) (lo := lo) (hi := hi)
    ((le_div_iff₀ hv).mpr h1) ((div_le_iff₀ hv).mpr h2) hl hh
  have e : (fin u / fin v : X64 A) = X64.ofReal (u.val / v.val) := by
    show (if v.val = 0 then _ else X64.ofReal (u.val / v.val)) = _
    rw [if_neg hv.ne']
  rw [e]; exact this

theorem Btw.sqrt {x : X64 A} {a b lo hi : ℝ} (hx : Btw x a b) (h0 : 0 ≤ lo) (h1 : lo * lo ≤ a) (hb : 0 ≤ hi)
    (h2 : b ≤ hi * hi) (hl : Dy lo) (hh : Dy hi) : Btw (PyNum.sqrt x) lo hi := by
  obtain ⟨u, rfl, u1, u2⟩ := hx
  have hu : ¬ u.val < 0 := not_lt.mpr (le_trans (by positivity) (h1.trans u1))
  have e : (PyNum.sqrt (fin u) : X64 A) = X64.ofReal (Real.sqrt u.val) := by
    show (if u.val < 0 then _ else X64.ofReal (Real.sqrt u.val)) = _
    rw [if_neg hu]
  rw [e]
  apply Btw.ofReal _ _ hl hh
  · apply Real.le_sqrt_of_sq_le; nlinarith
  · rw [Real.sqrt_le_left hb]; nlinarith

theorem Btw.lt {x y : X64 A} {a b c d : ℝ} (hx : Btw x a b) (hy : Btw y c d) (h : b < c) : x < y := by
  obtain ⟨u, rfl, u1, u2⟩ := hx
  obtain ⟨v, rfl, v1, v2⟩ := hy
  show u.val < v.val
  linarith

theorem Btw.le {x y : X64 A} {a b c d : ℝ} (hx : Btw x a b) (hy : Btw y c d) (h : b ≤ c) : x ≤ y := by
  obtain ⟨u, rfl, u1, u2⟩ := hx
  obtain ⟨v, rfl, v1, v2⟩ := hy
  show u.val ≤ v.val
  linarith

theorem Btw.not_lt {x y : X64 A} {a b c d : ℝ} (hx : Btw x a b) (hy : Btw y c d) (h : d ≤ a) : ¬ x < y := by
  obtain ⟨u, rfl, u1, u2⟩ := hx
  obtain ⟨v, rfl, v1, v2⟩ := hy
  show ¬ u.val < v.val
  linarith

theorem Btw.not_le {x y : X64 A} {a b c d : ℝ} (hx : Btw x a b) (hy : Btw y c d) (h : d < a) : ¬ x ≤ y := by
  obtain ⟨u, rfl, u1, u2⟩ := hx
  obtain ⟨v, rfl, v1, v2⟩ := hy
  show ¬ u.val ≤ v.val
  linarith

theorem Btw.max {x y : X64 A} {a b c d lo hi : ℝ} (hx : Btw x a b) (hy : Btw y c d)
    (h1 : lo ≤ Max.max a c) (h2 : b ≤ hi) (h3 : d ≤ hi) : Btw (pyMax x y) lo hi := by
  obtain ⟨u, rfl, u1, u2⟩ := hx
  obtain ⟨v, rfl, v1, v2⟩ := hy
  unfold pyMax
  split_ifs with h
  · change u.val < v.val at h
    refine ⟨v, rfl, ?_, by linarith⟩
    rcases le_max_iff.mp h1 with h1 | h1 <;> linarith
  · change ¬ u.val < v.val at h
    refine ⟨u, rfl, ?_, by linarith⟩
    rcases le_max_iff.mp h1 with h1 | h1 <;> linarith

theorem Btw.min {x y : X64 A} {a b c d lo hi : ℝ} (hx : Btw x a b) (hy : Btw y c d)
    (h1 : lo ≤ a) (h3 : lo ≤ c) (h2 : Min.min b d ≤ hi) : Btw (pyMin x y) lo hi := by
  obtain ⟨u, rfl, u1, u2⟩ := hx
  obtain ⟨v, rfl, v1, v2⟩ := hy
  unfold pyMin
  split_ifs with h
  · change v.val < u.val at h
    refine ⟨v, rfl, by linarith, ?_⟩
    rcases min_le_iff.mp h2 with h2 | h2 <;> linarith
  · change ¬ v.val < u.val at h
    refine ⟨u, rfl, by linarith, ?_⟩
    rcases min_le_iff.mp h2 with h2 | h2 <;> linarith

/-- A sum of numbers that are not negative is at least one of them. -/
theorem foldl_Btw {B : ℕ} {d : ℝ} (dyd : Dy d) (l : List (X64 A)) (h : ∀ x ∈ l, Btw x 0 B)
    (acc : X64 A) {m : ℕ} (ha : Btw acc 0 m) (hm : m + B * l.length < 2 ^ 43)
    (h2 : (∃ y, Btw acc d y) ∨ ∃ x ∈ l, ∃ y, Btw x d y) :
    Btw (l.foldl (· + ·) acc) d ((m + B * l.length : ℕ) : ℝ) := by
  induction l generalizing acc m with
  | nil =>
    rcases h2 with ⟨y, u, e, h1, _⟩ | ⟨x, hx, _⟩
    · obtain ⟨v, e', _, h2⟩ := ha
      rw [e] at e'
      cases e'
      exact ⟨u, e, h1, by simpa using h2⟩
    · simp at hx
  | cons x l ih =>
    rw [List.foldl_cons]
    have dyn : ∀ n : ℕ, n < 2 ^ 43 → Dy (n : ℝ) := fun n hn =>
      ⟨n * 1024, by rw [abs_of_nonneg (by positivity)]; norm_cast; omega, by push_cast; ring⟩
    have hx := h x (by simp)
    have hm' : m + B < 2 ^ 43 := by
      rw [List.length_cons] at hm; nlinarith
    have s1 : Btw (acc + x) 0 ((m + B : ℕ) : ℝ) :=
      ha.add hx (by norm_num) (by push_cast; exact le_rfl) Dy.zero (dyn _ hm')
    rw [List.length_cons, show m + B * (l.length + 1) = m + B + B * l.length by ring]
    apply ih (fun y hy => h y (List.mem_cons_of_mem _ hy)) (acc + x) s1
    · rw [List.length_cons] at hm; nlinarith
    · rcases h2 with ⟨y, hy⟩ | ⟨z, hz, y, hy⟩
      · left
        obtain ⟨u, rfl, u1, u2⟩ := hy
        obtain ⟨v, rfl, v1, v2⟩ := hx
        have hu : u.val ≤ m := by obtain ⟨u', e, _, h⟩ := ha; cases e; exact h
        exact ⟨_, Btw.ofReal (y := u.val + v.val) (hi := ((m + B : ℕ) : ℝ)) (by linarith)
          (by push_cast; linarith) dyd (dyn _ hm')⟩
      · rcases List.mem_cons.mp hz with rfl | hz
        · left
          obtain ⟨u, rfl, u1, u2⟩ := hy
          obtain ⟨v, rfl, v1, v2⟩ := ha
          have hu : u.val ≤ B := by obtain ⟨u', e, _, h⟩ := hx; cases e; exact h
          exact ⟨_, Btw.ofReal (y := v.val + u.val) (hi := ((m + B : ℕ) : ℝ)) (by linarith)
            (by push_cast; linarith) dyd (dyn _ hm')⟩
        · right; exact ⟨z, hz, y, hy⟩

end X64

end PySlope
