import Verif.Lemmas.Limits
import Verif.Lemmas.Method

/-! # The slices of a circle in arithmetics whose rounding errors go to zero -/

namespace PySlope
open Filter Topology Lit

/-- What `Slope.row` gives when its check does not fire. -/
def Slope.rowOf {K : Type} [PyNum K] (s : Slope K) (cx cy r x : K) : Row K :=
  { x := x
    yb := cy - PyNum.sqrt (sq r - sq (x - cx))
    yt := pyMax (s.sliceTop x) (cy - PyNum.sqrt (sq r - sq (x - cx)))
    cosA := PyNum.cos (PyNum.atan ((cx - x) / (cy - (cy - PyNum.sqrt (sq r - sq (x - cx))))))
    sinA := PyNum.sin (PyNum.atan ((cx - x) / (cy - (cy - PyNum.sqrt (sq r - sq (x - cx)))))) }

/-- The centre of slice `i`. -/
def Slope.centreOf {K : Type} [PyNum K] (s : Slope K) (xl xr : K) (i : ℕ) : K :=
  linspace (xl + (xr - xl) / ofInt s.slices / 2) (xr - (xr - xl) / ofInt s.slices / 2) s.slices i

theorem row_of {K : Type} [PyNum K] (s : Slope K) (cx cy r x : K)
    (h : pyEq (cy - (s.rowOf cx cy r x).yb) 0 = false) : s.row cx cy r x = .ok (s.rowOf cx cy r x) := by
  unfold Slope.row
  change (if pyEq (cy - (s.rowOf cx cy r x).yb) 0 = true then _ else _) = _
  rw [h]
  rfl

theorem sliceRows_of {K : Type} [PyNum K] (s : Slope K) (cx cy r xl xr : K)
    (h1 : ∀ i < s.slices.toNat, ¬ sq r < sq (s.centreOf xl xr i - cx))
    (h2 : ∀ i < s.slices.toNat, pyEq (cy - (s.rowOf cx cy r (s.centreOf xl xr i)).yb) 0 = false)
    (h3 : ∀ i < s.slices.toNat, pyEq (s.rowOf cx cy r (s.centreOf xl xr i)).cosA 0 = false) :
    s.sliceRows cx cy r xl xr =
      .ok ((List.range s.slices.toNat).map fun i => s.rowOf cx cy r (s.centreOf xl xr i)) := by
  unfold Slope.sliceRows
  have e1 : ((List.range s.slices.toNat).map (s.centreOf xl xr)).any (fun x => decide (sq r < sq (x - cx))) = false := by
    rw [List.any_eq_false]
    intro x hx
    obtain ⟨i, hi, rfl⟩ := List.mem_map.mp hx
    simpa using h1 i (List.mem_range.mp hi)
  have e2 : ((List.range s.slices.toNat).map (s.centreOf xl xr)).mapM (s.row cx cy r) =
      .ok (((List.range s.slices.toNat).map (s.centreOf xl xr)).map (s.rowOf cx cy r)) := by
    apply mapM_ok
    intro x hx
    obtain ⟨i, hi, rfl⟩ := List.mem_map.mp hx
    exact row_of s cx cy r _ (h2 i (List.mem_range.mp hi))
  have e3 : ((List.range s.slices.toNat).map ((s.rowOf cx cy r) ∘ (s.centreOf xl xr))).any
      (fun q => pyEq q.cosA 0) = false := by
    rw [List.any_eq_false]
    intro q hq
    obtain ⟨i, hi, rfl⟩ := List.mem_map.mp hq
    simpa using h3 i (List.mem_range.mp hi)
  change (if ((List.range s.slices.toNat).map (s.centreOf xl xr)).any (fun x => decide (sq r < sq (x - cx))) = true then _ else _) = _
  rw [e1]
  change (((List.range s.slices.toNat).map (s.centreOf xl xr)).mapM (s.row cx cy r) >>= _) = _
  rw [e2, List.map_map]
  change (if ((List.range s.slices.toNat).map ((s.rowOf cx cy r) ∘ (s.centreOf xl xr))).any
      (fun q => pyEq q.cosA 0) = true then _ else _) = _
  rw [e3]
  rfl

/-- The numbers of a row go to those of a row. -/
structure LimRow {K : ℕ → Type} (val : ∀ n, K n → ℝ) (q : ∀ n, Row (K n)) (p : Row ℝ) : Prop where
  x : Lim val (fun n => (q n).x) p.x
  yb : Lim val (fun n => (q n).yb) p.yb
  yt : Lim val (fun n => (q n).yt) p.yt
  cosA : Lim val (fun n => (q n).cosA) p.cosA
  sinA : Lim val (fun n => (q n).sinA) p.sinA

namespace Better
variable {K : ℕ → Type} [∀ n, PyNum (K n)] {val : ∀ n, K n → ℝ} {e : ℕ → ℝ} (B : Better val e)
variable {s : Slope ℝ} {S : ∀ n, Slope (K n)} (C : ∀ n, Close (e n) (val n) s (S n)) (g : Geo s)
include B C

theorem width {xl xr : ∀ n, K n} {a b : ℝ} (hl : Lim val xl a) (hr : Lim val xr b) (hn : 2 ≤ s.slices) :
    Lim val (fun n => (xr n - xl n) / ofInt (S n).slices) (s.width a b) := by
  have h2 : (s.slices : ℝ) ≠ 0 := by
    have : (2 : ℝ) ≤ s.slices := by exact_mod_cast hn
    intro h; linarith
  have := B.div (B.sub hr hl) (B.int s.slices) h2
  exact congr this (.of_forall fun n => by rw [(C n).slices])

theorem half {w : ∀ n, K n} {a : ℝ} (hw : Lim val w a) : Lim val (fun n => w n / 2) (a / 2) := by
  have := B.div hw (B.ofNat 2) (by norm_num)
  exact_mod_cast this

theorem centre {xl xr : ∀ n, K n} {a b : ℝ} (hl : Lim val xl a) (hr : Lim val xr b) (hn : 2 ≤ s.slices) (i : ℕ) :
    Lim val (fun n => (S n).centreOf (xl n) (xr n) i) (PySlope.centre a b s.slices i) := by
  have hw := B.width C hl hr hn
  have h1 : ((s.slices - 1 : ℤ) : ℝ) ≠ 0 := by
    have : s.slices - 1 ≠ 0 := by omega
    exact_mod_cast this
  have hh := B.half C hw
  have hA := B.add hl hh
  have hB := B.sub hr hh
  have := B.add hA (B.mul (B.nat i) (B.div (B.sub hB hA) (B.int (s.slices - 1)) h1))
  have e : a + s.width a b / 2 + (i : ℝ) * ((b - s.width a b / 2 - (a + s.width a b / 2)) / ((s.slices - 1 : ℤ) : ℝ)) =
      PySlope.centre a b s.slices i := by
    rw [← linspace_centre a b hn i]
    unfold linspace
    rw [ofInt_real]
    rfl
  rw [e] at this
  refine congr this (.of_forall fun n => ?_)
  rw [← (C n).slices]
  rfl

include g
omit C in
theorem sliceTop_lim (tX : Lim val (fun n => (S n).topX) s.topX) (tY : Lim val (fun n => (S n).topY) s.topY)
    (bX : Lim val (fun n => (S n).botX) s.botX) (bY : Lim val (fun n => (S n).botY) s.botY)
    (gr : Lim val (fun n => (S n).gradient) s.gradient) {x : ∀ n, K n} {a : ℝ} (hx : Lim val x a) :
    Lim val (fun n => (S n).sliceTop (x n)) (s.sliceTop a) := by
  have hlen : s.topX < s.botX := by have := g.len; rw [g.botX]; norm_num at this ⊢; linarith
  have mid := B.sub tY (B.mul (B.sub hx tX) gr)
  unfold Slope.sliceTop
  rcases lt_trichotomy a s.topX with c | c | c
  · rw [if_pos c.le]
    exact ite_pos (B.le hx tX c) tY
  · rw [if_pos c.le]
    refine ite_same tY (ite_neg (B.not_le bX hx (by rwa [c])) ?_)
    rw [c] at mid
    simpa using mid
  · rw [if_neg (_root_.not_le.mpr c)]
    refine ite_neg (B.not_le hx tX c) ?_
    rcases lt_trichotomy a s.botX with d | d | d
    · rw [if_neg (_root_.not_le.mpr d)]
      exact ite_neg (B.not_le bX hx d) mid
    · rw [if_pos d.ge]
      refine ite_same bY ?_
      have e : s.topY - (a - s.topX) * s.gradient = s.botY := by
        have := g.len
        rw [d, g.botX, g.grad, g.topY, g.botY]
        have : s.length ≠ 0 := by norm_num at this ⊢; linarith
        field_simp
        ring
      rwa [e] at mid
    · rw [if_pos d.le]
      exact ite_pos (B.le bX hx d) bY

theorem sliceTop {x : ∀ n, K n} {a : ℝ} (hx : Lim val x a) : Lim val (fun n => (S n).sliceTop (x n)) (s.sliceTop a) :=
  B.sliceTop_lim g (B.of_close fun n => (C n).topX) (B.of_close fun n => (C n).topY) (B.of_close fun n => (C n).botX)
    (B.of_close fun n => (C n).botY) (B.of_close fun n => (C n).gradient) hx

theorem row {cx cy r x : ∀ n, K n} {a b p c : ℝ} (hcx : Lim val cx a) (hcy : Lim val cy b) (hr : Lim val r p)
    (hx : Lim val x c) (h : (c - a) ^ 2 < p ^ 2) :
    LimRow val (fun n => (S n).rowOf (cx n) (cy n) (r n) (x n)) (s.rowAt a b p c) ∧
    (∀ᶠ n in atTop, ¬ PySlope.sq (r n) < PySlope.sq (x n - cx n)) ∧
    (∀ᶠ n in atTop, pyEq (cy n - ((S n).rowOf (cx n) (cy n) (r n) (x n)).yb) 0 = false) ∧
    (∀ᶠ n in atTop, pyEq ((S n).rowOf (cx n) (cy n) (r n) (x n)).cosA 0 = false) := by
  have hd : 0 < p ^ 2 - (c - a) ^ 2 := by linarith
  have hs : 0 < √(p ^ 2 - (c - a) ^ 2) := Real.sqrt_pos.mpr hd
  have hdx := B.sq (B.sub hx hcx)
  have hyb := B.sub hcy (B.sqrt (B.sub (B.sq hr) hdx) hd)
  have hdy := B.sub hcy hyb
  have hdy0 : b - (b - √(p ^ 2 - (c - a) ^ 2)) ≠ 0 := by rw [sub_sub_cancel]; exact hs.ne'
  have hat := B.atan (B.div (B.sub hcx hx) hdy hdy0)
  have hrow := row_eq s a b p c h
  rw [row_of s a b p c (by
    have e1 : (s.rowOf a b p c).yb = b - √(p ^ 2 - (c - a) ^ 2) := by
      unfold Slope.rowOf; simp only [sq_real]; rfl
    rw [e1, pyEq_real, lit_zero]; exact decide_eq_false hdy0)] at hrow
  have hro : s.rowOf a b p c = s.rowAt a b p c := by injection hrow
  have L : LimRow val (fun n => (S n).rowOf (cx n) (cy n) (r n) (x n)) (s.rowAt a b p c) := by
    refine ⟨hx, hyb, B.pyMax (B.sliceTop C g hx) hyb, ?_, ?_⟩
    · rw [← hro]
      have := B.cos hat
      unfold Slope.rowOf; simp only [sq_real]; exact this
    · rw [← hro]
      have := B.sin hat
      unfold Slope.rowOf; simp only [sq_real]; exact this
  refine ⟨L, B.not_lt (B.sq hr) hdx h, B.not_eq hdy B.zero' hdy0, B.not_eq L.cosA B.zero' (rowAt_cos_pos s h).ne'⟩

theorem sliceRows {cx cy r xl xr : ∀ n, K n} {a b p c d : ℝ} (hcx : Lim val cx a) (hcy : Lim val cy b)
    (hr : Lim val r p) (hl : Lim val xl c) (hq : Lim val xr d) (hn : 2 ≤ s.slices)
    (h : ∀ i < s.slices.toNat, (PySlope.centre c d s.slices i - a) ^ 2 < p ^ 2) :
    (∀ i < s.slices.toNat, LimRow val (fun n => (S n).rowOf (cx n) (cy n) (r n) ((S n).centreOf (xl n) (xr n) i))
      (s.rowAt a b p (PySlope.centre c d s.slices i))) ∧
    ∀ᶠ n in atTop, (S n).sliceRows (cx n) (cy n) (r n) (xl n) (xr n) =
      .ok ((List.range s.slices.toNat).map fun i => (S n).rowOf (cx n) (cy n) (r n) ((S n).centreOf (xl n) (xr n) i)) := by
  have hR := fun i (hi : i < s.slices.toNat) => B.row C g hcx hcy hr (B.centre C hl hq hn i) (h i hi)
  refine ⟨fun i hi => (hR i hi).1, ?_⟩
  have h1 : ∀ᶠ n in atTop, ∀ i ∈ Finset.range s.slices.toNat, _ := (eventually_all_finset _).mpr fun i hi =>
    (hR i (Finset.mem_range.mp hi)).2.1
  have h2 : ∀ᶠ n in atTop, ∀ i ∈ Finset.range s.slices.toNat, _ := (eventually_all_finset _).mpr fun i hi =>
    (hR i (Finset.mem_range.mp hi)).2.2.1
  have h3 : ∀ᶠ n in atTop, ∀ i ∈ Finset.range s.slices.toNat, _ := (eventually_all_finset _).mpr fun i hi =>
    (hR i (Finset.mem_range.mp hi)).2.2.2
  filter_upwards [h1, h2, h3] with n k1 k2 k3
  have := sliceRows_of (S n) (cx n) (cy n) (r n) (xl n) (xr n)
    (fun i hi => k1 i (Finset.mem_range.mpr (by rwa [(C n).slices] at hi)))
    (fun i hi => k2 i (Finset.mem_range.mpr (by rwa [(C n).slices] at hi)))
    (fun i hi => k3 i (Finset.mem_range.mpr (by rwa [(C n).slices] at hi)))
  rw [this, (C n).slices]

end Better
end PySlope
