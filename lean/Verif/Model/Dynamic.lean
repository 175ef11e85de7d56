import Verif.Model.Analysis

/-! # Dynamic analysis (`/repo/pyslope/pyslope.py:1733-1841`) -/

namespace PySlope
open Lit

variable {K : Type} [PyNum K]

/-- `/repo/pyslope/pyslope.py:1823-1841` `_set_dynamic_offset`. -/
def Slope.setDynamicOffset (s : Slope K) (offset : K) : Out K Unit :=
  let udls := s.udls
  let lls := s.lls
  (s.removeUdls [] true).andThen fun s _ =>
  (s.removeLls [] true).andThen fun s _ =>
  (Slope.forEach (fun s (p : PUdl K) =>
    let u := if p.load.dynamic then { p.load with offset := offset } else p.load
    s.setUdls [some u]) udls s).andThen fun s _ =>
  Slope.forEach (fun s (p : PLl K) =>
    let l := if p.load.dynamic then { p.load with offset := offset } else p.load
    s.setLls [some l]) lls s

/-- `d[k] = v` on a dictionary with number keys (a key keeps its place). -/
def dictSet (d : List (K × K)) (k v : K) : List (K × K) :=
  match d with
  | [] => [(k, v)]
  | (k', v') :: rest => if pyEq k' k then (k', v) :: rest else (k', v') :: dictSet rest k v

/-- `d[k]` -/
def dictGet (d : List (K × K)) (k : K) : Except PyErr K :=
  match d.find? (fun e => pyEq e.1 k) with
  | some e => .ok e.2
  | none => .error .keyError

/-- `self._set_dynamic_offset(o); self.analyse_slope(); fos = self.get_min_FOS();
self._dynamic_results[o] = fos` (`/repo/pyslope/pyslope.py:1757-1760`, `1767-1770`, `1796-1799`).
After an analysis that did not raise, the first result is a number. -/
def Slope.tryOffset (s : Slope K) (o : K) : Out K K :=
  (s.setDynamicOffset o).andThen fun s _ =>
  (s.analyseSlope none).andThen fun s _ =>
  match s.getMinFos with
  | .error e => (s, .error e)
  | .ok none => (s, .error .typeError)
  | .ok (some f) => ({ s with dynResults := dictSet s.dynResults o f }, .ok f)

/-- The greatest offset, `/repo/pyslope/pyslope.py:1748-1753`: a continuous dynamic `Udl` has
length `None` and the subtraction raises `TypeError`. -/
def maxOffset (topX : K) : List (PUdl K) → (left : K) → Except PyErr K
  | [], left => .ok left
  | p :: rest, left =>
    if p.load.dynamic then
      match p.load.length with
      | none => .error .typeError
      | some l => maxOffset topX rest (pyMax left (topX - l))
    else maxOffset topX rest left

/-- End of `analyse_dynamic`, `/repo/pyslope/pyslope.py:1819-1821`. -/
def Slope.sortDynResults (s : Slope K) : Slope K :=
  { s with dynResults := sortByKey Prod.snd s.dynResults }

/-- The loop `for _ in range(10)`, `/repo/pyslope/pyslope.py:1785-1817`. `decimal` says that
`critical_fos` is a `decimal.Decimal` (as the web form passes it): comparing it with a float is
allowed, subtracting a float from it raises `TypeError`. -/
def Slope.dynLoop (crit : K) (decimal : Bool) :
    (todo : Nat) → (left right prevFos : K) → Slope K → Out K Unit
  | 0, _, _, _, s => (s, .ok ())
  | todo + 1, left, right, prevFos, s =>
    let mid : Except PyErr K := do
      let lf ← dictGet s.dynResults left
      let rf ← dictGet s.dynResults right
      let m ← pyDiv (lf - rf) (left - right)
      if decimal then throw .typeError
      let q ← pyDiv (crit - rf) m
      pure (right + q)
    match mid with
    | .error e => (s, .error e)
    | .ok midpoint =>
      (s.tryOffset midpoint).andThen fun s fos =>
      if !(pyEq prevFos fos)
          && (decide (pyAbs (prevFos - fos) ≤ 0.01) || decide (pyAbs (fos - crit) ≤ 0.01))
          && decide (crit ≤ pyRound fos 3) then (s, .ok ())
      else if fos < crit then s.dynLoop crit decimal todo left midpoint fos
      else s.dynLoop crit decimal todo midpoint right fos

/-- `/repo/pyslope/pyslope.py:1733-1821` `analyse_dynamic`. Returns `some 0` or `some 1` for the
two early returns and `none` for the end of the method. -/
def Slope.analyseDynamic (s : Slope K) (crit : K) (decimal : Bool) : Out K (Option Nat) :=
  let s : Slope K := { s with dynResults := [] }
  match maxOffset s.topX s.udls s.length with
  | .error e => (s, .error e)
  | .ok left =>
    let left := left - 0.01
    (s.tryOffset 0).andThen fun s fos =>
    if crit < fos then (s, .ok (some 0))
    else
      (s.tryOffset left).andThen fun s fos =>
      if fos < crit then (s, .ok (some 1))
      else
        (s.dynLoop crit decimal 10 left 0 0).andThen fun s _ =>
        (s.sortDynResults, .ok none)

end PySlope
