import Verif.Model.Web
import Verif.Model.Plot

/-! # The pages of the web application

The views `index`, `reset` and `pdf` of `/repo/slope/views.py:43-346`, with the session they share.
Not modelled: the html, the layout of the figures, the storage of the session between requests (what
was stored is what is read: numbers go through JSON and, in `pdf`, through `eval(str(...))`), and that
building bound forms could raise (`/repo/slope/views.py:151-163`). -/

namespace PySlope
open Lit

variable {K : Type} [PyNum K]

/-- What `plot_critical` draws. -/
abbrev CriticalPlot (K : Type) := BoundaryPlot K × List (K × K) × K

/-- The line `index` adds to a plane, keys `x` and `y`, `/repo/slope/views.py:176-202`, `277-303`.
Unlike in `plot_all_planes` a point may be above the left end point. -/
def pageTrace (p : Plane K) : List (K × K) :=
  p.lc :: ((circleCoordinates p.cx p.cy p.radius).filter fun q =>
    decide (q.1 ≤ p.rc.1) && decide (p.lc.1 ≤ q.1)) ++ [p.rc]

/-- A plane with its line. -/
abbrev PagePlane (K : Type) := Plane K × List (K × K)

/-- The session, `/repo/slope/views.py:45-47`, `210-212`, `310-312`. `none` is a key that is not there;
for `forms` and `plot`, `some none` is an empty value. The forms stored by a first visit,
`request.POST` of a GET request, are empty. -/
structure Session (K : Type) where
  forms : Option (Option (WebForm K))
  plot : Option (Option (CriticalPlot K))
  search : Option (List (PagePlane K))

/-- The session of a new visitor. -/
def Session.fresh : Session K := { forms := none, plot := none, search := none }

/-- What the visitor gets. -/
inductive Response (K : Type) where
  | toIndex
  | toReset
  /-- an exception nobody catches -/
  | failed (e : PyErr)
  /-- the page: the forms it is filled with (`none`: the defaults), the planes and the plot -/
  | page (forms : Option (WebForm K)) (search : List (PagePlane K)) (plot : CriticalPlot K)
  /-- the report: the plot, and the lines over it with the keys of their colours -/
  | report (plot : CriticalPlot K) (lines : List (List (K × K) × K))

/-- A request. `post none` is a request whose forms do not pass their checks; `pdf none` one whose
factor of safety is not a number. -/
inductive Request (K : Type) where
  | get
  | post (f : Option (WebForm K))
  | reset
  | pdf (maxFos : Option K)

/-- What is shown for an analysed slope, `/repo/slope/views.py:174-208`, `275-308`. -/
def Slope.pageData (s : Slope K) : Except PyErr (List (PagePlane K) × CriticalPlot K) := do
  let p ← s.plotCritical
  pure (s.search.map fun q => (q, pageTrace q), p)

/-- The slope of a first visit, `/repo/slope/views.py:169-174`: `Slope(angle=45)` with `Material()`. -/
def firstSlope (isColor : String → Bool) : Except PyErr (Slope K) := do
  let s ← Slope.new (.num 1) (.num 45) .none
  let m ← Material.new isColor (.num (20 : K)) (.num 35) (.num 2) (.num 5) (.str "") (.str "")
  let s ← (s.setMaterials [some m]).get
  let s ← (s.updateAnalysisOptions (some 10) (some 500) none none none).get
  (s.analyseSlope (some 5)).get

/-- `reset`, `/repo/slope/views.py:43-50`. -/
def Session.reset (_ : Session K) : Session K × Response K :=
  ({ forms := some none, plot := some none, search := some [] }, .toIndex)

/-- `index` for a GET request, `/repo/slope/views.py:136-240`. -/
def Session.get (isColor : String → Bool) (ses : Session K) : Session K × Response K :=
  match ses.forms, ses.search, ses.plot with
  | some (some f), some (q :: qs), some (some p) => (ses, .page (some f) (q :: qs) p)
  | _, _, _ =>
    match (do let s ← firstSlope isColor; s.pageData) with
    | .error e => (ses, .failed e)
    | .ok (search, p) =>
      ({ forms := some none, plot := some (some p), search := some search }, .page none search p)

/-- `index` for a POST request, `/repo/slope/views.py:242-346`. -/
def Session.post (isColor : String → Bool) (ses : Session K) (f : Option (WebForm K)) :
    Session K × Response K :=
  match f with
  | none => (ses, .toReset)
  | some f =>
    match (do let s ← f.createSlope isColor; s.pageData) with
    | .error e => (ses, .failed e)
    | .ok (search, p) =>
      ({ forms := some (some f), plot := some (some p), search := some search },
        .page (some f) search p)

/-- `pdf`, `/repo/slope/views.py:53-126`. The loop over the planes is that of `plot_all_planes`. -/
def Session.pdf (ses : Session K) (maxFos : Option K) : Session K × Response K :=
  (ses,
    match ses.plot, ses.search with
    | none, _ => .failed .keyError
    | some none, _ => .toIndex
    | some (some _), none => .failed .keyError
    | some (some _), some [] => .toIndex
    | some (some p), some (q :: qs) =>
      match maxFos with
      | none => .failed .valueError
      | some m =>
        match planeTraces (some m) ((q :: qs).map Prod.fst) with
        | .error e => .failed e
        | .ok ts => .report p ts.reverse)

/-- One request, `/repo/slope/urls.py:4-8`. -/
def Session.serve (isColor : String → Bool) (ses : Session K) : Request K → Session K × Response K
  | .get => ses.get isColor
  | .post f => ses.post isColor f
  | .reset => ses.reset
  | .pdf m => ses.pdf m

/-- The session after a history of requests. -/
def Session.after (isColor : String → Bool) (ses : Session K) : List (Request K) → Session K
  | [] => ses
  | q :: rest => Session.after isColor (ses.serve isColor q).1 rest

end PySlope
