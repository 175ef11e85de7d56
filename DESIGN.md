# Formal model of PySlope: design

## Trusted base
* Lean 4.33.0's kernel.
* The axioms `propext`, `Classical.choice` and `Quot.sound`. `AXIOMS.md` lists them for each theorem
  of the manifest, as Lean prints them. There are no others, no `sorry`, no compiled evaluation.
* That the definitions in `lean/Verif/Model` say what the Python says. Each cites its lines.
  Evidence (not proof) is under "Fidelity".
* That the statements in `lean/Verif/Props` and the specifications in `lean/Verif/Spec` say what
  `properties.jsonl` says.

## Layout
* `Model/`: the code. `Spec/`: what the statements need besides the model: histories of calls,
  the ground, Bishop's equation, polygons, programs with several slopes, IEEE machines, examples.
* `Props/`: the theorems of the manifest, each with an example that meets its hypotheses.
* `Lemmas/`: everything else.

## Numbers: what a theorem over the reals does and does not say
The model is written once over a class `PyNum K` of operations without laws. Geometry and
mechanics are proved at `K = ℝ`. Python runs IEEE doubles. **A theorem at ℝ says nothing about
rounding by itself**, and one property shows the gap is real: see finding D1. C110 closes it for the factor of safety of
given circles, C111 for whole programs, C112 for the search and C116 for dynamic analysis: away from coincidences, and
without an explicit bound. With its default limits the last exit point of the search is exactly at the end of the model,
which is a coincidence (D1), so C112 needs limits set by `set_analysis_limits`.

For C52 and C89 the model is also read at `F64 A` (`Spec/Ieee.lean`): every result of `+ - * /` and square
root, and every literal, is the exact one rounded to 53 bits, to nearest, ties to even. `A` also
chooses the library functions (`tan`, `atan`, ...), with no laws at all. Simplified: exponents are
unbounded, so there is no overflow, no underflow, no NaN and no infinity; a quotient by zero is zero
(Python raises `ZeroDivisionError`).

For C92 and C97 it is read at `X64 A` (`Spec/Ieee754.lean`): these numbers below `2^1024`, two infinities and NaN,
with IEEE 754's rules. The file says what is simplified; the main one is that numpy's `maximum` is taken
to be Python's `max`, so nothing is said of NaN that reaches it (unit weights, offsets).

## Modelled
* `data_validation.py`: the validators in use.
* `Material`, `Udl`, `LineLoad`: constructors.
* `Slope`: the constructor and every method that changes the object. Exceptions are values, and the
  state left behind by a call that raises is part of the result.
* The search, the ordinary and Bishop methods, `analyse_slope`, `analyse_dynamic`, the getters.
* The geometry of `utilities.py` and its table of colours.
* `plot_boundary`, `plot_critical`, `plot_all_planes`: the data handed to plotly (outlines, arrow
  lengths, circles, colours, loads with their texts, marks of limits, table of materials, note on the
  critical failure, legend) and whether
  they raise.
* `analyse_slope` with factors of safety that are NaN (`Model/NotANumber.lean`). Of `list.sort` with NaN
  only this is assumed (`ListSort`): it permutes, leaves a list with no element less than the one before
  it as it is, and sorts numbers.
* `create_slope` of the web app (`Model/Web.lean`): from the cleaned data of the forms to the slope.
* `_version.py` (`Model/Version.lean`): `get_versions` and what it calls, from what the operating system does when git
  is started to the version. Text is a list of characters; digits are ASCII.
* References (`Model/Heap.lean`): loads and materials at addresses, several slopes, calls that write
  into the objects they are given.

## Not modelled
* What plotly does with the data; fonts, axis ranges, hover texts (except the numbers of the note on the critical
  failure).
* Of the Django app: templates, how a session is stored, the layout of the pdf. The views and
  `create_slope` are modelled. The checks of the forms are the hypothesis `WebForm.Valid`.
* Which strings are colours: `is_color` is a parameter of the constructors.
* Printing (except `print_dynamic_results`, C108), progress bars, doc strings.
* Overflow and infinity, except in C92 and C97. `nonreal` marks where numpy goes on with NaN or infinity and the
  model stops with an error. For the NaN of Bishop's iteration (`0 / 0`) `Model/NotANumber.lean` goes on
  as numpy does, up to the results (C90); `analyse_dynamic` and the figures are not followed through.
* Of `_version.py`: the styles other than `pep440`, the search for a parent directory (its prefix is empty) and
  `git_get_keywords`, none of which runs on import. `cli.py`, `manage.py`. Validators no code calls.
* Attributes set from outside (`slope._udls = ...`, `udl.offset = ...`).
* Threads.

## Fidelity
`tools/float_check.sh` runs the model at `Float`.
* Reproduced: `tests/test_validation_examples.py` a-e, 17 of 17 within that test's 1%.
* Reproduced: `examples/validation.ipynb`, FOS and both end points equal in all digits.
* Reproduced: `examples/search/pySlope_{1000,2000}.png`, 1.209 and 1.210, same critical circle
  for 1000.
* **Not reproduced: the README.** Static plot 1.573 (model 1.551); dynamic 1.288 at offset 0
  (model 1.223); farthest offset 5.186 (model 9.382).
  * The farthest offset cannot come from the code as pinned: 5.186 is `length - 0.01`, and lines
    1748-1753 give `top_x - 1 - 0.01`. The README's text (1.402) and its own plot (1.410) disagree
    too. So at least part of the README is older than the code.
  * Why the other numbers differ is **unknown**. One explanation was tried, that they predate
    the load-adjacent entry points (1065-1070), and it failed: the model without those points
    gives 1.570 and 1.199.

## Findings, each proved of the model unless it says otherwise
* D1 (doubles only): the last exit point `x3 + 1.0*(x4-x3)` can exceed the model length by one
  ulp, its ordinate is `None`, and `analyse_slope` raises `TypeError`. `Slope(3, 29)` does;
  52 of 4130 sampled default slopes do (computed by the Float model and again in plain Python
  arithmetic). Over ℝ this cannot happen (`C52_exact_partial`). `C52_violated` proves it of
  `Slope(height=1, length=2.73)` on every IEEE machine in the sense above.
* NaN: a circle through ground with neither cohesion nor friction has the factor of safety NaN, which is
  kept (it is not `None`) and stops the sort from ordering the list. `get_min_FOS` is then NaN, or with
  `max_fos` a number that is not the least (C90).
* NaN as an argument: no check refuses it, since each raises only if a comparison is true. A water table
  at depth NaN is no water table, a load of magnitude NaN is dropped, `max_fos=NaN` reports no circles, and
  a cohesion NaN gives the answer NaN (C92).
* Raising the friction angle from 0 to 30 degrees lowers Bishop's factor of safety of a circle in a steep cohesive
  cut (computed: from 4.20 to 3.96): bases at the top are in tension, and no tension crack is considered (C93).
* A line load on the crest raises the reported factor of safety of a circle that reaches far under the crest: over
  the part of the base that dips back into the slope it is counted as holding (C96).
* `analyse_dynamic` starts from the offset `length - 0.01`, so on a face shorter than 1 cm it tries a negative
  offset, right of the crest (why C96 names the loads behind the crest).
* Raising the water table can raise the factor of safety: on a bank 2 m high and 1 m wide from 0.34 to 0.47 when the
  water rises from 60 cm below the crest to the crest. The pressure on a slice drops to 1/5 (the squared cosine of the
  slope angle) as soon as the water is above its ground, so it is not monotone in the level (C100).
* Bishop's factor of safety can be below the ordinary method's, contrary to the textbook rule (C103): a 12 m cut with
  cohesion 100 and friction angle 30.
* `tolerance` bounds the last step of Bishop's iteration, not the error (C104): in a 12 m cut with cohesion 13.9, friction
  angle 45 and the default tolerance 0.005 a circle is reported above 1.0035 where Bishop's equation gives less than 0.998.
* `analyse_dynamic` returns 0 when the slope is safe with the loads at the crest, but a load farther back can press on a
  steeper part of the circle (C105): with the line load 1.5 m back the same slope is below the critical factor.
* What is reported is not monotone in the cohesion (C106): with the default tolerance, cohesion 5.38 instead of 5.32 in a
  12 m cut lowers the reported factor from 0.7366 to 0.7353, because the iteration makes one more turn.
* One failure, two colours (C107): `plot_all_planes` rounds the critical factor of safety twice for its own line and note,
  once for the lines of all failures; 1.34996 is drawn in the colour of 1.4 and of 1.3 in the same figure.
* Heavier ground can be reported as safer: in the cut of C106 with cohesion 5.38, unit weight 20.23 instead of 20 raises the
  reported factor of safety from 0.7353 to 0.7366, since the iteration stops one turn earlier (C109).
* The factor of safety is not continuous at a coincidence: a line load exactly over the left end of a circle is on its first
  slice, and any distance further from the crest, however small, it is off the mass (C110).
* The factor of safety is not continuous in the depth of a layer. A slice takes the strength of the layer at the middle
  of its base, so when a boundary between two beds passes that point the reported value jumps (C115, `C115_jump`).
* `import pyslope` runs git and can fail because of it: `git show` and `git rev-list --count` are not checked for
  failure, and output that is not UTF-8 is not caught (`C118_date_raises`, `C118_count_raises`, `C118_encoding_raises`).
  Git is asked about whatever repository the installed package lies in: in an environment kept inside another project's
  checkout, `__version__` is that project's version (C117 with that project's tree).
* A load far from the crest makes the model longer, and removing the load does not make it shorter again: the crest stays
  where it was moved to, analysis limits are lost, and circles added before do not move with it. In `C121_far_load` an
  analysis that listed a circle lists nothing after a load was put on and taken off, and `get_min_FOS` raises `IndexError`.
* Two calls that raise change the slope all the same. `set_materials` with two equal depths below the model raises
  `ValueError` after it has made the model deeper: the crest rises, and layers set before stay at their old level
  (`C122_materials_violated`). `update_boundary_options` with a good height and a bad length raises `ValueError` and keeps
  the height for the next call (`C122_boundary_options_violated`).
* `analyse_dynamic` leaves the dynamic loads at the last offset it tried. In `C123_loads_left_elsewhere` a load is entered
  3 m behind the crest, the dynamic analysis returns 0, and the next `analyse_slope` reports the factor of safety with the
  load at the crest, which is lower.
* `analyse_dynamic` can enlarge the model half-way: a distributed load at the greatest offset needs a model of 2.5 times its
  far end, which is longer than the model whenever the crest is further than twice the slope length from the side
  (`C124_crest_moves`). The ground then moves, the limits are dropped, and circles the user added stay where they were; in
  `C124_ground_moves` nothing is left to analyse and `analyse_dynamic` raises `IndexError`.
* Entering the water table before the boundary is not the same as entering it after: `set_external_boundary`
  moves the crest and leaves the water level (and the layers) where they were (C126).
* Height 0 passes the "strictly positive" test (C05).
* `set_materials` may enlarge the model before refusing a duplicate (C12); layer levels and water
  level are not recomputed when the model height changes (C14, C19).
* A material at depth 0 cannot be removed (C13).
* `remove_udls`/`remove_lls` skip adjacent duplicates (C16); then `_udl_max` is a `Udl` (C17).
* `right_x_left` alone always raises: the wrong variable is validated (C22).
* A failing analysis leaves partial results (C27). Load-adjacent entry points ignore limits (C30).
* Dynamic: continuous load raises `TypeError` (C50); `Decimal` raises in the loop (C51).
* Later circles between two points are computed from the recorded end points, which the first
  circle has overwritten (C31); planes added by hand keep end points of an earlier geometry (C32).
* Load-adjacent entry points may lie left of the model (C30). Thirteen line loads make the default
  search raise `ZeroDivisionError` (C29).
* `max_fos=0` is ignored (C24). A negative radius is accepted and raises later (C27).
* A line load exactly at the right end of a slip surface is in no slice (C37).
* Friction angles above 90 are accepted: negative factors (C40), then `plot_critical` raises
  `KeyError` (C61), and water can raise a factor (C43).
* Enlarging the model drops the analysis limits (C57).
* Dynamic: `ZeroDivisionError` if the factor at the crest is the critical value (C58); code 1 and
  an offset are returned though a greater offset is safe (C49).
* `plot_boundary` raises `TypeError` after `remove_udls` leaves a load, and when the model got
  lower than a layer (C62). A flat slope with one layer of depth 0 is drawn too small (C63).
* A material given to two slopes has the level of the last one: the other slope is drawn wrong or
  `plot_boundary` raises (C65).
* The web form calls `analyse_dynamic` with a `Decimal`, which raises (C51); the view catches it and
  runs `analyse_slope(max_fos=5)` with the dynamic loads left at the greatest offset (C69; `C69_offset_not_shown` is a form for which it happens). A
  continuous dynamic load is analysed as a static one, silently (C69).
* With MIN_FAILURE_DIST 5 the search of a steep slope reports a failure with end points 1.3 m apart (C73).
* Two material forms left as they are have the same depth: the page fails with `ValueError` (C71).
* A circle whose centre is left of the model is accepted by `add_single_circular_plane` and makes
  `analyse_slope` raise `ValueError` (C70).
* A flat circle is assessed and reported, and then `plot_critical` raises `IndexError` because no
  sampled point of it is kept (C82).

## Plan per property
| Property | Modelled | Method |
|---|---|---|
| C01 C02 | constructors | case analysis on kinds of arguments |
| C03-C05 C08 | `set_external_boundary`, `update_boundary_options` | real arithmetic on `applyBoundary`; witness at height 0 |
| C06 C07 | `get_external_y/x_intersection` | case analysis on the three parts of the ground |
| C09-C14 | `set_materials`, `remove_material` | invariant over `Reachable`; sorting lemmas; witnesses for C12-C14 |
| C15-C18 | load methods | induction over load lists; invariant; witnesses for C16, C17 |
| C19-C22 C53 C54 C57 | water, options, limits | invariant over `Reachable`; witnesses for C19, C53, C54, C57 |
| C23-C27 C46 | `analyse_slope`, getters | state machine over histories; witnesses for C24, C27 |
| C28-C30 | entry and exit points | arithmetic on counts; convexity; witnesses for C29, C30 |
| C31-C34 | circles and their crossings with the ground | real geometry; witness for C32 |
| C35-C39 | slices | induction over slices and layers, integrals of the ground |
| C40 C41 C55 C56 | the two methods | induction over Bishop turns against `Spec/Method.lean`; witness for C40 |
| C42-C45 | the two methods and the whole analysis | algebra and monotonicity of the sums; monotone iterates for C45; witness for C43; for C42 also over histories: every public call commutes with multiplying the materials and loads (Lemmas/ScaleCalls) |
| C47-C51 C58 C59 | `analyse_dynamic` | induction over load lists and the loop; witnesses for C49-C51, C58 |
| C52 | the search at `F64 A` | rounding lemmas; the witness step by step |
| C60 C61 | `plot_critical`, `plot_all_planes` | geometry of the sampled circle; the colour table for all reals; witness |
| C62 C63 | `plot_boundary` | induction over layers; areas by the shoelace formula; witnesses |
| C64-C67 | `Model/Heap.lean` | simulation between the models with and without references; frame invariant; witness for C65 |
| C68 C69 C71 | `create_slope` | invariant over the loops of the view; the dynamic analysis by cases |
| C72 | history, search and Bishop together | from C23, C41 and an invariant on end points |
| C73 C75 | the loops of the search over pairs of points | the loops are a `flatMap` over the far pairs; a steep slope as a counterexample for the end points |
| C74 | circle, slices and Bishop together | every slice has weight and strength, so each turn of the iteration has a positive value |
| C76 C79 | `plot_all_planes`, `_plot_water` | the loop filters and maps; the drawn line by cases of its corners |
| C77 C78 | `Model/Session.lean`, the views `index`, `reset`, `pdf` | what a history leaves stored, by induction over the requests |
| C77 | `Props/Accepted.lean`, a form that is accepted | the factors of safety of a slope of clay are in proportion to its cohesion; bounds on the circles of its search |
| C80 C81 | circles from crest to face | the crossings of the arc with crest and face, by geometry; then C74 for each |
| C82 | `plot_critical` | one sampled point near the arc's lowest stretch is kept; a flat circle as a counterexample |
| C83 | `Spec/Alike.lean`: soil at a level, load on a stretch | each slice sees the soil by level and the loads by a sum; splitting a layer or a load keeps both |
| C84 | `Model/Draw.lean`: strokes, rectangles and texts of loads; `Spec/Draw.lean`: how Python writes a number | the scan of the text drops less than a thousandth; the recorded maximum is the greatest load (`Lemmas/UdlMax.lean`) |
| C85 | the marks of limits | the limits are inside the model, where the level found is the ground |
| C86 | rows and lines of the table of materials | induction over the rows |
| C87 | the state machine over an arbitrary type of numbers, `Spec/AnyArith.lean` | the invariants of C24–C27 proved without any law of arithmetic; a call that returns ends by dropping the results |
| C88 | the lines of a page, the slope of a first visit | C60 for the page's choice of points; C77 for all histories |
| C89 | the whole state in double precision (`F64 A`) | invariant over all calls: monotone rounding and the relative error bound give the order of crest, toe and ends |
| C91 | two models of one design | everything the method sees is the same from the crest: crossings (as sets, then through the sorted list without near repeats), slices, and so every value of the iteration |
| C93 | both methods on two slopes that differ in friction | termwise for the ordinary method; for Bishop's equation the ratio to `F` falls with `F`; the violation by bounds on 25 slices and monotone iteration |
| C94 | both methods and the analysis on two slopes that differ in water | without friction Bishop's iteration stays at the ordinary value, in which no pressure occurs; related step by step |
| C95 | the analysis on two slopes that differ in cohesions | the same relation with `≤`; the two rankings are permutations of one another |
| C96 | both methods on two slopes that differ in loads | right of the crest there is no load, so no load lies on a base that dips back; the violation by bounds on 25 slices |
| C97 | the code at doubles with NaN and infinities (`X64 A`) | floats that are not NaN have places in the extended reals, by which the sort is a sort; the last turn of the iteration divides a sum that is not below 0 by one that is above 0, and rounding is monotone |
| C98 | `Spec/Local.lean`: two slopes the same over a stretch and down to a level | the weight of a slice is an integral over levels above the lowest point, its load a sum over its own width, its pressure 0 when the water is below; each call is shown to change none of the three |
| C99 | `Spec/Circles.lean`: histories of added circles and analyses | a history keeps the setup and the old planes as a prefix; the results are a permutation of the wanted planes (C24) |
| C100 | `Spec/Rising.lean`: which slices go under water | slice by slice: the pressure rises with the level unless the slice goes under water; Bishop by the decreasing ratio (C45); the violation by bounding the iterates of both runs on either side of 0.36 with rational tables of the cosines |
| C101 | `Spec/Similar.lean`: a slope at another scale, positions from the crest | slice by slice: width, pressure and cohesion scale by k, weight by k² (change of variable in the integral); both sums are homogeneous; the iteration of C41 has one value, so C74 on both slopes reports the same |
| C102 | `Spec/Reduced.lean`: strengths multiplied by a number | the terms of both methods and every turn of the iteration scale, branch by branch; the search does not look at strengths; sorting and filtering commute with multiplication |
| C103 | `Spec/Sand.lean`: dry sand | the two sums differ by a sum of terms with the sign of (g - g*)h, where the h add up to 0; then the increasing iteration (C45); the violation from the bounds of C93's witness |
| C104 | `Spec/Accuracy.lean`: the positive solution of Bishop's equation | the increasing right hand side and its falling ratio (C45) trap the iterates; the violation from six-digit tables of the cosines: where a turn at a changes less than the tolerance the loop ends at most two turns below a |
| C105 | the positions (`Moved`) and the load on a slice (C18) | off the mass a dynamic load puts nothing on a slice, so the other position has at least that load on each (C96 for the slices of the mass only); the violation from the two positions of a line load in the dynamic example |
| C106 | two slopes that differ in cohesions (C44) and Bishop's solution (C104) | each turn is increasing in the cohesion and in the value before; with a small enough tolerance all turns are made; the violation from six-digit tables of the cosines, one turn for the lower and at least two for the higher cohesion |
| C107 | `Model/Legend.lean`: the note and the legend | the code of the note and the line agree above and below 5; the keys of the colour dict in order of insertion are the tenths; rounding twice moves at most one tenth; the violation in clay, where the factor is proportional to the cohesion |
| C108 | `Model/DynPrint.lean`, `Spec/DynPrint.lean`: the lines as characters, what a decimal text stands for | zeros after the point keep the number; the entries are the attempts (C48) |
| C109 | `Heavier` in `Spec/Change.lean`, slices of `Spec/Method.lean` | the weights and the driving sum are multiplied by k, the cohesion term is not; the violation is the one of C106 with everything multiplied by 5.38 / 5.32 (C42) |
| C110 | `Spec/Rounding.lean` (`Accurate`, `Close`, `NoTies…`) | if no ε worked, a sequence of arithmetics with errors going to zero would have values that stay away from the exact one; every function of the model is shown to converge along such a sequence (`Lemmas/Limits.lean` to `Lemmas/LimitEnds.lean`) |
| C111 | `Spec/RoundingCalls.lean` (`CloseOp`, `NoTiesRun`, `ProperBoundary`) | every call of the model is shown to converge with its arguments along a sequence of arithmetics with errors going to zero (`Lemmas/LimitScript.lean`, `LimitCalls.lean`, `LimitPlanes.lean`, `LimitRun.lean`), and the report by C110 |
| C112 | `Spec/RoundingCalls.lean` (`IsEntry`, `IsExit`, `NoTiesSearch`) | the entry and exit points, the pairs kept and the circles of each pair converge along a sequence of arithmetics (`Lemmas/LimitSearch.lean`); the report then is that of the circles found, added one by one (C111) |
| C113 | `Spec/DoublesLists.lean` (`SameAs`), `Spec/Ieee.lean` | comparisons of doubles are exact and sorting is determined by the depths; a model made deeper twice has the form of one made deeper once (`DWF`, the invariant of C89, with the depth of the model) |
| C114 | `Spec/Continuum.lean` (weight, moment, strength per metre; `variation`; `arcLength`) | the midpoint rule for functions of bounded variation (`Lemmas/Riemann.lean`), the integrands being sums, products, maxima of monotone functions of the level of the circle and of the ground; the base of a slice is not longer than its arc because `sin d ≤ d` |
| C115 | `Spec/Rounding*.lean` (`CloseVal`, `CloseOp`, `NoTies…`) | C111, C112 and C116 in exact arithmetic with changed arguments; for the jump two beds of clay of equal weight, where the driving sum does not depend on the boundary and the resisting sum is a monotone step function of it |
| C116 | `Spec/RoundingDynamic.lean` (`offsetCalls`, `AfterOffset`, `NoTiesOffset`, `NoTiesTurns`, `NoTiesDynamic`) | limits along a sequence of better and better arithmetics, through the moves of the loads, each analysis, the dictionary of results and the turns by induction |
| C117 | `Spec/Version.lean` (`Prints`, `Tree`, `Tree.describe`, `Tree.Seen`, `Tree.version`) | `git describe` read from its end: a hash has no `g` and a number no `-`, so the regular expression can only split at the last two hyphens |
| C118 | `Spec/Version.lean` (`Prints`, `Fails`) | case by case over the answers; every exception but `NotThisMethod` comes from one of the three causes |
| C119 | `Spec/Version.lean` | the version is read back: split at its only `+`, then at the first `.` |
| C120 | `Spec/VersionArchive.lean` (`refLine`, `ReleaseTag`, `NotAfter`) | splitting undoes joining, by induction on the names; insertion sort is sorted, and the first suitable entry of a sorted list is the least |
| C121 | `Spec/Undo.lean` (`ActsAs`, `ActsAsFromCrest`, `UdlNear`, `LlNear`, `Unlimited`, `Sized`) | every pass of the removal loop takes at least one match away although it skips neighbours, so as many passes as loads added take them all (counting); then C83; for far loads the size of the model as an invariant of adding loads, then C91 |
| C122 | `Spec/Reject.lean` (`Entry`: the calls with their outcomes) | call by call: the state returned with an exception is the one before the first assignment |
| C123 | `Spec/Undo.lean` (`ActsAsFromCrest`, `Sized`) | the size of the model as an invariant of every attempt, C47 for the loads, then C91 |
| C124 | `Props/Limits.lean` (`UdlRoom`, `LlRoom`), `Spec/Undo.lean` (`Sized`), `Spec/Dynamic.lean` (`GreatestOffset`) | the ground as part of the invariant of C57; for the violation, the length each attempt asks for is a lower bound of the length of the model |
| C125 | `Spec/Frame.lean` (`Part`, `SamePart`, `Op.about`) | each call is composed of steps that keep all parts but its own; rebuilding the ground keeps all; lifted to histories by induction |
| C126 | `Spec/Order.lean` (`Op.Entry`, `Unrelated`, `answers`) with `Spec/Frame.lean` | each entry depends only on its own part (`Op.Entry.own`), with C125 neighbours commute, then induction on the permutation; safety factor from C91; for a new slope by an invariant on layers, water and crest level; witness for the violation |
| C127 | `Spec/Twice.lean` (`Op.Setting`, `Op.TakesSomeLoads`) | the state after each call is computed and the call run on it again, equality of the whole state and of the answer; witness for the violation |
| C128 | statement over the calls themselves; `Spec/Alike.lean` (`loadOn`) inside the proof only | closed form of the slope after a list of loads: the model grows once, to the largest length asked for; permuted entry points give permuted circles, and sorted lists of the same numbers are equal |
| C129 | `Spec/Last.lean` (`Op.Replaces`, `GivenInt`) | the state after each call in closed form; limits that are not given stay as they are on a well-formed slope |
| C130 | `Spec/NoTrace.lean` (`Op.ForAnalysis`), `Spec/Last.lean` (`Op.Replaces`) | every call but an analysis commutes with putting other values in the fields only an analysis reads; induction over the calls in between; with analyses in between the planes keep their shapes, and an analysis that ends overwrites the rest |
| C131 | the statements use the API only | the bound is applied after sorting, so it keeps a beginning of the list; that an earlier bound leaves no trace is `C25_analysing_twice` |
| C132 | `Spec/Along.lean` (`withoutAnalyses`), `Spec/Order.lean` (`answers`) | the slopes with and without the analyses differ in results only, by induction over the history; an analysis does not read them, and one that ends overwrites them |
| C92 | the code at doubles with NaN and infinities (`X64 A`) | every comparison with NaN is false, every sum, product and quotient is NaN; a run on exact binary fractions and intervals gives a reachable answer NaN |
| C90 | the analysis with NaN | the iteration with NaN simulates the one without except after `0 / 0`; the sort is any function with the properties of `ListSort`; two concrete slopes in three layers lose the order |
| C70 | the whole analysis | every exception of every step is excluded or named |

Where the code violates a property, the negation is proved on a concrete reachable witness and
the part that holds is kept as a `_partial` theorem.
