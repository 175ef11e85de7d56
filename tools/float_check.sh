#!/bin/bash
# Runs the model at K = Float on the examples whose results the repository publishes:
# pyslope/tests (validation against Slide, examples a-e), examples/validation.ipynb (recorded
# output), examples/search/pySlope_{1000,2000}.png (minimum written on the plot) and the README.
# The README numbers are NOT reproduced; see "Fidelity" in DESIGN.md.
# Evidence that the model follows the code; not a proof and not part of the build.
set -e
f=$(mktemp /tmp/floatcheckXXXX.lean)
cat > "$f" <<'EOF'
import Verif.Model.Dynamic
open PySlope
abbrev F := Float
def noCol : String → Bool := fun _ => true
instance : Inhabited (Material F) := ⟨⟨20,0,0,0,0,"",none⟩⟩
instance : Inhabited (Udl F) := ⟨⟨0,0,none,"",false⟩⟩
instance : Inhabited (LineLoad F) := ⟨⟨0,0,"",false⟩⟩
def get {α} [Inhabited α] : Except PyErr α → α | .ok a => a | .error _ => panic! "constructor"
def mat (uw phi c d : F) : Material F :=
  get (Material.new noCol (.num uw) (.num phi) (.num c) (.num d) .none .none)
def run {α} (o : Out F α) : Slope F :=
  match o.2 with | .ok _ => o.1 | .error e => dbg_trace s!"raised {repr e}"; o.1

def slide (name : String) (m1 m2 m3 : Material F) (udls : List (Udl F)) (lls : List (LineLoad F))
    (water : Option F) (rs : List (F × F)) : IO Unit := do
  let s := run (Slope.init (.num 1) .none (.num 1))
  let s := run (s.setMaterials [some m1, some m2, some m3])
  let s := rs.foldl (fun s r => run (s.addSingleCircularPlane s.botX (s.botY + 2.5) r.1)) s
  let s := run (s.updateAnalysisOptions (some 50) none none none none)
  let s := if udls.isEmpty then s else run (s.setUdls (udls.map some))
  let s := if lls.isEmpty then s else run (s.setLls (lls.map some))
  let s := match water with | some w => run (s.setWaterTable (.num w)) | none => s
  let s := run (s.analyseSlope none)
  for p in s.search do
    for (r, v) in rs do
      if r == p.radius then
        let fos := p.fosVal.getD 0
        let d := (fos - v).abs / ((fos + v) / 2)
        IO.println s!"{name} r={r} model={fos} slide={v} {if d < 0.01 then "within 1%" else "DIFFERS"}"

def main : IO Unit := do
  let a1 := mat 20 35 0 0.5
  let a2 := mat 20 35 0 1
  let b2 := mat 20 35 2 1
  let m3 := mat 18 30 0 5
  slide "a" a1 a2 m3 [] [] none [(2,1.272),(3,2.180),(4,3.907),(5,5.736)]
  slide "b" a1 b2 m3 [] [] none [(2,1.272),(3,2.266),(4,3.941),(5,5.759)]
  slide "c" a1 b2 m3 [] [] (some 0.7) [(3,1.602),(4,2.330),(5,3.174)]
  slide "d" a1 b2 m3 [get (Udl.new noCol (.num 20) (.num 0.5) (.num 2) "red" false)] [] none
    [(3,1.597),(4,2.585),(5,4.266)]
  slide "e" a1 b2 m3 [] [get (LineLoad.new noCol (.num 5) (.num 1) "blue" false)] none
    [(3,2.036),(4,3.718),(5,5.559)]
  -- examples/validation.ipynb, recorded output of the cell for radius 2
  let s := run (Slope.init (.num 1) .none (.num 1))
  let s := run (s.setMaterials [some a1, some a2, some m3])
  let s := run (s.addSingleCircularPlane s.botX (s.botY + 2.5) 2)
  let s := run (s.updateAnalysisOptions (some 50) none none none none)
  let s := run (s.analyseSlope none)
  for p in s.search do
    IO.println s!"notebook FOS equal: {p.fosVal.getD 0 == 1.270368695645986}, ends equal: {p.lc.1 == 4.177124344467705 && p.lc.2 == 6.0 && p.rc.1 == 4.911437827766148 && p.rc.2 == 5.5885621722338525}"
  -- examples/search/pySlope_1000.png, pySlope_2000.png
  for (it, v) in [((1000 : Int), (1.209 : F)), (2000, 1.210)] do
    let s := run (Slope.init (.num 1) .none (.num 1.5))
    let s := run (s.setMaterials [some (mat 20 40 1 0.3), some (mat 20 35 2 1),
      some (mat 18 30 0 1.5), some (mat 16 28 0 5)])
    let ll (m o : F) := some (get (LineLoad.new noCol (.num m) (.num o) "blue" false))
    let ud (m o l : F) := some (get (Udl.new noCol (.num m) (.num o) (.num l) "red" false))
    let s := run (s.setLls [ll 5 0.5, ll 20 2.5])
    let s := run (s.setUdls [ud 100 1 0.5, ud 300 3 0.5])
    let s := run (s.updateAnalysisOptions (some 50) (some it) none none none)
    let s := run (s.analyseSlope none)
    IO.println s!"search {it}: model={(s.search.head?.bind Plane.fosVal).getD 0} plot={v}"
  -- README.md, static (plot: 1.573) and dynamic (text: 0 -> 1.288, 0.735 -> 1.402,
  -- 1.463 -> 1.510, 5.186 -> 1.684). Not reproduced.
  let s := run (Slope.init (.num 3) (.num 30) .none)
  let s := run (s.setMaterials [some (mat 20 45 2 2), some (mat 20 30 2 5)])
  let u1 := get (Udl.new noCol (.num 100) (.num 2) (.num 1) "red" false)
  let u2 := get (Udl.new noCol (.num 20) (.num 0) .none "red" false)
  let s := run (s.setUdls [some u1, some u2])
  let s := run (s.setLls [some (get (LineLoad.new noCol (.num 10) (.num 3) "blue" false))])
  let s := run (s.setWaterTable (.num 4))
  let s := run (s.setAnalysisLimits (.num (s.topX - 5)) (.num (s.botX + 5)) .none .none)
  let s := run (s.updateAnalysisOptions (some 50) (some 2500) none none none)
  let s := run (s.analyseSlope none)
  IO.println s!"README static min FOS {(s.search.head?.bind Plane.fosVal).getD 0}, planes {s.search.length}"
  let s := run (s.removeUdls [u1] false)
  let s := run (s.setUdls [some (get (Udl.new noCol (.num 100) (.num 2) (.num 1) "purple" true))])
  let s := run (s.analyseDynamic 1.4 false)
  for (o, v) in s.dynResults do IO.println s!"README dynamic offset {o} FOS {v}"
EOF
cd "$(dirname "$0")/../lean" && time lake env lean --run "$f"
rm -f "$f"
