import Verif.Props.Pairs
import Verif.Props.Radii
import Verif.Props.Options

/-! # A search that reports a failure closer than the minimum failure distance (C73) -/

namespace PySlope

/-- A steep low slope in a wide model: height 2, length 0.5, width 22.5, with minimum failure
distance 5 and an entry point and an exit point 11 m apart. -/
theorem exSteep : ∃ s : Slope ℝ, Reachable s ∧ s.individual = [] ∧
    (s.topX = 11 ∧ s.topY = 6 ∧ s.botX = 23 / 2 ∧ s.botY = 4 ∧ s.extL = 45 / 2 ∧ s.extH = 6 ∧
      s.height = 2 ∧ s.length = 1 / 2) ∧
    (s.lim1 = 173 / 16 ∧ s.lim2 = 11 ∧ s.lim3 = 12 ∧ s.lim4 = 349 / 16) ∧
    s.waterRL = none ∧ s.udls = [] ∧ s.lls = [] ∧ (∃ l, s.materials = [l] ∧ l.mat = exMat 2) ∧
    s.iterations = 1000 ∧ s.minFailureDist = 5 := by
  -- set_external_boundary(2, 30, 0.5)
  have r1 := exSlope_reachable.call (.setExternalBoundary exSlope (.num 2) (.num 30) (.num (1 / 2)))
  rw [setExternalBoundary_len _ _ _ (by norm_num) (by norm_num) (by norm_num),
    max_eq_left (by norm_num)] at r1
  -- update_boundary_options(MIN_EXT_L=22.5)
  set s1 : Slope ℝ := exSlope.withGeo 2 (1 / 2) with hs1
  have r2 := r1.call (.updateBoundaryOptions s1 (.num (45 / 2)) .none)
  rw [updateBoundaryOptions_L r1.wf.geo _ (by norm_num)] at r2
  set s2 : Slope ℝ := ({ s1 with minExtL := 45 / 2 } : Slope ℝ).withGeo s1.height s1.length with hs2
  have hL : totL ({ s1 with minExtL := 45 / 2 } : Slope ℝ) s1.height s1.length = 45 / 2 := by
    change max (max (5 * (1 / 2 : ℝ)) (45 / 2)) (4 * 2) = 45 / 2
    rw [max_eq_right (by norm_num : (5 * (1 / 2 : ℝ)) ≤ 45 / 2), max_eq_left (by norm_num)]
  have hH : totH ({ s1 with minExtL := 45 / 2 } : Slope ℝ) s1.height s1.length = 6 := by
    change max (max (3 * (2 : ℝ)) 6) (5 * (1 / 2) / 2) = 6
    rw [max_eq_left (by norm_num), max_eq_left (by norm_num)]; norm_num
  have e1 : s2.extL = 45 / 2 := hL
  have e2 : s2.extH = 6 := hH
  have e3 : s2.height = 2 := rfl
  have e4 : s2.length = 1 / 2 := rfl
  -- set_materials(...)
  have r3 := r2.call (.setMaterials s2 [some (exMat 2)] (by
    intro m hm; simp at hm; subst hm; exact exMat_constructed _))
  have hd : s2.deepen (exMat 2).depth = s2 := by
    unfold Slope.deepen
    rw [if_neg]
    rw [e2]; simp [exMat]; norm_num
  rw [setMaterials_one r2.wf.geo rfl, hd] at r3
  set s3 : Slope ℝ := ({ s2 with materials := [mkLayer s2.extH 0 (exMat 2)] } : Slope ℝ).resetResults
    with hs3
  -- update_analysis_options(MIN_FAILURE_DIST=5)
  have r4 := r3.call (.updateAnalysisOptions s3 none none (some 5) none none)
  set s4 : Slope ℝ := (s3.updateAnalysisOptions none none (some 5) none none).1 with hs4
  have hm4 : s4.minFailureDist = 5 := by
    rw [((C21_options_in_range s3 r3).2.2 none none (some 5) none none).2.2.2.2.2.2.2]
    change min 5 (s2.extL * 0.9) = 5
    rw [e1, min_eq_left]; norm_num
  have g2 := r2.wf.geo
  have t1 : s4.topX = 11 := by
    change s2.topX = 11
    rw [g2.topX, e1, e4]; norm_num
  have t2 : s4.extL = 45 / 2 := e1
  -- set_analysis_limits(10.8125, 21.8125, 11, 12)
  have r5 := r4.call (.setAnalysisLimits s4 (.num (173 / 16)) (.num (349 / 16)) (.num 11) (.num 12))
  rw [(C22_limits_ordered s4 r4).2.2.1 _ _ _ _ (by norm_num) (by norm_num) (by norm_num) (by norm_num)
    (by rw [t1]; norm_num) (by rw [t1, t2]; norm_num)] at r5
  refine ⟨_, r5, rfl, ⟨t1, ?_, ?_, ?_, t2, e2, rfl, rfl⟩, ⟨rfl, ?_, ?_, ?_⟩, rfl, rfl, rfl, ⟨_, rfl, rfl⟩, rfl,
    hm4⟩
  · change s2.topY = 6; rw [g2.topY, e2]
  · change s2.botX = 23 / 2; rw [g2.botX, g2.topX, e1, e4]; norm_num
  · change s2.botY = 4; rw [g2.botY, e2, e3]; norm_num
  · change min 11 s4.topX = 11; rw [t1]; norm_num
  · change max 12 s4.topX = 12; rw [t1]; norm_num
  · change min (349 / 16) s4.extL = 349 / 16; rw [t2]; norm_num

/-- C73 fails: the search of this slope keeps to pairs of points more than 5 m apart, but among its
results there is a failure whose end points are less than 5 m apart. The circle through such a pair
comes out on the face of the slope, and it is that part of it which is reported. -/
theorem C73_reported_closer : ∃ s t : Slope ℝ, Reachable s ∧ s.individual = [] ∧
    s.analyseSlope none = (t, .ok ()) ∧
    ∃ p ∈ t.search, √((p.lc.1 - p.rc.1) ^ 2 + (p.lc.2 - p.rc.2) ^ 2) < s.minFailureDist := by
  obtain ⟨s, r, hi, ⟨a1, a2, a3, a4, a5, a6, a7, a8⟩, ⟨b1, b2, b3, b4⟩, hw, hu, hl, ⟨ly, hm, hmat⟩, hit,
    hd⟩ := exSteep
  have g := r.wf.geo
  have hq : √(125 : ℝ) = 5 * √5 := by
    rw [show (125 : ℝ) = 5 ^ 2 * 5 by norm_num, Real.sqrt_mul (by norm_num), Real.sqrt_sq (by norm_num)]
  have h5 : √(5 : ℝ) ^ 2 = 5 := Real.sq_sqrt (by norm_num)
  have h5p : 0 < √(5 : ℝ) := Real.sqrt_pos.mpr (by norm_num)
  -- the crossings
  have hcr : ∀ p, Crossing s (269 / 16) (31 / 4) (25 / 4) p ↔ p = (173 / 16, 6) ∨
      p = (173 / 16 + 33 / 68, 4 + 55 / 68) ∨ p = (349 / 16, 4) := by
    rintro ⟨x, y⟩
    simp only [Prod.mk.injEq]
    unfold Crossing OnCircle OnLine
    simp only [a1, a2, a3, a4, a5]
    constructor
    · rintro ⟨h, ⟨rfl, h1, h2, h3⟩ | ⟨rfl, h1, h2, h3⟩ | ⟨h1, h2, h3⟩⟩
      · left
        have : (x - 173 / 16) * (x - 365 / 16) = 0 := by linarith
        rcases mul_eq_zero.mp this with h | h
        · exact ⟨by linarith, rfl⟩
        · exfalso; linarith
      · right; right
        have : (x - 349 / 16) * (x - 189 / 16) = 0 := by linarith
        rcases mul_eq_zero.mp this with h | h
        · exact ⟨by linarith, rfl⟩
        · exfalso; linarith
      · right; left
        have hy : y = 6 - 4 * (x - 11) := by linarith
        subst hy
        have : (x - (173 / 16 + 33 / 68)) * (x - (173 / 16 - 1 / 4)) = 0 := by linarith
        rcases mul_eq_zero.mp this with h | h
        · exact ⟨by linarith, by linarith⟩
        · exfalso; linarith
    · rintro (⟨rfl, rfl⟩ | ⟨rfl, rfl⟩ | ⟨rfl, rfl⟩)
      · exact ⟨by norm_num, .inl ⟨rfl, by norm_num, by norm_num, by norm_num⟩⟩
      · exact ⟨by norm_num, .inr (.inr ⟨by norm_num, by norm_num, by norm_num⟩)⟩
      · exact ⟨by norm_num, .inr (.inl ⟨rfl, by norm_num, by norm_num, by norm_num⟩)⟩
  obtain ⟨l, rt, rest, hx, he⟩ := bishopEnds_of g ((hcr _).mpr (.inl rfl)) ((hcr _).mpr (.inr (.inl rfl)))
    (by norm_num)
  obtain ⟨f1, f2, f3, f4⟩ := (bishopEnds_first g he).2
  have hlL : l = (173 / 16, 6) := by
    have := (f4 _ ((hcr _).mpr (.inl rfl))).1
    rcases (hcr _).mp f1 with h | h | h
    · exact h
    · rw [h] at this; norm_num at this
    · rw [h] at this; norm_num at this
  subst hlL
  have hrt : rt = (173 / 16 + 33 / 68, 4 + 55 / 68) := by
    have := (f4 _ ((hcr _).mpr (.inr (.inl rfl)))).2
    rcases (hcr _).mp f2 with h | h | h
    · rw [h] at f3; norm_num at f3
    · exact h
    · rw [h] at this; norm_num at this
  subst hrt
  -- the factor of safety
  have hs : SoundFriction s := by
    intro q hq
    rw [hm, List.mem_singleton] at hq
    rw [hq, hmat]
    change (0 : ℝ) ≤ 90
    norm_num
  have strong : HasStrength s := by
    left
    intro q hq
    rw [hm, List.mem_singleton] at hq
    rw [hq, hmat]
    change (0 : ℝ) < 5
    norm_num
  obtain ⟨F, F0, hF, _⟩ := bishop_of_cut r hs (.inl hw) (by rw [hw]; intro z hz; cases hz)
    (by rw [hm]; simp) strong (cx := 269 / 16) (cy := 31 / 4) (r := 25 / 4) (by norm_num) he (by
      refine ⟨by norm_num, fun x h1 h2 => ?_⟩
      simp only at h1 h2
      unfold groundY
      rw [a1, a6, a7, a8]
      by_cases hx : x ≤ 11
      · rw [if_pos hx]
        have : 7 / 4 < √((25 / 4) ^ 2 - (x - 269 / 16) ^ 2) := by
          rw [Real.lt_sqrt (by norm_num)]; nlinarith
        linarith
      · rw [if_neg hx, if_pos (by linarith)]
        push Not at hx
        have : 31 / 4 - (6 - (x - 11) * 4) < √((25 / 4) ^ 2 - (x - 269 / 16) ^ 2) := by
          rw [Real.lt_sqrt (by linarith)]
          nlinarith [mul_pos (sub_pos.mpr h2) (sub_pos.mpr h1)]
        norm_num
        norm_num at this
        linarith)
  -- the analysis
  have htop : topPointsFor 1000 = 14 := by
    unfold topPointsFor circlesFor
    exact (Nat.eq_sqrt.mpr ⟨by decide, by decide⟩).symm
  have hn : numPointsTop 1000 = 14 := htop
  have hok : (s.analyseSlope none).2 = .ok () := by
    refine (C70_analysis_ends s r none (by rw [hi]; intro p hp; cases hp)
      (by rw [hw]; intro z hz; cases hz) (fun _ => ⟨(by rw [hu]; intro u h; cases h),
        (by rw [hl]; intro u h; cases h), ?_⟩)).2 ?_
    · rw [hu, hl, hit]
      change 0 + 0 + 1 ≠ topPointsFor 1000
      rw [htop]; decide
    · intro q hq
      rw [hm, List.mem_singleton] at hq
      rw [hq, hmat]
      exact ⟨rfl, by change (0 : ℝ) < 5; norm_num⟩
  obtain ⟨entries, hen⟩ : ∃ entries, s.entryPoints = .ok entries := by
    rw [entryPoints_eq]
    simp only
    rw [hu, hl, hit, if_neg]
    · exact ⟨_, rfl⟩
    · change ¬ ((numPointsTop 1000 : Int) - 0 - 0 = 1)
      rw [hn]; decide
  obtain ⟨even, h1, h2, h3⟩ := (C30_points_partial s r).1 _ hen
  rw [hu, hl] at h1
  simp only [List.map_nil, List.append_nil] at h1
  subst h1
  have hne : entries ≠ [] := by
    rw [entryPoints_eq] at hen
    simp only [hu, hl, hit] at hen
    change (if ((numPointsTop 1000 : Int) - 0 - 0 = 1) then _ else _) = _ at hen
    rw [hn, if_neg (by decide)] at hen
    intro h
    rw [h] at hen
    simp at hen
    have h14 : numPointsTop (1000 : Int).toNat = 14 := hn
    omega
  have hL := (h3 hne).1
  rw [b1, a2] at hL
  obtain ⟨y, hR⟩ := (C30_points_partial s r).2.2
  have hy : y = some 4 := by
    obtain ⟨_, _, z, hz1, hz2⟩ := (C30_points_partial s r).2.1 _ hR
    simp only [b4] at hz1 hz2
    rw [hz1]
    unfold Slope.getExternalY at hz2
    simp only [lit_zero] at hz2
    rw [a5, a1, a3, if_neg (by norm_num), if_neg (by norm_num), if_pos (by norm_num), a4] at hz2
    exact hz2.symm
  rw [hy, b4] at hR
  have hpair : (((173 / 16 : ℝ), (6 : ℝ)), ((349 / 16 : ℝ), (4 : ℝ))) ∈ farPairs s entries := by
    unfold farPairs
    rw [List.mem_filter]
    refine ⟨List.mem_flatMap.mpr ⟨_, hL, List.mem_filterMap.mpr ⟨_, hR, rfl⟩⟩, ?_⟩
    rw [decide_eq_true_eq, hd, show ((173 / 16 : ℝ) - 349 / 16) ^ 2 + (6 - 4) ^ 2 = 125 by norm_num, hq]
    nlinarith
  -- the first circle of the pair
  have hgen : ∃ ps, s.generatePlanes (173 / 16, 6) (349 / 16, 4) (circlesFor s.iterations.toNat) = .ok
      ({ lc := (173 / 16, 6), rc := (173 / 16 + 33 / 68, 4 + 55 / 68), cx := 269 / 16, cy := 31 / 4,
         radius := 25 / 4, fos := none } :: ps) := by
    have h5' : circlesFor s.iterations.toNat = 5 := by rw [hit]; decide
    rw [h5', generatePlanes_start (by norm_num)]
    have hF : firstHeight (173 / 16, 6) (349 / 16, 4) = 25 / 4 - 5 / 4 * √5 := by
      unfold firstHeight
      simp only
      rw [show (1.1 : ℝ) * (((6 - 4) ^ 2 + (349 / 16 - 173 / 16) ^ 2) / (2 * (349 / 16 - 173 / 16))) = 25 / 4 by
        norm_num, show ((25 / 4 : ℝ) ^ 2 - ((6 - 4) ^ 2 + (349 / 16 - 173 / 16) ^ 2) / 4) = (1 / 4) ^ 2 * 125 by
        norm_num, Real.sqrt_mul (by norm_num), Real.sqrt_sq (by norm_num), hq]
      ring
    have h5lt : √(5 : ℝ) < 3 := by rw [Real.sqrt_lt' (by norm_num)]; norm_num
    rw [hF]
    simp only [Int.toNat_natCast]
    have hcos : Real.cos (Real.arctan ((6 - 4) / (349 / 16 - 173 / 16))) = 11 / (5 * √5) := by
      rw [Real.cos_arctan, show (1 + ((6 - 4) / (349 / 16 - 173 / 16) : ℝ) ^ 2) = (1 / 11) ^ 2 * 125 by norm_num,
        Real.sqrt_mul (by norm_num), Real.sqrt_sq (by norm_num), hq]
      field_simp
    have hsin : Real.sin (Real.arctan ((6 - 4) / (349 / 16 - 173 / 16))) = 2 / (5 * √5) := by
      rw [Real.sin_arctan, show (1 + ((6 - 4) / (349 / 16 - 173 / 16) : ℝ) ^ 2) = (1 / 11) ^ 2 * 125 by norm_num,
        Real.sqrt_mul (by norm_num), Real.sqrt_sq (by norm_num), hq]
      field_simp
      norm_num
    have hedge : (25 / 4 - 5 / 4 * √5) * ((4 + 1 : Nat) : ℝ) / ((5 : Nat) : ℝ) = 25 / 4 - 5 / 4 * √5 := by
      push_cast; ring
    have hpos : 0 < 25 / 4 - 5 / 4 * √5 := by linarith
    have hrad : circleRadiusFromAbcd (25 / 4 - 5 / 4 * √5)
        (((6 - 4) ^ 2 + (349 / 16 - 173 / 16) ^ 2) / 4) = .ok (25 / 4) := by
      unfold circleRadiusFromAbcd pyDiv
      simp only [sq_real, pyEq_real]
      have e2 : (@OfNat.ofNat ℝ 2 (Lit.natLit 2)) = 2 := rfl
      rw [e2, if_neg (by simpa using hpos.ne')]
      congr 1
      rw [div_eq_iff (by positivity)]
      nlinarith
    have hcen : circleCentre (Real.arctan ((6 - 4) / (349 / 16 - 173 / 16)))
        (midCoord (173 / 16, 6) (349 / 16, 4)) (25 / 4 - (25 / 4 - 5 / 4 * √5)) = (269 / 16, 31 / 4) := by
      have : circleCentre (Real.arctan ((6 - 4) / (349 / 16 - 173 / 16)))
          (midCoord (173 / 16, 6) (349 / 16, 4)) (25 / 4 - (25 / 4 - 5 / 4 * √5)) =
          ((173 / 16 + 349 / 16) / 2 + Real.sin (Real.arctan ((6 - 4) / (349 / 16 - 173 / 16))) *
            (25 / 4 - (25 / 4 - 5 / 4 * √5)),
           (6 + 4) / 2 + Real.cos (Real.arctan ((6 - 4) / (349 / 16 - 173 / 16))) *
            (25 / 4 - (25 / 4 - 5 / 4 * √5))) := rfl
      rw [this, hcos, hsin]
      congr 1
      · field_simp; ring
      · field_simp; ring
    obtain ⟨ps, hps⟩ : ∃ ps, s.planeLoop (Real.arctan ((6 - 4) / (349 / 16 - 173 / 16)))
        (25 / 4 - 5 / 4 * √5) (((6 - 4) ^ 2 + (349 / 16 - 173 / 16) ^ 2) / 4) 5 4 (173 / 16, 6)
        (173 / 16 + 33 / 68, 4 + 55 / 68) = .ok ps := by
      obtain ⟨ps, h, _⟩ := planeLoop_spec g hpos.ne' 5 (L := (173 / 16, 6)) (R := (349 / 16, 4))
        (C := ((6 - 4) ^ 2 + (349 / 16 - 173 / 16) ^ 2) / 4)
        (β := Real.arctan ((6 - 4) / (349 / 16 - 173 / 16))) rfl (by rw [hcos, hsin]; field_simp; norm_num)
        4 (by norm_num) (173 / 16, 6) (173 / 16 + 33 / 68, 4 + 55 / 68)
      exact ⟨ps, h⟩
    refine ⟨ps, ?_⟩
    unfold Slope.planeLoop
    simp only [bind, Except.bind, hedge, hrad, hcen, hx]
    obtain ⟨is, ei, i1, _⟩ := intersections g (269 / 16) (31 / 4) (25 / 4)
    rw [hx] at ei
    cases ei
    rw [if_neg (by rw [setSize_nodup (nodup_of_apart i1)]; simp)]
    simp only [hps]
    rfl
  obtain ⟨ps, hgen⟩ := hgen
  refine ⟨s, _, r, hi, Prod.ext rfl hok, _, (C73_far_pairs_partial s r hi hen ?_ (Prod.ext rfl hok) _).mpr
    ⟨_, hpair, _, _, F, hgen, List.mem_cons_self, fosOf_some.mpr hF, (fun M hM => by cases hM), rfl⟩, ?_⟩
  · intro q hq
    exact (h2 q hq).2.1.trans r.wf.l2
  · simp only
    rw [hd, Real.sqrt_lt' (by norm_num)]
    norm_num

end PySlope
