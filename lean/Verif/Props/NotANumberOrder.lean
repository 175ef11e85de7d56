import Verif.Spec.ExampleNan

/-! # C90: where the order of the results is lost -/

namespace PySlope

/-- C90, against it: a circle that runs through ground without strength is reported with NaN, and
`get_min_FOS` may be NaN although another circle has a number. Here the circle of the upper layer was
added before the other one, and the list is left as it is by any `list.sort`. -/
theorem C90_min_is_nan : ∃ s : Slope ℝ, Reachable s ∧
    ∀ sort : (Found ℝ → Found ℝ → Bool) → List (Found ℝ) → List (Found ℝ), ListSort sort →
      ∃ res, s.analyseN sort none = .ok res ∧ minFosN res = .ok none ∧
        ∃ f ∈ res, ∃ F, f.fos = some F := by
  obtain ⟨F, hF0, hF⟩ := nanA_pos
  have r0 : Reachable (nanReady 0 []) := nanSoil_reachable 0
  have r2 := nanReady_reachable (nanReady_reachable r0 nanB) nanA
  refine ⟨_, r2, fun sort hs => ⟨[⟨nanPlane 7 5 (5 / 2), none⟩, ⟨nanPlane 8 5 (13 / 4), some F⟩], ?_,
    rfl, ⟨nanPlane 8 5 (13 / 4), some F⟩, by simp, F, rfl⟩⟩
  rw [analyseN_of (ps := [nanPlane 7 5 (5 / 2), nanPlane 8 5 (13 / 4)]) (.inl ⟨by simp [nanReady], rfl⟩)]
  have hb := nanB.nan 0 (nanB_zero 0)
  have ha := nanA.number 0 (by rw [hF]; exact hF0.ne')
  rw [hF] at ha
  have hf : (nanReady 0 ([] ++ [nanPlane 7 5 (5 / 2)] ++ [nanPlane 8 5 (13 / 4)])).foundN
      [nanPlane 7 5 (5 / 2), nanPlane 8 5 (13 / 4)] =
      .ok [⟨nanPlane 7 5 (5 / 2), none⟩, ⟨nanPlane 8 5 (13 / 4), some F⟩] := by
    simp only [Slope.foundN, (nanReady_same 0 _).bishopN]
    unfold nanPlane
    simp only [ha, hb]
  rw [hf]
  simp only [Except.map, List.filter_true]
  rw [hs.run]
  simp [foundLt]

/-- C90, against it: with `max_fos` the circles without a number are dropped, but the others are not put
in order. Three circles, added from the deepest to the shallowest: the first has a large factor of
safety, the second NaN, the third a small one. The list is left as it is by any `list.sort`, and
`get_min_FOS` is the large one. -/
theorem C90_min_is_not_least : ∃ (s : Slope ℝ) (M : ℝ), Reachable s ∧
    ∀ sort : (Found ℝ → Found ℝ → Bool) → List (Found ℝ) → List (Found ℝ), ListSort sort →
      ∃ res F G, s.analyseN sort (some M) = .ok res ∧ minFosN res = .ok (some F) ∧
        (∀ f ∈ res, f.fos ≠ none) ∧ (∃ f ∈ res, f.fos = some G) ∧ G < F := by
  obtain ⟨G, hG0, hG⟩ := nanA_pos
  obtain ⟨c, hc⟩ := nanC_big G
  have r0 : Reachable (nanReady c []) := nanSoil_reachable c
  have r3 := nanReady_reachable (nanReady_reachable (nanReady_reachable r0 nanC) nanB) nanA
  set F := fellenius 25 (sliceOf (nanSoil c) 9 (15 - 9 + 17 / 3) (17 / 3) 4 9) with hF
  refine ⟨_, F, r3, fun sort hs => ⟨[⟨nanPlane 9 4 (17 / 3), some F⟩, ⟨nanPlane 8 5 (13 / 4), some G⟩],
    F, G, ?_, rfl, by simp, ⟨⟨nanPlane 8 5 (13 / 4), some G⟩, by simp, rfl⟩, hc⟩⟩
  rw [analyseN_of (ps := [nanPlane 9 4 (17 / 3), nanPlane 7 5 (5 / 2), nanPlane 8 5 (13 / 4)])
    (.inl ⟨by simp [nanReady], rfl⟩)]
  have hb := nanB.nan c (nanB_zero c)
  have ha := nanA.number c (by rw [hG]; exact hG0.ne')
  have hcn := nanC.number c (by rw [← hF]; linarith)
  rw [hG] at ha
  rw [← hF] at hcn
  have hf : (nanReady c ([] ++ [nanPlane 9 4 (17 / 3)] ++ [nanPlane 7 5 (5 / 2)] ++
      [nanPlane 8 5 (13 / 4)])).foundN
      [nanPlane 9 4 (17 / 3), nanPlane 7 5 (5 / 2), nanPlane 8 5 (13 / 4)] =
      .ok [⟨nanPlane 9 4 (17 / 3), some F⟩, ⟨nanPlane 7 5 (5 / 2), none⟩,
        ⟨nanPlane 8 5 (13 / 4), some G⟩] := by
    simp only [Slope.foundN, (nanReady_same c _).bishopN]
    unfold nanPlane
    simp only [ha, hb, hcn]
  rw [hf]
  simp only [Except.map]
  rw [hs.run]
  · have hF0 : F ≠ 0 := by linarith
    simp [foundLe, hF0, hc.le]
  · simp [foundLt]

/-- A case of C90: a circle that does not come to 0. -/
example : ∃ s : Slope ℝ, Reachable s ∧ ∃ ps, ps ≠ [] ∧ Analysed s ps ∧
    (∀ p ∈ ps, ∀ l rt, FirstCrossings s p.cx p.cy p.radius l rt →
      ¬ ComesToZero s p.cx p.cy p.radius l.1 rt.1) ∧
    ∃ res, s.analyseN runSort none = .ok res := by
  obtain ⟨F, hF0, hF⟩ := nanA_pos
  have r0 : Reachable (nanReady 0 []) := nanSoil_reachable 0
  have r1 := nanReady_reachable r0 nanA
  have ha : Analysed (nanReady 0 ([] ++ [nanPlane 8 5 (13 / 4)])) [nanPlane 8 5 (13 / 4)] :=
    .inl ⟨by simp [nanReady], rfl⟩
  refine ⟨_, r1, [nanPlane 8 5 (13 / 4)], by simp, ha, ?_, ?_⟩
  · intro p hp l rt hl hz
    rw [List.mem_singleton] at hp
    subst hp
    obtain ⟨c1, c2, c3, _⟩ := hl
    have e1 : l = (5, 9) ∨ l = (8, 15 - 8) := (nanA.crossing 0 l).mp c1
    have e2 : rt = (5, 9) ∨ rt = (8, 15 - 8) := (nanA.crossing 0 rt).mp c2
    have hl : l = (5, 9) ∧ rt = (8, 15 - 8) := by
      rcases e1 with rfl | rfl <;> rcases e2 with rfl | rfl <;> norm_num at c3
      exact ⟨rfl, rfl⟩
    obtain ⟨rfl, rfl⟩ := hl
    obtain ⟨k, f, hk, h0, h1, h2, h3, _⟩ := hz
    have h0 : f 0 = F := by rw [h0]; exact hF 0
    cases k with
    | zero => rw [h0] at h3; linarith
    | succ k =>
      have hb : bishopRhs 25 (sliceOf (nanSoil 0) 8 (15 - 8 + 13 / 4) (13 / 4) 5 8) F = F := by
        conv_rhs => rw [← hF 0, nanA.value]
        unfold bishopRhs
        rw [if_neg hF0.ne']
        congr 1
        apply Finset.sum_congr rfl
        intro i hi
        rw [(nanA.slice 0 (Finset.mem_range.mp hi)).2.2.2.2.1]
        simp only [mul_zero, add_zero, zero_div]
        ring
      have e := h1 0 (by omega)
      rw [h0] at e
      have e : f 1 = F := by rw [e]; exact hb
      have := h2 0 (by omega)
      rw [h0, e, sub_self, abs_zero] at this
      have ht : (0 : ℝ) < (nanReady 0 ([] ++ [nanPlane 8 5 (13 / 4)])).tolerance := by
        show (0 : ℝ) < 0.005
        norm_num
      linarith
  · have hn := nanA.number 0 (by rw [hF]; exact hF0.ne')
    refine ⟨runSort foundLt [⟨nanPlane 8 5 (13 / 4), some F⟩], ?_⟩
    · rw [analyseN_of ha]
      rw [hF] at hn
      have hf : (nanReady 0 ([] ++ [nanPlane 8 5 (13 / 4)])).foundN [nanPlane 8 5 (13 / 4)] =
          .ok [⟨nanPlane 8 5 (13 / 4), some F⟩] := by
        simp only [Slope.foundN, (nanReady_same 0 _).bishopN]
        unfold nanPlane
        simp only [hn]
      rw [hf]
      simp only [Except.map, List.filter_true]

/-- A case of the conditions of C90: there is such a sort. -/
example : ListSort (α := Found ℝ) runSort := runSort_listSort

end PySlope
