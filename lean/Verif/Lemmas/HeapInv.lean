import Verif.Model.Heap
import Verif.Lemmas.WFCalls

/-! # Invariants of the heap model -/

namespace PySlope
variable {K : Type} [PyNum K]

theorem HOut.inv {α β : Type} {I : HS K → Prop} (o : HOut K α) (f : HS K → α → HOut K β)
    (h : I o.1) (hf : ∀ s a, I s → I (f s a).1) : I (o.andThen f).1 := by
  obtain ⟨s, r⟩ := o
  cases r with
  | ok a => exact hf s a h
  | error e => exact h

theorem HOut.inv2 {α β : Type} {I J : HS K → Prop} (o : HOut K α) (f : HS K → α → HOut K β)
    (h : J o.1) (he : ∀ s, J s → I s) (hf : ∀ s a, J s → I (f s a).1) : I (o.andThen f).1 := by
  obtain ⟨s, r⟩ := o
  cases r with
  | ok a => exact hf s a h
  | error e => exact he _ h

theorem HS.forEach_inv {α : Type} {I : HS K → Prop} (f : HS K → α → HOut K Unit) (l : List α)
    (hf : ∀ s a, a ∈ l → I s → I (f s a).1) (s : HS K) (h : I s) : I (HS.forEach f l s).1 := by
  induction l generalizing s with
  | nil => exact h
  | cons a l ih =>
    exact HOut.inv _ _ (hf s a (by simp) h)
      (fun s _ hs => ih (fun s a ha => hf s a (List.mem_cons_of_mem _ ha)) s hs)

/-- A property of the heap and of the slope's lists that writing coordinates keeps. -/
structure HStable (I : HS K → Prop) : Prop where
  core : ∀ s c, I s → I { s with obj := { s.obj with core := c } }
  placeUdls : ∀ s x, I s → I { s with heap := s.heap.placeUdls x s.obj.us }
  placeLls : ∀ s x, I s → I { s with heap := s.heap.placeLls x s.obj.ls }

namespace HStable
variable {I : HS K → Prop} (S : HStable I) {s : HS K}
include S

theorem own {α : Type} (h : I s) (f : Slope K → Out K α) : I (s.own f).1 := S.core _ _ h

theorem reset (h : I s) : I s.resetResults := S.core _ _ h

theorem applyBoundary (h : I s) (a b : K) : I (s.applyBoundary a b).1 :=
  S.core _ _ (S.placeLls _ _ (S.placeUdls _ _ h))

theorem setExternalBoundary (h : I s) (a b c : PyVal K) : I (s.setExternalBoundary a b c).1 := by
  unfold HS.setExternalBoundary
  split
  · exact h
  · exact S.applyBoundary h _ _

theorem updateBoundaryOptions (h : I s) (a b : PyVal K) : I (s.updateBoundaryOptions a b).1 := by
  unfold HS.updateBoundaryOptions
  refine HOut.inv (I := I) _ _ ?_ (fun s _ h => HOut.inv (I := I) _ _ ?_ (fun s _ h =>
    HOut.inv (I := I) _ _ ?_ (fun s _ h => S.reset h)))
  · split
    · split
      · exact h
      · exact S.core _ _ h
    · exact h
  · split
    · split
      · exact h
      · exact S.core _ _ h
    · exact h
  · split
    · exact S.setExternalBoundary h _ _ _
    · exact h

theorem addUdl (h : I s) (r : Option Nat)
    (hr : ∀ q, r = some q → ∀ s, I s → I { s with obj := { s.obj with us := s.obj.us ++ [q] } }) :
    I (s.addUdl r).1 := by
  unfold HS.addUdl
  split
  · exact h
  · rename_i q
    simp only
    split
    · split
      · exact S.updateBoundaryOptions (hr q rfl _ h) _ _
      · exact hr q rfl _ h
    · exact h

theorem setUdls (h : I s) (rs : List (Option Nat))
    (hr : ∀ q, some q ∈ rs → ∀ s, I s → I { s with obj := { s.obj with us := s.obj.us ++ [q] } }) :
    I (s.setUdls rs).1 := by
  unfold HS.setUdls
  refine HOut.inv (I := I) _ _ (HS.forEach_inv (I := I) _ _ (fun s a ha h => S.addUdl h a ?_) _ h) (fun s _ h => ?_)
  · rintro q rfl; exact hr q ha
  · exact S.reset (S.core _ _ (S.placeUdls _ _ h))

theorem addLl (h : I s) (r : Option Nat)
    (hr : ∀ q, r = some q → ∀ s, I s → I { s with obj := { s.obj with ls := s.obj.ls ++ [q] } }) :
    I (s.addLl r).1 := by
  unfold HS.addLl
  split
  · exact h
  · rename_i q
    simp only
    split
    · split
      · exact S.updateBoundaryOptions (hr q rfl _ h) _ _
      · exact hr q rfl _ h
    · exact h

theorem setLls (h : I s) (rs : List (Option Nat))
    (hr : ∀ q, some q ∈ rs → ∀ s, I s → I { s with obj := { s.obj with ls := s.obj.ls ++ [q] } }) :
    I (s.setLls rs).1 := by
  unfold HS.setLls
  refine HOut.inv (I := I) _ _ (HS.forEach_inv (I := I) _ _ (fun s a ha h => S.addLl h a ?_) _ h) (fun s _ h => ?_)
  · rintro q rfl; exact hr q ha
  · exact S.core _ _ (S.placeLls _ _ h)

theorem removeUdls (h : I s) (rs : List Nat) (all : Bool)
    (hs : ∀ s l, List.Sublist l s.obj.us → I s → I { s with obj := { s.obj with us := l } }) :
    I (s.removeUdls rs all).1 := by
  have hl : ∀ (rs : List Nat) (l : List Nat), (rs.foldl (fun l r =>
      removeLoop (fun c => ((s.heap.udl c).load).matches ((s.heap.udl r).load))
        (fun a b => ((s.heap.udl a).load).eq ((s.heap.udl b).load)) l.length 0 l) l).Sublist l := by
    intro rs
    induction rs with
    | nil => exact fun l => List.Sublist.refl _
    | cons r rs ih => exact fun l => (ih _).trans (removeLoop_sublist _ _ _ _ _)
  unfold HS.removeUdls
  simp only
  refine S.reset ?_
  cases all
  · simp only [Bool.false_eq_true, if_false]
    split
    · exact hs _ _ (hl rs _) h
    · exact S.core _ _ (hs _ _ (hl rs _) h)
  · simp only [if_true]
    exact S.core _ _ (hs _ [] (List.nil_sublist _) h)

theorem removeLls (h : I s) (rs : List Nat) (all : Bool)
    (hs : ∀ s l, List.Sublist l s.obj.ls → I s → I { s with obj := { s.obj with ls := l } }) :
    I (s.removeLls rs all).1 := by
  have hl : ∀ (rs : List Nat) (l : List Nat), (rs.foldl (fun l r =>
      removeLoop (fun c => ((s.heap.ll c).load).matches ((s.heap.ll r).load))
        (fun a b => ((s.heap.ll a).load).eq ((s.heap.ll b).load)) l.length 0 l) l).Sublist l := by
    intro rs
    induction rs with
    | nil => exact fun l => List.Sublist.refl _
    | cons r rs ih => exact fun l => (ih _).trans (removeLoop_sublist _ _ _ _ _)
  unfold HS.removeLls
  simp only
  refine S.reset ?_
  cases all
  · exact hs _ _ (hl rs _) h
  · exact hs _ [] (List.nil_sublist _) h

theorem removeMaterial (h : I s) (m : Option Nat) (d : Option K) (all : Bool)
    (hs : ∀ s l, List.Sublist l s.obj.ms → I s → I { s with obj := { s.obj with ms := l } }) :
    I (s.removeMaterial m d all).1 := by
  unfold HS.removeMaterial
  simp only
  refine S.reset (hs _ _ ?_ h)
  cases all
  · simp only [Bool.false_eq_true, if_false]
    split
    · exact List.Sublist.refl _
    · split
      · exact List.Sublist.refl _
      · split
        · exact List.Sublist.refl _
        · exact removeFirst_sublist _ _
  · simp

theorem setMaterials (h : I s) (args : List (Option Nat))
    (hs : ∀ s x rs, (∀ r ∈ rs, r ∈ s.obj.ms ∨ some r ∈ args) → I s →
      I { heap := s.heap.writeLayers x 0 rs, obj := { s.obj with ms := rs } }) :
    I (s.setMaterials args).1 := by
  have hm : ∀ (t : HS K) (k : Nat → K), t.obj.ms = s.obj.ms →
      ∀ r ∈ sortByKey k (args.filterMap id ++ s.obj.ms), r ∈ t.obj.ms ∨ some r ∈ args := by
    intro t k e r hr
    rw [(show (sortByKey k (args.filterMap id ++ s.obj.ms)).Perm _ from
      List.mergeSort_perm _ _).mem_iff, List.mem_append] at hr
    rcases hr with hr | hr
    · simp only [List.mem_filterMap, id] at hr
      obtain ⟨a, ha, rfl⟩ := hr
      exact .inr ha
    · exact .inl (e ▸ hr)
  have S' : HStable (fun t => I t ∧ t.obj.ms = s.obj.ms) :=
    ⟨fun t c h => ⟨S.core _ _ h.1, h.2⟩, fun t c h => ⟨S.placeUdls _ _ h.1, h.2⟩,
      fun t c h => ⟨S.placeLls _ _ h.1, h.2⟩⟩
  unfold HS.setMaterials
  split
  · exact h
  · simp only
    split
    · exact h
    · have h0 : I s ∧ s.obj.ms = s.obj.ms := ⟨h, rfl⟩
      refine HOut.inv2 (J := fun t => I t ∧ t.obj.ms = s.obj.ms) _ _ ?_ (fun t h => h.1)
        (fun t _ h => ?_)
      · split
        · exact S'.updateBoundaryOptions h0 _ _
        · exact h0
      · split
        · exact h.1
        · exact S.reset (hs t _ _ (hm t _ h.2) h.1)

theorem setDynamicOffset (h : I s) (o : K)
    (h1 : ∀ s l, List.Sublist l s.obj.us → I s → I { s with obj := { s.obj with us := l } })
    (h2 : ∀ s l, List.Sublist l s.obj.ls → I s → I { s with obj := { s.obj with ls := l } })
    (h3 : ∀ q ∈ s.obj.us, ∀ s, I s → I { s with obj := { s.obj with us := s.obj.us ++ [q] } })
    (h4 : ∀ q ∈ s.obj.ls, ∀ s, I s → I { s with obj := { s.obj with ls := s.obj.ls ++ [q] } })
    (h5 : ∀ q ∈ s.obj.us, ∀ s, I s → I { s with heap := s.heap.moveUdl q o })
    (h6 : ∀ q ∈ s.obj.ls, ∀ s, I s → I { s with heap := s.heap.moveLl q o }) :
    I (s.setDynamicOffset o).1 := by
  unfold HS.setDynamicOffset
  simp only
  refine HOut.inv (I := I) _ _ (S.removeUdls h _ _ h1) (fun t _ h => HOut.inv (I := I) _ _
    (S.removeLls h _ _ h2) (fun t _ h => HOut.inv (I := I) _ _ ?_ (fun t _ h => ?_)))
  · refine HS.forEach_inv (I := I) _ _ (fun t a ha h => S.setUdls (h5 a ha _ h) _ ?_) _ h
    intro q hq
    obtain rfl : q = a := by simpa using hq
    exact h3 q ha
  · refine HS.forEach_inv (I := I) _ _ (fun t a ha h => S.setLls (h6 a ha _ h) _ ?_) _ h
    intro q hq
    obtain rfl : q = a := by simpa using hq
    exact h4 q ha

theorem tryOffset (h : I s) (hd : ∀ s o, I s → I (s.setDynamicOffset o).1) (o : K) :
    I (s.tryOffset o).1 := by
  unfold HS.tryOffset
  refine HOut.inv (I := I) _ _ (hd _ _ h) (fun t _ h => HOut.inv (I := I) _ _ (S.own h _)
    (fun t _ h => ?_))
  split
  · exact h
  · exact h
  · exact S.core _ _ h

theorem dynLoop (h : I s) (hd : ∀ s o, I s → I (s.setDynamicOffset o).1) (c : K) (d : Bool)
    (n : Nat) (l r p : K) : I (s.dynLoop c d n l r p).1 := by
  induction n generalizing s l r p with
  | zero => exact h
  | succ n ih =>
    unfold HS.dynLoop
    simp only
    split
    · exact h
    · refine HOut.inv (I := I) _ _ (S.tryOffset h hd _) (fun t _ h => ?_)
      split
      · exact h
      · split
        · exact ih h _ _ _
        · exact ih h _ _ _

theorem analyseDynamic (h : I s) (hd : ∀ s o, I s → I (s.setDynamicOffset o).1) (c : K)
    (d : Bool) : I (s.analyseDynamic c d).1 := by
  unfold HS.analyseDynamic
  simp only
  have h := S.core s { s.obj.core with dynResults := [] } h
  split
  · exact h
  · refine HOut.inv (I := I) _ _ (S.tryOffset h hd _) (fun t _ h => ?_)
    split
    · exact h
    · refine HOut.inv (I := I) _ _ (S.tryOffset h hd _) (fun t _ h => ?_)
      split
      · exact h
      · exact HOut.inv (I := I) _ _ (S.dynLoop h hd _ _ _ _ _ _) (fun t _ h => S.core _ _ h)

end HStable
end PySlope
