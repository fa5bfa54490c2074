import Verif.Nimbus.Model
import Verif.BaseLemmas
import Verif.Spec

set_option linter.unusedSectionVars false

/-! Helper lemmas about the NIMBUS model. -/

namespace Verif.Nimbus

variable {K : Type} [Field K] [LinearOrder K] {k m : Nat}

/-! ### Discrete minimization -/

theorem discreteMin_ok {N : Nat} {obj : Fin N → Vec k K} {asf : Vec k K → K} {fe : Vec k K → Bool}
    {x : Fin N} (h : discreteMin obj asf fe = .ok x) :
    fe (obj x) = true ∧ ∀ i, fe (obj i) = true → asf (obj x) ≤ asf (obj i) := by
  unfold discreteMin at h
  split at h
  · simp at h
  · rename_i idx hi
    obtain ⟨v, hv, hmin⟩ := npNanArgmin_ok hi
    split at h
    · rename_i hlt
      simp only [Except.ok.injEq] at h
      subst h
      simp only [List.getElem?_map] at hv
      rw [List.getElem?_eq_getElem (by simpa using hlt)] at hv
      simp only [List.getElem_finRange, Option.map_some, Option.some.injEq] at hv
      split at hv
      · rename_i hfe
        simp only [Option.some.injEq] at hv
        refine ⟨hfe, ?_⟩
        intro i hi'
        have := hmin (asf (obj i)) (by
          simp only [List.mem_map, List.mem_finRange, true_and]
          exact ⟨i, by simp [hi']⟩)
        rw [← hv] at this
        exact this
      · simp at hv
    · simp at h

theorem discreteMin_exists {N : Nat} {obj : Fin N → Vec k K} {asf : Vec k K → K} {fe : Vec k K → Bool}
    {i : Fin N} (hi : fe (obj i) = true) : ∃ x, discreteMin obj asf fe = .ok x := by
  unfold discreteMin
  cases h : npNanArgmin ((List.finRange N).map fun i =>
      if fe (obj i) then some (asf (obj i)) else none) with
  | error e =>
    obtain ⟨_, hno⟩ := npNanArgmin_error h
    exact absurd (by
      simp only [List.mem_map, List.mem_finRange, true_and]
      exact ⟨i, by simp [hi]⟩) (hno (asf (obj i)))
  | ok idx =>
    obtain ⟨v, hv, _⟩ := npNanArgmin_ok h
    have hlt := (List.getElem?_eq_some_iff.1 hv).1
    simp only [List.length_map, List.length_finRange] at hlt
    exact ⟨⟨idx, hlt⟩, by simp [hlt]⟩

/-- If no row is feasible, numpy's `nanargmin` raises `ValueError`. -/
theorem discreteMin_none {N : Nat} {obj : Fin N → Vec k K} {asf : Vec k K → K} {fe : Vec k K → Bool}
    (hno : ∀ i, fe (obj i) = false) : discreteMin obj asf fe = .error .valueError := by
  unfold discreteMin
  cases h : npNanArgmin ((List.finRange N).map fun i =>
      if fe (obj i) then some (asf (obj i)) else none) with
  | error e => rw [(npNanArgmin_error h).1]
  | ok idx =>
    obtain ⟨v, hv, _⟩ := npNanArgmin_ok h
    have := List.mem_of_getElem? hv
    simp [hno] at this

/-! ### Validators -/

theorem mem_inds (cls : List Cls) (x : Cls) (p : Nat) : p ∈ inds cls x ↔ cls[p]? = some x := by
  unfold inds
  simp only [List.mem_filter, List.mem_range, decide_eq_true_eq]
  constructor
  · exact fun h => h.2
  · exact fun h => ⟨(List.getElem?_eq_some_iff.1 h).1, h⟩

theorem checkLevels_ok_iff (c : Cfg k m K) (cls : List Cls) (x : Cls) (lv : List K) :
    checkLevels c cls x lv = .ok () ↔
      (∀ p, cls[p]? = some x → p < k) ∧
      ∀ j : Fin k, cls[j.val]? = some x → c.ideal j ≤ levelVec k lv j ∧ levelVec k lv j ≤ c.nadir j := by
  unfold checkLevels
  split
  · rename_i h
    simp only [List.any_eq_true, decide_eq_true_eq, mem_inds] at h
    obtain ⟨p, hp, hk⟩ := h
    simp only [reduceCtorEq, false_iff]
    rintro ⟨h1, _⟩
    have := h1 p hp
    omega
  · rename_i h
    simp only [List.any_eq_true, decide_eq_true_eq, mem_inds, not_exists, not_and, not_le] at h
    split
    · rename_i h2
      simp only [List.all_eq_true, List.mem_finRange, true_implies, Bool.or_eq_true, Bool.not_eq_true',
        decide_eq_false_iff_not, mem_inds, Bool.and_eq_true, decide_eq_true_eq] at h2
      simp only [true_iff]
      refine ⟨h, ?_⟩
      intro j hj
      rcases h2 j with h3 | h3
      · exact absurd hj h3
      · exact h3
    · rename_i h2
      simp only [reduceCtorEq, false_iff]
      rintro ⟨_, h3⟩
      apply h2
      simp only [List.all_eq_true, List.mem_finRange, true_implies, Bool.or_eq_true, Bool.not_eq_true',
        decide_eq_false_iff_not, mem_inds, Bool.and_eq_true, decide_eq_true_eq]
      intro j
      by_cases hj : cls[j.val]? = some x
      · exact .inr (h3 j hj)
      · exact .inl hj

theorem validateClassify_ok {c : Cfg k m K} {r : ClassResp K} (h : validateClassify c r = .ok ()) :
    ∃ cls lv num, r = ⟨some cls, some lv, some num⟩ ∧ Cls.other ∉ cls ∧ lv.length = k ∧
      1 ≤ num ∧ num ≤ 4 ∧ checkLevels c cls .le lv = .ok () ∧ checkLevels c cls .ge lv = .ok () := by
  obtain ⟨cl, le, nu⟩ := r
  unfold validateClassify at h
  dsimp only at h
  split at h
  · rename_i cls lv num
    split at h
    · simp at h
    · rename_i hoth
      split at h
      · simp at h
      · split at h
        · simp at h
        · rename_i hlen
          split at h
          · simp at h
          · rename_i u1 h1
            split at h
            · simp at h
            · rename_i u2 h2
              split at h
              · simp at h
              · rename_i hnum
                refine ⟨cls, lv, num, rfl, ?_, not_not.1 hlen, by omega, by omega, h1, h2⟩
                simpa using hoth
  · simp at h

theorem validateSave_ok {n : Nat} {idx : Option (List Int)} (h : validateSave n idx = .ok ()) :
    ∃ l, idx = some l ∧ ∀ i ∈ l, 0 ≤ i ∧ i < n := by
  unfold validateSave at h
  split at h
  · simp at h
  · rename_i l
    refine ⟨l, rfl, ?_⟩
    split at h
    · rename_i h0
      rw [List.length_eq_zero_iff.1 h0]
      simp
    · split at h
      · simp at h
      · rename_i h1
        split at h
        · simp at h
        · rename_i h2
          simp only [not_or, List.any_eq_true, decide_eq_true_eq, not_exists, not_and, not_lt] at h1
          simp only [List.any_eq_true, decide_eq_true_eq, not_exists, not_and, not_le] at h2
          exact fun i hi => ⟨h1.2 i hi, h2 i hi⟩

theorem validateInter_ok {n : Nat} {r : InterResp} (h : validateInter n r = .ok ()) :
    ∃ l num, r = ⟨some l, some num⟩ ∧ (∀ i ∈ l, 0 ≤ i ∧ i < n) ∧ 0 ≤ num ∧ (l = [] ↔ num = 0) := by
  obtain ⟨il, nu⟩ := r
  unfold validateInter at h
  dsimp only at h
  split at h
  · rename_i l num
    refine ⟨l, num, rfl, ?_⟩
    split at h
    · simp at h
    · split at h
      · simp at h
      · split at h
        · simp at h
        · rename_i a b c
          by_cases h0 : l.length = 0
          · have h0' := List.length_eq_zero_iff.1 h0
            subst h0'
            simp only [List.length_nil, true_and] at c
            exact ⟨by simp, by omega, by simp; omega⟩
          · rw [if_neg h0] at h
            split at h
            · simp at h
            · rename_i hh
              simp only [Bool.or_eq_true, List.any_eq_true, decide_eq_true_eq, not_or, not_exists,
                not_and, not_le, not_lt] at hh
              refine ⟨fun i hi => ⟨hh.2 i hi, hh.1 i hi⟩, by omega, ?_⟩
              constructor
              · intro hl; rw [hl] at h0; simp at h0
              · intro hn; omega
  · simp at h

theorem validatePreferred_ok {n : Nat} {r : PrefResp} (h : validatePreferred n r = .ok ()) :
    ∃ (i : Nat) (b : Bool), r = ⟨some (.int i), some (.bool b)⟩ ∧ i < n := by
  obtain ⟨i, b⟩ := r
  unfold validatePreferred at h
  dsimp only at h
  split at h
  · rename_i i b
    split at h
    · simp at h
    · rename_i hi
      cases i <;> simp [PyVal.typeIsInt] at hi
      rename_i z
      split at h
      · rename_i b
        split at h
        · rename_i hz
          simp only [PyVal.asInt] at hz
          exact ⟨z.toNat, b, by simp [hz.1], by omega⟩
        · simp at h
      · simp at h
  · simp at h

/-! ### Picking solutions -/

theorem pick_exists {α : Type} {l : List α} {idx : List Int} (h : ∀ i ∈ idx, 0 ≤ i ∧ i < l.length) :
    ∃ r, pick l idx = .ok r :=
  mapE_exists fun i hi => pyGet_exists (h i hi).1 (h i hi).2

theorem pick_eq {α : Type} {l r : List α} {idx : List Int} (h0 : ∀ i ∈ idx, 0 ≤ i)
    (h : pick l idx = .ok r) : r.map some = idx.map fun i => l[i.toNat]? := by
  unfold pick at h
  rw [mapE_ok_iff] at h
  induction h with
  | nil => rfl
  | cons h1 _ ih =>
    rename_i a b l1 l2 _
    simp only [List.map_cons, List.cons.injEq]
    rw [(pyGet_ok (h0 a (by simp))).1 h1]
    exact ⟨rfl, ih fun i hi => h0 i (by simp [hi])⟩

theorem pick_length {α : Type} {l r : List α} {idx : List Int} (h : pick l idx = .ok r) :
    r.length = idx.length := mapE_length h

/-- The chosen positions of two aligned lists. -/
theorem pick_zip {α β : Type} {l1 r1 : List α} {l2 r2 : List β} {idx : List Int}
    (h1 : pick l1 idx = .ok r1) (h2 : pick l2 idx = .ok r2) (h0 : ∀ i ∈ idx, 0 ≤ i) :
    ((r1.zip r2).map some) = idx.map fun i => (l1.zip l2)[i.toNat]? := by
  have e1 := pick_eq h0 h1
  have e2 := pick_eq h0 h2
  clear h1 h2
  induction idx generalizing r1 r2 with
  | nil => cases r1 <;> cases r2 <;> simp_all
  | cons i idx ih =>
    cases r1 with
    | nil => simp at e1
    | cons a r1 =>
      cases r2 with
      | nil => simp at e2
      | cons b r2 =>
        simp only [List.map_cons, List.cons.injEq] at e1 e2
        simp only [List.zip_cons_cons, List.map_cons, List.cons.injEq]
        refine ⟨?_, ih (fun i hi => h0 i (by simp [hi])) e1.2 e2.2⟩
        exact (List.getElem?_zip_eq_some (z := (a, b)).2 ⟨e1.1.symm, e2.1.symm⟩).symm

/-- The positions not chosen, in increasing order. -/
theorem unsaved_eq {α : Type} (l : List α) (idx : List Int) :
    (unsaved l idx).map some =
      ((List.range l.length).filter fun p : Nat => decide ((p : Int) ∉ idx)).map fun p : Nat => l[p]? := by
  unfold unsaved
  rw [List.zipIdx_eq_zip_range', ← List.range_eq_range']
  rw [List.map_map]
  have key : ∀ (ps : List Nat) (as : List α), (as.zip ps).map (fun p => some p.1) = (as.zip ps).map (fun q => l[q.2]?) →
      ((as.zip ps).filter fun p => !decide ((p.2 : Int) ∈ idx)).map (some ∘ fun p => p.1) =
      (((as.zip ps).map (·.2)).filter fun p : Nat => decide ((p : Int) ∉ idx)).map fun p : Nat => l[p]? := by
    intro ps as he
    rw [List.filter_map, List.map_map]
    have : ((fun p : Nat => decide ((p : Int) ∉ idx)) ∘ fun q : α × Nat => q.2) =
        fun p : α × Nat => !decide ((p.2 : Int) ∈ idx) := by
      funext p; simp
    rw [this]
    apply List.map_congr_left
    intro p hp
    have hp' := (List.mem_filter.1 hp).1
    have := List.map_inj_left.1 he p hp'
    simpa using this
  have := key (List.range l.length) l (by
    apply List.map_congr_left
    rintro ⟨a, p⟩ hp
    obtain ⟨i, hi⟩ := List.mem_iff_getElem?.1 hp
    rw [List.getElem?_zip_eq_some] at hi
    obtain ⟨h1, h2⟩ := hi
    rw [List.getElem?_range (by
      have := (List.getElem?_eq_some_iff.1 h2).1
      simpa using this)] at h2
    simp only [Option.some.injEq] at h2
    simp [← h2, h1])
  rw [this]
  rw [List.map_snd_zip (by simp)]

theorem unsaved_nil {α : Type} (l : List α) : unsaved l [] = l := by
  unfold unsaved
  simp

theorem unsaved_length {α β : Type} (l : List α) (l' : List β) (idx : List Int)
    (h : l.length = l'.length) : (unsaved l idx).length = (unsaved l' idx).length := by
  have h1 := congrArg List.length (unsaved_eq l idx)
  have h2 := congrArg List.length (unsaved_eq l' idx)
  simp only [List.length_map] at h1 h2
  rw [h1, h2, h]

theorem unsaved_zip {α β : Type} (l : List α) (l' : List β) (idx : List Int)
    (h : l.length = l'.length) :
    (unsaved l idx).zip (unsaved l' idx) = unsaved (l.zip l') idx := by
  have e1 := unsaved_eq l idx
  have e2 := unsaved_eq l' idx
  have e3 := unsaved_eq (l.zip l') idx
  have hl : (l.zip l').length = l.length := by simp [h]
  rw [hl] at e3
  rw [← h] at e2
  have inj : ∀ a b : List (α × β), a.map some = b.map some → a = b := by
    intro a b hab
    exact List.map_injective_iff.2 (Option.some_injective _) hab
  apply inj
  rw [e3]
  generalize ((List.range l.length).filter fun p : Nat => decide ((p : Int) ∉ idx)) = ps at *
  generalize unsaved l idx = u at *
  generalize unsaved l' idx = u' at *
  clear e3
  induction ps generalizing u u' with
  | nil => cases u <;> cases u' <;> simp_all
  | cons p ps ih =>
    cases u with
    | nil => simp at e1
    | cons a u =>
      cases u' with
      | nil => simp at e2
      | cons b u' =>
        simp only [List.map_cons, List.cons.injEq] at e1 e2
        simp only [List.zip_cons_cons, List.map_cons, List.cons.injEq]
        exact ⟨(List.getElem?_zip_eq_some (z := (a, b)).2 ⟨e1.1.symm, e2.1.symm⟩).symm, ih _ e1.2 _ e2.2⟩

theorem mem_unsaved {α : Type} (l : List α) (idx : List Int) (a : α) :
    a ∈ unsaved l idx ↔ ∃ p : Nat, (p : Int) ∉ idx ∧ l[p]? = some a := by
  have e := unsaved_eq l idx
  have : a ∈ unsaved l idx ↔ some a ∈ (unsaved l idx).map some := by simp
  rw [this, e]
  simp only [List.mem_map, List.mem_filter, List.mem_range, decide_eq_true_eq]
  constructor
  · rintro ⟨p, ⟨_, h1⟩, h2⟩; exact ⟨p, h1, h2⟩
  · rintro ⟨p, h1, h2⟩; exact ⟨p, ⟨(List.getElem?_eq_some_iff.1 h2).1, h1⟩, h2⟩

/-- Saving some positions and keeping the others loses and duplicates nothing. -/
theorem pick_unsaved_perm {α : Type} {l r : List α} {idx : List Int} (hnd : idx.Nodup)
    (hr : ∀ i ∈ idx, 0 ≤ i ∧ i < l.length) (h : pick l idx = .ok r) :
    (r ++ unsaved l idx).Perm l := by
  have e1 := pick_eq (fun i hi => (hr i hi).1) h
  have e2 := unsaved_eq l idx
  have hp : (idx.map Int.toNat ++ (List.range l.length).filter fun p : Nat => decide ((p : Int) ∉ idx)).Perm
      (List.range l.length) := by
    apply (List.perm_ext_iff_of_nodup ?_ List.nodup_range).2
    · intro p
      simp only [List.mem_append, List.mem_map, List.mem_filter, List.mem_range, decide_eq_true_eq]
      constructor
      · rintro (⟨i, hi, rfl⟩ | ⟨h1, _⟩)
        · have := hr i hi; omega
        · exact h1
      · intro hlt
        by_cases hm : (p : Int) ∈ idx
        · exact .inl ⟨p, hm, by simp⟩
        · exact .inr ⟨hlt, hm⟩
    · rw [List.nodup_append]
      refine ⟨?_, List.nodup_range.filter _, ?_⟩
      · apply List.Nodup.map_on _ hnd
        intro a ha b hb hab
        have := hr a ha; have := hr b hb; omega
      · rintro a ha b hb rfl
        simp only [List.mem_map] at ha
        obtain ⟨i, hi, rfl⟩ := ha
        simp only [List.mem_filter, List.mem_range, decide_eq_true_eq] at hb
        apply hb.2
        have := hr i hi
        rw [Int.toNat_of_nonneg this.1]; exact hi
  have hp2 := hp.map (fun p => l[p]?)
  rw [List.map_append, List.map_map] at hp2
  have e1' : r.map some = idx.map ((fun p => l[p]?) ∘ Int.toNat) := e1
  rw [← e1', ← e2] at hp2
  have hl : (List.range l.length).map (fun p => l[p]?) = l.map some := by
    apply List.ext_getElem?
    intro i
    simp only [List.getElem?_map]
    by_cases hi : i < l.length
    · rw [List.getElem?_range hi]; simp [hi]
    · rw [List.getElem?_eq_none (by simpa using hi), List.getElem?_eq_none (by simpa using hi)]; rfl
  rw [hl, ← List.map_append] at hp2
  have := hp2.filterMap id
  simpa using this

end Verif.Nimbus
