import Verif.Nimbus.Props3

/-!
# NIMBUS: which responses are accepted (C92)
-/

set_option linter.unusedSectionVars false

namespace Verif.Nimbus

variable {K : Type} [Field K] [LinearOrder K] [IsStrictOrderedRing K] {k m : Nat}

/-- The classifications the validator lets pass, for a problem with `k` objectives: only known classes, one level per
objective, at least two objectives, levels between ideal and nadir where the class needs one, and from one to
four solutions. The number of classes is not restricted, but classes with a level must belong to objectives. -/
def PassingClassification (c : Cfg k m K) (cls : List Cls) (lv : List K) (num : Int) : Prop :=
  Cls.other ∉ cls ∧ lv.length = k ∧ k ≠ 1 ∧ 1 ≤ num ∧ num ≤ 4 ∧
  ∀ p : Nat, cls[p]? = some .le ∨ cls[p]? = some .ge →
    ∃ h : p < k, ∃ x, lv[p]? = some x ∧ c.ideal ⟨p, h⟩ ≤ x ∧ x ≤ c.nadir ⟨p, h⟩

theorem checkLevels_passing (c : Cfg k m K) (cls : List Cls) (x : Cls) (lv : List K) (hl : lv.length = k) :
    checkLevels c cls x lv = .ok () ↔ ∀ p : Nat, cls[p]? = some x →
      ∃ h : p < k, ∃ y, lv[p]? = some y ∧ c.ideal ⟨p, h⟩ ≤ y ∧ y ≤ c.nadir ⟨p, h⟩ := by
  rw [checkLevels_ok_iff]
  constructor
  · rintro ⟨h1, h2⟩ p hp
    have hk := h1 p hp
    have hy : lv[p]? = some (lv[p]'(by omega)) := List.getElem?_eq_getElem _
    have := h2 ⟨p, hk⟩ hp
    simp only [levelVec, hy, Option.getD_some] at this
    exact ⟨hk, _, hy, this⟩
  · intro h
    refine ⟨fun p hp => (h p hp).1, fun j hj => ?_⟩
    obtain ⟨hk, y, hy, hb⟩ := h j.val hj
    simp only [levelVec, hy, Option.getD_some]
    exact hb

/-- **C92** (NIMBUS, classification). -/
theorem C92_classification (c : Cfg k m K) (f : Vec k K) (r : ClassResp K) :
    validate c (.classify f) (.classify r) = .ok () ↔
      ∃ cls lv num, r.classifications = some cls ∧ r.levels = some lv ∧ r.number = some num ∧
        PassingClassification c cls lv num := by
  simp only [validate]
  unfold validateClassify
  cases h1 : r.classifications with
  | none => simp
  | some cls =>
    cases h2 : r.levels with
    | none => simp
    | some lv =>
      cases h3 : r.number with
      | none => simp
      | some num =>
        refine Iff.trans (b := PassingClassification c cls lv num) ?_
          ⟨fun h => ⟨cls, lv, num, rfl, rfl, rfl, h⟩, by
            rintro ⟨_, _, _, e1, e2, e3, h⟩; cases e1; cases e2; cases e3; exact h⟩
        unfold PassingClassification
        by_cases ho : Cls.other ∈ cls
        · have : (cls.any fun x => decide (x = .other)) = true := by simpa using ho
          simp [this, ho]
        · have : (cls.any fun x => decide (x = .other)) = false := by
            rw [List.any_eq_false]
            rintro x hx he
            simp only [decide_eq_true_eq] at he
            exact ho (he ▸ hx)
          simp only [this, Bool.false_eq_true, if_false, ho, not_false_iff, true_and]
          by_cases hl1 : lv.length = 1
          · simp only [hl1, if_true, reduceCtorEq, false_iff]
            rintro ⟨h, h', _⟩
            omega
          · simp only [hl1, if_false]
            by_cases hl : lv.length = k
            · have hk : k ≠ 1 := by omega
              simp only [hl, ne_eq, not_true, if_false, true_and, hk, not_false_iff]
              have e1 := checkLevels_passing c cls .le lv hl
              have e2 := checkLevels_passing c cls .ge lv hl
              cases hc1 : checkLevels c cls .le lv with
              | error e =>
                simp only [reduceCtorEq, false_iff]
                rintro ⟨_, _, h⟩
                have := e1.2 fun p hp => h p (.inl hp)
                rw [hc1] at this
                simp at this
              | ok u =>
                simp only
                cases hc2 : checkLevels c cls .ge lv with
                | error e =>
                  simp only [reduceCtorEq, false_iff]
                  rintro ⟨_, _, h⟩
                  have := e2.2 fun p hp => h p (.inr hp)
                  rw [hc2] at this
                  simp at this
                | ok u' =>
                  simp only
                  have a1 := e1.1 hc1
                  have a2 := e2.1 hc2
                  by_cases hn : num > 4 ∨ num < 1
                  · simp only [hn, if_true, reduceCtorEq, false_iff]
                    rintro ⟨h, h', _⟩
                    omega
                  · simp only [hn, if_false, true_iff]
                    refine ⟨by omega, by omega, ?_⟩
                    rintro p (hp | hp)
                    · exact a1 p hp
                    · exact a2 p hp
            · simp [hl]

/-- **C92** (NIMBUS, saving). -/
theorem C92_save (c : Cfg k m K) (sols : List (Vec m K)) (objs : List (Vec k K)) (indices : Option (List Int)) :
    validate c (.save sols objs) (.save indices) = .ok () ↔
      ∃ idx, indices = some idx ∧ idx.length ≤ objs.length ∧ ∀ i ∈ idx, 0 ≤ i ∧ i < objs.length := by
  simp only [validate]
  unfold validateSave
  cases indices with
  | none => simp
  | some idx =>
    simp only [Option.some.injEq, exists_eq_left']
    by_cases h0 : idx.length = 0
    · have : idx = [] := List.length_eq_zero_iff.1 h0
      subst this
      simp
    · simp only [h0, if_false]
      by_cases h1 : objs.length < idx.length ∨ (idx.any fun i => decide (i < 0)) = true
      · simp only [h1, if_true, reduceCtorEq, false_iff]
        rintro ⟨h2, h3⟩
        rcases h1 with h1 | h1
        · omega
        · obtain ⟨i, hi, hneg⟩ := List.any_eq_true.1 h1
          have := (h3 i hi).1
          simp at hneg
          omega
      · simp only [h1, if_false]
        push Not at h1
        by_cases h2 : (idx.any fun i => decide ((objs.length : Int) ≤ i)) = true
        · simp only [h2, if_true, reduceCtorEq, false_iff]
          rintro ⟨_, h3⟩
          obtain ⟨i, hi, hneg⟩ := List.any_eq_true.1 h2
          have := (h3 i hi).2
          simp at hneg
          omega
        · rw [if_neg h2]
          refine iff_of_true rfl ?_
          refine ⟨h1.1, fun i hi => ⟨?_, ?_⟩⟩
          · by_contra hc
            exact h1.2 (List.any_eq_true.2 ⟨i, hi, by simpa using hc⟩)
          · by_contra hc
            exact h2 (List.any_eq_true.2 ⟨i, hi, by simpa using hc⟩)

/-- **C92** (NIMBUS, intermediate solutions). Accepted: no indices and none desired, or at least one index - a single
one passes too - all of shown solutions, and at least one desired. -/
theorem C92_intermediate (c : Cfg k m K) (sols : List (Vec m K)) (objs : List (Vec k K)) (r : InterResp) :
    validate c (.inter sols objs) (.inter r) = .ok () ↔
      ∃ idx num, r.indices = some idx ∧ r.number = some num ∧
        (idx = [] ∧ num = 0 ∨ idx ≠ [] ∧ 1 ≤ num ∧ ∀ i ∈ idx, 0 ≤ i ∧ i < objs.length) := by
  simp only [validate]
  unfold validateInter
  cases h1 : r.indices with
  | none => simp
  | some idx =>
    cases h2 : r.number with
    | none => simp
    | some num =>
      refine Iff.trans (b := idx = [] ∧ num = 0 ∨ idx ≠ [] ∧ 1 ≤ num ∧ ∀ i ∈ idx, 0 ≤ i ∧ i < (objs.length : Int)) ?_
        ⟨fun h => ⟨idx, num, rfl, rfl, h⟩, by rintro ⟨_, _, e1, e2, h⟩; cases e1; cases e2; exact h⟩
      cases idx with
      | nil =>
        by_cases hn : num < 0
        · simp [hn]; omega
        · by_cases hp : 0 < num
          · simp [hn, hp]; omega
          · simp [hn, hp]; omega
      | cons a idx =>
        by_cases hn : num < 0
        · simp only [hn, if_true, reduceCtorEq, false_iff]
          rintro (h | h)
          · simp at h
          · omega
        · simp only [hn, if_false]
          by_cases hz : num = 0
          · simp [hz]
          · simp only [hz, and_false, if_false, List.length_cons, Nat.add_eq_zero_iff, one_ne_zero, false_and]
            by_cases h3 : (((a :: idx).any fun i => decide ((objs.length : Int) ≤ i)) ||
                (a :: idx).any fun i => decide (i < 0)) = true
            · simp only [h3, if_true, reduceCtorEq, false_iff]
              rintro (h | ⟨_, _, h⟩)
              · simp at h
              · rw [Bool.or_eq_true] at h3
                rcases h3 with h3 | h3
                · obtain ⟨i, hi, hneg⟩ := List.any_eq_true.1 h3
                  have := (h i hi).2
                  simp at hneg
                  omega
                · obtain ⟨i, hi, hneg⟩ := List.any_eq_true.1 h3
                  have := (h i hi).1
                  simp at hneg
                  omega
            · rw [if_neg h3]
              refine iff_of_true rfl (.inr ?_)
              refine ⟨by simp, by omega, fun i hi => ⟨?_, ?_⟩⟩
              · by_contra hc
                exact h3 (by rw [Bool.or_eq_true]; exact .inr (List.any_eq_true.2 ⟨i, hi, by simpa using hc⟩))
              · by_contra hc
                exact h3 (by rw [Bool.or_eq_true]; exact .inl (List.any_eq_true.2 ⟨i, hi, by simpa using hc⟩))

/-- **C92** (NIMBUS, most preferred solution). -/
theorem C92_preferred (c : Cfg k m K) (sols : List (Vec m K)) (objs : List (Vec k K)) (r : PrefResp) :
    validate c (.preferred sols objs) (.preferred r) = .ok () ↔
      ∃ (i : Nat) (b : Bool), r.index = some (.int i) ∧ r.cont = some (.bool b) ∧ i < objs.length := by
  simp only [validate]
  unfold validatePreferred
  cases h1 : r.index with
  | none => simp
  | some v =>
    cases h2 : r.cont with
    | none => simp
    | some w =>
      cases v with
      | int z =>
        cases w with
        | bool b =>
          simp only [PyVal.typeIsInt, Bool.not_true, Bool.false_eq_true, if_false, PyVal.asInt, Option.some.injEq,
            PyVal.int.injEq, PyVal.bool.injEq]
          constructor
          · intro h
            by_cases hz : 0 ≤ z ∧ z < (objs.length : Int)
            · exact ⟨z.toNat, b, by omega, rfl, by omega⟩
            · simp [hz] at h
          · rintro ⟨i, b', h3, rfl, h4⟩
            have hz : 0 ≤ z ∧ z < (objs.length : Int) := by omega
            simp only [hz, and_self, if_true]
        | _ => simp [PyVal.typeIsInt]
      | _ => simp [PyVal.typeIsInt]

/-- **C92** (NIMBUS, refused). A response that is not accepted has no effect. -/
theorem C92_refused_no_effect (c : Cfg k m K) (s : St k m K) (req : Req k m K) (a : Ans K) (orc : Oracle k m K)
    (h : validate c req a ≠ .ok ()) : ∃ e, answer c s req a orc = (s, .error e) := by
  unfold answer
  cases hv : validate c req a with
  | error e => exact ⟨e, rfl⟩
  | ok u => exact absurd hv h

example := C92_classification exCfg ![1, 2] ⟨some [.le, .ge], some [0, 4], some 3⟩
example : PassingClassification exCfg [.le, .ge] [0, 4] 3 := by
  obtain ⟨cls, lv, num, h1, h2, h3, h⟩ := (C92_classification exCfg ![1, 2] ⟨some [.le, .ge], some [0, 4], some 3⟩).1
    (eq_of_beq (by decide +kernel))
  cases h1; cases h2; cases h3
  exact h
example : ∃ i : Nat, ∃ b : Bool, some (PyVal.int 1) = some (.int i) ∧ some (PyVal.bool false) = some (.bool b) ∧ i < 2 :=
  (C92_preferred exCfg [![0], ![1]] [![1, 2], ![2, 1]] ⟨some (.int 1), some (.bool false)⟩).1 (eq_of_beq (by decide +kernel))

end Verif.Nimbus
