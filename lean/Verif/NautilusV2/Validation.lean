import Verif.Nautilus.Validation
import Verif.NautilusV2.Props

set_option linter.unusedSectionVars false

/-!
# Property C85 for NAUTILUS v2: which responses are accepted
-/

namespace Verif

variable {K : Type} [Field K] [LinearOrder K] [IsStrictOrderedRing K] {k m : Nat}

namespace NautilusV2

/-- The pair gives a positive ratio for two objectives, numbered from 1. -/
def GoodPair (k : Nat) (p : Pair K) : Prop :=
  p.fst.isInstanceInt = true ∧ 1 ≤ p.fst.asInt ∧ p.fst.asInt ≤ k ∧
  p.snd.isInstanceInt = true ∧ 1 ≤ p.snd.asInt ∧ p.snd.asInt ≤ k ∧ 0 < p.ratio

/-- A preference as NAUTILUS v2 accepts it: an array with at least one positive entry per objective - one of
which is 1 for the second method -, or one pair less than there are objectives, such that every objective
occurs in one. -/
def GoodPreference (k : Nat) (r : Resp K) : Prop :=
  (∃ l, r.info = some (.arr l) ∧ (∀ x ∈ l, 0 < x) ∧ k ≤ l.length ∧
    (r.method = some 1 ∨ (r.method = some 2 ∧ (1 : K) ∈ l))) ∨
  (∃ l, r.info = some (.pairs l) ∧ r.method = some 3 ∧ l.length + 1 = k ∧ (∀ p ∈ l, GoodPair k p) ∧
    ∀ i : Nat, 1 ≤ i → i ≤ k → ∃ p ∈ l, p.fst.asInt = i ∨ p.snd.asInt = i)

theorem validPair_iff (p : Pair K) : validPair k p = true ↔ GoodPair k p := by
  simp only [validPair, validIndex, GoodPair, Bool.and_eq_true, decide_eq_true_eq]
  tauto

theorem included_iff (l : List (Pair K)) :
    (List.range k).all (included l) = true ↔
      ∀ i : Nat, 1 ≤ i → i ≤ k → ∃ p ∈ l, p.fst.asInt = i ∨ p.snd.asInt = i := by
  rw [List.all_eq_true]
  constructor
  · intro h i h1 h2
    have := h (i - 1) (List.mem_range.2 (by omega))
    simp only [included, List.any_eq_true, Bool.or_eq_true, decide_eq_true_eq] at this
    obtain ⟨p, hp, h3⟩ := this
    refine ⟨p, hp, ?_⟩
    have e : ((i - 1 : Nat) : Int) + 1 = i := by omega
    rwa [e] at h3
  · intro h i hi
    obtain ⟨p, hp, h3⟩ := h (i + 1) (by omega) (by have := List.mem_range.1 hi; omega)
    simp only [included, List.any_eq_true, Bool.or_eq_true, decide_eq_true_eq]
    refine ⟨p, hp, ?_⟩
    push_cast at h3
    exact h3

theorem validatePairs_iff (l : List (Pair K)) :
    validatePairs k l = .ok () ↔ l.length + 1 = k ∧ (∀ p ∈ l, GoodPair k p) ∧
      ∀ i : Nat, 1 ≤ i → i ≤ k → ∃ p ∈ l, p.fst.asInt = i ∨ p.snd.asInt = i := by
  rw [← included_iff]
  unfold validatePairs
  by_cases h1 : l.length + 1 = k
  · rw [if_neg (by simpa using h1)]
    by_cases h2 : l.all (validPair k) = true
    · rw [if_pos h2]
      have h2' : ∀ p ∈ l, GoodPair k p := fun p hp => (validPair_iff p).1 (List.all_eq_true.1 h2 p hp)
      by_cases h3 : (List.range k).all (included l) = true
      · rw [if_pos h3]
        exact ⟨fun _ => ⟨h1, h2', h3⟩, fun _ => rfl⟩
      · rw [if_neg h3]
        exact ⟨fun h => by simp at h, fun h => absurd h.2.2 h3⟩
    · rw [if_neg h2]
      refine ⟨fun h => by simp at h, fun h => absurd ?_ h2⟩
      rw [List.all_eq_true]
      exact fun p hp => (validPair_iff p).2 (h.2.1 p hp)
  · rw [if_pos h1]
    exact ⟨fun h => by simp at h, fun h => absurd h.1 h1⟩

theorem validatePreferences_iff {r : Resp K} :
    validatePreferences k r = .ok () ↔ GoodPreference k r := by
  unfold validatePreferences GoodPreference
  cases hm : r.method with
  | none => simp
  | some meth =>
    cases hi : r.info with
    | none => simp
    | some info =>
      dsimp only
      by_cases hbad : ¬ (meth = 1 ∨ meth = 2 ∨ meth = 3)
      · rw [if_pos hbad]
        simp only [reduceCtorEq, false_iff, Option.some.injEq, not_or, not_exists]
        refine ⟨?_, ?_⟩
        · rintro l ⟨_, _, _, h | h⟩
          · exact hbad (.inl h)
          · exact hbad (.inr (.inl h.1))
        · rintro l ⟨_, h, _⟩
          exact hbad (.inr (.inr h))
      · rw [if_neg hbad]
        by_cases h3 : meth = 3
        · subst h3
          rw [if_pos rfl]
          cases info with
          | arr l => by_cases hc : l.length + 1 ≠ k ∨ l = [] <;> simp [hc]
          | list l => by_cases hc : l.length + 1 ≠ k ∨ l = [] <;> simp [hc]
          | pairs l =>
            rw [validatePairs_iff]
            simp
        · rw [if_neg h3]
          cases info with
          | pairs l => simp [h3]
          | list l => simp
          | arr l =>
            dsimp only
            by_cases h4 : (l.any fun x => decide (x ≤ 0)) = true
            · rw [if_pos h4]
              simp only [List.any_eq_true, decide_eq_true_eq] at h4
              obtain ⟨x, hx, hx0⟩ := h4
              simp only [reduceCtorEq, false_iff, Option.some.injEq, Pref.arr.injEq, not_or, not_exists]
              refine ⟨?_, ?_⟩
              · rintro l' ⟨rfl, hp, _⟩
                exact absurd (hp x hx) (not_lt.2 hx0)
              · rintro l' ⟨h, _⟩
                simp at h
            · rw [if_neg h4]
              have h4' : ∀ x ∈ l, 0 < x := by
                intro x hx
                by_contra hc
                apply h4
                rw [List.any_eq_true]
                exact ⟨x, hx, decide_eq_true (not_lt.1 hc)⟩
              by_cases h5 : l.length < k
              · rw [if_pos h5]
                simp only [reduceCtorEq, false_iff, Option.some.injEq, Pref.arr.injEq, not_or, not_exists]
                refine ⟨?_, ?_⟩
                · rintro l' ⟨rfl, _, hk, _⟩
                  omega
                · rintro l' ⟨h, _⟩
                  simp at h
              · rw [if_neg h5]
                by_cases h6 : meth = 2 ∧ ¬ (1 : K) ∈ l
                · rw [if_pos h6]
                  simp only [reduceCtorEq, false_iff, Option.some.injEq, Pref.arr.injEq, not_or, not_exists]
                  refine ⟨?_, ?_⟩
                  · rintro l' ⟨rfl, _, _, h | h⟩
                    · omega
                    · exact h6.2 h.2
                  · rintro l' ⟨h, _⟩
                    simp at h
                · rw [if_neg h6]
                  simp only [true_iff]
                  refine .inl ⟨l, rfl, h4', by omega, ?_⟩
                  by_cases h7 : meth = 1
                  · exact .inl (by rw [h7])
                  · have h8 : meth = 2 := by omega
                    refine .inr ⟨by rw [h8], ?_⟩
                    by_contra hc
                    exact h6 ⟨h8, hc⟩

/-- **C85** (NAUTILUS v2, first response), as for NAUTILUS. -/
theorem C85_first_response (c : Cfg k m K) (r : Resp K) :
    validate c (.initial : Req k m K) r = .ok () ↔
      (∃ v, r.nIterations = some v ∧ GoodNumber v) ∧ GoodPreference k r ∧
        r.stepBack = none ∧ r.usePrevious = none := by
  simp only [validate, validateInitial]
  rw [← validatePreferences_iff]
  cases hn : r.nIterations with
  | none => simp
  | some v =>
    cases hb : r.stepBack with
    | some b => simp
    | none =>
      cases hu : r.usePrevious with
      | some b => simp
      | none =>
        cases hp : validatePreferences k r with
        | error e => simp
        | ok u => simp [validateN, GoodNumber]

/-- **C85** (NAUTILUS v2, later responses), as for NAUTILUS. -/
theorem C85_later_response (c : Cfg k m K) {z lo up : Vec k K} {d : Fl K} (r : Resp K) :
    validate c (.nav z lo up d : Req k m K) r = .ok () ↔
      ∃ back prev, r.stepBack = some back ∧ r.usePrevious = some prev ∧
        (back = true → z ≠ c.nadir) ∧ (prev = false → GoodPreference k r) ∧
        ∀ v, r.nIterations = some v → GoodNumber v := by
  simp only [validate, validateNav]
  rw [← validatePreferences_iff]
  have hz : (∀ j, z j = c.nadir j) ↔ z = c.nadir := ⟨fun h => funext h, fun h j => by rw [h]⟩
  have hN : validateN r.nIterations = .ok () ↔ ∀ v, r.nIterations = some v → GoodNumber v := by
    cases hn : r.nIterations with
    | none => simp [validateN]
    | some v => simp [validateN, GoodNumber]
  rw [← hN]
  cases hb : r.stepBack with
  | none => simp
  | some back =>
    cases hu : r.usePrevious with
    | none =>
      cases back
      · simp
      · simp only [true_and]
        split <;> simp
    | some prev =>
      simp only [hz]
      by_cases h1 : back = true ∧ z = c.nadir
      · rw [if_pos h1]
        simp only [reduceCtorEq, false_iff, not_exists]
        rintro b p ⟨hb', _, h3, _⟩
        rw [Option.some.injEq] at hb'
        exact h3 (hb' ▸ h1.1) h1.2
      · rw [if_neg h1]
        have h2 : back = true → z ≠ c.nadir := fun h e => h1 ⟨h, e⟩
        cases prev with
        | true =>
            simp
            exact fun _ => h2
        | false =>
          cases hp : validatePreferences k r with
          | error e => simp
          | ok u =>
            simp
            exact fun _ => h2

/-- **C85** (NAUTILUS v2, refused). A response that is not accepted has no effect. -/
theorem C85_refused_no_effect (c : Cfg k m K) (s : St k m K) (req : Req k m K) (r : Resp K) (orc : Oracle k m K)
    (h : validate c req r ≠ .ok ()) : ∃ e, answer c s req r orc = (s, .error e) := by
  unfold answer
  cases hv : validate c req r with
  | error e => exact ⟨e, rfl⟩
  | ok u => exact absurd hv h

/-- Three objectives and two ratios. -/
example : GoodPreference (K := ℚ) 3
    { method := some 3, info := some (.pairs [⟨.int 1, .int 2, 2⟩, ⟨.int 3, .int 2, 1/2⟩]) } :=
  validatePreferences_iff.1 (by decide +kernel)

end NautilusV2

end Verif
