import Verif.Navigator.Props3

/-!
# NAUTILUS Navigator: which responses are accepted (C92)
-/

set_option linter.unusedSectionVars false

namespace Verif.Navigator

variable {K V : Type} [Field K] [LinearOrder K] [IsStrictOrderedRing K] {n k : Nat}

/-- The reference points the validator lets pass: one entry per objective, each NaN or between ideal and nadir,
or a single entry that is NaN or between ideal and nadir in every objective. -/
def PassingReference (c : Cfg n k K V) (q : List (Option K)) : Prop :=
  (q.length = k ∧ ∀ (j : Fin k) (x : K), q[j.val]? = some (some x) → c.ideal j ≤ x ∧ x ≤ c.nadir j) ∨
  ∃ a : Option K, q = [a] ∧ ∀ x, a = some x → ∀ j, c.ideal j ≤ x ∧ x ≤ c.nadir j

/-- The speeds the validator lets pass: an integer from 1 to 5, `True`, a number from 1 up to, but excluding, 6
(it is truncated), or the digits of such an integer. -/
def PassingSpeed : PyVal → Prop
  | .int z => 1 ≤ z ∧ z ≤ 5
  | .bool b => b = true
  | .float q => 1 ≤ q ∧ q < 6
  | .str s => ∃ z, s.toInt? = some z ∧ 1 ≤ z ∧ z ≤ 5
  | .none => False

theorem pyInt_passing (v : PyVal) : (∃ z, pyInt v = some z ∧ 1 ≤ z ∧ z ≤ 5) ↔ PassingSpeed v := by
  cases v with
  | int z => simp [pyInt, PassingSpeed]
  | bool b => cases b <;> simp [pyInt, PassingSpeed]
  | none => simp [pyInt, PassingSpeed]
  | str s => simp [pyInt, PassingSpeed]
  | float q =>
    simp only [pyInt, PassingSpeed, Option.some.injEq, exists_eq_left']
    by_cases hq : 0 ≤ q
    · simp only [hq, if_true]
      rw [Rat.le_floor_iff]
      rw [show (q.floor ≤ 5) = (q.floor < 6) from by simp only [eq_iff_iff]; omega]
      rw [← Int.not_le, Rat.le_floor_iff]
      simp
    · simp only [hq, if_false]
      push Not at hq
      have h1 : (0 : Int) ≤ (-q).floor := by
        rw [Rat.le_floor_iff]
        simpa using hq.le
      constructor
      · intro h; omega
      · intro h
        have : (1 : ℚ) ≤ q := h.1
        exfalso
        linarith

/-- **C92** (NAUTILUS Navigator). Accepted are exactly the responses with a passing reference point and speed, boolean
flags and one bound (or None) per objective. -/
theorem C92_response {c : Cfg n k K V} (r : Resp K) :
    validate c r = .ok () ↔
      (∃ q, r.ref = some q ∧ PassingReference c q) ∧ (∃ v, r.speed = some v ∧ PassingSpeed v) ∧
      (∃ b, r.goToPrevious = some (.bool b)) ∧ (∃ ul, r.userBounds = some ul ∧ ul.length = k) ∧
      (∃ b, r.stop = some (.bool b)) := by
  rw [validate_ok_iff]
  have hs : (∃ v z, r.speed = some v ∧ pyInt v = some z ∧ 1 ≤ z ∧ z ≤ 5) ↔
      ∃ v, r.speed = some v ∧ PassingSpeed v := by
    simp only [← pyInt_passing]
    constructor
    · rintro ⟨v, z, h1, h2⟩; exact ⟨v, h1, z, h2⟩
    · rintro ⟨v, h1, z, h2⟩; exact ⟨v, z, h1, h2⟩
  have hr : ∀ ql, (∃ q, broadcast k ql = .ok q ∧ ∀ j x, q j = some x → c.ideal j ≤ x ∧ x ≤ c.nadir j) ↔
      PassingReference c ql := by
    intro ql
    unfold broadcast PassingReference
    by_cases hl : ql.length = k
    · simp only [hl, dif_pos, Except.ok.injEq, exists_eq_left', true_and]
      constructor
      · intro h
        left
        intro j x hx
        exact h j x (by rw [List.getElem?_eq_some_iff] at hx; obtain ⟨_, hx⟩ := hx; exact hx)
      · rintro (h | ⟨a, rfl, h⟩)
        · intro j x hx
          exact h j x (by rw [List.getElem?_eq_some_iff]; exact ⟨_, hx⟩)
        · intro j x hx
          have hj : j.val = 0 := by
            have := j.2
            simp at hl
            omega
          refine h x ?_ j
          simpa [hj] using hx
    · simp only [hl, dif_neg, not_false_iff, false_and, false_or]
      match ql, hl with
      | [a], _ =>
        simp only [Except.ok.injEq, exists_eq_left', List.cons.injEq, and_true]
        constructor
        · intro h x hx j; exact h j x hx
        · intro h j x hx; exact h x hx j
      | [], _ => simp
      | a :: b :: l, _ => simp
  rw [hs]
  constructor
  · rintro ⟨⟨ql, q, h1, h2, h3⟩, h4⟩
    exact ⟨⟨ql, h1, (hr ql).1 ⟨q, h2, h3⟩⟩, h4⟩
  · rintro ⟨⟨ql, h1, h2⟩, h4⟩
    obtain ⟨q, h2, h3⟩ := (hr ql).2 h2
    exact ⟨⟨ql, q, h1, h2, h3⟩, h4⟩

/-- **C92** (NAUTILUS Navigator, refused). A response that is not accepted has no effect. -/
theorem C92_refused_no_effect (c : Cfg n k K V) (s : St n k K) (ct : Content n k K) (r : Resp K)
    (h : validate c r ≠ .ok ()) : ∃ e, answer c s ct r = (s, .error e) := by
  unfold answer
  cases hv : validate c r with
  | error e => exact ⟨e, rfl⟩
  | ok u => exact absurd hv h

example : PassingReference exCfg [none, some 1] ∧ PassingSpeed (.float (29/10)) ∧
    validate exCfg (forwardResp [none, some 1] (.float (29/10)) noB) = .ok () := by
  have h : validate exCfg (forwardResp [none, some 1] (.float (29/10)) noB) = .ok () := eq_of_beq (by decide +kernel)
  obtain ⟨⟨q, hq, h1⟩, ⟨v, hv, h2⟩, _⟩ := (C92_response (c := exCfg) _).1 h
  simp only [forwardResp, Option.some.injEq] at hq hv
  subst hq hv
  exact ⟨h1, h2, h⟩

end Verif.Navigator
