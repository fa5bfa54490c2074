import Verif.Rpm.Props

set_option linter.unusedSectionVars false

/-!
# Property C86 for the reference point method: which responses are accepted
-/

namespace Verif

/-- The value is an integer, a truth value or a float, and stands for the number `x`. -/
inductive IsNumber : PyVal → ℚ → Prop
  | int (z : Int) : IsNumber (.int z) z
  | yes : IsNumber (.bool true) 1
  | no : IsNumber (.bool false) 0
  | float (q : ℚ) : IsNumber (.float q) q

variable {K : Type} [Field K] [LinearOrder K] {k : Nat} {X D : Type}

/-- A reference point that may be given: one component per objective, at least one of which is not worse
than the nadir. -/
def GoodReference (nadir : Vec k K) (l : List K) : Prop :=
  l.length = k ∧ ∃ (i : Fin k) (x : K), l[i.val]? = some x ∧ x ≤ nadir i

namespace Rpm

theorem numVal_iff {v : PyVal} {x : ℚ} : numVal v = some x ↔ IsNumber v x := by
  constructor
  · intro h
    cases v with
    | int z => simp only [numVal, Option.some.injEq] at h; subst h; exact .int z
    | bool b =>
      cases b <;> simp only [numVal, Option.some.injEq] at h <;> subst h
      · exact .no
      · exact .yes
    | float q => simp only [numVal, Option.some.injEq] at h; subst h; exact .float q
    | str s => simp [numVal] at h
    | none => simp [numVal] at h
  · intro h
    cases h <;> simp [numVal]

theorem validateIndex_iff {v : PyVal} :
    validateIndex k (some v) = .ok () ↔ ∃ x, numVal v = some x ∧ 0 ≤ x ∧ x ≤ (k : ℚ) := by
  cases v with
  | none => simp [validateIndex, numVal]
  | str s => by_cases h : s = "" <;> simp [validateIndex, numVal, h]
  | int z => simp [validateIndex, numVal]
  | bool b => by_cases h : (0 : ℚ) ≤ (if b = true then 1 else 0) ∧ (if b = true then (1 : ℚ) else 0) ≤ (k : ℚ) <;> simp [validateIndex, numVal, h]
  | float q => by_cases h : 0 ≤ q ∧ q ≤ (k : ℚ) <;> simp [validateIndex, numVal, h]

theorem validateRef_iff (c : Cfg k X D K) (l : List K) :
    validateRef c l = .ok () ↔ GoodReference c.nadir l := by
  unfold validateRef GoodReference
  by_cases h1 : l.length = k
  · rw [if_neg (by simpa using h1)]
    have hx : ∀ i : Fin k, l[i.val]? = some (toVec k l i) := by
      intro i
      have : i.val < l.length := by omega
      simp [toVec, List.getElem?_eq_getElem this]
    by_cases h2 : ∀ i, c.nadir i < toVec k l i
    · rw [if_pos h2]
      simp only [reduceCtorEq, false_iff, not_and, not_exists]
      intro _ i x h3
      rw [hx i, Option.some.injEq] at h3
      rw [not_le, ← h3]
      exact h2 i
    · rw [if_neg h2]
      push Not at h2
      obtain ⟨i, hi⟩ := h2
      exact ⟨fun _ => ⟨h1, i, _, hx i, hi⟩, fun _ => rfl⟩
  · rw [if_pos h1]
    simp [h1]

/-- **C86** (reference point method, first response). Accepted exactly if it has a usable reference point. -/
theorem C86_first_response (c : Cfg k X D K) (r : Resp K) :
    validate c (.initial : Req k X K) r = .ok () ↔ ∃ l, r.ref = some l ∧ GoodReference c.nadir l := by
  simp only [validate, validateInitial]
  cases hl : r.ref with
  | none => simp
  | some l => simp [validateRef_iff]

/-- **C86** (reference point method, later responses). If the decision maker is satisfied, accepted exactly
with an index between 0 and the number of objectives; otherwise exactly with a usable reference point. -/
theorem C86_later_response (c : Cfg k X D K) (f : Vec k K) (a : Fin k → Vec k K) (r : Resp K) :
    validate c (.nav f a : Req k X K) r = .ok () ↔
      (r.satisfied = some true ∧ ∃ v x, r.index = some v ∧ IsNumber v x ∧ 0 ≤ x ∧ x ≤ k) ∨
      (r.satisfied ≠ some true ∧ ∃ l, r.ref = some l ∧ GoodReference c.nadir l) := by
  simp only [validate, validateNav]
  by_cases hs : r.satisfied = some true
  · rw [if_pos hs]
    simp only [hs, true_and, ne_eq, not_true_eq_false, false_and, or_false]
    constructor
    · intro h
      cases hi : r.index with
      | none => rw [hi] at h; simp [validateIndex] at h
      | some v =>
        rw [hi] at h
        obtain ⟨x, hx, h⟩ := validateIndex_iff.1 h
        exact ⟨v, x, rfl, numVal_iff.1 hx, h⟩
    · rintro ⟨v, x, hi, hx, h⟩
      rw [hi]
      exact validateIndex_iff.2 ⟨x, numVal_iff.2 hx, h⟩
  · rw [if_neg hs]
    simp only [hs, false_and, ne_eq, not_false_eq_true, true_and, false_or]
    cases hl : r.ref with
    | none => simp
    | some l => simp [validateRef_iff]

/-- **C86** (reference point method, refused). A response that is not accepted has no effect. -/
theorem C86_refused_no_effect (c : Cfg k X D K) (s : St k X K) (req : Req k X K) (r : Resp K)
    (orc : Oracle k D K) (h : validate c req r ≠ .ok ()) : ∃ e, answer c s req r orc = (s, .error e) := by
  unfold answer
  cases hv : validate c req r with
  | error e => exact ⟨e, rfl⟩
  | ok u => exact absurd hv h

example : validate exCfg (.nav ![-3, -2] ![![-3, -2], ![-3, -2]] : Req 2 _ ℚ)
    { satisfied := some true, index := some (.int 2) } = .ok () :=
  (C86_later_response exCfg _ _ _).2 (.inl ⟨rfl, _, _, rfl, .int 2, by norm_num, by norm_num⟩)

example : validate exCfg (.initial : Req 2 _ ℚ) { ref := some [-1, 100] } = .ok () :=
  (C86_first_response exCfg _).2 ⟨_, rfl, rfl, 0, -1, rfl, by decide +kernel⟩

example : ∃ e, answer exCfg exS2 (.nav ![-3, -2] ![![-3, -2], ![-3, -2]]) { satisfied := some true } exOrc =
    (exS2, .error e) :=
  C86_refused_no_effect _ _ _ _ _ fun h => by
    rcases (C86_later_response exCfg _ _ _).1 h with ⟨_, v, x, hv, _⟩ | ⟨h', _⟩
    · simp at hv
    · simp at h'

end Rpm

end Verif
