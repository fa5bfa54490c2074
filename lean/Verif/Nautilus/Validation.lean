import Verif.Nautilus.Props

set_option linter.unusedSectionVars false

/-!
# Property C85: which responses NAUTILUS and NAUTILUS v2 accept
-/

namespace Verif

variable {K : Type} [Field K] [LinearOrder K] [IsStrictOrderedRing K] {k m : Nat}

/-- A number of iterations that may be given: an integer, at least 1. -/
def GoodNumber (v : PyVal) : Prop := v.isInstanceInt = true ∧ 1 ≤ v.asInt

namespace Nautilus

/-- A preference as NAUTILUS accepts it: at least one entry per objective; ranks none of which is larger than
the number of objectives and not all of which are smaller than 1, or percentages that sum up to 100. -/
def GoodPreference (k : Nat) (r : Resp K) : Prop :=
  ∃ info, r.info = some info ∧ k ≤ info.length ∧
    ((r.method = some 1 ∧ (∃ x ∈ info, 1 ≤ x) ∧ ∀ x ∈ info, x ≤ (k : K)) ∨
     (r.method = some 2 ∧ info.sum = 100))

theorem npMax_iff {l : List K} {mx : K} (h : npMax l = .ok mx) : mx ∈ l ∧ ∀ x ∈ l, x ≤ mx :=
  (npMax_ok_iff _ _).1 h

theorem validatePreferences_iff {r : Resp K} :
    validatePreferences k r = .ok () ↔ GoodPreference k r := by
  constructor
  · intro h
    obtain ⟨meth, info, hm, hi, hlen, h⟩ := validatePreferences_ok h
    refine ⟨info, hi, hlen, ?_⟩
    rcases h with ⟨rfl, mx, hmx, h1, h2⟩ | ⟨rfl, h⟩
    · obtain ⟨h3, h4⟩ := npMax_iff hmx
      exact .inl ⟨hm, ⟨mx, h3, h1⟩, fun x hx => (h4 x hx).trans h2⟩
    · exact .inr ⟨hm, h⟩
  · rintro ⟨info, hi, hlen, h | h⟩
    · obtain ⟨hm, ⟨x, hx, hx1⟩, hall⟩ := h
      unfold validatePreferences
      simp only [hm, hi]
      rw [if_neg (by simp), if_pos trivial, if_neg (by omega)]
      obtain ⟨mx, hmx⟩ : ∃ mx, npMax info = .ok mx := by
        cases info with
        | nil => simp at hx
        | cons a t => exact ⟨_, rfl⟩
      obtain ⟨h3, h4⟩ := npMax_iff hmx
      unfold pyMax
      rw [hmx]
      dsimp only
      rw [if_pos ⟨hx1.trans (h4 x hx), hall mx h3⟩]
    · obtain ⟨hm, hs⟩ := h
      unfold validatePreferences
      simp only [hm, hi]
      rw [if_neg (by simp), if_neg (by simp), if_neg (by omega), if_neg (by simpa using hs)]

/-- **C85** (NAUTILUS, first response). Accepted exactly if it has a usable number of iterations, a usable
preference and no entries that only make sense later. -/
theorem C85_first_response (c : Cfg k m K) (r : Resp K) :
    validate c (.initial : Req k m K) r = .ok () ↔
      (∃ v, r.nIterations = some v ∧ GoodNumber v) ∧ GoodPreference k r ∧
        r.stepBack = none ∧ r.usePrevious = none := by
  simp only [validate, validateInitial]
  rw [← validatePreferences_iff]
  cases hn : r.nIterations with
  | none => simp
  | some v =>
    cases hb : r.stepBack with
    | some b => simp
    | none =>
      cases hu : r.usePrevious with
      | some b => simp
      | none =>
        cases hp : validatePreferences k r with
        | error e => simp
        | ok u => simp [validateN, GoodNumber]

/-- **C85** (NAUTILUS, later responses). Accepted exactly if both flags are there, it does not step back from
the nadir, new preferences - unless the previous ones are kept - are usable, and so is a new number of
iterations, if given. -/
theorem C85_later_response (c : Cfg k m K) {z lo up : Vec k K} {d : Fl K} (r : Resp K) :
    validate c (.nav z lo up d : Req k m K) r = .ok () ↔
      ∃ back prev, r.stepBack = some back ∧ r.usePrevious = some prev ∧
        (back = true → z ≠ c.nadir) ∧ (prev = false → GoodPreference k r) ∧
        ∀ v, r.nIterations = some v → GoodNumber v := by
  simp only [validate, validateNav]
  rw [← validatePreferences_iff]
  have hz : (∀ j, z j = c.nadir j) ↔ z = c.nadir := ⟨fun h => funext h, fun h j => by rw [h]⟩
  have hN : validateN r.nIterations = .ok () ↔ ∀ v, r.nIterations = some v → GoodNumber v := by
    cases hn : r.nIterations with
    | none => simp [validateN]
    | some v => simp [validateN, GoodNumber]
  rw [← hN]
  cases hb : r.stepBack with
  | none => simp
  | some back =>
    cases hu : r.usePrevious with
    | none =>
      cases back
      · simp
      · simp only [true_and]
        split <;> simp
    | some prev =>
      simp only [hz]
      by_cases h1 : back = true ∧ z = c.nadir
      · rw [if_pos h1]
        simp only [reduceCtorEq, false_iff, not_exists]
        rintro b p ⟨hb', _, h3, _⟩
        rw [Option.some.injEq] at hb'
        exact h3 (hb' ▸ h1.1) h1.2
      · rw [if_neg h1]
        have h2 : back = true → z ≠ c.nadir := fun h e => h1 ⟨h, e⟩
        cases prev with
        | true =>
            simp
            exact fun _ => h2
        | false =>
          cases hp : validatePreferences k r with
          | error e => simp
          | ok u =>
            simp
            exact fun _ => h2

/-- **C85** (NAUTILUS, refused). A response that is not accepted has no effect. -/
theorem C85_refused_no_effect (c : Cfg k m K) (s : St k m K) (req : Req k m K) (r : Resp K) (orc : Oracle k m K)
    (h : validate c req r ≠ .ok ()) : ∃ e, answer c s req r orc = (s, .error e) := by
  unfold answer
  cases hv : validate c req r with
  | error e => exact ⟨e, rfl⟩
  | ok u => exact absurd hv h

example : GoodPreference 2 exFirst ∧ validate exCfg (.initial (k := 2) (m := 1)) exFirst = .ok () := by
  have := (C85_first_response exCfg exFirst).1 (by decide +kernel)
  exact ⟨this.2.1, by decide +kernel⟩

end Nautilus

end Verif
