import Verif.ENautilus.History

/-!
# E-NAUTILUS: which responses are accepted (C92)
-/

set_option linter.unusedSectionVars false

namespace Verif.ENautilus

variable {K V : Type} [Field K] [LinearOrder K] [IsStrictOrderedRing K] {n k : Nat}

/-- A positive Python integer; `True` counts as the integer one. -/
def PositiveInt (v : PyVal) : Prop := (∃ z : Int, v = .int z ∧ 1 ≤ z) ∨ v = .bool true

/-- **C92** (E-NAUTILUS, first response). Accepted are exactly the responses with two positive integers. -/
theorem C92_first_response (r : InitResp) :
    validateInitial r = .ok () ↔
      ∃ a b, r.nIterations = some a ∧ PositiveInt a ∧ r.nPoints = some b ∧ PositiveInt b := by
  have key : ∀ v : PyVal, ¬ ((!v.isInstanceInt || decide (v.asInt < 1)) = true) ↔ PositiveInt v := by
    intro v
    cases v with
    | bool b => cases b <;> simp [PyVal.isInstanceInt, PyVal.asInt, PositiveInt]
    | int z =>
      simp only [PyVal.isInstanceInt, PyVal.asInt, PositiveInt, Bool.not_true, Bool.false_or,
        PyVal.int.injEq, reduceCtorEq, or_false, exists_eq_left']
      by_cases h : z < 1
      · simp only [h]
        simp
        omega
      · simp only [h]
        simp
        omega
    | _ => simp [PyVal.isInstanceInt, PyVal.asInt, PositiveInt]
  unfold validateInitial
  cases h1 : r.nIterations with
  | none => simp
  | some a =>
    cases h2 : r.nPoints with
    | none => simp
    | some b =>
      simp only [Option.some.injEq, ← key]
      by_cases ha : (!a.isInstanceInt || decide (a.asInt < 1)) = true
      · simp only [ha, if_true]
        simp [ha]
      · by_cases hb : (!b.isInstanceInt || decide (b.asInt < 1)) = true
        · simp only [ha, hb, if_true]
          simp [hb]
        · simp only [ha, hb]
          simp [ha, hb]

/-- The largest index the validator lets pass: the number of shown points, or the number of objectives if a
single point is shown. -/
def lastAccepted (ct : Content k K) : Nat := if ct.points.length = 1 then k else ct.points.length

/-- **C92** (E-NAUTILUS, later responses). For every request the method can issue, accepted are exactly the
responses with the three required entries that, if they do not step back, have an index from zero to
`lastAccepted` and, if the number of iterations is to be changed, a new number, and that, if they step back,
carry the data of the iteration to return to. -/
theorem C92_later_response {c : Cfg n k K V} {s : St n k K} {iss : List (Content k K)} (h : Lived c s iss)
    {ct : Content k K} (hct : ct ∈ iss) (r : Resp k K) :
    validate ct r = .ok () ↔
      ∃ i back change, r.preferredIndex = some i ∧ r.stepBack = some back ∧ r.changeRemaining = some change ∧
        (back = false → 0 ≤ i ∧ i ≤ lastAccepted ct ∧ (change = true → r.iterationsLeft ≠ none)) ∧
        (back = true → r.prevSolutions ≠ none ∧ r.prevLower ≠ none ∧ r.prevUpper ≠ none ∧
          r.iterationsLeft ≠ none ∧ r.prevDistances ≠ none) := by
  obtain ⟨mx, hmx⟩ := (h.proper ct hct).len
  have hmx' : mx = lastAccepted ct := by
    unfold maxIndex at hmx
    unfold lastAccepted
    split at hmx
    · split at hmx <;> simp_all
    · simp_all
  unfold validate
  rw [hmx, hmx']
  cases h1 : r.preferredIndex with
  | none => simp
  | some i =>
    cases h2 : r.stepBack with
    | none => simp
    | some back =>
      cases h3 : r.changeRemaining with
      | none => simp
      | some change =>
        cases back with
        | false =>
          by_cases hi : i < 0 ∨ i > (lastAccepted ct : Int)
          · simp only [Bool.not_false, if_true, hi]
            simp
            omega
          · cases change <;> cases h4 : r.iterationsLeft <;> simp [hi] <;> omega
        | true =>
          cases h5 : r.prevSolutions <;> cases h6 : r.prevLower <;> cases h7 : r.prevUpper <;>
            cases h8 : r.iterationsLeft <;> cases h9 : r.prevDistances <;> simp

/-- **C92** (E-NAUTILUS, refused). A response that is not accepted has no effect. -/
theorem C92_refused_no_effect (c : Cfg n k K V) (s : St n k K) (ct : Content k K) (r : Resp k K) (km : KMeans k K)
    (h : validate ct r ≠ .ok ()) : ∃ e, answer c s ct r km = (s, .error e) := by
  unfold answer
  cases hv : validate ct r with
  | error e => exact ⟨e, rfl⟩
  | ok u => exact absurd hv h

example := C92_first_response exInit
example := C92_later_response ex_lived1 List.mem_cons_self (chooseResp 2)
example := C92_refused_no_effect exCfg exS0 exCt0 (chooseResp 4) noKm
  (fun h => absurd (congrArg (fun x => x == .ok ()) h) (by decide +kernel))

end Verif.ENautilus
