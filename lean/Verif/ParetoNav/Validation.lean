import Verif.ParetoNav.Props2
import Verif.Rpm.Validation
import Std.Data.String.ToInt

set_option linter.unusedSectionVars false

/-!
# Property C86 for Pareto Navigator: which responses are accepted
-/

namespace Verif

variable {K : Type} [Field K] [LinearOrder K] {k : Nat} {X D : Type}

/-- A speed that is accepted: an integer between 1 and 5, also as a string or as `True`, or a float that is
truncated to one. -/
inductive GoodSpeed : PyVal → Prop
  | int (z : Int) : 1 ≤ z → z ≤ 5 → GoodSpeed (.int z)
  | yes : GoodSpeed (.bool true)
  | float (q : ℚ) : 1 ≤ q → q < 6 → GoodSpeed (.float q)
  | str (s : String) (z : Int) : s.toInt? = some z → 1 ≤ z → z ≤ 5 → GoodSpeed (.str s)

namespace ParetoNav

theorem trunc_iff (q : ℚ) : (1 ≤ q.num.tdiv q.den ∧ q.num.tdiv q.den ≤ 5) ↔ 1 ≤ q ∧ q < 6 := by
  have hd : (0 : Int) < q.den := by exact_mod_cast q.den_pos
  have hq : q = (q.num : ℚ) / (q.den : ℚ) := (Rat.num_div_den q).symm
  have hdq : (0 : ℚ) < (q.den : ℚ) := by exact_mod_cast q.den_pos
  have e1 : 1 ≤ q ↔ (q.den : Int) ≤ q.num := by
    conv_lhs => rw [hq]
    rw [le_div_iff₀ hdq, one_mul]
    exact_mod_cast Iff.rfl
  have e2 : q < 6 ↔ q.num < 6 * (q.den : Int) := by
    conv_lhs => rw [hq]
    rw [div_lt_iff₀ hdq]
    exact_mod_cast Iff.rfl
  rw [e1, e2]
  by_cases h0 : 0 ≤ q.num
  · rw [Int.tdiv_eq_ediv_of_nonneg h0]
    constructor
    · rintro ⟨h1, h2⟩
      refine ⟨?_, ?_⟩
      · have := (Int.le_ediv_iff_mul_le hd).1 h1; omega
      · have := (Int.ediv_lt_iff_lt_mul hd).1 (show q.num / (q.den : Int) < 6 by omega); omega
    · rintro ⟨h1, h2⟩
      refine ⟨(Int.le_ediv_iff_mul_le hd).2 (by omega), ?_⟩
      have := (Int.ediv_lt_iff_lt_mul hd).2 h2; omega
  · have hneg : q.num.tdiv q.den ≤ 0 := by
      have h1 : q.num = -(-q.num) := by omega
      rw [h1, Int.neg_tdiv]
      have := Int.tdiv_nonneg (show 0 ≤ -q.num by omega) hd.le
      omega
    constructor
    · rintro ⟨h1, _⟩; omega
    · rintro ⟨h1, _⟩; omega

theorem validateSpeed_iff {v : PyVal} : validateSpeed v = .ok () ↔ GoodSpeed v := by
  have key : ∀ z : Int, (if z = 1 ∨ z = 2 ∨ z = 3 ∨ z = 4 ∨ z = 5 then (.ok () : Except Err Unit)
      else .error .refused) = .ok () ↔ 1 ≤ z ∧ z ≤ 5 := by
    intro z
    split
    · simp; omega
    · simp; omega
  unfold validateSpeed
  cases v with
  | int z =>
    simp only [intOf, key]
    exact ⟨fun h => .int z h.1 h.2, fun h => by cases h; constructor <;> assumption⟩
  | bool b =>
    simp only [intOf, key]
    cases b
    · simp; intro h; cases h
    · simp; exact .yes
  | float q =>
    simp only [intOf, key, trunc_iff]
    exact ⟨fun h => .float q h.1 h.2, fun h => by cases h; constructor <;> assumption⟩
  | str s =>
    simp only [intOf]
    cases hs : s.toInt? with
    | none =>
      simp only [reduceCtorEq, false_iff]
      intro h
      cases h with
      | str _ z h => rw [hs] at h; cases h
    | some z =>
      simp only [key]
      constructor
      · exact fun h => .str s z hs h.1 h.2
      · intro h
        cases h with
        | str _ z' h h1 h2 => rw [hs] at h; cases h; exact ⟨h1, h2⟩
  | none =>
    simp only [intOf, reduceCtorEq, false_iff]
    intro h
    cases h

theorem validateRef_iff (nadir : Vec k K) (l : List K) :
    validateRef nadir l = .ok () ↔ GoodReference nadir l := by
  unfold validateRef GoodReference
  by_cases h1 : l.length = k
  · rw [if_neg (by simpa using h1)]
    have hx : ∀ i : Fin k, l[i.val]? = some (toVec k l i) := by
      intro i
      have : i.val < l.length := by omega
      simp [toVec, List.getElem?_eq_getElem this]
    by_cases h2 : ∀ i, nadir i < toVec k l i
    · rw [if_pos h2]
      simp only [reduceCtorEq, false_iff, not_and, not_exists]
      intro _ i x h3
      rw [hx i, Option.some.injEq] at h3
      rw [not_le, ← h3]
      exact h2 i
    · rw [if_neg h2]
      push Not at h2
      obtain ⟨i, hi⟩ := h2
      exact ⟨fun _ => ⟨h1, i, _, hx i, hi⟩, fun _ => rfl⟩
  · rw [if_pos h1]
    simp [h1]

/-- **C86** (Pareto Navigator, first response). Accepted exactly if it has a valid speed, and either a
preferred solution or a usable reference point but not both. (The preferred solution is not checked.) -/
theorem C86_first_response (lo hi : Vec k K) (sols : List (Vec k K)) (r : Resp K) :
    validate (.initial lo hi sols : Req k X K) r = .ok () ↔
      (∃ v, r.speed = some v ∧ GoodSpeed v) ∧
      ((∃ i, r.preferred = some i ∧ r.ref = none) ∨
       (∃ l, r.ref = some l ∧ r.preferred = none ∧ GoodReference hi l)) := by
  simp only [validate, validateInitial]
  cases hs : r.speed with
  | none =>
    simp only [reduceCtorEq, false_and, exists_false, iff_false]
    split
    · simp
    · split <;> simp
  | some v =>
    simp only [Option.some.injEq, exists_eq_left', ← validateSpeed_iff]
    cases hl : r.ref with
    | none =>
      cases hp : r.preferred with
      | none => simp
      | some i => simp
    | some l =>
      cases hp : r.preferred with
      | some i => simp
      | none =>
        have := validateRef_iff hi l
        cases hv : validateRef hi l with
        | error e => simp [hv] at this; simp [this, hv]
        | ok u => simp [hv] at this; simp [this, hv]

/-- **C86** (Pareto Navigator, later responses). A response that asks for the Pareto optimal solution is
accepted; any other one exactly if the speed, if there is one, is valid, there are not both a reference
point and a classification, a reference point is usable and a classification consists of '<', '>' and '='.
(The number of the classes is not checked.) -/
theorem C86_later_response (c : Option (Cur K)) (lo hi : Vec k K) (r : Resp K) :
    validate (.nav c lo hi : Req k X K) r = .ok () ↔
      r.showSolution = some true ∨
      ((∀ v, r.speed = some v → GoodSpeed v) ∧ (r.ref = none ∨ r.classes = none) ∧
        (∀ l, r.ref = some l → GoodReference hi l) ∧
        ∀ cs, r.classes = some cs → ∀ x ∈ cs, x = "<" ∨ x = ">" ∨ x = "=") := by
  simp only [validate, validateNav]
  have hpref : validatePref hi r = .ok () ↔ (r.ref = none ∨ r.classes = none) ∧
      (∀ l, r.ref = some l → GoodReference hi l) ∧
        ∀ cs, r.classes = some cs → ∀ x ∈ cs, x = "<" ∨ x = ">" ∨ x = "=" := by
    unfold validatePref
    cases hl : r.ref with
    | none =>
      cases hc : r.classes with
      | none => simp
      | some cs =>
        have : cs.all validClass = true ↔ ∀ x ∈ cs, x = "<" ∨ x = ">" ∨ x = "=" := by
          simp only [List.all_eq_true, validClass, Bool.or_eq_true, decide_eq_true_eq, or_assoc]
        by_cases h : cs.all validClass = true
        · simp only [h]; simpa using this.1 h
        · simp only [h, Bool.false_eq_true, if_false, reduceCtorEq, Option.some.injEq, true_or, true_and, false_iff]
          exact fun h' => h (this.2 (h'.2 cs rfl))
    | some l =>
      cases hc : r.classes with
      | none => simp [validateRef_iff]
      | some cs => simp
  rw [← hpref]
  by_cases hs : r.showSolution = some true
  · simp [hs]
  · rw [if_neg hs]
    simp only [hs, false_or]
    cases hv : r.speed with
    | none => simp
    | some v =>
      have := validateSpeed_iff (v := v)
      cases he : validateSpeed v with
      | error e => simp [he] at this; simp [this, he]
      | ok u => simp [he] at this; simp [this, he]

/-- **C86** (Pareto Navigator, refused). A response that is not accepted has no effect. -/
theorem C86_refused_no_effect (P : Prob k X D K) (s : St k X K) (req : Req k X K) (r : Resp K)
    (orc : Oracle k D K) (h : validate req r ≠ .ok ()) :
    ∃ e, answer P s req (some r) orc = (s, .error e) := by
  unfold answer
  simp only
  cases hv : validate req r with
  | error e => exact ⟨e, rfl⟩
  | ok u => exact absurd hv h

example : validate (start exS0) ({ preferred := some 0, speed := some (.float (59/10)) } : Resp ℚ) = .ok () :=
  (C86_first_response _ _ _ _).2 ⟨⟨_, rfl, .float _ (by norm_num) (by norm_num)⟩, .inl ⟨0, rfl, rfl⟩⟩

example : validate (.nav (some (.vec [0, 1])) ![0, 0] ![1, 1] : Req 2 (List ℚ) ℚ)
    { ref := some [1/2, 7], speed := some (.int 5) } = .ok () :=
  (C86_later_response _ _ _ _).2 (.inr ⟨fun v hv => by cases hv; exact .int 5 (by omega) (by omega), .inr rfl,
    fun l hl => by cases hl; exact ⟨rfl, 0, 1/2, rfl, by decide +kernel⟩, by simp⟩)

example : ∃ e, answer exProb exS0 (start exS0) (some { preferred := some 0 }) exOrc = (exS0, .error e) :=
  C86_refused_no_effect _ _ _ _ _ fun h => by
    obtain ⟨⟨v, hv, _⟩, _⟩ := (C86_first_response _ _ _ _).1 h
    simp at hv

/-- C53, C56, a speed given as a string: it passes validation, and then navigation raises `TypeError`. -/
theorem C53_fails_string_speed (P : Prob k X D K) (s : St k X K) (c : Option (Cur K)) (lo hi : Vec k K)
    {r : Resp K} (orc : Oracle k D K) {t : String} (ht : r.speed = some (.str t))
    (hs : r.showSolution ≠ some true) (hv : validate (.nav c lo hi : Req k X K) r = .ok ()) :
    answer P s (.nav c lo hi) (some r) orc = (s, .error .typeError) := by
  unfold answer
  simp only [hv, iterate, handleNav, Option.getD_some]
  rw [if_neg hs]
  simp [setSpeed, ht, calcSpeed]
  rfl

example : answer exProb exS1 (.nav exS1.cur ![0, 0] ![1, 1]) (some { speed := some (.str "3") }) exOrc =
    (exS1, .error .typeError) :=
  C53_fails_string_speed _ _ _ _ _ _ rfl (by simp) ((C86_later_response _ _ _ _).2 (.inr ⟨fun v hv => by
    cases hv; exact .str "3" 3 (Int.toInt?_repr 3) (by omega) (by omega), .inl rfl, by simp, by simp⟩))

end ParetoNav

end Verif
