import Verif.Nimbus.Props3

set_option linter.unusedSectionVars false

/-!
# NIMBUS: C95 (failed calls), C96 (starting over)
-/

namespace Verif.Nimbus

variable {K : Type} [Field K] [LinearOrder K] [IsStrictOrderedRing K] {k m : Nat}

/-! ### C95 -/

/-- **C95** (NIMBUS). In every history, a call that raises - a refused response, a request of the wrong kind
or an exception while solving - leaves the method as it was. -/
theorem C95_failed_call {c : Cfg k m K} {s s' : St k m K} {l : List (Req k m K)} {req : Req k m K} {a : Ans K}
    {orc : Oracle k m K} {e : Err} (h : Reached c s l) (hmem : req ∈ l)
    (ha : answer c s req a orc = (s', .error e)) : s' = s :=
  answer_error (h.inv.aligned _ hmem) ha

example := C95_failed_call ex_reached0 List.mem_cons_self C27_fails_level_below_current.2.2

/-! ### C96 -/

/-- In every history in which the method waits for a classification, the newest request is the one `start`
gives. -/
theorem Reached.classify_head {c : Cfg k m K} {s : St k m K} {l : List (Req k m K)} (h : Reached c s l) :
    s.phase = .classify → l.head? = some (start s) := by
  induction h with
  | init h => intro _; rfl
  | @step s s' l req a orc o hR hmem ha ih =>
    intro hp
    cases o with
    | error e =>
      have := answer_error (hR.inv.aligned _ hmem) ha
      subst this
      exact ih hp
    | ok r =>
      have hs := answer_ok ha
      simp only [issued, List.cons_append, List.nil_append, List.head?_cons, Option.some.injEq]
      generalize hq : r = o at hs
      cases hs <;> subst hq <;> simp_all [start]

/-- **C96** (NIMBUS). `start` does not start over. While the method waits for a classification, `start` gives
the newest request again - it shows the current solution, not the first one; answering it is answering the
newest request. At any other time answering it has no effect: it is refused, or, after the end, returned
unchanged. -/
theorem C96_start_partial {c : Cfg k m K} {s : St k m K} {r0 : Req k m K} {l : List (Req k m K)}
    (h : Reached c s (r0 :: l)) :
    ((∃ f, r0 = .classify f) → s.phase ≠ .ended → start s = r0) ∧
    ((∀ f, r0 ≠ .classify f) → ∀ (a : Ans K) (orc : Oracle k m K), ∃ o,
      answer c s (start s) a orc = (s, o) ∧ ((∃ e, o = .error e) ∨ o = .ok (start s))) := by
  constructor
  · rintro ⟨f, rfl⟩ hne
    have := h.classify_head (h.inv.phase _ _ rfl hne)
    simpa using this.symm
  · intro hf a orc
    have hp : s.phase ≠ .classify := by
      intro hp
      have := h.classify_head hp
      exact hf s.obj (by simpa [start] using this)
    unfold answer
    cases validate c (start s) a with
    | error e => exact ⟨_, rfl, .inl ⟨e, rfl⟩⟩
    | ok u =>
      dsimp only
      unfold iterate
      cases hph : s.phase with
      | classify => exact absurd hph hp
      | ended => exact ⟨_, rfl, .inr rfl⟩
      | archive => exact ⟨_, rfl, .inl ⟨_, rfl⟩⟩
      | intermediate => exact ⟨_, rfl, .inl ⟨_, rfl⟩⟩
      | preferred => exact ⟨_, rfl, .inl ⟨_, rfl⟩⟩

example := C96_start_partial ex_reached0
example := C96_start_partial ex_reached2

/-- Continuing with the second solution of the archive. -/
def exGoOn : Ans ℚ := .preferred ⟨some (.int 1), some (.bool true)⟩
def exT6 : St 2 1 ℚ := (answer exCfg exS5 exR5 exGoOn exOrc).1
theorem ex_goOn : answer exCfg exS5 exR5 exGoOn exOrc = (exT6, .ok (start exT6)) := eq_of_beq (by decide +kernel)

/-- **C96 fails** (NIMBUS). After one round the request `start` gives shows another solution than at the
beginning, and saving no solution then shows the solutions saved in the first round. -/
theorem C96_fails_start : ∃ (s0 s : St 2 1 ℚ) (l : List (Req 2 1 ℚ)) (f0 f : Vec 2 ℚ),
    construct exCfg none (fun _ => none) = .ok s0 ∧ start s0 = .classify f0 ∧ Reached exCfg s l ∧
    start s ∈ l ∧ start s = .classify f ∧ f ≠ f0 ∧ 0 < s.archObjs.length ∧ s0.archObjs = [] :=
  ⟨exS0, exT6, _, exS0.obj, exT6.obj, ex_construct, rfl, .step ex_reached5 List.mem_cons_self ex_goOn,
    List.mem_cons_self, rfl, fun h => absurd (congrFun h 0) (by decide +kernel), by decide +kernel, rfl⟩

end Verif.Nimbus
