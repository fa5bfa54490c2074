import Verif.Rpm.Props
import Verif.Finish

set_option linter.unusedSectionVars false

/-!
# The decision maker can always finish the reference point method: property C162
-/

namespace Verif.Rpm

variable {K : Type} [Field K] [LinearOrder K] {k : Nat} {X D : Type}

/-- Specification: the response is accepted and answered with the request `q'`. -/
def Next (c : Cfg k X D K) (s : St k X K) (q : Req k X K) (r : Resp K) (orc : Oracle k D K) (s' : St k X K)
    (q' : Req k X K) : Prop :=
  validate c q r = .ok () ∧ answer c s q r orc = (s', .ok (some q'))

/-- Specification: a stop request. -/
def IsStop : Req k X K → Prop
  | .stop .. => True
  | _ => False

theorem finish_nav {c : Cfg k X D K} {G : Oracle k D K → Prop} {s : St k X K} {iss : List (Req k X K)}
    (hR : Reached c G s iss) {f : Vec k K} {a : Fin k → Vec k K} (h : .nav f a ∈ iss) :
    Finishes (Next c) G IsStop s (.nav f a) 1 := by
  have hv : validate c (.nav f a : Req k X K) { satisfied := some true, index := some (.int 0) } = .ok () := by
    simp [validate, validateNav, validateIndex, numVal]
  refine .of_step { satisfied := some true, index := some (.int 0) } fun orc _ => ?_
  rcases hR.current with hcur | ⟨d, e, hx, hf, _⟩
  · exact absurd (hcur _ h) (by simp)
  · refine ⟨s, .stop (some (c.vars d)) (some (c.obj d)), ⟨hv, ?_⟩, .done ?_⟩
    · unfold answer
      rw [hv]
      exact choose_zero (v := .int 0) rfl hx hf
    · trivial

/-- C162 for the reference point method: from every state that can arise, also after refused responses and exceptions,
every issued request can be answered such that a stop request comes after at most two answers. -/
theorem C162_rpm {c : Cfg (k + 1) X D K} {G : Oracle (k + 1) D K → Prop} {s : St (k + 1) X K}
    {iss : List (Req (k + 1) X K)} (hR : Reached c G s iss) {q : Req (k + 1) X K} (h : q ∈ iss) :
    Finishes (Next c) G IsStop s q 2 := by
  cases q with
  | stop x f => exact .done trivial
  | nav f a => exact (finish_nav hR h).mono (by omega)
  | initial =>
    have hv : validate c (.initial : Req (k + 1) X K) { ref := some (List.ofFn c.nadir) } = .ok () := by
      have h0 : ¬ ∀ i, c.nadir i < toVec (k + 1) (List.ofFn c.nadir) i := by
        intro h
        have := h 0
        simp [toVec] at this
      simp only [validate, validateInitial, validateRef, List.length_ofFn]
      rw [if_neg (by simp), if_neg h0]
    refine .of_step { ref := some (List.ofFn c.nadir) } fun orc ho => ?_
    obtain ⟨q, hq⟩ := C70_answered_partial orc hR h hv (by simp)
    obtain ⟨s', o, ha⟩ : ∃ s' o, answer c s .initial { ref := some (List.ofFn c.nadir) } orc = (s', o) := ⟨_, _, rfl⟩
    rw [ha] at hq
    cases hq
    refine ⟨s', q, ⟨hv, ha⟩, ?_⟩
    have hR' : Reached c G s' (q :: iss) := hR.next h ho ha
    have hst := answer_step hR.store ha
    cases hst with
    | initial => exact finish_nav hR' List.mem_cons_self

example := C162_rpm (ex_reached2 (G := Exact exCfg) exOrc_exact) (q := .initial) (by simp)

end Verif.Rpm
