import Verif.Base

/-!
# Specification: the decision maker can finish
-/

namespace Verif

variable {S Q R O : Type}

/-- Specification: from the state `s` the decision maker, answering the request `q` and then always the last request, can
bring about a stop request with at most `n` answers, whatever the solvers return (as long as they satisfy `good`).
`Next s q r o s' q'`: the response `r` to `q` is accepted and answered with `q'` if the solvers return `o`. -/
inductive Finishes (Next : S → Q → R → O → S → Q → Prop) (good : O → Prop) (stop : Q → Prop) : S → Q → Nat → Prop
  | done {s q n} : stop q → Finishes Next good stop s q n
  | step {s q n} (r : R) (next : O → S × Q) : (∀ o, good o → Next s q r o (next o).1 (next o).2) →
      (∀ o, good o → Finishes Next good stop (next o).1 (next o).2 n) → Finishes Next good stop s q (n + 1)

variable {Next : S → Q → R → O → S → Q → Prop} {good : O → Prop} {stop : Q → Prop}

theorem Finishes.mono {s : S} {q : Q} {n m : Nat} (h : Finishes Next good stop s q n) (hm : n ≤ m) :
    Finishes Next good stop s q m := by
  induction h generalizing m with
  | done h => exact .done h
  | @step s q n r next h1 h2 ih =>
    obtain ⟨m, rfl⟩ : ∃ m', m = m' + 1 := ⟨m - 1, by omega⟩
    exact .step r next h1 fun o ho => ih o ho (by omega)

/-- One answer, if its outcome exists for every outcome of the solvers. -/
theorem Finishes.of_step {s : S} {q : Q} {n : Nat} (r : R)
    (h : ∀ o, good o → ∃ s' q', Next s q r o s' q' ∧ Finishes Next good stop s' q' n) :
    Finishes Next good stop s q (n + 1) := by
  classical
  refine .step r (fun o => if ho : good o then ((h o ho).choose, (h o ho).choose_spec.choose) else (s, q)) ?_ ?_
  · intro o ho
    simp only [dif_pos ho]
    exact (h o ho).choose_spec.choose_spec.1
  · intro o ho
    simp only [dif_pos ho]
    exact (h o ho).choose_spec.choose_spec.2

end Verif
