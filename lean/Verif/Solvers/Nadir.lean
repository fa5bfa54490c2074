import Verif.Solvers.Props

set_option linter.unusedSectionVars false

/-!
# The nadir of the payoff table, C103
-/

namespace Verif.Solvers

variable {K : Type} [Field K] [LinearOrder K] [IsStrictOrderedRing K] {k : Nat} {X : Type}

/-- No constraint of the problem is breached. -/
def Admissible (P : Problem k X K) (x : X) : Prop := P.nCons > 0 → ∀ c ∈ P.cons x, 0 ≤ c

/-- Admissible, and no admissible solution dominates it. -/
def ParetoSolution (P : Problem k X K) (x : X) : Prop :=
  Admissible P x ∧ ∀ y, Admissible P y → ¬ Dominates (P.obj y) (P.obj x)

/-- The full claim: with a solver that minimizes each objective no Pareto optimal solution is worse than the nadir point in any
objective. -/
def NadirBounds (P : Problem k X K) : Prop :=
  ∀ solve, MinimizesEach P solve → ∀ x, ParetoSolution P x → AtLeastAsGood (P.obj x) (payoff P solve).2

/-- With a solver that minimizes each objective: an admissible minimizer of each objective, whose values the nadir point bounds. -/
theorem payoff_rows {P : Problem k X K} {solve : Solver X K} (h : MinimizesEach P solve) :
    ∃ xs : Fin (k + 1) → X, (∀ i, Admissible P (xs i)) ∧ (∀ i y, Admissible P y → P.obj (xs i) i ≤ P.obj y i) ∧
      (∀ i j, P.obj (xs i) j ≤ (payoff P solve).2 j) ∧ ∀ j, ∃ i, (payoff P solve).2 j = P.obj (xs i) j := by
  obtain ⟨xs, h1, h2, _, h4⟩ := C61_payoff P solve
  refine ⟨xs, fun i => (h4 h i).1, fun i y hy => ?_, fun i j => (h2 j).2 i trivial, fun j => ?_⟩
  · rw [← h1]
    exact (h4 h i).2 y hy
  · obtain ⟨i, _, hi⟩ := (h2 j).1
    exact ⟨i, hi.symm⟩

/-- C103 for two objectives: with a solver that minimizes each objective the nadir point of the payoff table is nowhere better than any
Pareto optimal solution; and if the solutions found for the single objectives are Pareto optimal (an objective may
have several minimizers), it consists of the largest values of the objectives over the Pareto optimal solutions.
Missing: more objectives (`C103_fails`). -/
theorem C103_two_objectives_partial (P : Problem 1 X K) : NadirBounds P ∧
    ∀ solve, MinimizesEach P solve →
      (∀ i x, Admissible P x → P.obj x i = (payoff P solve).1 i → ParetoSolution P x) →
      ∀ j, IsMaxOver (ParetoSolution P) (fun x => P.obj x j) ((payoff P solve).2 j) := by
  have key : NadirBounds P := by
    intro solve h x hx j
    obtain ⟨xs, h1, h2, h3, _⟩ := payoff_rows h
    by_contra hcon
    push Not at hcon
    -- the minimizer of the other objective would dominate
    have hj : ∀ i : Fin 2, i ≠ j → False := by
      intro i hij
      refine hx.2 (xs i) (h1 i) ⟨fun l => ?_, j, (h3 i j).trans_lt hcon⟩
      by_cases hl : l = j
      · subst hl
        exact ((h3 i l).trans_lt hcon).le
      · have : l = i := by omega
        subst this
        exact h2 l x hx.1
    match j with
    | 0 => exact hj 1 (by decide)
    | 1 => exact hj 0 (by decide)
  refine ⟨key, fun solve h hp j => ⟨?_, fun x hx => key solve h x hx j⟩⟩
  obtain ⟨xs, h1, h2, h3, h4⟩ := payoff_rows h
  obtain ⟨i, hi⟩ := h4 j
  refine ⟨xs i, hp i (xs i) (h1 i) ?_, hi.symm⟩
  obtain ⟨ys, e1, _, _, e4⟩ := C61_payoff P solve
  exact le_antisymm (by rw [e1]; exact h2 i _ (e4 h i).1) ((e4 h i).2 _ (h1 i))

/-- Four solutions; the last one is Pareto optimal but worse than the other three in the third objective. -/
def naProblem : Problem 2 (Fin 4) ℚ where
  obj := ![![0, 1, 1], ![1, 0, 1], ![1, 1, 0], ![1/2, 1/2, 2]]
  nCons := 0
  cons := fun _ => []

/-- Three solutions, the last one dominated. -/
def naTie : Problem 1 (Fin 3) ℚ where
  obj := ![![0, 1], ![1, 0], ![0, 5]]
  nCons := 0
  cons := fun _ => []

example : ∃ solve : Solver (Fin 4) ℚ, ExactFor exProblem.evaluator solve ∧ ParetoSolution exProblem 1 ∧
    AtLeastAsGood (exProblem.obj 1) (payoff exProblem solve).2 := by
  obtain ⟨solve, h, _⟩ := exists_exact exProblem.evaluator ⟨0, ex_feasible⟩
  have : ParetoSolution exProblem 1 := by
    unfold ParetoSolution Admissible Dominates AtLeastAsGood
    decide +kernel
  exact ⟨solve, h, this, (C103_two_objectives_partial exProblem).1 solve h.each 1 this⟩

example : ∃ solve : Solver (Fin 4) ℚ, ExactFor exProblem.evaluator solve ∧
    ∀ j, IsMaxOver (ParetoSolution exProblem) (fun x => exProblem.obj x j) ((payoff exProblem solve).2 j) := by
  obtain ⟨solve, h, _⟩ := exists_exact exProblem.evaluator ⟨0, ex_feasible⟩
  obtain ⟨xs, h1, _, _, h4⟩ := C61_payoff exProblem solve
  refine ⟨solve, h, (C103_two_objectives_partial exProblem).2 solve h.each fun i x hx he => ?_⟩
  have hz : (payoff exProblem solve).1 i = 0 := by
    refine le_antisymm ?_ ?_
    · match i with
      | 0 => exact (h4 h.each 0).2 0 (by decide +kernel)
      | 1 => exact (h4 h.each 1).2 2 (by decide +kernel)
    · rw [h1]
      exact (by decide +kernel : ∀ (i : Fin 2) (x : Fin 4), 0 ≤ exProblem.obj x i) i _
  rw [hz] at he
  clear hz
  revert hx he
  revert i x
  unfold ParetoSolution Admissible Dominates AtLeastAsGood
  decide +kernel

/-- C103 fails for three objectives: the minimizers of the objectives are unique, and a Pareto optimal solution is
worse than the nadir point. -/
theorem C103_fails : ¬ NadirBounds naProblem := by
  intro hN
  obtain ⟨solve, h, _⟩ := exists_exact naProblem.evaluator ⟨0, fun g hg => by cases hg⟩
  have hx : ParetoSolution naProblem 3 := by
    unfold ParetoSolution Admissible Dominates AtLeastAsGood
    decide +kernel
  have h2 := hN solve h.each 3 hx 2
  obtain ⟨xs, h3, h4, _, h6⟩ := payoff_rows h.each
  obtain ⟨i, hi⟩ := h6 2
  have h7 := h4 i i.castSucc (by unfold Admissible; simp [naProblem])
  rw [hi] at h2
  clear hi
  generalize xs i = x at h2 h7
  revert h2 h7
  revert x i
  decide +kernel

/-- An exact solver for three solutions that prefers the last one. -/
def naSolve : Solver (Fin 3) ℚ := fun _ _ g =>
  (if g 2 ≤ g 0 ∧ g 2 ≤ g 1 then 2 else if g 0 ≤ g 1 then 0 else 1, true)

/-- Nor is the nadir point attained by Pareto optimal solutions, for two objectives: some exact solver returns a
dominated minimizer. -/
theorem C103_overestimates : ∃ solve : Solver (Fin 3) ℚ, ExactFor naTie.evaluator solve ∧
    (payoff naTie solve).2 = ![1, 5] ∧ ∀ x, ParetoSolution naTie x → naTie.obj x 1 ≤ 1 := by
  refine ⟨naSolve, fun n g => ⟨fun _ hg => by simp [naTie, Problem.evaluator] at hg, fun y _ => ?_⟩, ?_, ?_⟩
  · unfold naSolve
    dsimp only
    split_ifs with h1 h2
    · match y with
      | 0 => exact h1.1
      | 1 => exact h1.2
      | 2 => exact le_rfl
    · match y with
      | 0 => exact le_rfl
      | 1 => exact h2
      | 2 => by_contra hc; exact h1 ⟨by linarith, by linarith⟩
    · match y with
      | 0 => linarith
      | 1 => exact le_rfl
      | 2 => by_contra hc; exact h1 ⟨by linarith, by linarith⟩
  · decide +kernel
  · unfold ParetoSolution Admissible Dominates AtLeastAsGood
    decide +kernel

end Verif.Solvers
