import Verif.PipelineN
import Verif.Nautilus.Near
import Verif.NautilusV2.Near

set_option linter.unusedSectionVars false

/-!
# From the problem to NAUTILUS and NAUTILUS 2, near any Pareto optimal solution (C189, C190)
-/

namespace Verif.PipelineN

open Directions (Args)

variable {K : Type} [Field K] [LinearOrder K] [IsStrictOrderedRing K] {k m : Nat}

theorem FromPayoff.below {a : Args (k + 1) m K} {S : Side m K} (h : FromPayoff a S) {y : Vec m K} (hy : S.inBounds y)
    (i : Fin (k + 1)) : a.ideal i - a.epsilon ≤ a.evaluate y i := by
  have h1 : a.ideal i ≤ a.evaluate y i := h.ideal_le hy i
  have h2 := h.epsilon
  linarith

/-- **C189** (from the problem, NAUTILUS). With ideal and nadir from the payoff table and exact minimizers, for every Pareto
optimal `x` that is better than the nadir computed in every objective there is a Pareto optimal `y` in no objective worse than
`x` by more than a millionth of the range times the number of objectives, such that some first answer is accepted, with
any number `N` of iterations, and going on with the same preferences stops after `N` answers with `y`. -/
theorem C189_from_problem {a : Args (k + 1) m K} {S : Side m K} (h : FromPayoff a S) {nrm : Vec (k + 1) K → K}
    (hn : NormSpec nrm) : ∃ c, Directions.nautilus nrm a = .ok c ∧
    ∀ orc x, Nautilus.Exact c S orc → ParetoOptimal S a.evaluate x → (∀ i, a.evaluate x i < a.nadir i) →
      ∀ N : Nat, 1 ≤ N → ∃ r s1 q1 y,
        Nautilus.answer c Nautilus.St.init .initial r orc = (s1, .ok (some q1)) ∧ r.nIterations = some (.int N) ∧
        ParetoOptimal S a.evaluate y ∧
        (∀ j, a.evaluate y j ≤ a.evaluate x j +
          1 / 1000000 * (k + 1 : Nat) * (a.nadir j - (a.ideal j - a.epsilon))) ∧
        ∀ os : List (Nautilus.Oracle (k + 1) m K), os.length = N →
          ∃ s', Nautilus.keepRun c os s1 q1 = (s', .ok (some (.stop (some y) (some (a.evaluate y))))) := by
  have hcon : Nautilus.construct (k + 1) (k + 1) a.names (a.minimize.map List.length) = .ok () := by
    rw [h.minimize]
    rcases h.names with e | e <;> rw [e] <;> simp [Nautilus.construct]
  refine ⟨{ ideal := a.ideal, nadir := a.nadir, utopian := Nautilus.utopianOf a.epsilon a.ideal, evaluate := a.evaluate,
            nrm := nrm }, ?_, ?_⟩
  · unfold Directions.nautilus
    rw [hcon]
  · intro orc x hE hx hf N hN
    obtain ⟨p, _, _, hp⟩ := Nautilus.C189_nautilus (P := S) (by exact hn) hE h.range hx.1.1 hf fun z hz i => h.below hz i
    obtain ⟨s1, q1, y, e1, e2, e3, e4, e5⟩ := hp Nautilus.St.init N rfl hN
    exact ⟨_, s1, q1, y, e1, rfl, ⟨⟨e2, h.free y e2⟩, fun z hz => e3 z hz.1⟩, e4, fun os ho => (e5 os).2 ho⟩

/-- **C190** (from the problem, NAUTILUS 2). If moreover the starting point is nowhere worse than the nadir computed, the same
holds for NAUTILUS 2 and every Pareto optimal `x` that is better than the starting point in every objective, with a
hundred-thousandth instead of a millionth. -/
theorem C190_from_problem {a : Args (k + 1) m K} {S : Side m K} (h : FromPayoff a S) (hst : AtLeastAsGood a.start a.nadir)
    {nrm : Vec (k + 1) K → K} (hn : NormSpec nrm) : ∃ c, Directions.nautilusV2 nrm a = .ok c ∧
    ∀ orc x, NautilusV2.Exact c S a.epsilon orc → ParetoOptimal S a.evaluate x → (∀ i, a.evaluate x i < a.start i) →
      ∀ N : Nat, 1 ≤ N → ∃ r s1 q1 y,
        NautilusV2.answer c NautilusV2.St.init .initial r orc = (s1, .ok (some q1)) ∧ r.nIterations = some (.int N) ∧
        ParetoOptimal S a.evaluate y ∧
        (∀ j, a.evaluate y j ≤ a.evaluate x j +
          1 / 100000 * (k + 1 : Nat) * (a.nadir j - (a.ideal j - a.epsilon))) ∧
        ∀ os : List (NautilusV2.Oracle (k + 1) m K), os.length = N →
          ∃ s', NautilusV2.keepRun c os s1 q1 = (s', .ok (some (.stop (some y) (some (a.evaluate y))))) := by
  have hall : ((List.range (k + 1)).all fun i => decide (Directions.entry a.nadir i < Directions.entry a.start i)) = false := by
    rw [List.all_eq_false]
    refine ⟨0, by simp, ?_⟩
    rw [decide_eq_true_eq, not_lt]
    exact hst 0
  have hcon : NautilusV2.construct (k + 1) (k + 1) (k + 1) (Directions.entry a.start) (Directions.entry a.nadir) a.names
      (a.minimize.map List.length) = .ok () := by
    rw [h.minimize]
    unfold NautilusV2.construct
    rw [if_neg (by simp), if_neg (by simp), if_neg (by rw [hall]; simp)]
    rcases h.names with e | e <;> rw [e] <;> simp
  refine ⟨{ start := a.start, ideal := a.ideal, nadir := a.nadir, evaluate := a.evaluate, nrm := nrm }, ?_, ?_⟩
  · unfold Directions.nautilusV2
    rw [hcon]
  · intro orc x hE hx hf N hN
    obtain ⟨p, _, _, hp⟩ := NautilusV2.C190_nautilus2 (P := S) (by exact hn) hE h.range hx.1.1 hf
      (fun i => (hf i).le.trans (hst i)) fun z hz i => h.below hz i
    obtain ⟨s1, q1, y, e1, e2, e3, e4, e5⟩ := hp NautilusV2.St.init N rfl hN
    exact ⟨_, s1, q1, y, e1, rfl, ⟨⟨e2, h.free y e2⟩, fun z hz => e3 z hz.1⟩, e4, fun os ho => (e5 os).2 ho⟩

/-! ### Non-vacuity -/

example := C189_from_problem p_from (nrm := supNorm) supNorm_spec
example := C190_from_problem p_from (by unfold AtLeastAsGood; decide +kernel) (nrm := supNorm) supNorm_spec

/-- The solution `1/4` of the example is Pareto optimal and better than the nadir in both objectives. -/
example : ParetoOptimal (Nautilus.exSide 1) pArgs.evaluate ![1 / 4] ∧ ∀ i, pArgs.evaluate ![1 / 4] i < pArgs.nadir i := by
  refine ⟨⟨⟨by unfold Nautilus.exSide Nautilus.exFeasible; decide +kernel,
    by unfold Nautilus.exSide; decide +kernel⟩, fun y _ hd => ?_⟩, by decide +kernel⟩
  obtain ⟨h1, j, hj⟩ := hd
  have e0 : y 0 ≤ 1 / 4 := h1 0
  have e1 : 1 - y 0 ≤ 1 - 1 / 4 := h1 1
  match j with
  | 0 =>
    have : y 0 < 1 / 4 := hj
    linarith
  | 1 =>
    have : 1 - y 0 < 1 - 1 / 4 := hj
    linarith

end Verif.PipelineN
