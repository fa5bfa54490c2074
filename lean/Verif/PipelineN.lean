import Verif.Pipeline
import Verif.Directions
import Verif.Nautilus.Reach
import Verif.NautilusV2.Reach

set_option linter.unusedSectionVars false

/-!
# From the problem to NAUTILUS and NAUTILUS 2, C180 and C181

Ideal and nadir are computed with `payoff_table_method` and given to the constructor of `Nautilus` or `NautilusV2`, with a
positive `epsilon`.
-/

namespace Verif.PipelineN

open Solvers (Problem Solver payoff MinimizesEach ParetoSolution Admissible)
open Directions (Args)

variable {K : Type} [Field K] [LinearOrder K] [IsStrictOrderedRing K] {k m : Nat}

/-! ### Specification -/

/-- The problem as `payoff_table_method` sees it: the decision vectors within the bounds, without constraints. -/
def within (S : Side m K) (ev : Vec m K → Vec (k + 1) K) : Problem k {x // S.inBounds x} K where
  obj := fun x => ev x.1
  nCons := 0
  cons := fun _ => []

/-- Specification: the arguments of the constructor have ideal and nadir from the payoff table of the problem, computed with
a solver that finds a minimum of each objective, and a positive `epsilon`; there are no constraints, and no lists are given
except, possibly, one name for each objective. -/
structure FromPayoff (a : Args (k + 1) m K) (S : Side m K) : Prop where
  free : ∀ y, S.inBounds y → S.constraints y
  epsilon : 0 < a.epsilon
  points : ∃ table : Solver {x // S.inBounds x} K, MinimizesEach (within S a.evaluate) table ∧
    payoff (within S a.evaluate) table = (a.ideal, a.nadir)
  names : a.names = none ∨ a.names = some (k + 1)
  minimize : a.minimize = none

/-- Specification: no other vector within the bounds gains very much against `f` by giving up little, as in C177. -/
def Aimable (a : Args (k + 1) m K) (S : Side m K) (rho : K) (f : Vec (k + 1) K) : Prop :=
  ∀ y, S.inBounds y → a.evaluate y ≠ f → ∃ j, f j < a.evaluate y j ∧
    rho * ∑ i, (f i - a.evaluate y i) / (a.nadir i - (a.ideal i - a.epsilon)) <
      (a.evaluate y j - f j) / (a.nadir j - (a.ideal j - a.epsilon))

/-! ### Proofs -/

section
variable {a : Args (k + 1) m K} {S : Side m K}

theorem FromPayoff.range (h : FromPayoff a S) (i : Fin (k + 1)) : a.ideal i - a.epsilon < a.nadir i := by
  obtain ⟨table, _, hp⟩ := h.points
  obtain ⟨_, _, _, hl, _⟩ := Solvers.C61_payoff (within S a.evaluate) table
  rw [hp] at hl
  have h1 : a.ideal i ≤ a.nadir i := hl i
  have := h.epsilon
  linarith

theorem FromPayoff.ideal_le (h : FromPayoff a S) {y : Vec m K} (hy : S.inBounds y) : AtLeastAsGood a.ideal (a.evaluate y) := by
  obtain ⟨table, hex, hp⟩ := h.points
  obtain ⟨_, _, _, _, hlow⟩ := Solvers.C61_payoff (within S a.evaluate) table
  rw [hp] at hlow
  exact fun i => (hlow hex i).2 ⟨y, hy⟩ fun h0 => absurd h0 (by simp [within])

/-- A solution that can be aimed at is Pareto optimal. -/
theorem FromPayoff.optimal (h : FromPayoff a S) {rho : K} {x : Vec m K} (hx : S.inBounds x)
    (hb : Aimable a S rho (a.evaluate x)) : ParetoOptimal S a.evaluate x := by
  refine ⟨⟨hx, h.free x hx⟩, fun y hy hd => ?_⟩
  by_cases he : a.evaluate y = a.evaluate x
  · obtain ⟨_, j, hj⟩ := hd
    rw [he] at hj
    exact lt_irrefl _ hj
  · obtain ⟨j, hj, _⟩ := hb y hy.1 he
    exact absurd (hd.1 j) (not_le.2 hj)

end

/-- **C180, C181** (two objectives). All Pareto optimal solutions lie between the ideal and the nadir computed. -/
theorem C180_two_objectives {a : Args 2 m K} {S : Side m K} (h : FromPayoff a S) {x : Vec m K}
    (hx : ParetoOptimal S a.evaluate x) : InBox a.ideal a.nadir (a.evaluate x) := by
  obtain ⟨table, hex, hp⟩ := h.points
  have hn := (Solvers.C103_two_objectives_partial (within S a.evaluate)).1 table hex ⟨x, hx.1.1⟩
    ⟨fun h0 => absurd h0 (by simp [within]), fun y _ => hx.2 y.1 ⟨y.2, h.free y.1 y.2⟩⟩
  rw [hp] at hn
  exact fun i => ⟨h.ideal_le hx.1.1 i, hn i⟩

/-- **C180** (NAUTILUS). The constructor accepts the points computed. With exact minimizers, in every run with positive ranks
(percentages), the solution in the stop request is Pareto optimal and comes with its objective vector, which is not better
than the ideal computed. And every solution `x` that can be aimed at and is better than the nadir computed in every objective
is Pareto optimal and can be reached: some first answer is accepted, with any number `N` of iterations, and going on with the
same preferences stops after `N` answers with the objective vector of `x`. -/
theorem C180_nautilus {a : Args (k + 1) m K} {S : Side m K} (h : FromPayoff a S) {nrm : Vec (k + 1) K → K}
    (hn : NormSpec nrm) : ∃ c, Directions.nautilus nrm a = .ok c ∧
    (∀ s iss x f, Nautilus.Weighted c (Nautilus.Exact c S) s iss → Nautilus.Req.stop x f ∈ iss →
      ∃ x', x = some x' ∧ f = some (a.evaluate x') ∧ ParetoOptimal S a.evaluate x' ∧
        AtLeastAsGood a.ideal (a.evaluate x')) ∧
    ∀ orc x, Nautilus.Exact c S orc → S.inBounds x → (∀ i, a.evaluate x i < a.nadir i) →
      Aimable a S (1 / 1000000) (a.evaluate x) → ParetoOptimal S a.evaluate x ∧
      ∀ N : Nat, 1 ≤ N → ∃ r s1 q1 y,
        Nautilus.answer c Nautilus.St.init .initial r orc = (s1, .ok (some q1)) ∧ r.nIterations = some (.int N) ∧
        a.evaluate y = a.evaluate x ∧ ∀ os : List (Nautilus.Oracle (k + 1) m K), os.length = N →
          ∃ s', Nautilus.keepRun c os s1 q1 = (s', .ok (some (.stop (some y) (some (a.evaluate x))))) := by
  have hcon : Nautilus.construct (k + 1) (k + 1) a.names (a.minimize.map List.length) = .ok () := by
    rw [h.minimize]
    rcases h.names with e | e <;> rw [e] <;> simp [Nautilus.construct]
  refine ⟨{ ideal := a.ideal, nadir := a.nadir, utopian := Nautilus.utopianOf a.epsilon a.ideal, evaluate := a.evaluate,
            nrm := nrm }, ?_, ?_, ?_⟩
  · unfold Directions.nautilus
    rw [hcon]
  · intro s iss x f hW hx
    obtain ⟨x', e1, e2, e3, _, e4⟩ := Nautilus.C97_optimal_partial h.range hW hx
    exact ⟨x', e1, e2, e4 (h.free x' e3), h.ideal_le e3⟩
  · intro orc x hE hx hf hb
    refine ⟨h.optimal hx hb, fun N hN => ?_⟩
    obtain ⟨p, _, _, hp⟩ := Nautilus.C177_nautilus (P := S) (by exact hn) hE h.range hx hf (by
      rintro g ⟨y, hy, rfl⟩ hne
      exact hb y hy hne)
    obtain ⟨s1, q1, y, e1, e2, e3⟩ := hp Nautilus.St.init N rfl hN
    exact ⟨_, s1, q1, y, e1, rfl, e2, fun os ho => (e3 os).2 ho⟩

/-- **C181** (NAUTILUS 2). If moreover the starting point is nowhere worse than the nadir computed: the constructor accepts
the points; with exact minimizers, in every run, the solution in the stop request is Pareto optimal and comes with its
objective vector, which is not better than the ideal computed; and every solution `x` that can be aimed at and is better than
the starting point in every objective is Pareto optimal and can be reached, as in C180. -/
theorem C181_nautilus2 {a : Args (k + 1) m K} {S : Side m K} (h : FromPayoff a S) (hst : AtLeastAsGood a.start a.nadir)
    {nrm : Vec (k + 1) K → K} (hn : NormSpec nrm) : ∃ c, Directions.nautilusV2 nrm a = .ok c ∧
    (∀ s iss x f, NautilusV2.Smooth c (NautilusV2.Exact c S a.epsilon) s iss → NautilusV2.Req.stop x f ∈ iss →
      ∃ x', x = some x' ∧ f = some (a.evaluate x') ∧ ParetoOptimal S a.evaluate x' ∧
        AtLeastAsGood a.ideal (a.evaluate x')) ∧
    ∀ orc x, NautilusV2.Exact c S a.epsilon orc → S.inBounds x → (∀ i, a.evaluate x i < a.start i) →
      Aimable a S (1 / 100000) (a.evaluate x) → ParetoOptimal S a.evaluate x ∧
      ∀ N : Nat, 1 ≤ N → ∃ r s1 q1 y,
        NautilusV2.answer c NautilusV2.St.init .initial r orc = (s1, .ok (some q1)) ∧ r.nIterations = some (.int N) ∧
        a.evaluate y = a.evaluate x ∧ ∀ os : List (NautilusV2.Oracle (k + 1) m K), os.length = N →
          ∃ s', NautilusV2.keepRun c os s1 q1 = (s', .ok (some (.stop (some y) (some (a.evaluate x))))) := by
  have hall : ((List.range (k + 1)).all fun i => decide (Directions.entry a.nadir i < Directions.entry a.start i)) = false := by
    rw [List.all_eq_false]
    refine ⟨0, by simp, ?_⟩
    rw [decide_eq_true_eq, not_lt]
    exact hst 0
  have hcon : NautilusV2.construct (k + 1) (k + 1) (k + 1) (Directions.entry a.start) (Directions.entry a.nadir) a.names
      (a.minimize.map List.length) = .ok () := by
    rw [h.minimize]
    unfold NautilusV2.construct
    rw [if_neg (by simp), if_neg (by simp), if_neg (by rw [hall]; simp)]
    rcases h.names with e | e <;> rw [e] <;> simp
  refine ⟨{ start := a.start, ideal := a.ideal, nadir := a.nadir, evaluate := a.evaluate, nrm := nrm }, ?_, ?_, ?_⟩
  · unfold Directions.nautilusV2
    rw [hcon]
  · intro s iss x f hW hx
    obtain ⟨x', e1, e2, e3, _, e4⟩ := NautilusV2.C97_optimal_partial h.range hW hx
    exact ⟨x', e1, e2, e4 (h.free x' e3), h.ideal_le e3⟩
  · intro orc x hE hx hf hb
    refine ⟨h.optimal hx hb, fun N hN => ?_⟩
    obtain ⟨p, _, _, hp⟩ := NautilusV2.C178_nautilus2 (P := S) (by exact hn) hE h.range hx hf (by
      rintro g ⟨y, hy, rfl⟩ hne
      exact hb y hy hne)
    obtain ⟨s1, q1, y, e1, e2, e3⟩ := hp NautilusV2.St.init N rfl hN
    exact ⟨_, s1, q1, y, e1, rfl, e2, fun os ho => (e3 os).2 ho⟩

/-! ### Non-vacuity -/

open Nautilus (exSide)

/-- Minimize `x` and `1 - x` for `0 ≤ x ≤ 1`; ideal and nadir are those of the payoff table. -/
def pArgs : Args 2 1 ℚ where
  start := ![3 / 4, 1]
  ideal := ![0, 0]
  nadir := ![1, 1]
  epsilon := 1 / 100
  names := none
  minimize := none
  evaluate := fun x => ![x 0, 1 - x 0]

/-- Finds `0` for the first and `1` for the second objective. -/
def pTable : Solver {x : Vec 1 ℚ // (exSide 1).inBounds x} ℚ := fun _ _ g =>
  (if g ⟨![0], by unfold exSide Nautilus.exFeasible; decide +kernel⟩ ≤ g ⟨![1], by unfold exSide Nautilus.exFeasible; decide +kernel⟩
    then ⟨![0], by unfold exSide Nautilus.exFeasible; decide +kernel⟩
    else ⟨![1], by unfold exSide Nautilus.exFeasible; decide +kernel⟩, true)

theorem pTable_each : MinimizesEach (within (exSide 1) pArgs.evaluate) pTable := by
  intro i n
  refine ⟨fun _ hg => absurd hg (by simp [within, Problem.evaluator]), fun y _ => ?_⟩
  obtain ⟨y, hy0, hy1⟩ := y
  match i with
  | 0 => simpa [within, pTable, pArgs] using hy0
  | 1 =>
    show (1 : ℚ) - (pTable n _ _).1.1 0 ≤ 1 - y 0
    simp only [within, pTable, pArgs]
    norm_num
    exact hy1

theorem p_from : FromPayoff pArgs (exSide 1) where
  free := fun y hy => hy.2
  epsilon := by norm_num [pArgs]
  points := ⟨pTable, pTable_each, eq_of_beq (by decide +kernel)⟩
  names := .inl rfl
  minimize := rfl

theorem p_aimable (rho : ℚ) (x : Vec 1 ℚ) : Aimable pArgs (exSide 1) rho (pArgs.evaluate x) := by
  intro y _ hne
  have hs : ∑ i, (pArgs.evaluate x i - pArgs.evaluate y i) / (pArgs.nadir i - (pArgs.ideal i - pArgs.epsilon)) = 0 := by
    rw [Fin.sum_univ_two]
    simp [pArgs]
    ring
  rw [hs, mul_zero]
  rcases lt_trichotomy (x 0) (y 0) with h | h | h
  · refine ⟨0, by simpa [pArgs] using h, ?_⟩
    simp [pArgs]
    exact div_pos (by linarith) (by norm_num)
  · exact absurd (by simp [pArgs, h]) hne
  · refine ⟨1, by simpa [pArgs] using h, ?_⟩
    simp [pArgs]
    exact div_pos (by linarith) (by norm_num)

example := C180_nautilus p_from (nrm := supNorm) supNorm_spec
example := C181_nautilus2 p_from (by unfold AtLeastAsGood; decide +kernel) (nrm := supNorm) supNorm_spec

/-- NAUTILUS can be led to `1/4` in three iterations, with the exact minimizers of the example. -/
example : ∃ c, Directions.nautilus supNorm pArgs = .ok c ∧ ∃ orc, Nautilus.Exact c (exSide 1) orc ∧
    ParetoOptimal (exSide 1) pArgs.evaluate ![1 / 4] ∧ ∃ r s1 q1 y,
      Nautilus.answer c Nautilus.St.init .initial r orc = (s1, .ok (some q1)) ∧ r.nIterations = some (.int 3) ∧
      pArgs.evaluate y = pArgs.evaluate ![1 / 4] ∧ ∀ os : List (Nautilus.Oracle 2 1 ℚ), os.length = 3 →
        ∃ s', Nautilus.keepRun c os s1 q1 = (s', .ok (some (.stop (some y) (some (pArgs.evaluate ![1 / 4]))))) := by
  obtain ⟨c, hc, _, h⟩ := C180_nautilus p_from (nrm := supNorm) supNorm_spec
  have he : c = Nautilus.exCfg := by
    have : Directions.nautilus supNorm pArgs = .ok Nautilus.exCfg := by
      unfold Directions.nautilus
      have : Nautilus.utopianOf pArgs.epsilon pArgs.ideal = Nautilus.exCfg.utopian := by
        funext i
        match i with
        | 0 => norm_num [Nautilus.utopianOf, pArgs, Nautilus.exCfg]
        | 1 => norm_num [Nautilus.utopianOf, pArgs, Nautilus.exCfg]
      simp only [this]
      rfl
    rw [hc] at this
    cases this
    rfl
  obtain ⟨h1, h2⟩ := h (Nautilus.exExact 1) ![1 / 4] (he ▸ Nautilus.exExact_exact zero_le_one le_rfl)
    (by unfold exSide Nautilus.exFeasible; decide +kernel) (by decide +kernel) (p_aimable _ _)
  exact ⟨c, hc, Nautilus.exExact 1, he ▸ Nautilus.exExact_exact zero_le_one le_rfl, h1, h2 3 (by norm_num)⟩

end Verif.PipelineN
