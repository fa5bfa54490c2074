import Verif.PipelineN
import Verif.Rpm.Near

set_option linter.unusedSectionVars false

/-!
# From the problem to the reference point method, C182

Ideal and nadir are computed with `payoff_table_method` and given to the constructor of `ReferencePointMethod`, with a
positive `epsilon`.
-/

namespace Verif.PipelineN

open Solvers (Solver payoff MinimizesEach)
open Directions (Args)

variable {K : Type} [Field K] [LinearOrder K] [IsStrictOrderedRing K] {k m : Nat}

/-- Specification: no other vector within the bounds gains very much, weighted with the absolute values of `f`, against `f`
by giving up little, as in C179. -/
def AimableRef (a : Args (k + 1) m K) (S : Side m K) (f : Vec (k + 1) K) : Prop :=
  ∀ y, S.inBounds y → a.evaluate y ≠ f → ∃ j, f j < a.evaluate y j ∧
    1 / 10000 * ∑ i, (f i - a.evaluate y i) / (a.nadir i - (a.ideal i - a.epsilon)) <
      |f j| * ((a.evaluate y j - f j) / (a.nadir j - (a.ideal j - a.epsilon)))

/-- No Pareto optimal solution is worse than the nadir of the payoff table in all objectives. -/
theorem FromPayoff.not_worse {a : Args (k + 1) m K} {S : Side m K} (h : FromPayoff a S) {x : Vec m K}
    (hx : ParetoOptimal S a.evaluate x) : ∃ i, a.evaluate x i ≤ a.nadir i := by
  obtain ⟨table, hex, hp⟩ := h.points
  obtain ⟨xs, _, _, h3, _⟩ := Solvers.payoff_rows hex
  rw [hp] at h3
  by_contra hc
  push Not at hc
  have hlt : ∀ i, a.evaluate (xs 0).1 i < a.evaluate x i := fun i => (h3 0 i).trans_lt (hc i)
  exact hx.2 (xs 0).1 ⟨(xs 0).2, h.free _ (xs 0).2⟩ ⟨fun i => (hlt i).le, 0, hlt 0⟩

/-- **C182.** The constructor of the reference point method accepts the points computed. With exact minimizers: in every
history without positive components in the reference points, every objective vector shown belongs to a Pareto optimal
solution, and the solution returned is Pareto optimal, with its own objective vector, which is not better than the ideal
computed. And in every history, every solution `x` that can be aimed at and has no positive objective value is Pareto optimal
and reached with the next two answers: its objective vector as reference point, and being satisfied. -/
theorem C182_rpm {a : Args (k + 1) m K} {S : Side m K} (h : FromPayoff a S) {nrm : Vec (k + 1) K → K}
    (hn : NormSpec nrm) : ∃ c, Directions.rpm nrm a = .ok c ∧
    (∀ s iss, Rpm.Nonpos c (Rpm.Solver c S) s iss →
      (∀ f ad, Rpm.Req.nav f ad ∈ iss → (∃ d, f = a.evaluate d ∧ ParetoOptimal S a.evaluate d) ∧
        ∀ i, ∃ d, ad i = a.evaluate d ∧ ParetoOptimal S a.evaluate d) ∧
      ∀ x f, Rpm.Req.stop x f ∈ iss → ∃ d, x = some d ∧ f = some (a.evaluate d) ∧ ParetoOptimal S a.evaluate d ∧
        AtLeastAsGood a.ideal (a.evaluate d)) ∧
    ∀ s iss req x orc, Rpm.Reached c (Rpm.Solver c S) s iss → req ∈ iss → (∀ x f, req ≠ .stop x f) → S.inBounds x →
      (∀ i, a.evaluate x i ≤ 0) → AimableRef a S (a.evaluate x) → Rpm.Solver c S orc →
      ParetoOptimal S a.evaluate x ∧
      ∃ s', Rpm.answer c s req { ref := some (List.ofFn (a.evaluate x)) } orc =
          (s', .ok (some (.nav (a.evaluate x) fun _ => a.evaluate x))) ∧
        ∃ y, S.inBounds y ∧ a.evaluate y = a.evaluate x ∧ ∀ orc', ∃ s'',
          Rpm.answer c s' (.nav (a.evaluate x) fun _ => a.evaluate x) { satisfied := some true, index := some (.int 0) } orc' =
            (s'', .ok (some (.stop (some y) (some (a.evaluate x))))) := by
  have hcon : Rpm.construct (k + 1) (k + 1) a.names (a.minimize.map List.length) = .ok () := by
    rw [h.minimize]
    rcases h.names with e | e <;> rw [e] <;> simp [Rpm.construct]
  refine ⟨{ ideal := a.ideal, nadir := a.nadir, utopian := fun j => a.ideal j - a.epsilon, vars := fun x => x,
            obj := a.evaluate, nrm := nrm }, ?_, ?_, ?_⟩
  · unfold Directions.rpm
    rw [hcon]
  · intro s iss hN
    obtain ⟨h1, h2⟩ := Rpm.C99_unconstrained (P := S) (fun _ => rfl) h.range h.free s iss hN
    refine ⟨h1, fun x f hx => ?_⟩
    obtain ⟨d, e1, e2, e3⟩ := h2 x f hx
    exact ⟨d, e1, e2, e3, h.ideal_le e3.1.1⟩
  · intro s iss req x orc hR hr hns hx hneg hb hE
    have hopt : ParetoOptimal S a.evaluate x := by
      refine ⟨⟨hx, h.free x hx⟩, fun y hy hd => ?_⟩
      by_cases he : a.evaluate y = a.evaluate x
      · obtain ⟨_, j, hj⟩ := hd
        rw [he] at hj
        exact lt_irrefl _ hj
      · obtain ⟨j, hj, _⟩ := hb y hy.1 he
        exact absurd (hd.1 j) (not_le.2 hj)
    exact ⟨hopt, Rpm.C179_rpm (P := S) hn h.range hR hr hns hx hneg (h.not_worse hopt) (by
      rintro g ⟨y, hy, rfl⟩ hne
      exact hb y hy hne) hE⟩

/-- **C188** (from the problem). With ideal and nadir from the payoff table, in every history with exact minimizers, the
objective vector of any Pareto optimal `x` that is not worse than the nadir computed in any objective and has no positive
objective value, given as reference point, makes the method show a Pareto optimal `y` that is in no objective worse than `x` by
more than a ten-thousandth of the range times the number of objectives, divided by the absolute value of the objective, and
being satisfied returns it. -/
theorem C188_from_problem {a : Args (k + 1) m K} {S : Side m K} (h : FromPayoff a S) {nrm : Vec (k + 1) K → K} :
    ∃ c, Directions.rpm nrm a = .ok c ∧
    ∀ s iss req x orc, Rpm.Reached c (Rpm.Solver c S) s iss → req ∈ iss → (∀ x f, req ≠ .stop x f) →
      ParetoOptimal S a.evaluate x → AtLeastAsGood (a.evaluate x) a.nadir → (∀ i, a.evaluate x i ≤ 0) →
      Rpm.Solver c S orc →
      ∃ s' y ad, Rpm.answer c s req { ref := some (List.ofFn (a.evaluate x)) } orc =
          (s', .ok (some (.nav (a.evaluate y) ad))) ∧ ParetoOptimal S a.evaluate y ∧
        (∀ j, |a.evaluate x j| * (a.evaluate y j - a.evaluate x j) ≤
          1 / 10000 * (k + 1 : Nat) * (a.nadir j - (a.ideal j - a.epsilon))) ∧
        ∀ orc', ∃ s'', Rpm.answer c s' (.nav (a.evaluate y) ad) { satisfied := some true, index := some (.int 0) } orc' =
          (s'', .ok (some (.stop (some y) (some (a.evaluate y))))) := by
  have hcon : Rpm.construct (k + 1) (k + 1) a.names (a.minimize.map List.length) = .ok () := by
    rw [h.minimize]
    rcases h.names with e | e <;> rw [e] <;> simp [Rpm.construct]
  refine ⟨{ ideal := a.ideal, nadir := a.nadir, utopian := fun j => a.ideal j - a.epsilon, vars := fun x => x,
            obj := a.evaluate, nrm := nrm }, ?_, ?_⟩
  · unfold Directions.rpm
    rw [hcon]
  · intro s iss req x orc hR hr hns hx hnad hneg hE
    obtain ⟨s', y, ad, h1, hy, hb, h2⟩ := Rpm.C188_rpm (P := S) h.range
      (fun y hy i => by
        have h1 : a.ideal i ≤ a.evaluate y i := h.ideal_le hy i
        have h2 := h.epsilon
        show a.ideal i - a.epsilon ≤ a.evaluate y i
        linarith) hR hr hns hx.1.1 hneg hnad hE
    exact ⟨s', y, ad, h1, ⟨⟨hy, h.free y hy⟩, fun z hz => hb z hz.1⟩, h2⟩

/-! ### Non-vacuity -/

open Rpm (seSide)

/-- Minimize `x - 1` and `-x` for `0 ≤ x ≤ 1`; ideal and nadir are those of the payoff table. -/
def rArgs : Args 2 1 ℚ where
  start := ![0, 0]
  ideal := ![-1, -1]
  nadir := ![0, 0]
  epsilon := 1 / 100
  names := some 2
  minimize := none
  evaluate := fun x => ![x 0 - 1, - x 0]

/-- Finds `0` for the first and `1` for the second objective. -/
def rTable : Solver {x : Vec 1 ℚ // (seSide 1).inBounds x} ℚ := fun _ _ g =>
  (if g ⟨![0], by unfold seSide; decide +kernel⟩ ≤ g ⟨![1], by unfold seSide; decide +kernel⟩
    then ⟨![0], by unfold seSide; decide +kernel⟩ else ⟨![1], by unfold seSide; decide +kernel⟩, true)

theorem rTable_each : MinimizesEach (within (seSide 1) rArgs.evaluate) rTable := by
  intro i n
  refine ⟨fun _ hg => absurd hg (by simp [within, Solvers.Problem.evaluator]), fun y _ => ?_⟩
  obtain ⟨y, hy0, hy1⟩ := y
  match i with
  | 0 =>
    show (rTable n _ _).1.1 0 - 1 ≤ y 0 - 1
    simp only [within, rTable, rArgs]
    norm_num
    exact hy0
  | 1 =>
    show - (rTable n _ _).1.1 0 ≤ - y 0
    simp only [within, rTable, rArgs]
    norm_num
    exact hy1

theorem r_from : FromPayoff rArgs (seSide 1) where
  free := fun y hy => hy.2
  epsilon := by norm_num [rArgs]
  points := ⟨rTable, rTable_each, eq_of_beq (by decide +kernel)⟩
  names := .inr rfl
  minimize := rfl

theorem r_aimable : AimableRef rArgs (seSide 1) (rArgs.evaluate ![1 / 2]) := by
  intro y _ hne
  have hs : ∑ i, (rArgs.evaluate ![1 / 2] i - rArgs.evaluate y i) / (rArgs.nadir i - (rArgs.ideal i - rArgs.epsilon)) = 0 := by
    rw [Fin.sum_univ_two]
    simp [rArgs]
    ring
  rw [hs, mul_zero]
  rcases lt_trichotomy (1 / 2) (y 0) with h | h | h
  · refine ⟨0, ?_, ?_⟩
    · norm_num [rArgs]
      linarith
    · norm_num [rArgs]
      linarith
  · exact absurd (by rw [rArgs]; simp [← h]) hne
  · refine ⟨1, ?_, ?_⟩
    · norm_num [rArgs]
      linarith
    · norm_num [rArgs]
      linarith

example := C182_rpm r_from (nrm := supNorm) supNorm_spec

/-- The first answer may aim at `1/2`. -/
example : ∃ c, Directions.rpm supNorm rArgs = .ok c ∧ ∃ orc, Rpm.Solver c (seSide 1) orc ∧
    ∃ s', Rpm.answer c Rpm.St.init .initial { ref := some (List.ofFn (rArgs.evaluate ![1 / 2])) } orc =
      (s', .ok (some (.nav (rArgs.evaluate ![1 / 2]) fun _ => rArgs.evaluate ![1 / 2]))) := by
  obtain ⟨c, hc, _, h⟩ := C182_rpm r_from (nrm := supNorm) supNorm_spec
  have he : c = Rpm.seCfg := by
    have : Directions.rpm supNorm rArgs = .ok Rpm.seCfg := by
      unfold Directions.rpm
      have : (fun j => rArgs.ideal j - rArgs.epsilon) = Rpm.seCfg.utopian := by
        funext i
        match i with
        | 0 => norm_num [rArgs, Rpm.seCfg]
        | 1 => norm_num [rArgs, Rpm.seCfg]
      simp only [this]
      rfl
    rw [hc] at this
    cases this
    rfl
  subst he
  obtain ⟨_, s', h2, _⟩ := h Rpm.St.init [.initial] .initial ![1 / 2] Rpm.seOrc .init (by simp) (by simp)
    (by unfold seSide; decide +kernel) (by decide +kernel) r_aimable (Rpm.seOrc_solver 1)
  exact ⟨_, hc, Rpm.seOrc, Rpm.seOrc_solver 1, s', h2⟩

example := C188_from_problem r_from (nrm := supNorm)

theorem r_pareto : ParetoOptimal (seSide 1) rArgs.evaluate ![1 / 3] := by
  refine ⟨⟨by unfold seSide; decide +kernel, by unfold seSide; decide +kernel⟩, fun y _ hd => ?_⟩
  obtain ⟨h1, j, hj⟩ := hd
  have e0 : y 0 - 1 ≤ 1 / 3 - 1 := h1 0
  have e1 : - y 0 ≤ - (1 / 3) := h1 1
  match j with
  | 0 =>
    have : y 0 - 1 < 1 / 3 - 1 := hj
    linarith
  | 1 =>
    have : - y 0 < - (1 / 3) := hj
    linarith

end Verif.PipelineN
