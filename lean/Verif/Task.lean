import Verif.Asf

set_option linter.unusedSectionVars false

/-!
# Scalar optimization problems handed to the external minimizers

`desdeo_tools.solver.ScalarMinimizer` gets a scalarized objective, bounds of the variables and, optionally,
constraints. The minimizer itself is external; `Solves` says what an exact one returns.
-/

namespace Verif

/-- A scalar optimization problem: the value to be minimized (`none` if it is not a number) and the decision
vectors that are admitted. -/
structure Task (m : Nat) (K : Type) where
  value : Vec m K → Option K
  admits : Vec m K → Prop

/-- `x` is an exact solution of the problem. -/
def Solves {m : Nat} {K : Type} [LinearOrder K] (x : Vec m K) (t : Task m K) : Prop :=
  t.admits x ∧ ∀ y, t.admits y → ∀ b, t.value y = some b → ∃ a, t.value x = some a ∧ a ≤ b

/-- What the library knows about a problem besides its objectives: the bounds of the variables and the
constraints. -/
structure Side (m : Nat) (K : Type) where
  inBounds : Vec m K → Prop
  constraints : Vec m K → Prop

/-- `x` is feasible. -/
def Side.feasible {m : Nat} {K : Type} (P : Side m K) (x : Vec m K) : Prop := P.inBounds x ∧ P.constraints x

/-- `x` is feasible and no feasible vector dominates it. -/
def ParetoOptimal {m k : Nat} {K : Type} [LinearOrder K] (P : Side m K) (ev : Vec m K → Vec k K) (x : Vec m K) :
    Prop := P.feasible x ∧ ∀ y, P.feasible y → ¬ Dominates (ev y) (ev x)

variable {K : Type} [Field K] [LinearOrder K] [IsStrictOrderedRing K] {k m : Nat}

theorem vmax_two (v : Vec 2 K) : vmax v = max (v 0) (v 1) := by
  apply le_antisymm
  · rw [vmax_le_iff]
    intro i
    match i with
    | 0 => exact le_max_left _ _
    | 1 => exact le_max_right _ _
  · exact max_le (le_vmax v 0) (le_vmax v 1)

/-- An exact minimizer of the achievement function is worse than a reachable reference point at most by the
augmentation term. -/
theorem refPointASF_near {ev : Vec m K → Vec (k + 1) K} {F : Vec m K → Prop}
    {mu nadir utopian : Vec (k + 1) K} {rho : K} {q : Vec (k + 1) K} {x : Vec m K} (hmu : ∀ i, 0 < mu i)
    (hr : ∀ i, utopian i < nadir i) (hrho : 0 ≤ rho)
    (hmin : ∀ y, F y → refPointASF mu nadir utopian rho q (ev x) ≤ refPointASF mu nadir utopian rho q (ev y))
    (hex : ∃ y, F y ∧ AtLeastAsGood (ev y) q) (i : Fin (k + 1)) :
    mu i * (ev x i - q i) ≤ rho * ∑ j, (q j - ev x j) / (nadir j - utopian j) := by
  obtain ⟨y, hy, hle⟩ := hex
  have h := hmin y hy
  unfold refPointASF at h
  have h0 : vmax (fun i => mu i * (ev y i - q i)) ≤ 0 := by
    rw [vmax_le_iff]
    intro i
    have := hle i
    have := hmu i
    nlinarith
  have h1 : ∑ j, (ev y j - q j) / (nadir j - utopian j) ≤ 0 := by
    apply Finset.sum_nonpos
    intro j _
    exact div_nonpos_of_nonpos_of_nonneg (by have := hle j; linarith) (by have := hr j; linarith)
  have h2 : rho * ∑ j, (ev y j - q j) / (nadir j - utopian j) ≤ 0 := mul_nonpos_of_nonneg_of_nonpos hrho h1
  have h3 := le_vmax (fun i => mu i * (ev x i - q i)) i
  have h4 : ∑ j, (q j - ev x j) / (nadir j - utopian j) = - ∑ j, (ev x j - q j) / (nadir j - utopian j) := by
    rw [← Finset.sum_neg_distrib]
    exact Finset.sum_congr rfl fun j _ => by rw [← neg_div, neg_sub]
  rw [h4, mul_neg]
  linarith

/-- The same, in the ranges: if moreover the reference point is not worse than the nadir point and the found
solution not better than the utopian point, the augmentation term is at most `rho` times the number of
objectives. -/
theorem refPointASF_near_range {ev : Vec m K → Vec (k + 1) K} {F : Vec m K → Prop}
    {mu nadir utopian : Vec (k + 1) K} {rho : K} {q : Vec (k + 1) K} {x : Vec m K} (hmu : ∀ i, 0 < mu i)
    (hr : ∀ i, utopian i < nadir i) (hrho : 0 ≤ rho)
    (hmin : ∀ y, F y → refPointASF mu nadir utopian rho q (ev x) ≤ refPointASF mu nadir utopian rho q (ev y))
    (hex : ∃ y, F y ∧ AtLeastAsGood (ev y) q) (hq : AtLeastAsGood q nadir) (hx : AtLeastAsGood utopian (ev x))
    (i : Fin (k + 1)) : mu i * (ev x i - q i) ≤ rho * (k + 1) := by
  refine (refPointASF_near hmu hr hrho hmin hex i).trans (mul_le_mul_of_nonneg_left ?_ hrho)
  calc ∑ j, (q j - ev x j) / (nadir j - utopian j) ≤ ∑ _j : Fin (k + 1), (1 : K) := by
        apply Finset.sum_le_sum
        intro j _
        rw [div_le_one (by have := hr j; linarith)]
        have := hq j
        have := hx j
        linarith
    _ = k + 1 := by simp

end Verif
