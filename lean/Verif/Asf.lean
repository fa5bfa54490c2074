import Verif.Spec
import Mathlib.Data.Finset.Lattice.Fold
import Mathlib.Algebra.BigOperators.Fin
import Mathlib.Algebra.Order.BigOperators.Group.Finset
import Mathlib.Data.Fin.VecNotation
import Mathlib.Data.Fintype.Basic

/-!
# The augmented reference point achievement function

`desdeo_tools.scalarization.ReferencePointASF` (used by Nautilus.py:843, NautilusV2.py:950,
ReferencePointMethod.py:590), from its documentation:
`max_i mu_i (f_i - q_i) + rho * sum_i (f_i - q_i) / (nadir_i - utopian_i)`.
-/

set_option linter.unusedSectionVars false

namespace Verif

variable {K : Type} [Field K] [LinearOrder K] {k : Nat}

/-- The largest component of a nonempty vector. -/
def vmax (v : Vec (k + 1) K) : K := Finset.univ.sup' Finset.univ_nonempty v

/-- `ReferencePointASF(mu, nadir, utopian, rho)(f, q)`. -/
def refPointASF (mu nadir utopian : Vec (k + 1) K) (rho : K) (q f : Vec (k + 1) K) : K :=
  vmax (fun i => mu i * (f i - q i)) + rho * ∑ i, (f i - q i) / (nadir i - utopian i)

theorem vmax_le_iff {v : Vec (k + 1) K} {b : K} : vmax v ≤ b ↔ ∀ i, v i ≤ b := by
  simp [vmax, Finset.sup'_le_iff]

theorem le_vmax (v : Vec (k + 1) K) (i : Fin (k + 1)) : v i ≤ vmax v :=
  Finset.le_sup' v (Finset.mem_univ i)

theorem vmax_mono {u v : Vec (k + 1) K} (h : ∀ i, u i ≤ v i) : vmax u ≤ vmax v :=
  vmax_le_iff.2 fun i => (h i).trans (le_vmax v i)

variable [IsStrictOrderedRing K]

/-- A dominating objective vector has a strictly smaller value, for nonnegative weights. -/
theorem refPointASF_strict {mu nadir utopian : Vec (k + 1) K} {rho : K} {q f g : Vec (k + 1) K}
    (hmu : ∀ i, 0 ≤ mu i) (hr : ∀ i, utopian i < nadir i) (hrho : 0 < rho) (h : Dominates g f) :
    refPointASF mu nadir utopian rho q g < refPointASF mu nadir utopian rho q f := by
  obtain ⟨hle, j, hj⟩ := h
  unfold refPointASF
  have h1 : vmax (fun i => mu i * (g i - q i)) ≤ vmax (fun i => mu i * (f i - q i)) :=
    vmax_mono fun i => mul_le_mul_of_nonneg_left (by have := hle i; linarith) (hmu i)
  have h2 : ∑ i, (g i - q i) / (nadir i - utopian i) < ∑ i, (f i - q i) / (nadir i - utopian i) := by
    apply Finset.sum_lt_sum
    · intro i _
      exact div_le_div_of_nonneg_right (by have := hle i; linarith) (by have := hr i; linarith)
    · exact ⟨j, Finset.mem_univ j, div_lt_div_of_pos_right (by linarith) (by have := hr j; linarith)⟩
  have h3 := mul_lt_mul_of_pos_left h2 hrho
  linarith

/-- An exact minimizer over a feasible set is Pareto optimal. -/
theorem refPointASF_pareto {m : Nat} {ev : Vec m K → Vec (k + 1) K} {F : Vec m K → Prop}
    {mu nadir utopian : Vec (k + 1) K} {rho : K} {q : Vec (k + 1) K} {x : Vec m K}
    (hmu : ∀ i, 0 ≤ mu i) (hr : ∀ i, utopian i < nadir i) (hrho : 0 < rho)
    (hmin : ∀ y, F y → refPointASF mu nadir utopian rho q (ev x) ≤ refPointASF mu nadir utopian rho q (ev y)) :
    ∀ y, F y → ¬ Dominates (ev y) (ev x) := fun y hy hd =>
  absurd (refPointASF_strict hmu hr hrho hd) (not_lt.2 (hmin y hy))

/-- Without the augmentation (`rho = 0`) and with positive weights, an exact minimizer is at least as
good as the reference point whenever some feasible solution is. -/
theorem refPointASF_reaches {m : Nat} {ev : Vec m K → Vec (k + 1) K} {F : Vec m K → Prop}
    {mu nadir utopian : Vec (k + 1) K} {q : Vec (k + 1) K} {x : Vec m K} (hmu : ∀ i, 0 < mu i)
    (hmin : ∀ y, F y → refPointASF mu nadir utopian 0 q (ev x) ≤ refPointASF mu nadir utopian 0 q (ev y))
    (hex : ∃ y, F y ∧ AtLeastAsGood (ev y) q) : AtLeastAsGood (ev x) q := by
  obtain ⟨y, hy, hle⟩ := hex
  have h := hmin y hy
  simp only [refPointASF, zero_mul, add_zero] at h
  have h0 : vmax (fun i => mu i * (ev y i - q i)) ≤ 0 := by
    rw [vmax_le_iff]
    intro i
    have := hle i
    have := hmu i
    nlinarith
  intro i
  have h1 := (vmax_le_iff.1 (h.trans h0)) i
  have := hmu i
  by_contra hc
  push Not at hc
  nlinarith

/-- With the augmentation the code uses (`rho = 1e-6`) this fails, by a small amount: the exact minimizer
over a two point set is worse than a reachable reference point in the first objective. -/
theorem refPointASF_augmented_exceeds :
    ∃ (A B q : Vec 2 ℚ), AtLeastAsGood A q ∧
      refPointASF ![1, 1] ![1, 1] ![0, 0] (1/1000000) q B < refPointASF ![1, 1] ![1, 1] ![0, 0] (1/1000000) q A ∧
      ¬ AtLeastAsGood B q ∧ ¬ Dominates A B ∧ ¬ Dominates B A := by
  refine ⟨![1/2, 1/2], ![1/2 + 1/10000000, 0], ![1/2, 1/2], by decide +kernel, ?_, by decide +kernel,
    by decide +kernel, by decide +kernel⟩
  have hA : vmax (fun i => (![1, 1] : Vec 2 ℚ) i * ((![1/2, 1/2] : Vec 2 ℚ) i - (![1/2, 1/2] : Vec 2 ℚ) i)) = 0 := by
    apply le_antisymm
    · rw [vmax_le_iff]; intro i; simp
    · refine le_trans ?_ (le_vmax _ 0); simp
  have hB : vmax (fun i => (![1, 1] : Vec 2 ℚ) i *
      ((![1/2 + 1/10000000, 0] : Vec 2 ℚ) i - (![1/2, 1/2] : Vec 2 ℚ) i)) ≤ 1/10000000 := by
    rw [vmax_le_iff]
    intro i
    match i with
    | 0 => norm_num
    | 1 => norm_num
  unfold refPointASF
  rw [hA, Fin.sum_univ_two, Fin.sum_univ_two]
  refine lt_of_le_of_lt (add_le_add_left hB _) ?_
  norm_num

end Verif
