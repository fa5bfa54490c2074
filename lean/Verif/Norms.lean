import Verif.Spec
import Mathlib.Analysis.Real.Sqrt
import Mathlib.Algebra.BigOperators.Fin
import Mathlib.Algebra.Order.BigOperators.Group.Finset

/-!
# The assumption on `np.linalg.norm` is satisfiable

`euclid` is the norm numpy computes (over the reals); `supNorm` is a rational-valued stand-in that
lets the concrete examples be evaluated.
-/

namespace Verif

/-- `np.linalg.norm` of a real vector. -/
noncomputable def euclid {k : Nat} (v : Vec k ℝ) : ℝ := Real.sqrt (∑ j, v j * v j)

theorem euclid_spec {k : Nat} : NormSpec (euclid (k := k)) where
  nonneg v := Real.sqrt_nonneg _
  eq_zero v := by
    unfold euclid
    rw [Real.sqrt_eq_zero (Finset.sum_nonneg fun j _ => mul_self_nonneg (v j)),
      Finset.sum_eq_zero_iff_of_nonneg (fun j _ => mul_self_nonneg (v j))]
    simp
  homog c v := by
    unfold euclid
    have : ∑ j, c * v j * (c * v j) = c ^ 2 * ∑ j, v j * v j := by
      rw [Finset.mul_sum]
      exact Finset.sum_congr rfl fun j _ => by ring
    rw [this, Real.sqrt_mul (sq_nonneg c), Real.sqrt_sq_eq_abs]
  mono u v h := by
    unfold euclid
    apply Real.sqrt_le_sqrt
    apply Finset.sum_le_sum
    intro j _
    rw [← abs_mul_abs_self (u j), ← abs_mul_abs_self (v j)]
    exact mul_self_le_mul_self (abs_nonneg _) (h j)

/-- The maximum norm, used only in examples. -/
def supNorm {K : Type} [Field K] [LinearOrder K] {k : Nat} (v : Vec k K) : K :=
  (List.ofFn fun j => |v j|).foldl max 0

theorem supNorm_spec {K : Type} [Field K] [LinearOrder K] [IsStrictOrderedRing K] {k : Nat} :
    NormSpec (supNorm (K := K) (k := k)) := by
  have key : ∀ (l : List K) (a b : K), l.foldl max a ≤ b ↔ a ≤ b ∧ ∀ x ∈ l, x ≤ b := by
    intro l
    induction l with
    | nil => simp
    | cons x xs ih => intro a b; rw [List.foldl_cons, ih]; simp [and_assoc]
  have le : ∀ (v : Vec k K) b, supNorm v ≤ b ↔ 0 ≤ b ∧ ∀ j, |v j| ≤ b := by
    intro v b
    unfold supNorm
    rw [key]
    simp [List.mem_ofFn]
  have nonneg : ∀ v : Vec k K, 0 ≤ supNorm v := fun v => ((le v _).1 le_rfl).1
  have comp : ∀ (v : Vec k K) j, |v j| ≤ supNorm v := fun v => ((le v _).1 le_rfl).2
  have zero : ∀ v : Vec k K, supNorm v = 0 ↔ ∀ j, v j = 0 := by
    intro v
    constructor
    · intro h j
      have := comp v j
      rw [h] at this
      exact abs_eq_zero.1 (le_antisymm this (abs_nonneg _))
    · intro h
      exact le_antisymm ((le v 0).2 ⟨le_rfl, fun j => by simp [h j]⟩) (nonneg v)
  have hom_le : ∀ (c : K) (v : Vec k K), supNorm (fun j => c * v j) ≤ |c| * supNorm v := by
    intro c v
    refine (le _ _).2 ⟨mul_nonneg (abs_nonneg _) (nonneg _), fun j => ?_⟩
    rw [abs_mul]
    exact mul_le_mul_of_nonneg_left (comp v j) (abs_nonneg _)
  refine ⟨nonneg, zero, ?_, ?_⟩
  · intro c v
    apply le_antisymm (hom_le c v)
    by_cases hc : c = 0
    · subst hc; simpa using nonneg _
    · have h := hom_le c⁻¹ (fun j => c * v j)
      have e : (fun j => c⁻¹ * (c * v j)) = v := by funext j; field_simp
      rw [e, abs_inv] at h
      have hp : 0 < |c| := abs_pos.2 hc
      calc |c| * supNorm v ≤ |c| * (|c|⁻¹ * supNorm fun j => c * v j) :=
            mul_le_mul_of_nonneg_left h (abs_nonneg _)
        _ = supNorm fun j => c * v j := by field_simp
  · intro u v h
    exact (le _ _).2 ⟨nonneg v, fun j => le_trans (h j) (comp v j)⟩

end Verif
