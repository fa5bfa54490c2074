import Verif.Rounding
import Mathlib.Tactic.Ring
import Mathlib.Tactic.GCongr

set_option linter.unusedSectionVars false

/-! Composition of relative rounding errors, used by the `Rounded` files. -/

namespace Verif

variable {K : Type} [Field K] [LinearOrder K]

/-- `x` is `y` up to a relative error of `n` roundings. -/
def Approx (u : K) (n : Nat) (x y : K) : Prop := |x - y| ≤ ((1 + u) ^ n - 1) * |y|

section
variable [IsStrictOrderedRing K] {u : K} {rnd : K → K}

theorem Approx.abs_le {n : Nat} {x y : K} (h : Approx u n x y) : |x| ≤ (1 + u) ^ n * |y| := by
  unfold Approx at h
  have := abs_sub_abs_le_abs_sub x y
  linarith

theorem Approx.round {n : Nat} {x y : K} (hr : IsRounding u rnd) (hu : 0 ≤ u) (h : Approx u n x y) :
    Approx u (n + 1) (rnd x) y := by
  have h1 := hr.close x
  have h2 := h.abs_le
  have h3 : |rnd x - y| ≤ |rnd x - x| + |x - y| := abs_sub_le _ _ _
  have h4 : u * |x| ≤ u * ((1 + u) ^ n * |y|) := mul_le_mul_of_nonneg_left h2 hu
  unfold Approx at h ⊢
  rw [pow_succ]
  nlinarith

theorem approx_refl (x : K) : Approx u 0 x x := by simp [Approx]

theorem Approx.mul_left {n : Nat} {x y : K} (c : K) (h : Approx u n x y) : Approx u n (c * x) (c * y) := by
  unfold Approx at h ⊢
  rw [← mul_sub, abs_mul, abs_mul]
  have := mul_le_mul_of_nonneg_left h (abs_nonneg c)
  linarith

theorem Approx.mul {n l : Nat} {x y x' y' : K} (hu : 0 ≤ u) (h : Approx u n x y) (h' : Approx u l x' y') :
    Approx u (n + l) (x * x') (y * y') := by
  have h1 := h.abs_le
  have h2 : |x * x' - y * y'| ≤ |x * x' - x * y'| + |x * y' - y * y'| := abs_sub_le _ _ _
  rw [← mul_sub, ← sub_mul, abs_mul, abs_mul] at h2
  unfold Approx at h h' ⊢
  have hp : 0 ≤ (1 + u) ^ l - 1 := by
    have : (1 : K) ≤ (1 + u) ^ l := one_le_pow₀ (by linarith)
    linarith
  have h3 : |x| * |x' - y'| ≤ ((1 + u) ^ n * |y|) * (((1 + u) ^ l - 1) * |y'|) :=
    mul_le_mul h1 h' (abs_nonneg _) (by positivity)
  have h4 : |x - y| * |y'| ≤ (((1 + u) ^ n - 1) * |y|) * |y'| := mul_le_mul_of_nonneg_right h (abs_nonneg _)
  rw [abs_mul, pow_add]
  nlinarith

theorem IsRounding.nonpos (hr : IsRounding u rnd) {x : K} (hx : x ≤ 0) : rnd x ≤ 0 := by
  rw [← hr.zero]; exact hr.mono _ _ hx

end

end Verif
