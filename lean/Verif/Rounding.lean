import Verif.Base
import Mathlib.Data.Int.Log
import Mathlib.Data.Rat.Floor
import Mathlib.Algebra.Order.Floor.Ring

/-!
# Rounded arithmetic

The other models compute exactly. The library computes with IEEE doubles: every arithmetic operation
returns the exact result, rounded. Here a *rounding* is a function with the properties that every IEEE
rounding mode has (as long as nothing overflows or underflows), and `double` is the concrete rounding of
numpy's `float64`: 53 significant bits, to nearest, ties to even.
-/

namespace Verif

variable {K : Type} [Field K] [LinearOrder K]

/-- What is used of a rounding: it is monotone, leaves machine numbers unchanged, 0 and 1 are machine
numbers, and the relative error is at most `u`. -/
structure IsRounding (u : K) (rnd : K → K) : Prop where
  mono : ∀ x y, x ≤ y → rnd x ≤ rnd y
  idem : ∀ x, rnd (rnd x) = rnd x
  zero : rnd 0 = 0
  one : rnd 1 = 1
  close : ∀ x, |rnd x - x| ≤ u * |x|

/-- `x` is a machine number: storing it does not change it. -/
def Machine (rnd : K → K) (x : K) : Prop := rnd x = x

/-- Every entry of a vector is a machine number. -/
def MachineVec {k : Nat} (rnd : K → K) (v : Vec k K) : Prop := ∀ j, Machine rnd (v j)

omit [LinearOrder K] in
/-- The expression `((h - 1) / h) * p + (1 / h) * z` with every operation rounded: ENautilus.py:410-412,
NautilusNavigator.py:572-575, Nautilus.py:868 and NautilusV2.py:980 (`h - 1` is an exact integer). -/
def stepTo (rnd : K → K) (h p z : K) : K :=
  rnd (rnd (rnd ((h - 1) / h) * p) + rnd (rnd (1 / h) * z))

/-- A double that is stored: only numbers are rounded. -/
def flRound (rnd : K → K) : Fl K → Fl K
  | .num x => .num (rnd x)
  | .nan => .nan
  | .pinf => .pinf
  | .ninf => .ninf

omit [Field K] [LinearOrder K] in
theorem flRound_id (x : Fl K) : flRound id x = x := by cases x <;> rfl

/-- What is used of the computed norm: it is zero only for the zero vector. -/
structure Definite {k : Nat} (nrm : Vec k K → K) : Prop where
  nonneg : ∀ v, 0 ≤ nrm v
  eq_zero : ∀ v, nrm v = 0 ↔ ∀ j, v j = 0

/-! ## General facts -/

section
variable [IsStrictOrderedRing K] {u : K} {rnd : K → K}

/-- Exact arithmetic is a rounding. -/
theorem isRounding_id : IsRounding (0 : K) (id : K → K) :=
  ⟨fun _ _ h => h, fun _ => rfl, rfl, rfl, fun x => by simp⟩

omit [LinearOrder K] [IsStrictOrderedRing K] in
theorem stepTo_id (h p z : K) : stepTo id h p z = ((h - 1) / h) * p + (1 / h) * z := rfl

omit [IsStrictOrderedRing K] in
theorem IsRounding.nonneg (hr : IsRounding u rnd) {x : K} (hx : 0 ≤ x) : 0 ≤ rnd x := by
  rw [← hr.zero]; exact hr.mono _ _ hx

omit [IsStrictOrderedRing K] in
/-- The last step is exact: nothing is lost by rounding. -/
theorem stepTo_one (hr : IsRounding u rnd) (p z : K) (hz : Machine rnd z) :
    stepTo rnd 1 p z = z := by
  unfold stepTo
  simp only [sub_self, hr.zero, zero_mul, div_one, hr.one, one_mul, zero_add]
  rw [hr.idem]; exact hz

/-- A rounded step is monotone in both of its end points. -/
theorem stepTo_mono (hr : IsRounding u rnd) {h p p' z z' : K} (hh : 1 ≤ h) (hp : p ≤ p')
    (hz : z ≤ z') : stepTo rnd h p z ≤ stepTo rnd h p' z' := by
  have h0 : (0 : K) < h := lt_of_lt_of_le one_pos hh
  have ha : 0 ≤ rnd ((h - 1) / h) := hr.nonneg (div_nonneg (by linarith) h0.le)
  have hb : 0 ≤ rnd (1 / h) := hr.nonneg (by positivity)
  exact hr.mono _ _ (add_le_add (hr.mono _ _ (mul_le_mul_of_nonneg_left hp ha))
    (hr.mono _ _ (mul_le_mul_of_nonneg_left hz hb)))

omit [IsStrictOrderedRing K] in
/-- The result is a machine number. -/
theorem stepTo_machine (hr : IsRounding u rnd) (h p z : K) : Machine rnd (stepTo rnd h p z) :=
  hr.idem _

/-- Relative errors of two successive roundings. -/
theorem IsRounding.close_mul (hr : IsRounding u rnd) (hu : 0 ≤ u) (a p : K) :
    |rnd (rnd a * p) - a * p| ≤ ((1 + u) ^ 2 - 1) * |a * p| := by
  have h1 := hr.close (rnd a * p)
  have h2 := hr.close a
  have h3 : |rnd a * p - a * p| ≤ u * |a * p| := by
    rw [← sub_mul, abs_mul, abs_mul, ← mul_assoc]
    exact mul_le_mul_of_nonneg_right h2 (abs_nonneg _)
  have h4 : |rnd a * p| ≤ (1 + u) * |a * p| := by
    have := abs_sub_abs_le_abs_sub (rnd a * p) (a * p)
    linarith
  have h5 : |rnd (rnd a * p) - a * p| ≤ |rnd (rnd a * p) - rnd a * p| + |rnd a * p - a * p| :=
    abs_sub_le _ _ _
  have h6 : u * |rnd a * p| ≤ u * ((1 + u) * |a * p|) := mul_le_mul_of_nonneg_left h4 hu
  nlinarith

/-- The error of a rounded step: `(1+u)³ - 1`, that is a little more than three roundings, relative to the two
summands. -/
theorem stepTo_close (hr : IsRounding u rnd) (hu : 0 ≤ u) (h p z : K) :
    |stepTo rnd h p z - (((h - 1) / h) * p + (1 / h) * z)| ≤
      ((1 + u) ^ 3 - 1) * (|((h - 1) / h) * p| + |(1 / h) * z|) := by
  have h1 := hr.close_mul hu ((h - 1) / h) p
  have h2 := hr.close_mul hu (1 / h) z
  set A := ((h - 1) / h) * p
  set B := (1 / h) * z
  set a := rnd (rnd ((h - 1) / h) * p)
  set b := rnd (rnd (1 / h) * z)
  have h3 := hr.close (a + b)
  have h4 : |a + b - (A + B)| ≤ ((1 + u) ^ 2 - 1) * (|A| + |B|) := by
    have := abs_add_le (a - A) (b - B)
    have e : a - A + (b - B) = a + b - (A + B) := by ring
    rw [e] at this
    linarith
  have h5 : |a + b| ≤ (1 + u) ^ 2 * (|A| + |B|) := by
    have := abs_sub_abs_le_abs_sub (a + b) (A + B)
    have := abs_add_le A B
    linarith
  have h6 : |rnd (a + b) - (A + B)| ≤ |rnd (a + b) - (a + b)| + |a + b - (A + B)| := abs_sub_le _ _ _
  have h7 : u * |a + b| ≤ u * ((1 + u) ^ 2 * (|A| + |B|)) := mul_le_mul_of_nonneg_left h5 hu
  show |rnd (a + b) - (A + B)| ≤ _
  nlinarith

/-- If rounding does not lose `z` on the way from `z` to `z`, it does not lose it on the way from any point
that is not better. -/
theorem le_stepTo (hr : IsRounding u rnd) {h p z : K} (hh : 1 ≤ h) (hz : z ≤ stepTo rnd h z z)
    (hp : z ≤ p) : z ≤ stepTo rnd h p z :=
  hz.trans (stepTo_mono hr hh hp le_rfl)

/-- Two steps left: nothing is lost, if halving machine numbers is exact. -/
theorem le_stepTo_two (hr : IsRounding u rnd) {p z : K} (hhalf : rnd (1 / 2) = 1 / 2)
    (hz : Machine rnd z) (hz2 : Machine rnd (1 / 2 * z)) (hp : z ≤ p) : z ≤ stepTo rnd 2 p z := by
  refine le_stepTo hr (by norm_num) ?_ hp
  have e : ((2 : K) - 1) / 2 = 1 / 2 := by norm_num
  unfold stepTo
  rw [e, hhalf, hz2]
  have : (1 / 2 : K) * z + 1 / 2 * z = z := by ring
  rw [this, hz]

/-- A value that is better by a margin is not lost. -/
theorem le_stepTo_of_margin (hr : IsRounding u rnd) (hu : 0 ≤ u) {h p z : K} (hh : 1 ≤ h)
    (hm : ((1 + u) ^ 3 - 1) * ((h - 1) * |p| + |z|) ≤ (h - 1) * (p - z)) : z ≤ stepTo rnd h p z := by
  have h0 : (0 : K) < h := lt_of_lt_of_le one_pos hh
  have hc := stepTo_close hr hu h p z
  rw [abs_mul, abs_mul, abs_of_nonneg (div_nonneg (by linarith : (0 : K) ≤ h - 1) h0.le),
    abs_of_nonneg (by positivity : (0 : K) ≤ 1 / h)] at hc
  have e : ((1 + u) ^ 3 - 1) * ((h - 1) / h * |p| + 1 / h * |z|) =
      ((1 + u) ^ 3 - 1) * ((h - 1) * |p| + |z|) / h := by field_simp
  rw [e] at hc
  have e2 : (h - 1) / h * p + 1 / h * z = z + (h - 1) * (p - z) / h := by field_simp; ring
  rw [e2] at hc
  have h1 : ((1 + u) ^ 3 - 1) * ((h - 1) * |p| + |z|) / h ≤ (h - 1) * (p - z) / h :=
    div_le_div_of_nonneg_right hm h0.le
  have := neg_abs_le (stepTo rnd h p z - (z + (h - 1) * (p - z) / h))
  linarith

theorem IsRounding.eq_zero (hR : IsRounding u rnd) (hu : u < 1) {x : K}
    (h : rnd x = 0) : x = 0 := by
  by_contra hx
  have h1 := hR.close x
  rw [h, zero_sub, abs_neg] at h1
  have h2 := abs_pos.2 hx
  nlinarith

/-- Conditions under which rounding does not lose the value `z` on the way from `p` with `h` iterations left: at most
two iterations are left, or the rounded formula reproduces `z` itself, or `z` is better than `p` by a margin of a few
units in the last place. -/
def NotLost (u : K) (rnd : K → K) (h p z : K) : Prop :=
  h = 1 ∨ h = 2 ∨ z ≤ stepTo rnd h z z ∨ ((1 + u) ^ 3 - 1) * ((h - 1) * |p| + |z|) ≤ (h - 1) * (p - z)

theorem NotLost.le (hR : IsRounding u rnd) (hu : 0 ≤ u)
    (hhalf : ∀ x, Machine rnd x → Machine rnd (1 / 2 * x)) {h p z : K} (hh : 1 ≤ h) (hz : Machine rnd z) (hp : z ≤ p)
    (hk : NotLost u rnd h p z) : z ≤ stepTo rnd h p z := by
  rcases hk with rfl | rfl | hk | hk
  · rw [stepTo_one hR _ _ hz]
  · refine le_stepTo_two hR ?_ hz (hhalf z hz) hp
    have := hhalf 1 hR.one
    rw [mul_one] at this
    exact this
  · exact le_stepTo hR hh hk hp
  · exact le_stepTo_of_margin hR hu hh hk

end

/-! ## IEEE double precision -/

/-- The nearest integer, ties to the even one. -/
def nearestEven (y : ℚ) : ℤ :=
  if y - ⌊y⌋ < 1 / 2 then ⌊y⌋
  else if 1 / 2 < y - ⌊y⌋ then ⌊y⌋ + 1
  else if ⌊y⌋ % 2 = 0 then ⌊y⌋ else ⌊y⌋ + 1

/-- The distance of neighbouring doubles around `x ≠ 0`: 53 significant bits. -/
def ulp (x : ℚ) : ℚ := (2 : ℚ) ^ (Int.log 2 |x| - 52)

/-- Rounding to `float64` without overflow and underflow: to nearest, ties to even. -/
def double (x : ℚ) : ℚ := if x = 0 then 0 else nearestEven (x / ulp x) * ulp x

theorem ulp_pos (x : ℚ) : 0 < ulp x := zpow_pos (by norm_num) _

theorem nearestEven_close (y : ℚ) : |(nearestEven y : ℚ) - y| ≤ 1 / 2 := by
  have h1 := Int.floor_le y
  have h2 := Int.lt_floor_add_one y
  unfold nearestEven
  rw [abs_le]
  split_ifs <;> push_cast <;> constructor <;> linarith

theorem nearestEven_int (m : ℤ) : nearestEven m = m := by
  unfold nearestEven
  simp

theorem nearestEven_mono {x y : ℚ} (h : x ≤ y) : nearestEven x ≤ nearestEven y := by
  by_contra hc
  push Not at hc
  have hx := abs_le.1 (nearestEven_close x)
  have hy := abs_le.1 (nearestEven_close y)
  have hc' : (nearestEven y : ℚ) + 1 ≤ nearestEven x := by exact_mod_cast hc
  have hxy : x = y := by linarith
  rw [hxy] at hc
  exact lt_irrefl _ hc

theorem ulp_le_abs {x : ℚ} (hx : x ≠ 0) : (2 : ℚ) ^ 52 * ulp x ≤ |x| := by
  have := Int.zpow_log_le_self (b := 2) (R := ℚ) (r := |x|) (by norm_num) (abs_pos.2 hx)
  unfold ulp
  have e : (2 : ℚ) ^ 52 * 2 ^ (Int.log 2 |x| - 52) = ((2 : ℕ) : ℚ) ^ Int.log 2 |x| := by
    rw [zpow_sub₀ (by norm_num : (2 : ℚ) ≠ 0)]
    push_cast
    norm_num
    field_simp
  rw [e]; exact this

theorem abs_lt_ulp (x : ℚ) : |x| < (2 : ℚ) ^ 53 * ulp x := by
  have := Int.lt_zpow_succ_log_self (b := 2) (R := ℚ) (by norm_num) |x|
  unfold ulp
  have e : (2 : ℚ) ^ 53 * 2 ^ (Int.log 2 |x| - 52) = ((2 : ℕ) : ℚ) ^ (Int.log 2 |x| + 1) := by
    rw [zpow_sub₀ (by norm_num : (2 : ℚ) ≠ 0), zpow_add₀ (by norm_num : ((2 : ℕ) : ℚ) ≠ 0)]
    push_cast
    norm_num
    field_simp
    norm_num
  rw [e]; exact this

theorem double_close (x : ℚ) : |double x - x| ≤ (1 / 2) ^ 53 * |x| := by
  unfold double
  split_ifs with h
  · simp [h]
  · have hu := ulp_pos x
    have h1 := nearestEven_close (x / ulp x)
    have h2 := ulp_le_abs h
    have e : (nearestEven (x / ulp x) : ℚ) * ulp x - x =
        ((nearestEven (x / ulp x) : ℚ) - x / ulp x) * ulp x := by field_simp
    rw [e, abs_mul, abs_of_pos hu]
    have h3 := mul_le_mul_of_nonneg_right h1 hu.le
    calc _ ≤ 1 / 2 * ulp x := h3
      _ = (1 / 2) ^ 53 * ((2 : ℚ) ^ 52 * ulp x) := by ring
      _ ≤ _ := mul_le_mul_of_nonneg_left h2 (by positivity)

/-- Integers of at most 53 bits times a power of two are machine numbers. -/
theorem double_dyadic (m q : ℤ) (hm : |m| ≤ 2 ^ 53) : double (m * (2 : ℚ) ^ q) = m * (2 : ℚ) ^ q := by
  unfold double
  split_ifs with h
  · exact h.symm
  set x := (m : ℚ) * (2 : ℚ) ^ q with hx
  have hu := ulp_pos x
  have hint : ∃ a : ℤ, x / ulp x = a := by
    have h1 := Int.zpow_log_le_self (b := 2) (R := ℚ) (r := |x|) (by norm_num) (abs_pos.2 h)
    have hq : (0 : ℚ) < 2 ^ q := zpow_pos (by norm_num) _
    have hax : |x| = |(m : ℚ)| * 2 ^ q := by rw [hx, abs_mul, abs_of_pos hq]
    have hmq : |(m : ℚ)| ≤ 2 ^ 53 := by exact_mod_cast hm
    set e := Int.log 2 |x| with he
    have hle : ((2 : ℕ) : ℚ) ^ e ≤ (2 : ℚ) ^ (q + 53) := by
      rw [zpow_add₀ (by norm_num : (2 : ℚ) ≠ 0)]
      calc _ ≤ |x| := h1
        _ ≤ 2 ^ 53 * 2 ^ q := by rw [hax]; exact mul_le_mul_of_nonneg_right hmq hq.le
        _ = _ := by rw [mul_comm]; norm_cast
    have hle' : e ≤ q + 53 := by
      have : (2 : ℚ) ^ e ≤ (2 : ℚ) ^ (q + 53) := by exact_mod_cast hle
      exact (zpow_le_zpow_iff_right₀ (by norm_num)).1 this
    have hdiv : x / ulp x = m * (2 : ℚ) ^ (q - e + 52) := by
      unfold ulp
      rw [← he, hx, mul_div_assoc, ← zpow_sub₀ (by norm_num : (2 : ℚ) ≠ 0)]
      congr 2; ring
    rcases hle'.lt_or_eq with hlt | heq
    · refine ⟨m * 2 ^ (q - e + 52).toNat, ?_⟩
      rw [hdiv]
      push_cast
      rw [← zpow_natCast, Int.toNat_of_nonneg (by omega)]
    · -- then `m = ±2^53`
      have h2 : (2 : ℚ) ^ (q + 53) ≤ |(m : ℚ)| * 2 ^ q := by
        rw [← hax, ← heq]; exact_mod_cast h1
      rw [zpow_add₀ (by norm_num : (2 : ℚ) ≠ 0), mul_comm] at h2
      have h3 : (2 : ℚ) ^ (53 : ℤ) ≤ |(m : ℚ)| := le_of_mul_le_mul_right h2 hq
      have h4 : |m| = 2 ^ 53 := by
        apply le_antisymm hm
        exact_mod_cast h3
      have hd : ∃ b : ℤ, m = 2 * b := by
        rcases abs_eq (by positivity) |>.1 h4 with hh | hh
        · exact ⟨2 ^ 52, by rw [hh]; norm_num⟩
        · exact ⟨-2 ^ 52, by rw [hh]; norm_num⟩
      obtain ⟨b, hb⟩ := hd
      refine ⟨b, ?_⟩
      rw [hdiv, heq]
      have : q - (q + 53) + 52 = -1 := by ring
      rw [this, hb]
      push_cast
      rw [zpow_neg_one]
      ring
  obtain ⟨a, ha⟩ := hint
  rw [ha, nearestEven_int, ← ha]
  field_simp

/-- The result of `double` is an integer of at most 53 bits times a power of two. -/
theorem double_eq_dyadic (x : ℚ) : ∃ m q : ℤ, |m| ≤ 2 ^ 53 ∧ double x = m * (2 : ℚ) ^ q := by
  by_cases h : x = 0
  · exact ⟨0, 0, by norm_num, by simp [double, h]⟩
  · refine ⟨nearestEven (x / ulp x), Int.log 2 |x| - 52, ?_, by simp [double, h, ulp]⟩
    have hu := ulp_pos x
    have h1 := abs_lt_ulp x
    have h2 : |x / ulp x| ≤ 2 ^ 53 := by
      rw [abs_div, abs_of_pos hu, div_le_iff₀ hu]; exact h1.le
    rw [abs_le] at h2 ⊢
    have e1 : nearestEven ((2 ^ 53 : ℤ) : ℚ) = 2 ^ 53 := nearestEven_int _
    have e2 : nearestEven ((-2 ^ 53 : ℤ) : ℚ) = -2 ^ 53 := nearestEven_int _
    refine ⟨?_, ?_⟩
    · rw [← e2]; apply nearestEven_mono; push_cast; exact h2.1
    · rw [← e1]; apply nearestEven_mono; push_cast; exact h2.2

theorem double_idem (x : ℚ) : double (double x) = double x := by
  obtain ⟨m, q, hm, h⟩ := double_eq_dyadic x
  rw [h, double_dyadic m q hm]

/-- For positive numbers the result stays within the binade. -/
theorem double_binade {x : ℚ} (hx : 0 < x) :
    (2 : ℚ) ^ 52 * ulp x ≤ double x ∧ double x ≤ (2 : ℚ) ^ 53 * ulp x := by
  have hu := ulp_pos x
  have h1 := abs_lt_ulp x
  have h2 := ulp_le_abs hx.ne'
  rw [abs_of_pos hx] at h1 h2
  have e1 : nearestEven ((2 ^ 53 : ℤ) : ℚ) = 2 ^ 53 := nearestEven_int _
  have e2 : nearestEven ((2 ^ 52 : ℤ) : ℚ) = 2 ^ 52 := nearestEven_int _
  have hd : double x = nearestEven (x / ulp x) * ulp x := by simp [double, hx.ne']
  rw [hd]
  constructor
  · apply mul_le_mul_of_nonneg_right _ hu.le
    have : (2 ^ 52 : ℤ) ≤ nearestEven (x / ulp x) := by
      rw [← e2]; apply nearestEven_mono; push_cast; rw [le_div_iff₀ hu]; exact h2
    exact_mod_cast this
  · apply mul_le_mul_of_nonneg_right _ hu.le
    have : nearestEven (x / ulp x) ≤ (2 ^ 53 : ℤ) := by
      rw [← e1]; apply nearestEven_mono; push_cast; rw [div_le_iff₀ hu]; exact h1.le
    exact_mod_cast this

/-- For negative numbers the result stays within the binade. -/
theorem double_binade_neg {x : ℚ} (hx : x < 0) :
    -((2 : ℚ) ^ 53 * ulp x) ≤ double x ∧ double x ≤ -((2 : ℚ) ^ 52 * ulp x) := by
  have hu := ulp_pos x
  have h1 := abs_lt_ulp x
  have h2 := ulp_le_abs hx.ne
  rw [abs_of_neg hx] at h1 h2
  have e1 : nearestEven ((-2 ^ 53 : ℤ) : ℚ) = -2 ^ 53 := nearestEven_int _
  have e2 : nearestEven ((-2 ^ 52 : ℤ) : ℚ) = -2 ^ 52 := nearestEven_int _
  have hd : double x = nearestEven (x / ulp x) * ulp x := by simp [double, hx.ne]
  rw [hd, ← neg_mul, ← neg_mul]
  constructor
  · apply mul_le_mul_of_nonneg_right _ hu.le
    have : (-2 ^ 53 : ℤ) ≤ nearestEven (x / ulp x) := by
      rw [← e1]; apply nearestEven_mono; push_cast; rw [le_div_iff₀ hu]; linarith
    exact_mod_cast this
  · apply mul_le_mul_of_nonneg_right _ hu.le
    have : nearestEven (x / ulp x) ≤ (-2 ^ 52 : ℤ) := by
      rw [← e2]; apply nearestEven_mono; push_cast; rw [div_le_iff₀ hu]; linarith
    exact_mod_cast this

theorem ulp_step {x y : ℚ} (h : Int.log 2 |x| < Int.log 2 |y|) :
    (2 : ℚ) ^ 53 * ulp x ≤ (2 : ℚ) ^ 52 * ulp y := by
  unfold ulp
  have : (2 : ℚ) * 2 ^ (Int.log 2 |x| - 52) ≤ 2 ^ (Int.log 2 |y| - 52) := by
    have e : (2 : ℚ) * 2 ^ (Int.log 2 |x| - 52) = 2 ^ (Int.log 2 |x| - 52 + 1) := by
      rw [zpow_add₀ (by norm_num : (2 : ℚ) ≠ 0), zpow_one, mul_comm]
    rw [e]
    exact zpow_le_zpow_right₀ (by norm_num) (by omega)
  linarith

theorem double_mono {x y : ℚ} (h : x ≤ y) : double x ≤ double y := by
  have hpos : ∀ {z : ℚ}, 0 < z → 0 ≤ double z := fun hz =>
    le_trans (by have := ulp_pos ‹ℚ›; positivity) (double_binade hz).1
  have hneg : ∀ {z : ℚ}, z < 0 → double z ≤ 0 := fun {z} hz => by
    have := (double_binade_neg hz).2
    have := ulp_pos z
    linarith
  have same : ∀ {a b : ℚ}, a ≠ 0 → b ≠ 0 → ulp a = ulp b → a ≤ b → double a ≤ double b := by
    intro a b ha hb hu hab
    simp only [double, ha, hb, if_false, hu]
    apply mul_le_mul_of_nonneg_right _ (ulp_pos b).le
    exact_mod_cast nearestEven_mono (div_le_div_of_nonneg_right hab (ulp_pos b).le)
  rcases lt_trichotomy x 0 with hx | hx | hx
  · rcases lt_trichotomy y 0 with hy | hy | hy
    · have hlog : Int.log 2 |y| ≤ Int.log 2 |x| := Int.log_mono_right (abs_pos.2 hy.ne) (by
        rw [abs_of_neg hx, abs_of_neg hy]; linarith)
      rcases hlog.lt_or_eq with hl | hl
      · have h1 := (double_binade_neg hx).2
        have h2 := (double_binade_neg hy).1
        have h3 := ulp_step hl
        linarith
      · exact same hx.ne hy.ne (by unfold ulp; rw [hl]) h
    · rw [hy]; simpa [double] using hneg hx
    · exact (hneg hx).trans (hpos hy)
  · rcases (hx ▸ h : (0 : ℚ) ≤ y).lt_or_eq with hy | hy
    · rw [hx]; simpa [double] using hpos hy
    · rw [hx, ← hy]
  · have hy : 0 < y := lt_of_lt_of_le hx h
    have hlog : Int.log 2 |x| ≤ Int.log 2 |y| := Int.log_mono_right (abs_pos.2 hx.ne') (by
      rw [abs_of_pos hx, abs_of_pos hy]; exact h)
    rcases hlog.lt_or_eq with hl | hl
    · have h1 := (double_binade hx).2
      have h2 := (double_binade hy).1
      have h3 := ulp_step hl
      linarith
    · exact same hx.ne' hy.ne' (by unfold ulp; rw [hl]) h

/-- numpy's `float64` arithmetic is a rounding with unit roundoff `2⁻⁵³`. -/
theorem isRounding_double : IsRounding ((1 / 2) ^ 53) double where
  mono _ _ := double_mono
  idem := double_idem
  zero := by simp [double]
  one := by have := double_dyadic 1 0 (by norm_num); simpa using this
  close := double_close

/-- Integers of at most 53 bits are doubles. -/
theorem machine_int (m : ℤ) (hm : |m| ≤ 2 ^ 53) : Machine double (m : ℚ) := by
  have := double_dyadic m 0 hm
  simpa [Machine] using this

/-- Halving a double gives a double. -/
theorem machine_half {x : ℚ} (hx : Machine double x) : Machine double (1 / 2 * x) := by
  obtain ⟨m, q, hm, h⟩ := double_eq_dyadic x
  have e : 1 / 2 * x = m * (2 : ℚ) ^ (q - 1) := by
    rw [← hx, h, zpow_sub₀ (by norm_num : (2 : ℚ) ≠ 0)]
    ring
  unfold Machine
  rw [e, double_dyadic m (q - 1) hm]

example : stepTo double 3 7 7 = 7 - 2 ^ (-50 : ℤ) := by decide +kernel

end Verif
