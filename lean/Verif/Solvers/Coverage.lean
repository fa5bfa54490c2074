import Verif.Solvers.Nadir
import Verif.Navigator.Monotone

set_option linter.unusedSectionVars false

/-!
# How well a front representation covers the front, C113
-/

namespace Verif.Solvers

open Navigator (pointAsf vmax_spec)

variable {K : Type} [Field K] [LinearOrder K] [IsStrictOrderedRing K] [FloorRing K] {k : Nat} {X : Type}

/-- `x` stands for `y`: in no objective it is worse than `y` by more than the share `d` of the range
`hi - lo + 1e-6` of that objective. -/
def StandsFor (obj : X → Vec (k + 1) K) (lo hi : Vec (k + 1) K) (d : K) (x y : X) : Prop :=
  ∀ j, obj x j ≤ obj y j + d * (hi j - lo j + 1 / 10 ^ 6)

/-- Below every value of the range there is a grid value less than one step away. -/
theorem exists_grid {lo hi s eps f : K} (hs : 0 < s) (heps : 0 < eps) (h1 : lo ≤ f) (h2 : f ≤ hi) :
    ∃ n : Nat, lo + n * s < hi + eps ∧ lo + n * s ≤ f ∧ f ≤ lo + n * s + s := by
  have h0 : 0 ≤ (f - lo) / s := div_nonneg (by linarith) hs.le
  refine ⟨⌊(f - lo) / s⌋.toNat, ?_⟩
  have hc : ((⌊(f - lo) / s⌋.toNat : Nat) : K) = (⌊(f - lo) / s⌋ : K) := by
    have : ((⌊(f - lo) / s⌋.toNat : Nat) : Int) = ⌊(f - lo) / s⌋ := Int.toNat_of_nonneg (Int.floor_nonneg.2 h0)
    exact_mod_cast congrArg (Int.cast : Int → K) this
  rw [hc]
  have a1 := Int.floor_le ((f - lo) / s)
  have a2 := Int.lt_floor_add_one ((f - lo) / s)
  rw [le_div_iff₀ hs] at a1
  rw [div_lt_iff₀ hs] at a2
  refine ⟨by linarith, by linarith, by linarith⟩

/-- A minimizer of the achievement function for a reference point just below `f` is hardly worse than `f`. -/
theorem asf_stands {lo hi z f g : Vec (k + 1) K} {d : K} (hl : AtLeastAsGood lo hi) (hg : AtLeastAsGood lo g)
    (hf : AtLeastAsGood f hi) (hz1 : AtLeastAsGood z f) (hz2 : ∀ j, f j - z j ≤ d * (hi j - lo j + 1 / 10 ^ 6))
    (hmin : pointAsf lo hi z g ≤ pointAsf lo hi z f) (j : Fin (k + 1)) :
    g j ≤ f j + (d + (k + 1) / 10 ^ 6) * (hi j - lo j + 1 / 10 ^ 6) := by
  have hw : ∀ i, 0 < hi i - (lo i - 1 / 1000000) := fun i => by
    have : (0 : K) < 1 / 1000000 := by norm_num
    have := hl i
    linarith
  have ew : ∀ i, hi i - (lo i - 1 / 1000000) = hi i - lo i + 1 / 10 ^ 6 := fun i => by norm_num; ring
  unfold pointAsf at hmin
  have m1 := (vmax_spec (fun j => (g j - z j) / (hi j - (lo j - 1 / 1000000)))).1 j
  obtain ⟨i, m2⟩ := (vmax_spec (fun j => (f j - z j) / (hi j - (lo j - 1 / 1000000)))).2
  rw [m2] at hmin
  have m3 : (f i - z i) / (hi i - (lo i - 1 / 1000000)) ≤ d := by
    rw [div_le_iff₀ (hw i), ew]; exact hz2 i
  have m4 : ((List.finRange (k + 1)).map fun j => f j / (hi j - (lo j - 1 / 1000000))).sum ≤
      ((List.finRange (k + 1)).map fun j => g j / (hi j - (lo j - 1 / 1000000)) + 1).sum := by
    apply List.sum_le_sum
    intro i _
    rw [div_le_iff₀ (hw i), add_mul, div_mul_cancel₀ _ (hw i).ne']
    have := hf i
    have := hg i
    have : (0 : K) < 1 / 1000000 := by norm_num
    linarith
  have m5 : ((List.finRange (k + 1)).map fun j => g j / (hi j - (lo j - 1 / 1000000)) + 1).sum =
      ((List.finRange (k + 1)).map fun j => g j / (hi j - (lo j - 1 / 1000000))).sum + ((k : K) + 1) := by
    rw [List.sum_map_add]
    simp
  rw [m5] at m4
  have m6 : (g j - z j) / (hi j - (lo j - 1 / 1000000)) ≤ d + ((k : K) + 1) / 10 ^ 6 := by
    have : (1 : K) / 1000000 * ((k : K) + 1) = ((k : K) + 1) / 10 ^ 6 := by norm_num; ring
    have h0 : (0 : K) ≤ 1 / 1000000 := by norm_num
    have := mul_le_mul_of_nonneg_left m4 h0
    rw [mul_add] at this
    linarith
  rw [div_le_iff₀ (hw j), ew] at m6
  have := hz1 j
  linarith

/-- **C113**. Front representation with given ideal and nadir, the ideal being a lower bound of all solutions. If every
optimization succeeds and finds a global minimum, then for every solution `y` that is nowhere worse than the nadir -
in particular for every Pareto optimal one, if the nadir is right - the representation contains a solution that stands
for `y`: in no objective it is worse than `y` by more than one step (`d` is the largest step in relation to the
range) and `k · 1e-6` of the range. -/
theorem C113_covers {obj : X → Vec (k + 1) K} {step : StepArg K} {eps : K} {lo hi : Vec (k + 1) K}
    (hl : AtLeastAsGood lo hi) (hideal : ∀ y, AtLeastAsGood lo (obj y)) (hb : ¬ BadStep k step)
    (hpos : ∀ j : Fin (k + 1), 0 < stepFor step j.val) (heps : 0 < eps)
    {d : K} (hd : ∀ j : Fin (k + 1), stepFor step j.val ≤ d * (hi j - lo j + 1 / 10 ^ 6))
    {cons : Option (X → List K)} {table front : Solver X K} (ht : Trusty front)
    (hs : ∀ n z, (front n none fun x => pointAsf lo hi z (obj x)).2 = true) {xs : List X} {fs : List (Vec (k + 1) K)}
    (h : frontGeneral obj step eps (.given lo) (.given hi) cons table front = .ok (xs, fs))
    {y : X} (hy : AtLeastAsGood (obj y) hi) :
    ∃ x ∈ xs, StandsFor obj lo hi (d + (k + 1) / 10 ^ 6) x y := by
  obtain ⟨zs, hz, _, hmem, _⟩ := (C63_grid obj step eps lo hi cons table front).2 hb hpos heps.le
  choose n hn1 hn2 hn3 using fun j : Fin (k + 1) => exists_grid (hpos j) heps (hideal y j) (hy j)
  have hin : (fun j : Fin (k + 1) => lo j + (n j : K) * stepFor step j.val) ∈ zs := by
    rw [hmem]
    intro j
    refine ⟨n j, by rw [min_eq_left (hl j)], ?_⟩
    rw [max_eq_right (hl j)]
    exact hn1 j
  obtain ⟨m, hm⟩ := List.mem_iff_getElem?.1 hin
  cases zs with
  | nil => simp at hm
  | cons z0 zs =>
    have hx := (C79_successes_partial hz h).1 hl ht (hs _ _)
    refine ⟨(front m none fun x => pointAsf lo hi (fun j => lo j + (n j : K) * stepFor step j.val) (obj x)).1, ?_, ?_⟩
    · rw [hx]
      unfold AllSuccesses
      rw [List.mem_filterMap]
      refine ⟨(fun j => lo j + (n j : K) * stepFor step j.val, m), ?_, ?_⟩
      · rw [List.mem_zipIdx_iff_getElem?]
        exact hm
      · simp only [hs, if_true]
    · intro j
      refine asf_stands (z := fun j => lo j + (n j : K) * stepFor step j.val) hl (hideal _) hy (fun j => hn2 j) ?_
        (ht m (fun x => pointAsf lo hi (fun j => lo j + (n j : K) * stepFor step j.val) (obj x)) (hs _ _) y) j
      intro j
      have := hn3 j
      have := hd j
      linarith

/-- **C113**, from start to end, for two objectives without constraints: ideal and nadir are left to the payoff table,
all optimizations are exact. Then every Pareto optimal solution has a representative that is nowhere worse by more than
one step and `2e-6` of the range. -/
theorem C113_covers_two {P : Problem 1 X K} (hc : P.nCons = 0) {step : StepArg K} {eps : K}
    (hb : ¬ BadStep 1 step) (hpos : ∀ j : Fin 2, 0 < stepFor step j.val) (heps : 0 < eps)
    {table solver : Solver X K} (hex : MinimizesEach P table) (ht : Trusty solver)
    (hs : ∀ n z, (solver n none fun x => pointAsf (payoff P table).1 (payoff P table).2 z (P.obj x)).2 = true) {d : K}
    (hd : ∀ j : Fin 2, stepFor step j.val ≤ d * ((payoff P table).2 j - (payoff P table).1 j + 1 / 10 ^ 6))
    {xs : List X} {fs : List (Vec 2 K)} (h : front P step eps .infinite .infinite table solver = .ok (xs, fs))
    {y : X} (hy : ParetoSolution P y) :
    ∃ x ∈ xs, StandsFor P.obj (payoff P table).1 (payoff P table).2 (d + 2 / 10 ^ 6) x y := by
  have hadm : ∀ y, Admissible P y := fun y h0 => absurd h0 (by omega)
  obtain ⟨_, _, _, hl, hlow⟩ := C61_payoff P table
  have hny : AtLeastAsGood (P.obj y) (payoff P table).2 := (C103_two_objectives_partial P).1 table hex y hy
  have h' : frontGeneral P.obj step eps (.given (payoff P table).1) (.given (payoff P table).2) P.evaluator table solver =
      .ok (xs, fs) := by
    rw [← h]
    exact ((C80_bounds_partial P.obj step eps).1 .infinite P.evaluator table solver).symm
  obtain ⟨x, hx, hst⟩ := C113_covers hl (fun y i => (hlow hex i).2 y (hadm y)) hb hpos heps hd ht hs h' hny
  refine ⟨x, hx, ?_⟩
  have e : (2 : K) = ((1 : Nat) : K) + 1 := by norm_num
  rw [e]
  exact hst

/-! ### Non-vacuity -/

open Classical in
/-- The solvers assumed exist whenever the minima do, also for infinitely many decision vectors. -/
theorem exists_trusty [Nonempty X] {obj : X → Vec (k + 1) K} {lo hi : Vec (k + 1) K}
    (h : ∀ z, ∃ x, ∀ y, pointAsf lo hi z (obj x) ≤ pointAsf lo hi z (obj y)) :
    ∃ solver : Solver X K, Trusty solver ∧ ∀ n z, (solver n none fun x => pointAsf lo hi z (obj x)).2 = true := by
  refine ⟨fun _ _ g => if hg : ∃ x, ∀ y, g x ≤ g y then (hg.choose, true) else (Classical.arbitrary X, false), ?_, ?_⟩
  · intro n g hs y
    by_cases hg : ∃ x, ∀ y, g x ≤ g y
    · simp only [dif_pos hg]
      exact hg.choose_spec y
    · simp [dif_neg hg] at hs
  · intro n z
    simp only [dif_pos (h z)]

open Classical in
/-- Likewise for the payoff table. -/
theorem exists_each {P : Problem k X K}
    (h : ∀ i, ∃ x, Feasible P.evaluator x ∧ ∀ y, Feasible P.evaluator y → P.obj x i ≤ P.obj y i) :
    ∃ solver : Solver X K, MinimizesEach P solver := by
  obtain ⟨x0, _⟩ := h 0
  refine ⟨fun _ _ g => if hg : ∃ x, Feasible P.evaluator x ∧ ∀ y, Feasible P.evaluator y → g x ≤ g y then
    (hg.choose, true) else (x0, false), fun i n => ?_⟩
  simp only [dif_pos (h i)]
  exact (h i).choose_spec

/-- Four solutions: `(0,2)`, `(1,1)`, `(2,0)` and a dominated one. -/
def covProblem : Problem 1 (Fin 4) ℚ :=
  { obj := ![![0, 2], ![1, 1], ![2, 0], ![2, 2]], nCons := 0, cons := fun _ => [] }

/-- The exact solvers assumed exist, and the representation is returned. -/
example : ∃ (solver : Solver (Fin 4) ℚ) (xs : List (Fin 4)) (fs : List (Vec 2 ℚ)),
    frontGeneral covProblem.obj (.float 1) (1 / 10 ^ 6) (.given ![0, 0]) (.given ![2, 2]) none solver solver =
      .ok (xs, fs) ∧ ∃ x ∈ xs, StandsFor covProblem.obj ![0, 0] ![2, 2] (1 / 2 + 2 / 10 ^ 6) x 1 := by
  obtain ⟨solve, h, hok⟩ := exists_exact (K := ℚ) (X := Fin 4) none ⟨0, by simp [Feasible]⟩
  obtain ⟨_, _, _, _, ⟨xs, fs⟩, hr⟩ := (C63_grid covProblem.obj (.float 1) (1 / 10 ^ 6) ![0, 0] ![2, 2]
    none solve solve).2 (by simp [BadStep]) (by decide +kernel) (by norm_num)
  have := C113_covers (d := 1 / 2) (by unfold AtLeastAsGood; decide +kernel)
    (by unfold AtLeastAsGood; decide +kernel) (by simp [BadStep]) (by decide +kernel) (by norm_num)
    (by decide +kernel) (fun n g _ y => (h n g).2 y (by simp [Feasible])) (fun n _ => hok n none _) hr (y := 1)
    (by unfold AtLeastAsGood; decide +kernel)
  refine ⟨solve, xs, fs, hr, ?_⟩
  norm_num at this ⊢
  exact this

example : ∃ (solver : Solver (Fin 4) ℚ) (xs : List (Fin 4)) (fs : List (Vec 2 ℚ)), ExactFor covProblem.evaluator solver ∧
    Trusty solver ∧ (∀ n g, (solver n none g).2 = true) ∧
    front covProblem (.float 1) (1 / 10 ^ 6) .infinite .infinite solver solver = .ok (xs, fs) ∧
    ParetoSolution covProblem 1 ∧
    ∀ j : Fin 2, stepFor (.float 1) j.val ≤
      1000000 * ((payoff covProblem solver).2 j - (payoff covProblem solver).1 j + 1 / 10 ^ 6) := by
  obtain ⟨solve, h, hok⟩ := exists_exact (K := ℚ) (X := Fin 4) none ⟨0, by simp [Feasible]⟩
  obtain ⟨_, _, _, _, ⟨xs, fs⟩, hr⟩ := (C63_grid covProblem.obj (.float 1) (1 / 10 ^ 6) (payoff covProblem solve).1
    (payoff covProblem solve).2 none solve solve).2 (by simp [BadStep]) (by decide +kernel) (by norm_num)
  refine ⟨solve, xs, fs, h, fun n g _ y => (h n g).2 y (by simp [Feasible]), fun n g => hok n none g, ?_, ?_, ?_⟩
  · rw [← hr]
    exact (C80_bounds_partial covProblem.obj (.float 1) (1 / 10 ^ 6)).1 .infinite none solve solve
  · unfold ParetoSolution Admissible Dominates AtLeastAsGood
    decide +kernel
  · intro j
    obtain ⟨_, _, _, hl, _⟩ := C61_payoff covProblem solve
    have := hl j
    simp only [stepFor]
    linarith

end Verif.Solvers
