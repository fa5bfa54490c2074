import Verif.Solvers.Lemmas
import Mathlib.Data.Fintype.Lattice
import Mathlib.Data.Fin.VecNotation
import Mathlib.Tactic.FinCases

/-!
# Properties of the utilities: C61 - C63, C78 - C80
-/

namespace Verif.Solvers

set_option linter.unusedSectionVars false

variable {K : Type} [Field K] [LinearOrder K] [IsStrictOrderedRing K] {k : Nat} {X : Type}

/-- Negative constraint values are breaches (solvers.py:60-62). -/
def Feasible (cons : Option (X → List K)) (x : X) : Prop := ∀ g, cons = some g → ∀ c ∈ g x, 0 ≤ c

/-- A solver that always finds a feasible global minimum. -/
def ExactFor (cons : Option (X → List K)) (solve : Solver X K) : Prop :=
  ∀ n g, Feasible cons (solve n cons g).1 ∧ ∀ y, Feasible cons y → g (solve n cons g).1 ≤ g y

open Classical in
/-- An exact solver for finitely many solutions. -/
theorem exists_exact [Finite X] (cons : Option (X → List K)) (h : ∃ x, Feasible cons x) :
    ∃ solve : Solver X K, ExactFor cons solve ∧ ∀ n c g, (solve n c g).2 = true := by
  obtain ⟨x0, hx0⟩ := h
  have : ∀ g : X → K, ∃ x : {x // Feasible cons x}, ∀ y : {x // Feasible cons x}, g x.1 ≤ g y.1 := by
    intro g
    have : Nonempty {x // Feasible cons x} := ⟨⟨x0, hx0⟩⟩
    exact Finite.exists_min fun x : {x // Feasible cons x} => g x.1
  choose f hf using this
  exact ⟨fun _ _ g => ((f g).1, true), fun n g => ⟨(f g).2, fun y hy => hf g ⟨y, hy⟩⟩, fun _ _ _ => rfl⟩

/-- A solver that finds a feasible global minimum of each objective. -/
def MinimizesEach (P : Problem k X K) (solve : Solver X K) : Prop :=
  ∀ (i : Fin (k + 1)) n, Feasible P.evaluator (solve n P.evaluator fun x => P.obj x i).1 ∧
    ∀ y, Feasible P.evaluator y → P.obj (solve n P.evaluator fun x => P.obj x i).1 i ≤ P.obj y i

theorem ExactFor.each {P : Problem k X K} {solve : Solver X K} (h : ExactFor P.evaluator solve) :
    MinimizesEach P solve := fun i n => h n fun x => P.obj x i

/-! ### C61: the payoff table -/

theorem weighted_unit (f : Vec (k + 1) K) (i : Fin (k + 1)) :
    weightedScalarizer f (fun j => if i = j then 1 else 0) = f i := by
  unfold weightedScalarizer
  simp

/-- C61: the payoff table method returns an ideal that is nowhere worse than the nadir. The components of the
ideal are the values of the solutions found for the single objectives, those of the nadir the largest values
among these solutions. If the solver finds a feasible minimum of each objective, the solutions are feasible and the
ideal is a lower bound of all feasible solutions. -/
theorem C61_payoff (P : Problem k X K) (solve : Solver X K) :
    ∃ xs : Fin (k + 1) → X, (∀ i, (payoff P solve).1 i = P.obj (xs i) i) ∧
      (∀ j, IsMaxOver (fun _ => True) (fun i => P.obj (xs i) j) ((payoff P solve).2 j)) ∧
      AtLeastAsGood (payoff P solve).1 (payoff P solve).2 ∧
      (MinimizesEach P solve → ∀ i, (P.nCons > 0 → ∀ c ∈ P.cons (xs i), 0 ≤ c) ∧
        ∀ y, (P.nCons > 0 → ∀ c ∈ P.cons y, 0 ≤ c) → (payoff P solve).1 i ≤ P.obj y i) := by
  have hfeas : ∀ y, Feasible P.evaluator y ↔ (P.nCons > 0 → ∀ c ∈ P.cons y, 0 ≤ c) := by
    intro y
    unfold Feasible Problem.evaluator
    by_cases h : P.nCons > 0 <;> simp [h]
  refine ⟨fun i => (solve i P.evaluator fun x => weightedScalarizer (P.obj x)
    fun j => if i = j then 1 else 0).1, fun i => rfl, fun j => ⟨?_, fun i _ =>
      le_vmax (fun i => payoffTable P.obj P.evaluator solve i j) i⟩, fun j => ?_, ?_⟩
  · obtain ⟨i, _, hi⟩ := Finset.exists_mem_eq_sup' Finset.univ_nonempty
      (fun i : Fin (k + 1) => payoffTable P.obj P.evaluator solve i j)
    exact ⟨i, trivial, hi.symm⟩
  · exact le_vmax (fun i => payoffTable P.obj P.evaluator solve i j) j
  · intro hex i
    obtain ⟨h1, h2⟩ := hex i i
    simp only [weighted_unit]
    refine ⟨(hfeas _).1 h1, fun y hy => ?_⟩
    have := h2 y ((hfeas y).2 hy)
    show P.obj _ i ≤ P.obj y i
    simpa only [payoffTable, weighted_unit] using this

/-- Four solutions with two objectives and one constraint. -/
def exProblem : Problem 1 (Fin 4) ℚ where
  obj := ![![0, 2], ![1, 1], ![2, 0], ![0, 0]]
  nCons := 1
  cons := fun x => if x = 3 then [-1] else [1]

theorem ex_feasible : Feasible exProblem.evaluator 0 := by
  intro g hg
  simp only [Problem.evaluator, exProblem, gt_iff_lt, Nat.zero_lt_one, if_true, Option.some.injEq] at hg
  subst hg
  simp

example : ∃ solve : Solver (Fin 4) ℚ, ExactFor exProblem.evaluator solve ∧
    ∃ xs : Fin 2 → Fin 4, ∀ i, xs i ≠ 3 ∧ (payoff exProblem solve).1 i = exProblem.obj (xs i) i := by
  obtain ⟨solve, h, _⟩ := exists_exact exProblem.evaluator ⟨0, ex_feasible⟩
  obtain ⟨xs, h1, _, _, h2⟩ := C61_payoff exProblem solve
  refine ⟨solve, h, xs, fun i => ⟨fun hi => ?_, h1 i⟩⟩
  have := (h2 h.each i).1 (by simp [exProblem]) (-1) (by simp [exProblem, hi])
  norm_num at this

variable [FloorRing K]

/-! ### C63: step and grid -/

/-- A step that is neither a float nor an array of the right length. -/
def BadStep (k : Nat) : StepArg K → Prop
  | .float _ => False
  | .array l => l.length ≠ k + 1
  | .other => True

/-- The step for an objective. -/
def stepFor : StepArg K → Nat → K
  | .float x, _ => x
  | .array l, j => l.getD j 0
  | .other, _ => 0

theorem axis_refused (a b c : K) : axis a b c ≠ .error .refused := by
  unfold axis
  split
  · simp
  · split <;> simp

theorem axesOf_refused : ∀ (m : Nat) (a b c : Vec m K), axesOf m a b c ≠ .error .refused := by
  intro m
  induction m with
  | zero => intro _ _ _ h; simp [axesOf] at h
  | succ m ih =>
    intro a b c h
    unfold axesOf at h
    cases h1 : axis (a 0) (b 0) (c 0) with
    | error e =>
      simp only [h1, Except.error.injEq] at h
      rw [h] at h1
      exact axis_refused _ _ _ h1
    | ok l =>
      simp only [h1] at h
      cases h2 : axesOf m (fun i => a i.succ) (fun i => b i.succ) (fun i => c i.succ) with
      | error e =>
        simp only [h2, Except.error.injEq] at h
        rw [h] at h2
        exact ih _ _ _ h2
      | ok as => simp [h2] at h

theorem stepsOf_bad {step : StepArg K} : stepsOf (k := k) step = .error .refused ↔ BadStep k step := by
  cases step with
  | float x => simp [stepsOf, BadStep]
  | array l => by_cases h : l.length = k + 1 <;> simp [stepsOf, BadStep, h]
  | other => simp [stepsOf, BadStep]

theorem stepsOf_good {step : StepArg K} (h : ¬ BadStep k step) :
    stepsOf (k := k) step = .ok fun j => stepFor step j.val := by
  cases step with
  | float x => rfl
  | array l =>
    have : l.length = k + 1 := by simpa [BadStep] using h
    simp [stepsOf, this, stepFor]
  | other => simp [BadStep] at h

/-- C63: with finite ideal and nadir the library's exception is raised exactly for steps that are neither floats
nor arrays with one entry per objective. For positive steps the reference points are, each once, exactly the
points of the grid that starts at the smaller bound and ends before the larger bound plus `eps`, and the
representation is returned. -/
theorem C63_grid (obj : X → Vec (k + 1) K) (step : StepArg K) (eps : K) (lo hi : Vec (k + 1) K)
    (cons : Option (X → List K)) (table front : Solver X K) :
    (frontGeneral obj step eps (.given lo) (.given hi) cons table front = .error .refused ↔ BadStep k step) ∧
    (¬ BadStep k step → (∀ j : Fin (k + 1), 0 < stepFor step j.val) → 0 ≤ eps →
      ∃ zs, referencePoints lo hi eps step = .ok zs ∧ zs.Nodup ∧
        (∀ z, z ∈ zs ↔ ∀ j, ∃ n : Nat, z j = min (lo j) (hi j) + n * stepFor step j.val ∧
          z j < max (lo j) (hi j) + eps) ∧
        ∃ r, frontGeneral obj step eps (.given lo) (.given hi) cons table front = .ok r) := by
  constructor
  · unfold frontGeneral
    simp only [resolveBounds]
    unfold referencePoints
    by_cases hb : BadStep k step
    · simp only [stepsOf_bad.2 hb, hb]
    · simp only [stepsOf_good hb, hb, iff_false]
      intro h
      cases h2 : axesOf (k + 1) (fun i => min (lo i) (hi i)) (fun i => max (lo i) (hi i) + eps)
          (fun j => stepFor step j.val) with
      | error e =>
        simp only [h2, Except.error.injEq] at h
        rw [h] at h2
        exact axesOf_refused _ _ _ _ h2
      | ok axes => simp [h2] at h
  · intro hb hpos heps
    obtain ⟨axes, h1, h2, h3⟩ := axesOf_ok (k + 1) (fun i => min (lo i) (hi i))
      (fun i => max (lo i) (hi i) + eps) (fun j => stepFor step j.val) hpos (fun i => by
        have : min (lo i) (hi i) ≤ max (lo i) (hi i) := min_le_max
        linarith)
    have hr : referencePoints lo hi eps step = .ok (meshOf (k + 1) axes) := by
      unfold referencePoints
      simp only [stepsOf_good hb, h1]
    refine ⟨_, hr, nodup_meshOf _ _ h2, ?_, ?_⟩
    · intro z
      rw [mem_meshOf]
      exact forall_congr' fun j => h3 j (z j)
    · unfold frontGeneral
      simp only [resolveBounds, hr]
      exact ⟨_, rfl⟩

example : referencePoints (k := 1) (![0, 2] : Vec 2 ℚ) ![1, 1] (1/1000000) (.float (1/2)) =
    .ok [![0, 1], ![0, 3/2], ![0, 2], ![1/2, 1], ![1/2, 3/2], ![1/2, 2], ![1, 1], ![1, 3/2], ![1, 2]] := by
  decide +kernel

example (table front : Solver (Fin 4) ℚ) := (C63_grid exProblem.obj (.array [1/2, 1]) (1/1000000) ![0, 0] ![2, 2]
  exProblem.evaluator table front).2 (by simp [BadStep]) (by decide +kernel) (by norm_num)

/-! ### C62: the front representation -/

theorem frontGeneral_ok {obj : X → Vec (k + 1) K} {step : StepArg K} {eps : K} {ideal nadir : Bound (k + 1) K}
    {cons : Option (X → List K)} {table front : Solver X K} {xs : List X} {fs : List (Vec (k + 1) K)}
    (h : frontGeneral obj step eps ideal nadir cons table front = .ok (xs, fs)) :
    ∃ lo hi zs, resolveBounds obj cons table ideal nadir = .ok (lo, hi) ∧
      referencePoints lo hi eps step = .ok zs ∧
      (xs, fs) = (((frontLoop obj (Navigator.pointAsf lo hi) (fun i g => front i none g) 0 zs [] []).1.filterMap id),
        (frontLoop obj (Navigator.pointAsf lo hi) (fun i g => front i none g) 0 zs [] []).2.filterMap id) := by
  unfold frontGeneral at h
  cases h1 : resolveBounds obj cons table ideal nadir with
  | error e => simp [h1] at h
  | ok b =>
    obtain ⟨lo, hi⟩ := b
    simp only [h1] at h
    cases h2 : referencePoints lo hi eps step with
    | error e => simp [h2] at h
    | ok zs =>
      simp only [h2, Except.ok.injEq] at h
      exact ⟨lo, hi, zs, rfl, h2, h.symm⟩

/-- The problem's ranges are the right way round, however they are obtained. -/
def Ordered (ideal nadir : Bound (k + 1) K) : Prop :=
  ∀ a b, ideal = .given a → nadir = .given b → AtLeastAsGood a b

theorem resolve_ordered {obj : X → Vec (k + 1) K} {cons : Option (X → List K)} {table : Solver X K}
    {ideal nadir : Bound (k + 1) K} {lo hi : Vec (k + 1) K} (ho : Ordered ideal nadir)
    (h : resolveBounds obj cons table ideal nadir = .ok (lo, hi)) : AtLeastAsGood lo hi := by
  have hp : ∀ {lo hi}, Except.ok (ε := Err) (payoffGeneral obj cons table) = .ok (lo, hi) → AtLeastAsGood lo hi := by
    intro lo hi h
    cases h
    exact fun j => le_vmax (fun i => payoffTable obj cons table i j) j
  cases ideal with
  | missing => simp [resolveBounds] at h
  | infinite => exact hp h
  | given a =>
    cases nadir with
    | missing => simp [resolveBounds] at h
    | infinite => exact hp h
    | given b => cases h; exact ho _ _ rfl rfl

/-- The solver finds a global minimum whenever it reports success. -/
def Trusty (front : Solver X K) : Prop :=
  ∀ n g, (front n none g).2 = true → ∀ y, g (front n none g).1 ≤ g y

theorem trusty_optimal {obj : X → Vec (k + 1) K} {lo hi : Vec (k + 1) K} {front : Solver X K}
    (hl : AtLeastAsGood lo hi) (ht : Trusty front) (n : Nat) (z : Vec (k + 1) K)
    (hs : (front n none fun x => Navigator.pointAsf lo hi z (obj x)).2 = true) (y : X) :
    ¬ Dominates (obj y) (obj (front n none fun x => Navigator.pointAsf lo hi z (obj x)).1) := by
  intro hd
  exact absurd (Navigator.pointAsf_strict hl z hd) (not_lt.2 (ht n _ hs y))

/-- The full claim: the objective vectors belong to the decision vectors, and none dominates another one. -/
def OnlyNondominated (obj : X → Vec (k + 1) K) (step : StepArg K) (eps : K) (ideal nadir : Bound (k + 1) K) :
    Prop :=
  ∀ (cons : Option (X → List K)) (table front : Solver X K) (xs : List X) (fs : List (Vec (k + 1) K)),
    frontGeneral obj step eps ideal nadir cons table front = .ok (xs, fs) →
      fs = xs.map obj ∧ ∀ f ∈ fs, ∀ g ∈ fs, ¬ Dominates f g

/-- C62: the objective vectors are those of the decision vectors, in the same order; every decision vector was
found by a successful optimization for one of the reference points, in their order. If success means a global
minimum, every returned vector is Pareto optimal among all solutions within the variable bounds, so none
dominates another one. -/
theorem C62_aligned_partial {obj : X → Vec (k + 1) K} {step : StepArg K} {eps : K} {ideal nadir : Bound (k + 1) K}
    {cons : Option (X → List K)} {table front : Solver X K} {xs : List X} {fs : List (Vec (k + 1) K)}
    (h : frontGeneral obj step eps ideal nadir cons table front = .ok (xs, fs)) :
    fs = xs.map obj ∧
    (∃ lo hi zs, resolveBounds obj cons table ideal nadir = .ok (lo, hi) ∧
      referencePoints lo hi eps step = .ok zs ∧ xs.length ≤ zs.length ∧
      ∀ x ∈ xs, ∃ n z, zs[n]? = some z ∧ front n none (fun x => Navigator.pointAsf lo hi z (obj x)) = (x, true)) ∧
    (Trusty front → Ordered ideal nadir → (∀ x ∈ xs, ∀ y, ¬ Dominates (obj y) (obj x)) ∧
      ∀ f ∈ fs, ∀ g ∈ fs, ¬ Dominates f g) := by
  obtain ⟨lo, hi, zs, h1, h2, h3⟩ := frontGeneral_ok h
  obtain ⟨ys, h4, h5, h6⟩ := frontLoop_spec obj (Navigator.pointAsf lo hi) (fun i g => front i none g) zs 0 []
  simp only [List.map_nil, List.nil_append, Nat.zero_add] at h4 h6
  rw [h4] at h3
  simp only [Prod.mk.injEq] at h3
  obtain ⟨hx, hf⟩ := h3
  have hal : fs = xs.map obj := by rw [hf, filterMap_map_option, hx]
  have hfrom : ∀ x ∈ xs, ∃ n z, zs[n]? = some z ∧
      front n none (fun x => Navigator.pointAsf lo hi z (obj x)) = (x, true) := by
    intro x hm
    rw [hx, List.mem_filterMap] at hm
    obtain ⟨a, ha, hax⟩ := hm
    simp only [id_eq] at hax
    rw [hax] at ha
    obtain ⟨n, hn⟩ := List.mem_iff_getElem?.1 ha
    obtain ⟨z, hz, hs⟩ := h6 n x hn
    exact ⟨n, z, hz, hs⟩
  have hopt : Trusty front → Ordered ideal nadir → ∀ x ∈ xs, ∀ y, ¬ Dominates (obj y) (obj x) := by
    intro ht ho x hm y
    obtain ⟨n, z, _, hs⟩ := hfrom x hm
    have := trusty_optimal (obj := obj) (resolve_ordered ho h1) ht n z (by rw [hs]) y
    rwa [hs] at this
  refine ⟨hal, ⟨lo, hi, zs, h1, h2, ?_, hfrom⟩, fun ht ho => ⟨hopt ht ho, ?_⟩⟩
  · rw [hx, ← h5]
    exact List.length_filterMap_le _ _
  · intro f hfm g hgm
    rw [hal] at hfm hgm
    obtain ⟨x, _, rfl⟩ := List.mem_map.1 hfm
    obtain ⟨y, hy, rfl⟩ := List.mem_map.1 hgm
    exact hopt ht ho y hy x

/-- The hypotheses are met: an exact solver and a result exist. -/
example : ∃ (front : Solver (Fin 4) ℚ) (xs : List (Fin 4)) (fs : List (Vec 2 ℚ)), Trusty front ∧
    frontGeneral exProblem.obj (.float 1) (1/1000000) (.given ![0, 0]) (.given ![2, 2]) none front front =
      .ok (xs, fs) := by
  obtain ⟨solve, h, _⟩ := exists_exact (K := ℚ) (X := Fin 4) none ⟨0, by simp [Feasible]⟩
  obtain ⟨_, _, _, _, ⟨xs, fs⟩, hr⟩ := (C63_grid exProblem.obj (.float 1) (1/1000000) ![0, 0] ![2, 2]
    none solve solve).2 (by simp [BadStep]) (by decide +kernel) (by norm_num)
  exact ⟨solve, xs, fs, fun n g _ y => (h n g).2 y (by simp [Feasible]), hr⟩

/-- A solver whose successes are not minima: solution 3 first, then solution 0. -/
def exSolver : Solver (Fin 4) ℚ := fun n _ _ => if n = 0 then (0, true) else (3, true)

/-- C62 fails in full: the acceptance test lets dominated solutions pass. -/
theorem C62_fails :
    ¬ OnlyNondominated exProblem.obj (.float 2) (1/1000000) (.given ![0, 0]) (.given ![2, 2]) := by
  intro h
  have h1 : frontGeneral exProblem.obj (.float 2) (1/1000000) (.given ![0, 0]) (.given ![2, 2]) none exSolver
      exSolver = .ok ([0, 3, 3, 3], [![0, 2], ![0, 0], ![0, 0], ![0, 0]]) := by decide +kernel
  have := (h none exSolver exSolver _ _ h1).2 ![0, 0] (by simp) ![0, 2] (by simp)
  exact this (by unfold Dominates AtLeastAsGood; decide +kernel)

/-! ### C78: constraints -/

/-- The full claim: all returned solutions are feasible, if the solver respects the constraints it is given. -/
def FrontFeasible (P : Problem k X K) (step : StepArg K) (eps : K) (ideal nadir : Bound (k + 1) K) : Prop :=
  ∀ (table solver : Solver X K) (xs : List X) (fs : List (Vec (k + 1) K)),
    (∀ n c g, (∃ x, Feasible c x) → Feasible c (solver n c g).1) →
    front P step eps ideal nadir table solver = .ok (xs, fs) → ∀ x ∈ xs, Feasible P.evaluator x

/-- C78 for problems without constraints (and for constraints that all solutions satisfy). The constraints never
reach the solver: the result does not depend on them once ideal and nadir are finite. -/
theorem C78_feasible_partial {P : Problem k X K} {step : StepArg K} {eps : K} {lo hi : Vec (k + 1) K}
    {table solver : Solver X K} :
    (P.nCons = 0 → ∀ ideal nadir, FrontFeasible P step eps ideal nadir) ∧
    ∀ cons n, front { P with nCons := n, cons := cons } step eps (.given lo) (.given hi) table solver =
      front P step eps (.given lo) (.given hi) table solver := by
  refine ⟨?_, fun cons n => rfl⟩
  intro h0 ideal nadir table solver xs fs _ _ x _ g hg
  simp [Problem.evaluator, h0] at hg

example := (C78_feasible_partial (P := { exProblem with nCons := 0 }) (step := .float 1) (eps := 1/1000000)
  (lo := ![0, 0]) (hi := ![2, 2]) (table := exSolver) (solver := exSolver)).1 rfl

open Classical in
/-- A solver that respects the constraints it gets; without constraints it returns solution 3. -/
noncomputable def exSolver2 : Solver (Fin 4) ℚ := fun _ c _ =>
  match c with
  | none => (3, true)
  | some f => if h : ∃ x, Feasible (some f) x then (h.choose, true) else (3, false)

theorem exSolver2_feasible (n : Nat) (c : Option (Fin 4 → List ℚ)) (g : Fin 4 → ℚ) (h : ∃ x, Feasible c x) :
    Feasible c (exSolver2 n c g).1 := by
  cases c with
  | none => simp [Feasible]
  | some f =>
    unfold exSolver2
    simp only [dif_pos h]
    exact h.choose_spec

/-- C78 fails: the solver is not told about the constraints. -/
theorem C78_fails :
    ¬ FrontFeasible exProblem (.float 2) (1/1000000) (.given ![0, 0]) (.given ![2, 2]) := by
  intro h
  have h1 : front exProblem (.float 2) (1/1000000) (.given ![0, 0]) (.given ![2, 2]) exSolver2 exSolver2 =
      .ok ([3, 3, 3, 3], [![0, 0], ![0, 0], ![0, 0], ![0, 0]]) := by
    decide +kernel
  have h2 := h exSolver2 exSolver2 _ _ exSolver2_feasible h1 3 (by simp) exProblem.cons rfl (-1)
    (by simp [exProblem])
  norm_num at h2

/-! ### C79: failed optimizations -/

/-- The solutions of all successful optimizations, in the order of the reference points. -/
def AllSuccesses (obj : X → Vec (k + 1) K) (lo hi : Vec (k + 1) K) (front : Solver X K)
    (zs : List (Vec (k + 1) K)) : List X :=
  zs.zipIdx.filterMap fun p =>
    let res := front p.2 none fun x => Navigator.pointAsf lo hi p.1 (obj x)
    if res.2 then some res.1 else none

theorem successes_eq (obj : X → Vec (k + 1) K) (lo hi : Vec (k + 1) K) (front : Solver X K) :
    ∀ (zs : List (Vec (k + 1) K)) (i : Nat),
      successes obj (Navigator.pointAsf lo hi) (fun i g => front i none g) i zs =
      (zs.zipIdx i).filterMap fun p =>
        let res := front p.2 none fun x => Navigator.pointAsf lo hi p.1 (obj x)
        if res.2 then some res.1 else none := by
  intro zs
  induction zs with
  | nil => intro i; rfl
  | cons z zs ih =>
    intro i
    unfold successes
    rw [List.zipIdx_cons, List.filterMap_cons]
    by_cases h : (front i none fun x => Navigator.pointAsf lo hi z (obj x)).2 = true
    · simp only [h, if_true]
      rw [ih (i + 1)]
    · simp only [h]
      exact ih (i + 1)

/-- The full claim: with a solver whose successes are minima, exactly the solutions of the successful
optimizations are returned; a failed one loses nothing but its own reference point. -/
def KeepsSuccesses (obj : X → Vec (k + 1) K) (step : StepArg K) (eps : K) (lo hi : Vec (k + 1) K) : Prop :=
  ∀ (table front : Solver X K) (zs : List (Vec (k + 1) K)) (xs : List X) (fs : List (Vec (k + 1) K)),
    Trusty front → referencePoints lo hi eps step = .ok zs →
    frontGeneral obj step eps (.given lo) (.given hi) none table front = .ok (xs, fs) →
    xs = AllSuccesses obj lo hi front zs

/-- C79 if the first optimization succeeds; and if it fails, nothing at all is returned. -/
theorem C79_successes_partial {obj : X → Vec (k + 1) K} {step : StepArg K} {eps : K} {lo hi : Vec (k + 1) K}
    {cons : Option (X → List K)} {table front : Solver X K} {zs : List (Vec (k + 1) K)} {z : Vec (k + 1) K}
    {xs : List X} {fs : List (Vec (k + 1) K)} (hz : referencePoints lo hi eps step = .ok (z :: zs))
    (h : frontGeneral obj step eps (.given lo) (.given hi) cons table front = .ok (xs, fs)) :
    (AtLeastAsGood lo hi → Trusty front →
      (front 0 none fun x => Navigator.pointAsf lo hi z (obj x)).2 = true →
        xs = AllSuccesses obj lo hi front (z :: zs)) ∧
    ((front 0 none fun x => Navigator.pointAsf lo hi z (obj x)).2 = false → xs = [] ∧ fs = []) := by
  obtain ⟨lo', hi', zs', h1, h2, h3⟩ := frontGeneral_ok h
  cases h1
  rw [hz] at h2
  cases h2
  simp only [Prod.mk.injEq] at h3
  obtain ⟨hx, hf⟩ := h3
  constructor
  · intro hl ht hs
    have hacc : accepts ([] : List (Option (Vec (k + 1) K))) 0
        (obj (front 0 none fun x => Navigator.pointAsf lo hi z (obj x)).1) = true := by simp [accepts]
    have hall := frontLoop_all (obj := obj) (asf := Navigator.pointAsf lo hi)
      (solve := fun i g => front i none g) (fun n z hs y => trusty_optimal hl ht n z hs y) zs 1
      [some (front 0 none fun x => Navigator.pointAsf lo hi z (obj x)).1] (by simp)
    unfold AllSuccesses
    rw [← successes_eq, hx]
    unfold frontLoop successes
    simp only []
    rw [if_neg (by rw [hs]; simp), if_pos hacc, if_pos hs]
    simpa using hall
  · intro hs
    have hn := frontLoop_none (obj := obj) (asf := Navigator.pointAsf lo hi)
      (solve := fun i g => front i none g) zs 1 [none] [none] (le_refl _) rfl rfl
    unfold frontLoop at hx hf
    simp only [] at hx hf
    rw [if_pos hs] at hx hf
    exact ⟨hx.trans hn.1, hf.trans hn.2⟩

theorem ex_points : referencePoints (k := 1) (![0, 0] : Vec 2 ℚ) ![2, 2] (1/1000000) (.float 2) =
    .ok [![0, 0], ![0, 2], ![2, 0], ![2, 2]] := by decide +kernel

/-- A solver for the single solution that exists, failing in its first call. -/
def exFailing : Solver Unit ℚ := fun n _ _ => ((), n != 0)
def exWorking : Solver Unit ℚ := fun n _ _ => ((), n != 1)

theorem exFailing_trusty : Trusty exFailing := fun _ g _ y => by cases y; exact le_refl (g ())
theorem exWorking_trusty : Trusty exWorking := fun _ g _ y => by cases y; exact le_refl (g ())

example := (C79_successes_partial (obj := fun _ : Unit => (![1, 1] : Vec 2 ℚ)) (table := exWorking)
  (front := exWorking) (cons := none) ex_points (xs := [(), (), ()]) (fs := [![1, 1], ![1, 1], ![1, 1]])
  (by decide +kernel)).1 (by unfold AtLeastAsGood; decide +kernel) exWorking_trusty rfl

/-- C79 fails in full: if the first optimization fails, the later successes are lost. -/
theorem C79_fails : ¬ KeepsSuccesses (fun _ : Unit => (![1, 1] : Vec 2 ℚ)) (.float 2) (1/1000000) ![0, 0] ![2, 2] := by
  intro h
  have h1 : frontGeneral (fun _ : Unit => (![1, 1] : Vec 2 ℚ)) (.float 2) (1/1000000) (.given ![0, 0])
      (.given ![2, 2]) none exFailing exFailing = .ok ([], []) := by decide +kernel
  have := h exFailing exFailing _ _ _ exFailing_trusty ex_points h1
  revert this
  clear * -
  decide +kernel

/-! ### C80: ideal and nadir computed on demand -/

/-- The full claim: without a finite ideal and nadir the front representation uses those of the payoff table. -/
def BoundsOnDemand (obj : X → Vec (k + 1) K) (step : StepArg K) (eps : K) (ideal nadir : Bound (k + 1) K) : Prop :=
  ∀ (cons : Option (X → List K)) (table front : Solver X K),
    frontGeneral obj step eps ideal nadir cons table front =
      frontGeneral obj step eps (.given (payoffGeneral obj cons table).1) (.given (payoffGeneral obj cons table).2)
        cons table front

/-- C80 if one of them is infinite and the other one is given or infinite, and for any nadir if the ideal is
infinite. -/
theorem C80_bounds_partial (obj : X → Vec (k + 1) K) (step : StepArg K) (eps : K) :
    (∀ nadir, BoundsOnDemand obj step eps .infinite nadir) ∧
    ∀ v, BoundsOnDemand obj step eps (.given v) .infinite := by
  constructor
  · intro nadir cons table front
    rfl
  · intro v cons table front
    rfl

example := (C80_bounds_partial exProblem.obj (.float 2) (1/1000000)).1 (.infinite) none exSolver exSolver

/-- C80 fails for the default arguments, which raise `TypeError`. -/
theorem C80_fails : ¬ BoundsOnDemand exProblem.obj (.float 2) (1/1000000) .missing .missing ∧
    ∀ (obj : X → Vec (k + 1) K) step eps nadir cons table front,
      frontGeneral obj step eps .missing nadir cons table front = .error .typeError := by
  constructor
  · intro h
    have h1 := h none exSolver exSolver
    have h2 : frontGeneral exProblem.obj (.float 2) (1/1000000) .missing .missing none exSolver exSolver =
      .error .typeError := rfl
    rw [h2] at h1
    revert h1
    clear * -
    decide +kernel
  · intros
    rfl

end Verif.Solvers
