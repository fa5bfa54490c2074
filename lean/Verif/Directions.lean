import Verif.Constructors.Props
import Verif.Nautilus.Task
import Verif.NautilusV2.Task
import Verif.Rpm.Task
import Mathlib.Tactic.Linarith

/-!
# Property C130: objectives declared for maximization are maximized

The constructors of NAUTILUS, NAUTILUS 2 and the reference point method take a list `minimize` that is documented
as "multipliers for each objective, '-1' indicates maximization and '1' minimization".
-/

namespace Verif.Directions

variable {K : Type} [Field K] [LinearOrder K] [IsStrictOrderedRing K] {k m : Nat}

/-! ### The specification -/

/-- The multiplier declared for objective `j`; without a list all objectives are minimized. -/
def declared (minimize : Option (List Int)) (j : Fin k) : Int :=
  match minimize with
  | none => 1
  | some l => (l[j.val]?).getD 1

/-- `a` is better than `b` in the declared directions: nowhere worse and somewhere strictly better. -/
def Better (minimize : Option (List Int)) (a b : Vec k K) : Prop :=
  (∀ j, (declared minimize j : K) * a j ≤ (declared minimize j : K) * b j) ∧
    ∃ j, (declared minimize j : K) * a j < (declared minimize j : K) * b j

/-- `x` is feasible and no feasible vector is better in the declared directions. -/
def OptimalAsDeclared (P : Side m K) (minimize : Option (List Int)) (f : Vec m K → Vec k K) (x : Vec m K) : Prop :=
  P.feasible x ∧ ∀ y, P.feasible y → ¬ Better minimize (f y) (f x)

/-- All entries of the list are `1`. -/
def AllMin (minimize : Option (List Int)) : Prop := ∀ l, minimize = some l → ∀ x ∈ l, x = 1

theorem AllMin.declared {mn : Option (List Int)} (h : AllMin mn) (j : Fin k) : declared mn j = 1 := by
  cases mn with
  | none => rfl
  | some l =>
    show (l[j.val]?).getD 1 = 1
    cases hl : l[j.val]? with
    | none => rfl
    | some x => exact h l rfl x (List.mem_of_getElem? hl)

/-- With a list of ones, optimal as declared is Pareto optimal. -/
theorem AllMin.optimal {mn : Option (List Int)} (h : AllMin mn) {P : Side m K} {f : Vec m K → Vec k K} {x : Vec m K} :
    OptimalAsDeclared P mn f x ↔ ParetoOptimal P f x := by
  have hb : ∀ a b : Vec k K, Better mn a b ↔ Dominates a b := by
    intro a b
    unfold Better
    simp only [h.declared, Int.cast_one, one_mul]
    exact Iff.rfl
  unfold OptimalAsDeclared
  simp only [hb]
  exact Iff.rfl

/-! ### The constructors -/

/-- The arguments of the constructors (`start` for NAUTILUS 2 only); the problem by its objective function. The
names are given by their number. -/
structure Args (k m : Nat) (K : Type) where
  start : Vec k K
  ideal : Vec k K
  nadir : Vec k K
  epsilon : K
  names : Option Nat
  minimize : Option (List Int)
  evaluate : Vec m K → Vec k K

/-- `Nautilus.__init__` (Nautilus.py:336-383). The list `minimize` is stored (361, 363) in an attribute that is read
nowhere in the class; so it is not part of the data of the method. -/
def nautilus (nrm : Vec k K → K) (a : Args k m K) : Except Err (Nautilus.Cfg k m K) :=
  match Nautilus.construct k k a.names (a.minimize.map List.length) with
  | .error e => .error e
  | .ok _ => .ok
    { ideal := a.ideal, nadir := a.nadir, utopian := Nautilus.utopianOf a.epsilon a.ideal, evaluate := a.evaluate,
      nrm := nrm }

/-- A vector as a function of Python indices. -/
def entry (v : Vec k K) (i : Nat) : K := if h : i < k then v ⟨i, h⟩ else 0

/-- `NautilusV2.__init__` (NautilusV2.py:388-438), likewise (`_minimize` at 420, 422). -/
def nautilusV2 (nrm : Vec k K → K) (a : Args k m K) : Except Err (NautilusV2.Cfg k m K) :=
  match NautilusV2.construct k k k (entry a.start) (entry a.nadir) a.names (a.minimize.map List.length) with
  | .error e => .error e
  | .ok _ => .ok { start := a.start, ideal := a.ideal, nadir := a.nadir, evaluate := a.evaluate, nrm := nrm }

/-- `ReferencePointMethod.__init__` (ReferencePointMethod.py:236-290), likewise (`_minimize` at 261, 263), for an
`MOProblem`. -/
def rpm (nrm : Vec k K → K) (a : Args k m K) : Except Err (Rpm.Cfg k (Vec m K) (Vec m K) K) :=
  match Rpm.construct k k a.names (a.minimize.map List.length) with
  | .error e => .error e
  | .ok _ => .ok
    { ideal := a.ideal, nadir := a.nadir, utopian := fun j => a.ideal j - a.epsilon, vars := fun x => x,
      obj := a.evaluate, nrm := nrm }

/-! ### The full claims -/

/-- NAUTILUS: with exact minimizers, a problem without constraints, positive ranks (percentages) and `ideal` and
`nadir` that are a smallest and a largest value of each objective, every run ends with a solution that is optimal as declared. -/
def NautilusAsDeclared (nrm : Vec (k + 1) K → K) (a : Args (k + 1) m K) (P : Side m K) : Prop :=
  ∀ c s iss x f, nautilus nrm a = .ok c → (∀ y, P.inBounds y → P.constraints y) →
    (∀ i, a.ideal i - a.epsilon < a.nadir i) → Nautilus.Weighted c (Nautilus.Exact c P) s iss →
    Nautilus.Req.stop x f ∈ iss →
    ∃ x', x = some x' ∧ f = some (a.evaluate x') ∧ OptimalAsDeclared P a.minimize a.evaluate x'

/-- NAUTILUS 2, likewise. -/
def NautilusV2AsDeclared (nrm : Vec (k + 1) K → K) (a : Args (k + 1) m K) (P : Side m K) : Prop :=
  ∀ c s iss x f, nautilusV2 nrm a = .ok c → (∀ y, P.inBounds y → P.constraints y) →
    (∀ i, a.ideal i - a.epsilon < a.nadir i) → NautilusV2.Smooth c (NautilusV2.Exact c P a.epsilon) s iss →
    NautilusV2.Req.stop x f ∈ iss →
    ∃ x', x = some x' ∧ f = some (a.evaluate x') ∧ OptimalAsDeclared P a.minimize a.evaluate x'

/-- The reference point method, likewise, for reference points without positive components (see C48). -/
def RpmAsDeclared (nrm : Vec (k + 1) K → K) (a : Args (k + 1) m K) (P : Side m K) : Prop :=
  ∀ c s iss x f, rpm nrm a = .ok c → (∀ y, P.inBounds y → P.constraints y) →
    (∀ i, a.ideal i - a.epsilon < a.nadir i) → Rpm.Nonpos c (Rpm.Solver c P) s iss → Rpm.Req.stop x f ∈ iss →
    ∃ x', x = some x' ∧ f = some (a.evaluate x') ∧ OptimalAsDeclared P a.minimize a.evaluate x'

/-! ### What holds -/

theorem nautilus_ok {nrm : Vec k K → K} {a : Args k m K} {c} (h : nautilus nrm a = .ok c) :
    c.evaluate = a.evaluate ∧ c.nadir = a.nadir ∧ c.utopian = fun j => a.ideal j - a.epsilon := by
  unfold nautilus at h
  split at h
  · cases h
  · cases h
    exact ⟨rfl, rfl, rfl⟩

theorem nautilusV2_ok {nrm : Vec k K → K} {a : Args k m K} {c} (h : nautilusV2 nrm a = .ok c) :
    c.evaluate = a.evaluate ∧ c.nadir = a.nadir ∧ c.ideal = a.ideal := by
  unfold nautilusV2 at h
  split at h
  · cases h
  · cases h
    exact ⟨rfl, rfl, rfl⟩

theorem rpm_ok {nrm : Vec k K → K} {a : Args k m K} {c} (h : rpm nrm a = .ok c) :
    c.obj = a.evaluate ∧ c.nadir = a.nadir ∧ (c.utopian = fun j => a.ideal j - a.epsilon) ∧ ∀ d, c.vars d = d := by
  unfold rpm at h
  split at h
  · cases h
  · cases h
    exact ⟨rfl, rfl, rfl, fun _ => rfl⟩

/-- **C130** (NAUTILUS) for lists of ones, or without a list. Missing: lists that declare an objective to be
maximized (`C130_fails_nautilus`). -/
theorem C130_nautilus_partial {nrm : Vec (k + 1) K → K} {a : Args (k + 1) m K} {P : Side m K}
    (h : AllMin a.minimize) : NautilusAsDeclared nrm a P := by
  intro c s iss x f hc hP hlt hW hx
  obtain ⟨he, hn, hu⟩ := nautilus_ok hc
  obtain ⟨x', h1, h2, h3, _, h5⟩ :=
    Nautilus.C97_optimal_partial (fun i => by rw [hu, hn]; exact hlt i) hW hx
  rw [he] at h2 h5
  exact ⟨x', h1, h2, h.optimal.2 (h5 (hP _ h3))⟩

/-- **C130** (NAUTILUS 2) for lists of ones, or without a list. Missing: as for NAUTILUS
(`C130_fails_nautilusV2`). -/
theorem C130_nautilusV2_partial {nrm : Vec (k + 1) K → K} {a : Args (k + 1) m K} {P : Side m K}
    (h : AllMin a.minimize) : NautilusV2AsDeclared nrm a P := by
  intro c s iss x f hc hP hlt hW hx
  obtain ⟨he, hn, hi⟩ := nautilusV2_ok hc
  obtain ⟨x', h1, h2, h3, _, h5⟩ :=
    NautilusV2.C97_optimal_partial (fun i => by rw [hi, hn]; exact hlt i) hW hx
  rw [he] at h2 h5
  exact ⟨x', h1, h2, h.optimal.2 (h5 (hP _ h3))⟩

/-- **C130** (reference point method) for lists of ones, or without a list. Missing: as for NAUTILUS
(`C130_fails_rpm`). -/
theorem C130_rpm_partial {nrm : Vec (k + 1) K → K} {a : Args (k + 1) m K} {P : Side m K}
    (h : AllMin a.minimize) : RpmAsDeclared nrm a P := by
  intro c s iss x f hc hP hlt hW hx
  obtain ⟨he, hn, hu, hid⟩ := rpm_ok hc
  obtain ⟨x', h1, h2, h3⟩ :=
    (Rpm.C99_unconstrained (P := P) hid (fun i => by rw [hu, hn]; exact hlt i) hP s iss hW).2 _ _ hx
  rw [he] at h2 h3
  exact ⟨x', h1, h2, h.optimal.2 h3⟩

/-- The declared directions have no effect: two calls of a constructor that differ in the list `minimize` only and
are both accepted create the same method. -/
theorem C130_no_effect (nrm : Vec k K → K) (a : Args k m K) (mn : Option (List Int)) :
    (∀ c c', nautilus nrm a = .ok c → nautilus nrm { a with minimize := mn } = .ok c' → c = c') ∧
    (∀ c c', nautilusV2 nrm a = .ok c → nautilusV2 nrm { a with minimize := mn } = .ok c' → c = c') ∧
    ∀ c c', rpm nrm a = .ok c → rpm nrm { a with minimize := mn } = .ok c' → c = c' := by
  refine ⟨fun c c' h h' => ?_, fun c c' h h' => ?_, fun c c' h h' => ?_⟩
  · unfold nautilus at h h'
    split at h <;> split at h' <;> cases h <;> cases h' <;> rfl
  · unfold nautilusV2 at h h'
    split at h <;> split at h' <;> cases h <;> cases h' <;> rfl
  · unfold rpm at h h'
    split at h <;> split at h' <;> cases h <;> cases h' <;> rfl

/-! ### What fails -/

/-- Minimize `x` and maximize `1 - x` for `0 ≤ x ≤ 1`; the best solution is `x = 0`, for both objectives. -/
def exArgs (mn : List Int) : Args 2 1 ℚ where
  start := ![3/4, 1]
  ideal := ![0, 0]
  nadir := ![1, 1]
  epsilon := 1/100
  names := some 2
  minimize := some mn
  evaluate := fun x => ![x 0, 1 - x 0]

theorem ex_nautilus (mn : List Int) : nautilus supNorm (exArgs mn) = .ok Nautilus.exCfg := by
  have h : (nautilus supNorm (exArgs mn)) = .ok
      { ideal := ![0, 0], nadir := ![1, 1], utopian := Nautilus.utopianOf (1/100) ![0, 0],
        evaluate := fun x => ![x 0, 1 - x 0], nrm := supNorm } := by
    cases mn <;> rfl
  have hu : Nautilus.utopianOf (1/100 : ℚ) ![0, 0] = ![-1/100, -1/100] := by
    funext j
    match j with
    | 0 => norm_num [Nautilus.utopianOf]
    | 1 => norm_num [Nautilus.utopianOf]
  rw [h, hu]
  rfl

theorem ex_nautilusV2 (mn : List Int) : nautilusV2 supNorm (exArgs mn) = .ok NautilusV2.exCfg := by
  have h2 : (NautilusV2.construct 2 2 2 (entry (exArgs mn).start) (entry (exArgs mn).nadir) (some 2)
      ((exArgs mn).minimize.map List.length)) = .ok () := by
    have h3 : ((List.range 2).all fun i => decide (entry (exArgs mn).nadir i < entry (exArgs mn).start i)) = false := by
      show ((List.range 2).all fun i => decide (entry (![1, 1] : Vec 2 ℚ) i < entry ![3/4, 1] i)) = false
      decide +kernel
    simp only [NautilusV2.construct, h3]
    cases mn <;> simp [exArgs, Option.filter]
  unfold nautilusV2
  rw [show (exArgs mn).names = some 2 from rfl, h2]
  rfl

example := C130_nautilus_partial (nrm := supNorm) (a := exArgs [1, 1]) (P := Nautilus.exSide 1)
  (by rintro l ⟨⟩; decide) _ _ _ _ _ (ex_nautilus _) (fun _ h => h.2) (by decide +kernel)
  (Nautilus.exE_weighted _ (Nautilus.exExact_exact zero_le_one le_rfl)) List.mem_cons_self

example := C130_nautilusV2_partial (nrm := supNorm) (a := exArgs [1, 1]) (P := NautilusV2.exSide 1)
  (by rintro l ⟨⟩; decide) _ _ _ _ _ (ex_nautilusV2 _) (fun _ h => h.2) (by decide +kernel)
  (NautilusV2.exE_smooth _ (NautilusV2.exExact_exact zero_le_one le_rfl)) List.mem_cons_self

/-- In the declared directions `x = 0` is better than any other solution of the example. -/
theorem ex_better {t : ℚ} (h : 0 < t) : Better (some [1, -1]) ((exArgs [1, -1]).evaluate ![0]) ![t, 1 - t] := by
  have h0 : declared (k := 2) (some [1, -1]) 0 = 1 := rfl
  have h1 : declared (k := 2) (some [1, -1]) 1 = -1 := rfl
  refine ⟨fun j => ?_, 0, ?_⟩
  · match j with
    | 0 => rw [h0]; show ((1 : Int) : ℚ) * 0 ≤ ((1 : Int) : ℚ) * t; push_cast; linarith
    | 1 => rw [h1]; show ((-1 : Int) : ℚ) * (1 - 0) ≤ ((-1 : Int) : ℚ) * (1 - t); push_cast; linarith
  · rw [h0]; show ((1 : Int) : ℚ) * 0 < ((1 : Int) : ℚ) * t; push_cast; linarith

/-- C130 fails: with the first objective declared to be minimized and the second to be maximized, both objectives
prefer `x = 0`, but with exact minimizers NAUTILUS ends with `x = 2/3`. -/
theorem C130_fails_nautilus : ¬ NautilusAsDeclared supNorm (exArgs [1, -1]) (Nautilus.exSide 1) ∧
    OptimalAsDeclared (Nautilus.exSide 1) (some [1, -1]) (exArgs [1, -1]).evaluate ![0] := by
  constructor
  · intro h
    obtain ⟨x, hx, _, hp⟩ := h _ _ _ _ _ (ex_nautilus _) (fun _ h => h.2) (by decide +kernel)
      (Nautilus.exE_weighted _ (Nautilus.exExact_exact zero_le_one le_rfl)) List.mem_cons_self
    cases hx
    exact hp.2 ![0] ⟨⟨by decide +kernel, by decide +kernel⟩, by show (0 : ℚ) ≤ 1; norm_num⟩
      (ex_better (t := 2/3) (by norm_num))
  · refine ⟨⟨⟨by decide +kernel, by decide +kernel⟩, by show (0 : ℚ) ≤ 1; norm_num⟩, ?_⟩
    rintro y ⟨⟨hy, _⟩, _⟩ ⟨_, j, hj⟩
    have h0 : declared (k := 2) (some [1, -1]) 0 = 1 := rfl
    have h1 : declared (k := 2) (some [1, -1]) 1 = -1 := rfl
    match j, hj with
    | 0, hj =>
      rw [h0] at hj
      have hj : ((1 : Int) : ℚ) * y 0 < ((1 : Int) : ℚ) * 0 := hj
      push_cast at hj; linarith
    | 1, hj =>
      rw [h1] at hj
      have hj : ((-1 : Int) : ℚ) * (1 - y 0) < ((-1 : Int) : ℚ) * (1 - 0) := hj
      push_cast at hj; linarith

/-- C130 fails: on the same problem NAUTILUS 2 ends with `x = 1/2`. -/
theorem C130_fails_nautilusV2 : ¬ NautilusV2AsDeclared supNorm (exArgs [1, -1]) (NautilusV2.exSide 1) := by
  intro h
  obtain ⟨x, hx, _, hp⟩ := h _ _ _ _ _ (ex_nautilusV2 _) (fun _ h => h.2) (by decide +kernel)
    (NautilusV2.exE_smooth _ (NautilusV2.exExact_exact zero_le_one le_rfl)) List.mem_cons_self
  cases hx
  exact hp.2 ![0] ⟨⟨by decide +kernel, by decide +kernel⟩, by show (0 : ℚ) ≤ 1; norm_num⟩
    (ex_better (t := 1/2) (by norm_num))

/-- Minimize `x - 1` and maximize `-x` for `0 ≤ x ≤ 1`; again `x = 0` is the best solution for both objectives. -/
def rpmArgs (mn : List Int) : Args 2 1 ℚ where
  start := ![0, 0]
  ideal := ![-1, -1]
  nadir := ![0, 0]
  epsilon := 1/100
  names := some 2
  minimize := some mn
  evaluate := fun x => ![x 0 - 1, - x 0]

theorem ex_rpm (mn : List Int) : rpm supNorm (rpmArgs mn) = .ok Rpm.seCfg := by
  have h : (rpm supNorm (rpmArgs mn)) = .ok
      { ideal := ![-1, -1], nadir := ![0, 0], utopian := fun j => (![-1, -1] : Vec 2 ℚ) j - 1/100,
        vars := fun x => x, obj := fun x => ![x 0 - 1, - x 0], nrm := supNorm } := by
    cases mn <;> rfl
  have hu : (fun j => (![-1, -1] : Vec 2 ℚ) j - 1/100) = ![-101/100, -101/100] := by
    funext j
    match j with
    | 0 => norm_num
    | 1 => norm_num
  rw [h, hu]
  rfl

example := C130_rpm_partial (nrm := supNorm) (a := rpmArgs [1, 1]) (P := Rpm.seSide 1)
  (by rintro l ⟨⟩; decide) _ _ _ _ _ (ex_rpm _) (fun _ h => h.2) (by decide +kernel)
  (Rpm.se_nonpos (Rpm.seOrc_solver 1)) (by rw [Rpm.seR3_eq]; exact List.mem_cons_self)

/-- C130 fails: the reference point method shows `x = 85/196` in its stop request. -/
theorem C130_fails_rpm : ¬ RpmAsDeclared supNorm (rpmArgs [1, -1]) (Rpm.seSide 1) := by
  intro h
  obtain ⟨x, hx, _, hp⟩ := h _ _ _ _ _ (ex_rpm _) (fun _ h => h.2) (by decide +kernel)
    (Rpm.se_nonpos (Rpm.seOrc_solver 1)) (by rw [Rpm.seR3_eq]; exact List.mem_cons_self)
  cases hx
  refine hp.2 ![0] ⟨⟨by decide +kernel, by decide +kernel⟩, by show (0 : ℚ) ≤ 1; norm_num⟩ ⟨fun j => ?_, 0, ?_⟩
  · match j with
    | 0 => decide +kernel
    | 1 => decide +kernel
  · decide +kernel

example := C130_no_effect supNorm (exArgs [1, 1]) (some [1, -1])

end Verif.Directions
