import Verif.Solvers.Coverage
import Verif.Navigator.Props3
import Verif.ENautilus.Props
import Verif.Constructors.Props

set_option linter.unusedSectionVars false

/-!
# From the problem to the navigation, C171 and C172

Ideal and nadir are computed with `payoff_table_method`, the front with `solve_pareto_front_representation`, and both are
given to `NautilusNavigator` or `ENautilus`.
-/

namespace Verif.Pipeline

open Solvers (Problem Solver StepArg BadStep stepFor Trusty ParetoSolution Admissible MinimizesEach StandsFor payoff front)
open Navigator (pointAsf vmax Denotes)

variable {K : Type} [Field K] [LinearOrder K] [IsStrictOrderedRing K] [FloorRing K] {k n : Nat} {X : Type}

/-! ### Specification -/

/-- Specification: `xs` and `fs` are a front representation of the problem, which has no constraints, computed with a
lower bound `lo` of all objective vectors as ideal and an upper bound `hi` of all Pareto optimal ones as nadir point, by a
minimizer that always finds a global minimum. No step is larger than the share `d` of the range `hi - lo + 1e-6`. -/
structure Prepared (P : Problem k X K) (lo hi : Vec (k + 1) K) (d : K) (xs : List X) (fs : List (Vec (k + 1) K)) : Prop where
  free : P.nCons = 0
  ideal : ∀ y, AtLeastAsGood lo (P.obj y)
  nadir : ∀ y, ParetoSolution P y → AtLeastAsGood (P.obj y) hi
  ordered : AtLeastAsGood lo hi
  result : ∃ (step : StepArg K) (eps : K) (table solver : Solver X K), ¬ BadStep k step ∧
    (∀ j : Fin (k + 1), 0 < stepFor step j.val) ∧ 0 < eps ∧
    (∀ j : Fin (k + 1), stepFor step j.val ≤ d * (hi j - lo j + 1 / 10 ^ 6)) ∧ Trusty solver ∧
    (∀ n z, (solver n none fun x => pointAsf lo hi z (P.obj x)).2 = true) ∧
    front P step eps (.given lo) (.given hi) table solver = .ok (xs, fs)

/-- Specification: NAUTILUS Navigator works on the rows `fs` with the decision vectors `xs`, ideal `lo` and nadir `hi`. -/
structure NavigatorOn (c : Navigator.Cfg n (k + 1) K X) (lo hi : Vec (k + 1) K) (xs : List X)
    (fs : List (Vec (k + 1) K)) : Prop where
  count : n = fs.length
  rows : ∀ i : Fin n, fs[i.val]? = some (c.front i)
  decisions : ∃ d, c.vars = some d ∧ ∀ i : Fin n, xs[i.val]? = some (d i)
  ideal : c.ideal = lo
  nadir : c.nadir = hi
  asf : c.asf = pointAsf lo hi

/-- Specification: E-NAUTILUS works on the rows `fs` with the decision vectors `xs`, ideal `lo` and nadir `hi`. -/
structure ENautilusOn (c : ENautilus.Cfg n (k + 1) K X) (lo hi : Vec (k + 1) K) (xs : List X)
    (fs : List (Vec (k + 1) K)) : Prop where
  count : n = fs.length
  rows : ∀ i : Fin n, fs[i.val]? = some (c.front i)
  decisions : c.vars = some xs
  ideal : c.ideal = lo
  nadir : c.nadir = hi

/-! ### Proofs -/

/-- Two objectives without constraints, everything computed with exact minimizers, starting from the problem alone. -/
theorem C171_two_objectives {P : Problem 1 X K} (hc : P.nCons = 0) {step : StepArg K} {eps : K}
    (hb : ¬ BadStep 1 step) (hpos : ∀ j : Fin 2, 0 < stepFor step j.val) (heps : 0 < eps)
    {table solver : Solver X K} (hex : MinimizesEach P table) (ht : Trusty solver)
    (hs : ∀ n z, (solver n none fun x => pointAsf (payoff P table).1 (payoff P table).2 z (P.obj x)).2 = true) {d : K}
    (hd : ∀ j : Fin 2, stepFor step j.val ≤ d * ((payoff P table).2 j - (payoff P table).1 j + 1 / 10 ^ 6))
    {xs : List X} {fs : List (Vec 2 K)} (h : front P step eps .infinite .infinite table solver = .ok (xs, fs)) :
    Prepared P (payoff P table).1 (payoff P table).2 d xs fs := by
  obtain ⟨_, _, _, hl, hlow⟩ := Solvers.C61_payoff P table
  refine ⟨hc, fun y i => (hlow hex i).2 y fun h0 => absurd h0 (by omega), (Solvers.C103_two_objectives_partial P).1 table hex,
    hl, step, eps, table, solver, hb, hpos, heps, hd, ht, hs, ?_⟩
  rw [← h]
  exact ((Solvers.C80_bounds_partial P.obj step eps).1 .infinite P.evaluator table solver).symm

variable {P : Problem k X K} {lo hi : Vec (k + 1) K} {d : K} {xs : List X} {fs : List (Vec (k + 1) K)}

theorem Prepared.aligned (h : Prepared P lo hi d xs fs) : fs = xs.map P.obj ∧ ∀ x ∈ xs, ParetoSolution P x := by
  obtain ⟨step, eps, table, solver, _, _, _, _, ht, _, hf⟩ := h.result
  obtain ⟨h1, _, h2⟩ := Solvers.C62_aligned_partial hf
  refine ⟨h1, fun x hx => ⟨fun h0 => absurd h0 (by have := h.free; omega), fun y _ => (h2 ht ?_).1 x hx y⟩⟩
  rintro _ _ ⟨⟩ ⟨⟩
  exact h.ordered

theorem Prepared.row (h : Prepared P lo hi d xs fs) {i : Nat} {f : Vec (k + 1) K} {x : X} (hf : fs[i]? = some f)
    (hx : xs[i]? = some x) : ParetoSolution P x ∧ f = P.obj x ∧ InBox lo hi f := by
  obtain ⟨h1, h2⟩ := h.aligned
  have hp := h2 x (List.mem_of_getElem? hx)
  rw [h1, List.getElem?_map, hx] at hf
  obtain rfl : P.obj x = f := by simpa using hf
  exact ⟨hp, rfl, fun j => ⟨h.ideal x j, h.nadir x hp j⟩⟩

/-- **C171** (rows). The constructor accepts the arguments; every row is the objective vector of its decision vector, which
is Pareto optimal for the problem, and lies between the ideal and the nadir point, so all rows are reachable at the start. -/
theorem C171_rows (h : Prepared P lo hi d xs fs) {c : Navigator.Cfg n (k + 1) K X} (hc : NavigatorOn c lo hi xs fs)
    (m : Nat) : Constructors.navigator [fs.length, k + 1] [k + 1] [k + 1] (some [xs.length, m]) = .ok () ∧ 0 < n ∧
    ∃ dec, c.vars = some dec ∧ ∀ i, ParetoSolution P (dec i) ∧ c.front i = P.obj (dec i) ∧ InBox c.ideal c.nadir (c.front i) := by
  obtain ⟨dec, h1, h2⟩ := hc.decisions
  refine ⟨((Constructors.C84_navigator _ _ _ _ (by simp)).1).2 ⟨fs.length, rfl, rfl, .inr ⟨[m], ?_⟩⟩, ?_, dec, h1,
    fun i => ?_⟩
  · rw [h.aligned.1, List.length_map]
  · rw [hc.count]
    obtain ⟨step, eps, table, solver, hb, hpos, heps, _, ht, hs, hf⟩ := h.result
    obtain ⟨zs, hz, _, hmem, _⟩ := (Solvers.C63_grid P.obj step eps lo hi P.evaluator table solver).2 hb hpos heps.le
    have h0 : lo ∈ zs := by
      rw [hmem]
      intro j
      have := h.ordered j
      refine ⟨0, by rw [min_eq_left this]; simp, ?_⟩
      rw [max_eq_right this]
      linarith
    cases zs with
    | nil => cases h0
    | cons z zs =>
      have hx := (Solvers.C79_successes_partial hz hf).1 h.ordered ht (hs _ _)
      have hne : xs ≠ [] := by
        rw [hx]
        unfold Solvers.AllSuccesses
        rw [List.zipIdx_cons, List.filterMap_cons]
        simp only [hs, if_true]
        exact List.cons_ne_nil _ _
      rw [h.aligned.1, List.length_map]
      exact List.length_pos_iff.2 hne
  · obtain ⟨a, b, e⟩ := h.row (hc.rows i) (h2 i)
    rw [hc.ideal, hc.nadir]
    exact ⟨a, b, e⟩

/-- **C171** (arrival). In any history of the navigation, a forward step with one step remaining leads to the objective
vector of a solution that is Pareto optimal for the problem. -/
theorem C171_arrives (h : Prepared P lo hi d xs fs) {c : Navigator.Cfg n (k + 1) K X} (hc : NavigatorOn c lo hi xs fs)
    {s s' : Navigator.St n (k + 1) K} {ct0 ct ct' : Navigator.Content n (k + 1) K}
    {l : List (Navigator.Content n (k + 1) K)} (hr : Navigator.Reached c s (ct0 :: l)) {r : Navigator.Resp K}
    (hg : r.goToPrevious = some (.bool false)) (h1 : ct0.rem = 1)
    (ha : Navigator.answer c s ct r = (s', .ok (.nav ct'))) : ∃ x ∈ xs, ParetoSolution P x ∧ ct'.nav = P.obj x := by
  obtain ⟨⟨p, hp⟩, _⟩ := Navigator.C12_last_step_on_front hr hg h1 ha
  obtain ⟨dec, _, h2⟩ := hc.decisions
  obtain ⟨a, b, _⟩ := h.row (hc.rows p) (h2 p)
  exact ⟨dec p, List.mem_of_getElem? (h2 p), a, hp.trans b⟩

/-- **C171** (stop). In any history, an accepted response with `stop` set returns decision vectors that are Pareto optimal
for the problem, together with their objective vectors. -/
theorem C171_stop (h : Prepared P lo hi d xs fs) {c : Navigator.Cfg n (k + 1) K X} (hc : NavigatorOn c lo hi xs fs)
    {s s' : Navigator.St n (k + 1) K} {l : List (Navigator.Content n (k + 1) K)} (hr : Navigator.Reached c s l)
    {ct : Navigator.Content n (k + 1) K} (hct : ct ∈ l) {r : Navigator.Resp K} (hst : r.stop = some (.bool true))
    {o : Navigator.Out n (k + 1) K X} (ha : Navigator.answer c s ct r = (s', .ok o)) :
    ∃ idx ds, o = .stop idx (ds.map P.obj) (some ds) ∧ ∀ x ∈ ds, x ∈ xs ∧ ParetoSolution P x := by
  obtain ⟨dec, h1, h2⟩ := hc.decisions
  have hrow : ∀ i, ParetoSolution P (dec i) ∧ c.front i = P.obj (dec i) ∧ InBox lo hi (c.front i) :=
    fun i => h.row (hc.rows i) (h2 i)
  obtain ⟨_, idx, objs, decs, ho, _, _, e1, e2, _, e3⟩ := Navigator.C18_stop_returns_reachable
    (fun i => by rw [hc.ideal, hc.nadir]; exact (hrow i).2.2) hr hct hst ha
  obtain ⟨ds, rfl, e4, e5⟩ := e3 dec h1
  have hd : ds = idx.map dec := by
    apply List.ext_getElem?
    intro m
    rw [List.getElem?_map]
    cases hm : idx[m]? with
    | none =>
      rw [List.getElem?_eq_none_iff] at hm
      simp only [Option.map_none]
      rw [List.getElem?_eq_none_iff]
      omega
    | some i => rw [e5 m i hm]; rfl
  have hob : objs = ds.map P.obj := by
    rw [hd]
    apply List.ext_getElem?
    intro m
    rw [List.getElem?_map, List.getElem?_map]
    cases hm : idx[m]? with
    | none =>
      rw [List.getElem?_eq_none_iff] at hm
      simp only [Option.map_none]
      rw [List.getElem?_eq_none_iff]
      omega
    | some i => rw [e2 m i hm, (hrow i).2.1]; rfl
  refine ⟨idx, ds, by rw [ho, hob], fun x hx => ?_⟩
  rw [hd, List.mem_map] at hx
  obtain ⟨i, _, rfl⟩ := hx
  exact ⟨List.mem_of_getElem? (h2 i), (hrow i).1⟩

omit [FloorRing K] in
/-- A vector that is worse by at most the share `d` of the range has a hardly worse achievement value. -/
theorem pointAsf_near {q f g : Vec (k + 1) K} (hl : AtLeastAsGood lo hi)
    (hfg : ∀ j, f j ≤ g j + d * (hi j - lo j + 1 / 10 ^ 6)) :
    pointAsf lo hi q f ≤ pointAsf lo hi q g + d * (1 + (k + 1) / 10 ^ 6) := by
  have hw : ∀ i, 0 < hi i - (lo i - 1 / 1000000) := fun i => by
    have : (0 : K) < 1 / 1000000 := by norm_num
    have := hl i
    linarith
  have ew : ∀ i, hi i - (lo i - 1 / 1000000) = hi i - lo i + 1 / 10 ^ 6 := fun i => by norm_num; ring
  unfold pointAsf
  obtain ⟨i, m2⟩ := (Navigator.vmax_spec (fun j => (f j - q j) / (hi j - (lo j - 1 / 1000000)))).2
  have m1 := (Navigator.vmax_spec (fun j => (g j - q j) / (hi j - (lo j - 1 / 1000000)))).1 i
  have m3 : (f i - q i) / (hi i - (lo i - 1 / 1000000)) ≤ (g i - q i) / (hi i - (lo i - 1 / 1000000)) + d := by
    rw [div_add' _ _ _ (hw i).ne', div_le_div_iff_of_pos_right (hw i), ew]
    have := hfg i
    linarith
  have m4 : ((List.finRange (k + 1)).map fun j => f j / (hi j - (lo j - 1 / 1000000))).sum ≤
      ((List.finRange (k + 1)).map fun j => g j / (hi j - (lo j - 1 / 1000000)) + d).sum := by
    apply List.sum_le_sum
    intro i _
    rw [div_add' _ _ _ (hw i).ne', div_le_div_iff_of_pos_right (hw i), ew]
    exact hfg i
  have m5 : ((List.finRange (k + 1)).map fun j => g j / (hi j - (lo j - 1 / 1000000)) + d).sum =
      ((List.finRange (k + 1)).map fun j => g j / (hi j - (lo j - 1 / 1000000))).sum + ((k : K) + 1) * d := by
    rw [List.sum_map_add]
    simp
  rw [m5] at m4
  have h0 : (0 : K) ≤ 1 / 1000000 := by norm_num
  have m6 := mul_le_mul_of_nonneg_left m4 h0
  rw [m2]
  have e : d * (1 + ((k : K) + 1) / 10 ^ 6) = d + 1 / 1000000 * (((k : K) + 1) * d) := by norm_num; ring
  rw [e]
  linarith

/-- **C171** (quality). Navigate forward 100 steps with one and the same reference point: the navigation ends in the objective
vector of a solution `x` that is Pareto optimal for the problem, and no Pareto optimal solution of the problem - whether in
the representation or not - has an achievement value for the reference point that is better by more than one step and some
millionths of the range. -/
theorem C171_quality (h : Prepared P lo hi d xs fs) {c : Navigator.Cfg n (k + 1) K X} (hc : NavigatorOn c lo hi xs fs)
    (hn : NormSpec c.nrm) {ql : List (Option K)} {rs : List (Navigator.Resp K)}
    (hrs : ∀ r ∈ rs, r.goToPrevious = some (.bool false) ∧ r.ref = some ql) (h100 : rs.length = 100)
    {s : Navigator.St n (k + 1) K} {ct : Navigator.Content n (k + 1) K}
    (hrun : Navigator.run c (Navigator.initSt c) (Navigator.start (Navigator.initSt c)) rs = .ok (s, ct)) :
    ∃ (q : Vec (k + 1) K) (x : X), Denotes ql (fun j => some (q j)) ∧ x ∈ xs ∧ ParetoSolution P x ∧ ct.nav = P.obj x ∧
      ∀ y, ParetoSolution P y → pointAsf lo hi q (P.obj x) ≤
        pointAsf lo hi q (P.obj y) + (d + (k + 1) / 10 ^ 6) * (1 + (k + 1) / 10 ^ 6) := by
  obtain ⟨dec, h1, h2⟩ := hc.decisions
  have hrow : ∀ i, ParetoSolution P (dec i) ∧ c.front i = P.obj (dec i) ∧ InBox lo hi (c.front i) :=
    fun i => h.row (hc.rows i) (h2 i)
  obtain ⟨q, p, hq, hbest, hnav, _⟩ := Navigator.C13_constant_pace hn
    (fun i j => by rw [hc.nadir]; exact ((hrow i).2.2 j).2) hrs (by omega) (by omega) hrun
  have hnav' : ct.nav = c.front p := by
    funext j
    rw [hnav j, h100]
    push_cast
    rw [div_self (by norm_num : (100 : K) ≠ 0)]
    ring
  refine ⟨q, dec p, hq, List.mem_of_getElem? (h2 p), (hrow p).1, hnav'.trans (hrow p).2.1, fun y hy => ?_⟩
  obtain ⟨step, eps, table, solver, hb, hpos, heps, hd, ht, hs, hf⟩ := h.result
  obtain ⟨x, hx, hst⟩ := Solvers.C113_covers h.ordered h.ideal hb hpos heps hd ht hs hf (h.nadir y hy)
  obtain ⟨i, hi'⟩ := List.mem_iff_getElem?.1 hx
  have hlt : i < n := by
    rw [hc.count, h.aligned.1, List.length_map]
    exact (List.getElem?_eq_some_iff.1 hi').1
  have hxd : dec ⟨i, hlt⟩ = x := by
    have := h2 ⟨i, hlt⟩
    rw [hi'] at this
    exact (Option.some.inj this).symm
  have := hbest ⟨i, hlt⟩
  rw [hc.asf, (hrow p).2.1, (hrow ⟨i, hlt⟩).2.1, hxd] at this
  exact this.trans (pointAsf_near h.ordered hst)

/-- **C172.** The constructor of E-NAUTILUS accepts the arguments; and in any history, when E-NAUTILUS stops, the solution it
returns is Pareto optimal for the problem and has exactly the objective vector returned with it. -/
theorem C172_stop (h : Prepared P lo hi d xs fs) {c : ENautilus.Cfg n (k + 1) K X} (hc : ENautilusOn c lo hi xs fs)
    (hn : NormSpec c.nrm) :
    Constructors.eNautilus [fs.length, k + 1] [k + 1] [k + 1] none = .ok () ∧
    ∀ {s : ENautilus.St n (k + 1) K} {z : Vec (k + 1) K} {sol : Option X} {hist : List (ENautilus.Content (k + 1) K)},
      ENautilus.Reached c s (.stop z sol) hist → ∃ x ∈ xs, sol = some x ∧ z = P.obj x ∧ ParetoSolution P x := by
  refine ⟨((Constructors.C84_enautilus _ _ _ none).1).2 ⟨⟨fs.length, rfl⟩, rfl, .inl rfl⟩, fun {s z sol hist} hr => ?_⟩
  obtain ⟨_, h1, _⟩ := ENautilus.C05_stop_solution_matches hn hr
  obtain ⟨i, e1, e2, e3⟩ := h1 xs hc.decisions
  obtain ⟨x, hx⟩ := Option.isSome_iff_exists.1 e3
  rw [hx] at e2
  obtain ⟨a, b, _⟩ := h.row (hc.rows i) e2.symm
  exact ⟨x, List.mem_of_getElem? e2.symm, hx, e1.symm.trans b, a⟩

/-! ### Non-vacuity -/

/-- An exact minimizer over four solutions. -/
def least : Solver (Fin 4) ℚ := fun _ _ g => ([1, 2, 3].foldl (fun a x => if g x < g a then x else a) 0, true)

theorem least_min (g : Fin 4 → ℚ) (n : Nat) (c : Option (Fin 4 → List ℚ)) (y : Fin 4) : g (least n c g).1 ≤ g y := by
  simp only [least, List.foldl_cons, List.foldl_nil]
  fin_cases y <;> simp only [Fin.zero_eta, Fin.mk_one, Fin.reduceFinMk] <;> split_ifs <;> linarith

/-- The decision vectors found for the nine reference points; the dominated fourth solution is not among them. -/
def pXs : List (Fin 4) := [1, 0, 0, 1, 1, 0, 2, 1, 1]

def pFs : List (Vec 2 ℚ) := [![1, 1], ![0, 2], ![0, 2], ![1, 1], ![1, 1], ![0, 2], ![2, 0], ![1, 1], ![1, 1]]

theorem p_front : front Solvers.covProblem (.float 1) (1 / 10 ^ 6) .infinite .infinite least least = .ok (pXs, pFs) :=
  eq_of_beq (by decide +kernel)

theorem p_payoff : payoff Solvers.covProblem least = (![0, 0], ![2, 2]) := eq_of_beq (by decide +kernel)

theorem p_prepared : Prepared Solvers.covProblem ![0, 0] ![2, 2] (1 / 2) pXs pFs := by
  have := C171_two_objectives (P := Solvers.covProblem) rfl (step := .float 1) (by simp [BadStep]) (by decide +kernel)
    (by norm_num) (fun i n => ⟨fun _ h => (by simp [Solvers.covProblem, Problem.evaluator] at h), fun y _ =>
      least_min (fun x => Solvers.covProblem.obj x i) n _ y⟩) (fun n g _ y => least_min g n _ y)
    (fun _ _ => rfl) (d := 1 / 2) (by rw [p_payoff]; decide +kernel) p_front
  rwa [p_payoff] at this

/-- NAUTILUS Navigator on this representation. -/
def pNav : Navigator.Cfg 9 2 ℚ (Fin 4) :=
  { front := ![![1, 1], ![0, 2], ![0, 2], ![1, 1], ![1, 1], ![0, 2], ![2, 0], ![1, 1], ![1, 1]], ideal := ![0, 0],
    nadir := ![2, 2], vars := some ![1, 0, 0, 1, 1, 0, 2, 1, 1], nrm := supNorm, asf := pointAsf ![0, 0] ![2, 2] }

theorem p_nav : NavigatorOn pNav ![0, 0] ![2, 2] pXs pFs :=
  ⟨rfl, by decide +kernel, ⟨_, rfl, by decide +kernel⟩, rfl, rfl, rfl⟩

/-- E-NAUTILUS on this representation. -/
def pEn : ENautilus.Cfg 9 2 ℚ (Fin 4) :=
  { front := pNav.front, ideal := ![0, 0], nadir := ![2, 2], vars := some pXs, nrm := supNorm }

theorem p_en : ENautilusOn pEn ![0, 0] ![2, 2] pXs pFs := ⟨rfl, p_nav.rows, rfl, rfl, rfl⟩

/-- C171 applies: from the problem, everything computed. -/
example := C171_rows p_prepared p_nav 1

/-- A forward response with the reference point (0, 2). -/
def pResp : Navigator.Resp ℚ := Navigator.forwardResp [some 0, some 2] (.int 3) [none, none]

/-- The run of C171 (quality) exists, and it ends in the Pareto optimal solution `0`, whose objective vector is (0, 2). -/
example : ∃ s ct, Navigator.run pNav (Navigator.initSt pNav) (Navigator.start (Navigator.initSt pNav))
    (List.replicate 100 pResp) = .ok (s, ct) ∧ ct.nav = ![0, 2] ∧
    ∃ (q : Vec 2 ℚ) (x : Fin 4), Denotes [some 0, some 2] (fun j => some (q j)) ∧ x ∈ pXs ∧
      ParetoSolution Solvers.covProblem x ∧ ct.nav = Solvers.covProblem.obj x ∧
      ∀ y, ParetoSolution Solvers.covProblem y → pointAsf ![0, 0] ![2, 2] q (Solvers.covProblem.obj x) ≤
        pointAsf ![0, 0] ![2, 2] q (Solvers.covProblem.obj y) + (1 / 2 + ((1 : ℕ) + 1) / 10 ^ 6) * (1 + ((1 : ℕ) + 1) / 10 ^ 6) := by
  have h : ((Navigator.run pNav (Navigator.initSt pNav) (Navigator.start (Navigator.initSt pNav))
      (List.replicate 100 pResp)).toOption.map fun x => x.2.nav) = some ![0, 2] := eq_of_beq (by decide +kernel)
  cases hr : Navigator.run pNav (Navigator.initSt pNav) (Navigator.start (Navigator.initSt pNav))
      (List.replicate 100 pResp) with
  | error e => rw [hr] at h; simp [Except.toOption] at h
  | ok x =>
    rw [hr] at h
    simp only [Except.toOption, Option.map_some, Option.some.injEq] at h
    exact ⟨x.1, x.2, rfl, h, C171_quality p_prepared p_nav supNorm_spec
      (fun r hm => by rw [List.eq_of_mem_replicate hm]; exact ⟨rfl, rfl⟩) (by simp) hr⟩

/-- C171 (stop) applies to the first request: all nine rows are returned. -/
example : ∃ s' o, Navigator.answer pNav (Navigator.initSt pNav) (Navigator.start (Navigator.initSt pNav))
    (Navigator.stopResp [some 0, some 2] (.int 3) false [none, none]) = (s', .ok o) ∧
    ∃ idx ds, o = .stop idx (ds.map Solvers.covProblem.obj) (some ds) ∧
      ∀ x ∈ ds, x ∈ pXs ∧ ParetoSolution Solvers.covProblem x := by
  have h : Navigator.answer pNav (Navigator.initSt pNav) (Navigator.start (Navigator.initSt pNav))
      (Navigator.stopResp [some 0, some 2] (.int 3) false [none, none]) =
      (Navigator.initSt pNav, .ok (.stop [0, 1, 2, 3, 4, 5, 6, 7, 8] pFs (some pXs))) := eq_of_beq (by decide +kernel)
  exact ⟨_, _, h, C171_stop p_prepared p_nav .init (List.mem_singleton.2 rfl) rfl h⟩

/-- A run is a history. -/
theorem p_reached : ∀ (m : Nat) {s : Navigator.St 9 2 ℚ} {ct : Navigator.Content 9 2 ℚ} {rs : List (Navigator.Resp ℚ)}
    {l : List (Navigator.Content 9 2 ℚ)} {s0 : Navigator.St 9 2 ℚ} {ct0 : Navigator.Content 9 2 ℚ}, rs.length = m →
    Navigator.Reached pNav s0 (ct0 :: l) → Navigator.run pNav s0 ct0 rs = .ok (s, ct) →
    ∃ l', Navigator.Reached pNav s (ct :: l') := by
  intro m
  induction m with
  | zero =>
    intro s ct rs l s0 ct0 hl h0 h
    obtain rfl := List.length_eq_zero_iff.1 hl
    simp only [Navigator.run, Except.ok.injEq, Prod.mk.injEq] at h
    obtain ⟨rfl, rfl⟩ := h
    exact ⟨l, h0⟩
  | succ m ih =>
    intro s ct rs l s0 ct0 hl h0 h
    cases rs with
    | nil => simp at hl
    | cons r rs =>
      unfold Navigator.run at h
      cases ha : Navigator.answer pNav s0 ct0 r with
      | mk s1 o =>
        have hs := Navigator.Reached.step h0 List.mem_cons_self ha
        rw [ha] at h
        cases o with
        | error e => cases h
        | ok o =>
          cases o with
          | stop => cases h
          | nav ct1 => exact ih (by simpa using hl) hs h

/-- C171 (arrival) applies: after 99 steps one step remains, and the next one leads to (0, 2). -/
example : ∃ (s s' : Navigator.St 9 2 ℚ) (ct ct' : Navigator.Content 9 2 ℚ) (l : List (Navigator.Content 9 2 ℚ)),
    Navigator.Reached pNav s (ct :: l) ∧ ct.rem = 1 ∧ Navigator.answer pNav s ct pResp = (s', .ok (.nav ct')) ∧
    ∃ x ∈ pXs, ParetoSolution Solvers.covProblem x ∧ ct'.nav = Solvers.covProblem.obj x := by
  have h : ((Navigator.run pNav (Navigator.initSt pNav) (Navigator.start (Navigator.initSt pNav))
      (List.replicate 99 pResp)).toOption.map fun x => (x.2.rem, (Navigator.answer pNav x.1 x.2 pResp).2.toOption.map
        fun o => match o with | .nav _ => true | .stop .. => false)) = some (1, some true) := eq_of_beq (by decide +kernel)
  cases hr : Navigator.run pNav (Navigator.initSt pNav) (Navigator.start (Navigator.initSt pNav))
      (List.replicate 99 pResp) with
  | error e => rw [hr] at h; simp [Except.toOption] at h
  | ok x =>
    obtain ⟨s, ct⟩ := x
    rw [hr] at h
    simp only [Except.toOption, Option.map_some, Option.some.injEq, Prod.mk.injEq] at h
    obtain ⟨h1, h2⟩ := h
    obtain ⟨l, hre⟩ := p_reached _ rfl .init hr
    cases ha : Navigator.answer pNav s ct pResp with
    | mk s' o =>
      rw [ha] at h2
      cases o with
      | error e => simp at h2
      | ok o =>
        cases o with
        | stop => simp at h2
        | nav ct' => exact ⟨s, s', ct, ct', l, hre, h1, ha, C171_arrives p_prepared p_nav hre rfl h1 ha⟩

/-- "One iteration, show up to nine points." -/
def pInit : ENautilus.InitResp := { nIterations := some (.int 1), nPoints := some (.int 9) }

/-- C172 applies: E-NAUTILUS shows all rows, the decision maker chooses the seventh one. -/
example : ∃ (s : ENautilus.St 9 2 ℚ) (z : Vec 2 ℚ) (sol : Option (Fin 4)) (hist : List (ENautilus.Content 2 ℚ)),
    ENautilus.Reached pEn s (.stop z sol) hist ∧ z = ![2, 0] ∧ sol = some 2 ∧
    ∃ x ∈ pXs, sol = some x ∧ z = Solvers.covProblem.obj x ∧ ParetoSolution Solvers.covProblem x := by
  have h : ENautilus.isPts (ENautilus.begin pEn (ENautilus.initSt pEn) pInit ENautilus.noKm) = true := by decide +kernel
  have h1 := ENautilus.eq_of_isPts h
  have h2 : (ENautilus.answer pEn (ENautilus.begin pEn (ENautilus.initSt pEn) pInit ENautilus.noKm).1
      (ENautilus.ctOf (ENautilus.begin pEn (ENautilus.initSt pEn) pInit ENautilus.noKm)) (ENautilus.chooseResp 6)
      ENautilus.noKm).2 = .ok (.stop ![2, 0] (some 2)) := eq_of_beq (by decide +kernel)
  have hr := ENautilus.Reached.finish (.start h1) rfl (Prod.ext rfl h2)
  exact ⟨_, _, _, _, hr, rfl, rfl, (C172_stop p_prepared p_en supNorm_spec).2 hr⟩

end Verif.Pipeline
