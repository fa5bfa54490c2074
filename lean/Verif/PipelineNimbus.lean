import Verif.Nimbus.Near
import Verif.Nimbus.Bounds

/-!
# From the problem to NIMBUS (C185, C187)

NIMBUS computes ideal and nadir itself when the problem lacks one, and the decision maker reaches the solution wanted.
-/

set_option linter.unusedSectionVars false

namespace Verif.Nimbus

open Verif.Solvers (Solver MinimizesEach)

variable {K : Type} [Field K] [LinearOrder K] [IsStrictOrderedRing K] {k m : Nat}

/-- **C185** (two objectives). When NIMBUS computes ideal and nadir itself, with a solver that minimizes each objective, all
Pareto optimal solutions lie between them. -/
theorem C185_two_objectives {P : Source 1 m K} {A : Scalarizers 1 K} {nrm : Vec m K → K} {solve : Solver P.Box K}
    (hmiss : P.ideal = none ∨ P.nadir = none) (hsolve : MinimizesEach P.table solve) {y : P.Box}
    (hy : Solvers.ParetoSolution P.table y) :
    InBox (P.cfg A nrm solve).ideal (P.cfg A nrm solve).nadir (P.evaluate y.1) := by
  intro j
  obtain ⟨_, _, _, _, h4⟩ := Solvers.C61_payoff P.table solve
  have hn := (Solvers.C103_two_objectives_partial P.table).1 solve hsolve y hy j
  change (P.points solve).1 j ≤ _ ∧ _ ≤ (P.points solve).2 j
  rw [P.points_missing hmiss]
  exact ⟨(h4 hsolve j).2 y hy.1, hn⟩

/-- **C185**. NIMBUS computes ideal and nadir itself, with a solver that minimizes each objective; the scalarizing functions
prefer dominating vectors, and the first is the one of synchronous NIMBUS. In every history with exact minimizers in which
a classification is asked for, every feasible `y` that is balanced among the feasible solutions and not worse than the nadir
computed in any objective is Pareto optimal, and four answers lead to its objective values: a classification with them as
levels, which is accepted, nothing saved, no intermediate solutions, and the new solution as the preferred one. -/
theorem C185_nimbus {P : Source (k + 1) m K} {A : Scalarizers (k + 1) K} {nrm : Vec m K → K} {solve : Solver P.Box K}
    (hA : A.PreferDominating) (hmiss : P.ideal = none ∨ P.nadir = none) (hsolve : MinimizesEach P.table solve)
    {range : Vec (k + 2) K} {rho : K}
    (hasf : IsMaxOfTwo (P.cfg A nrm solve).ideal range rho
      (A.asf1 (P.cfg A nrm solve).ideal (P.cfg A nrm solve).nadir))
    {s : St (k + 2) m K} {f0 : Vec (k + 2) K} {l : List (Req (k + 2) m K)}
    (h : ExactlyReached (P.cfg A nrm solve) s (.classify f0 :: l)) (hns : ∀ x f, Req.stop x f ∉ Req.classify f0 :: l)
    {y : Vec m K} (hy : P.Feasible y) (hnad : AtLeastAsGood (P.evaluate y) (P.cfg A nrm solve).nadir)
    (hb : Balanced rho range (fun g => ∃ x, P.Feasible x ∧ P.evaluate x = g) (P.evaluate y)) :
    Solvers.ParetoSolution P.table ⟨y, hy.1⟩ ∧
    ∃ (cls : Fin (k + 2) → Cls) (i : Int), ∀ (o0 o1 o2 o3 : Oracle (k + 2) m K) (cont : Bool),
      (∀ t, (∃ x, Solves t x) → Solves t (o0.minimize 0 t)) → ∃ x s1 r1 s2 r2 s3 r3 s4,
      answer (P.cfg A nrm solve) s (.classify f0) (.classify (complete cls (P.evaluate y) 1)) o0 = (s1, .ok r1) ∧
      answer (P.cfg A nrm solve) s1 r1 (.save (some [])) o1 = (s2, .ok r2) ∧
      answer (P.cfg A nrm solve) s2 r2 (.inter ⟨some [], some 0⟩) o2 = (s3, .ok r3) ∧
      answer (P.cfg A nrm solve) s3 r3 (.preferred ⟨some (.int i), some (.bool cont)⟩) o3 =
        (s4, .ok (if cont then .classify (P.evaluate y) else .stop x (P.evaluate y))) ∧
      P.Feasible x ∧ P.evaluate x = P.evaluate y ∧ s4.sol = x ∧ s4.obj = P.evaluate y := by
  have hpar : Solvers.ParetoSolution P.table ⟨y, hy.1⟩ := by
    refine ⟨hy.2, fun z hz hd => ?_⟩
    have hd' : Dominates (P.evaluate z.1) (P.evaluate y) := hd
    by_cases he : P.evaluate z.1 = P.evaluate y
    · obtain ⟨_, j, hj⟩ := hd'
      rw [he] at hj
      exact lt_irrefl _ hj
    · obtain ⟨j, hj, _⟩ := hb _ ⟨z.1, ⟨z.2, hz⟩, rfl⟩ he
      exact absurd (hd'.1 j) (not_le.2 hj)
  refine ⟨hpar, ?_⟩
  have hf : f0 = s.obj := (C29_current_shown h.reached).1 f0 l rfl hns
  obtain ⟨x0, h0, h0p⟩ := shown_pareto hA hmiss h (f := f0) List.mem_cons_self
  have hsome : ∃ j, P.evaluate y j ≤ s.obj j := by
    by_contra hc
    push Not at hc
    rw [← hf, h0] at hc
    exact hpar.2 x0 h0p.1 ⟨fun j => (hc j).le, 0, hc 0⟩
  have hid : AtLeastAsGood (P.cfg A nrm solve).ideal (P.evaluate y) := by
    intro j
    obtain ⟨_, _, _, _, h4⟩ := Solvers.C61_payoff P.table solve
    change (P.points solve).1 j ≤ _
    rw [P.points_missing hmiss]
    exact (h4 hsolve j).2 ⟨y, hy.1⟩ hy.2
  obtain ⟨cls, i, hrun⟩ := C176_analytic (by omega) h.reached hns (ev := P.evaluate) rfl hasf
    ((P.feasible_iff A nrm solve y).2 hy) (fun j => ⟨hid j, hnad j⟩)
    (fun g ⟨x, hx, hg⟩ => hb g ⟨x, (P.feasible_iff A nrm solve x).1 hx, hg⟩) hsome
  refine ⟨cls, i, fun o0 o1 o2 o3 cont ho => ?_⟩
  obtain ⟨x, s1, r1, s2, r2, s3, r3, s4, e1, e2, e3, e4, e5, e6⟩ := hrun o0 o1 o2 o3 cont ho
  exact ⟨x, s1, r1, s2, r2, s3, r3, s4, e1, e2, e3, e4, (P.feasible_iff A nrm solve x).1 e5, e6⟩

/-- **C185** (start). Without a starting point the constructor accepts if the minimizer solves what has a solution and the
start-up problem - the third scalarizing function, with the midpoint of ideal and nadir as reference point - has one. The
first request shows the objective vector of a Pareto optimal solution. -/
theorem C185_starts {P : Source (k + 1) m K} {A : Scalarizers (k + 1) K} {nrm : Vec m K → K} {solve : Solver P.Box K}
    (hA : A.PreferDominating) (hmiss : P.ideal = none ∨ P.nadir = none) {ideal nadir : Vec (k + 2) K}
    (hi : ideal = (P.cfg A nrm solve).ideal) (hn : nadir = (P.cfg A nrm solve).nadir)
    (hbest : ∃ x, P.Feasible x ∧ ∀ z, P.Feasible z →
      A.asf3 ideal nadir (fun j => (ideal j + nadir j) / 2) (P.evaluate x) ≤
        A.asf3 ideal nadir (fun j => (ideal j + nadir j) / 2) (P.evaluate z))
    {res : Task (k + 2) m K → Option (Vec m K)} (hres : ∀ t x, res t = some x → Solves t x)
    (hsuc : ∀ t, (∃ x, Solves t x) → res t ≠ none) :
    ∃ s, construct (P.cfg A nrm solve) none res = .ok s ∧ ExactlyReached (P.cfg A nrm solve) s [.classify s.obj] ∧
      ∃ hx : P.inBounds s.sol = true, s.obj = P.evaluate s.sol ∧ Solvers.ParetoSolution P.table ⟨s.sol, hx⟩ := by
  subst hi hn
  obtain ⟨x, hx, hm⟩ := hbest
  have hsol := (task_asks (P.cfg A nrm solve) P.evaluate
    (fun j => ((P.cfg A nrm solve).ideal j + (P.cfg A nrm solve).nadir j) / 2)
    ((P.cfg A nrm solve).asf3 fun j => ((P.cfg A nrm solve).ideal j + (P.cfg A nrm solve).nadir j) / 2)
    fun _ => true).solves_iff (x := x)
  obtain ⟨y, hy⟩ := Option.ne_none_iff_exists'.1 (hsuc _ ⟨x, hsol.2 ⟨⟨(P.feasible_iff A nrm solve x).2 hx, rfl⟩,
    fun z hz => hm z ((P.feasible_iff A nrm solve z).1 hz.1)⟩⟩)
  have hcon : construct (P.cfg A nrm solve) none res =
      .ok { sol := y, obj := P.evaluate y, archSols := [], archObjs := [], phase := .classify } := by
    have hp : (P.cfg A nrm solve).problem = .mo P.evaluate := rfl
    simp only [construct, startRef, hp, hy]
  have hr := ExactlyReached.init hcon hres
  have hys := ((task_asks (P.cfg A nrm solve) P.evaluate
    (fun j => ((P.cfg A nrm solve).ideal j + (P.cfg A nrm solve).nadir j) / 2)
    ((P.cfg A nrm solve).asf3 fun j => ((P.cfg A nrm solve).ideal j + (P.cfg A nrm solve).nadir j) / 2)
    fun _ => true).solves_iff (x := y)).1 (hres _ _ hy)
  have hyf := (P.feasible_iff A nrm solve y).1 hys.1.1
  refine ⟨_, hcon, hr, hyf.1, rfl, ?_⟩
  obtain ⟨x0, h0, h0p⟩ := shown_pareto hA hmiss hr (f := P.evaluate y) List.mem_cons_self
  refine ⟨hyf.2, fun z hz hd => h0p.2 z hz ?_⟩
  rw [← h0]
  exact hd

/-- **C187**. The same near any Pareto optimal `y` that is not worse than the nadir computed in any objective, with a scalarizing
function whose units are at least the ranges between ideal and nadir: the solution chosen is Pareto optimal and in no objective
worse than `y` by more than `rho` times the number of objectives, in these units. -/
theorem C187_nimbus {P : Source (k + 1) m K} {A : Scalarizers (k + 1) K} {nrm : Vec m K → K} {solve : Solver P.Box K}
    (hA : A.PreferDominating) (hmiss : P.ideal = none ∨ P.nadir = none) (hsolve : MinimizesEach P.table solve)
    {range : Vec (k + 2) K} {rho : K}
    (hasf : IsMaxOfTwo (P.cfg A nrm solve).ideal range rho
      (A.asf1 (P.cfg A nrm solve).ideal (P.cfg A nrm solve).nadir)) (hrho : 0 < rho) (hrange : ∀ i, 0 < range i)
    (hspan : ∀ i, (P.cfg A nrm solve).nadir i - (P.cfg A nrm solve).ideal i ≤ range i)
    {s : St (k + 2) m K} {f0 : Vec (k + 2) K} {l : List (Req (k + 2) m K)}
    (h : ExactlyReached (P.cfg A nrm solve) s (.classify f0 :: l)) (hns : ∀ x f, Req.stop x f ∉ Req.classify f0 :: l)
    {y : P.Box} (hy : Solvers.ParetoSolution P.table y) (hnad : AtLeastAsGood (P.evaluate y.1) (P.cfg A nrm solve).nadir)
    (hatt : ∀ cls, Honours cls s.obj (P.evaluate y.1) (P.evaluate y.1) → ∃ x, P.Feasible x ∧
      Honours cls s.obj (P.evaluate y.1) (P.evaluate x) ∧
      ∀ z, P.Feasible z → Honours cls s.obj (P.evaluate y.1) (P.evaluate z) →
        (P.cfg A nrm solve).asf1 (positions cls .lt) (positions cls .le) (P.evaluate y.1) (P.evaluate x) ≤
          (P.cfg A nrm solve).asf1 (positions cls .lt) (positions cls .le) (P.evaluate y.1) (P.evaluate z)) :
    ∃ (cls : Fin (k + 2) → Cls) (i : Int), ∀ (o0 o1 o2 o3 : Oracle (k + 2) m K) (cont : Bool),
      (∀ t, (∃ x, Solves t x) → Solves t (o0.minimize 0 t)) → ∃ x s1 r1 s2 r2 s3 r3 s4,
      answer (P.cfg A nrm solve) s (.classify f0) (.classify (complete cls (P.evaluate y.1) 1)) o0 = (s1, .ok r1) ∧
      answer (P.cfg A nrm solve) s1 r1 (.save (some [])) o1 = (s2, .ok r2) ∧
      answer (P.cfg A nrm solve) s2 r2 (.inter ⟨some [], some 0⟩) o2 = (s3, .ok r3) ∧
      answer (P.cfg A nrm solve) s3 r3 (.preferred ⟨some (.int i), some (.bool cont)⟩) o3 =
        (s4, .ok (if cont then .classify (P.evaluate x) else .stop x (P.evaluate x))) ∧
      (∃ hx : P.inBounds x = true, Solvers.ParetoSolution P.table ⟨x, hx⟩) ∧ (∀ j, P.evaluate x j ≤ P.evaluate y.1 j + rho * (k + 2 : Nat) * range j) ∧
      s4.sol = x ∧ s4.obj = P.evaluate x := by
  have hf : f0 = s.obj := (C29_current_shown h.reached).1 f0 l rfl hns
  obtain ⟨x0, h0, h0p⟩ := shown_pareto hA hmiss h (f := f0) List.mem_cons_self
  have hsome : ∃ j, P.evaluate y.1 j ≤ s.obj j := by
    by_contra hc
    push Not at hc
    rw [← hf, h0] at hc
    exact hy.2 x0 h0p.1 ⟨fun j => (hc j).le, 0, hc 0⟩
  have hid : ∀ x, (P.cfg A nrm solve).feasible x = true → AtLeastAsGood (P.cfg A nrm solve).ideal (P.evaluate x) := by
    intro x hx j
    have hx' := (P.feasible_iff A nrm solve x).1 hx
    obtain ⟨_, _, _, _, h4⟩ := Solvers.C61_payoff P.table solve
    change (P.points solve).1 j ≤ _
    rw [P.points_missing hmiss]
    exact (h4 hsolve j).2 ⟨x, hx'.1⟩ hx'.2
  obtain ⟨cls, i, hrun⟩ := C186_analytic (by omega) h.reached hns (ev := P.evaluate) rfl hasf hrho hrange hspan hid
    ((P.feasible_iff A nrm solve y.1).2 ⟨y.2, hy.1⟩) hnad hsome (fun cls hc => by
      obtain ⟨x, h1, h2, h3⟩ := hatt cls hc
      exact ⟨x, (P.feasible_iff A nrm solve x).2 h1, h2, fun z hz => h3 z ((P.feasible_iff A nrm solve z).1 hz)⟩)
  refine ⟨cls, i, fun o0 o1 o2 o3 cont ho => ?_⟩
  obtain ⟨x, s1, r1, s2, r2, s3, r3, s4, e1, e2, e3, e4, e5, e6, e7, e8⟩ := hrun o0 o1 o2 o3 cont ho
  exact ⟨x, s1, r1, s2, r2, s3, r3, s4, e1, e2, e3, e4, ⟨((P.feasible_iff A nrm solve x).1 e5).1,
    ((P.feasible_iff A nrm solve x).1 e5).2, fun z hz => e7 z.1 ((P.feasible_iff A nrm solve z.1).2 ⟨z.2, hz⟩)⟩, e6, e8⟩

/-! ### Examples -/

theorem exTwoAsf_prefers (lt le : List Nat) (z : Vec 2 ℚ) : PrefersDominating (exTwoAsf lt le z) := by
  intro f f' hd
  have hs : ∑ i, f i / 1 < ∑ i, f' i / 1 := by
    obtain ⟨h1, j, hj⟩ := hd
    refine Finset.sum_lt_sum (fun i _ => ?_) ⟨j, Finset.mem_univ _, ?_⟩
    · rw [div_one, div_one]; exact h1 i
    · rw [div_one, div_one]; exact hj
  by_cases hne : ∃ i : Fin 2, i.val ∈ lt ∨ i.val ∈ le
  · obtain ⟨t, ⟨t1, _⟩, et⟩ := exTwoAsf_spec lt le z f hne
    obtain ⟨t', ⟨_, t2'⟩, et'⟩ := exTwoAsf_spec lt le z f' hne
    have htt : t ≤ t' := by
      obtain ⟨i, ⟨hi, e⟩ | ⟨hi, e⟩⟩ := t1
      · refine le_trans ?_ (t2' ⟨i, .inl ⟨hi, rfl⟩⟩)
        rw [e, div_one, div_one]
        exact sub_le_sub_right (hd.1 i) _
      · refine le_trans ?_ (t2' ⟨i, .inr ⟨hi, rfl⟩⟩)
        rw [e, div_one, div_one]
        exact sub_le_sub_right (hd.1 i) _
    rw [et, et']
    linarith
  · have hnil : ∀ g, exTerms lt le z g = [] := by
      intro g
      refine List.flatMap_eq_nil_iff.2 fun i _ => ?_
      rw [if_neg fun hi => hne ⟨i, .inl hi⟩, if_neg fun hi => hne ⟨i, .inr hi⟩]
      rfl
    unfold exTwoAsf
    rw [hnil, hnil]
    linarith

def exTwoScal : Scalarizers 1 ℚ := { exScal with asf1 := fun _ _ => exTwoAsf }

theorem exTwoScal_prefer : exTwoScal.PreferDominating := fun i n h =>
  ⟨fun lt le z => exTwoAsf_prefers lt le z, (exScal_prefer (k := 1) i n h).2⟩

def exPn : Cfg 2 1 ℚ := (exSource exFinEv none).cfg exTwoScal (fun v => |v 0|) (exSolve exFinEv none)

theorem exPn_ideal : exPn.ideal = ![0, 0] := eq_of_beq (by decide +kernel)

/-- A session that starts at the solution 2, with the objective values (2, 0). -/
theorem exPn_reached : ExactlyReached exPn ⟨![2], ![2, 0], [], [], .classify⟩ [.classify ![2, 0]] := by
  have e1 : (exFour exFinEv none 2).1 = ![2] := by decide +kernel
  have e2 : exFinEv ![2] = ![2, 0] := by decide +kernel
  have h := exBd_start_with (A := exTwoScal) (nrm := fun v => |v 0|) (ev := exFinEv) (ideal := none) (c := exPn)
    (sp := some [2, 0]) (ref := fun j => ([2, 0][j.val]?).getD 0) rfl rfl 2 (by decide +kernel)
  rw [e1, e2] at h
  exact h

theorem exPn_balanced : Balanced (1 / 1000000) (fun _ => 1)
    (fun g => ∃ x, (exSource exFinEv none).Feasible x ∧ (exSource exFinEv none).evaluate x = g)
    ((exSource exFinEv none).evaluate ![1]) := by
  rintro _ ⟨x, hx, rfl⟩
  exact exFin_cases (P := fun x => exFinEv x ≠ exFinEv ![1] → ∃ j, exFinEv ![1] j < exFinEv x j ∧
    1 / 1000000 * ∑ i, (exFinEv ![1] i - exFinEv x i) / 1 < (exFinEv x j - exFinEv ![1] j) / 1) (by decide +kernel) hx.1

/-- From (2, 0) to (1, 1), the objective values of 1. -/
example := (C185_nimbus (P := exSource exFinEv none) exTwoScal_prefer (.inl rfl) (exSolve_exact _ _).each
  (range := fun _ => 1) (rho := 1 / 1000000)
  (by have h := exTwoAsf_spec; rw [← exPn_ideal] at h; exact h) exPn_reached (by simp) (y := ![1])
  ⟨by decide +kernel, fun h => absurd h (lt_irrefl 0)⟩ (by decide +kernel) exPn_balanced).2.imp fun _ h => h.imp fun _ h =>
    h exExact exExact exExact exExact true (exExact_solves 0)

example := C185_two_objectives (P := exSource exFinEv none) (A := exTwoScal) (nrm := fun v => |v 0|) (.inl rfl)
  (exSolve_exact _ _).each (y := ⟨![1], by decide +kernel⟩)
  ⟨fun h => absurd h (lt_irrefl 0), fun z _ => by
    obtain ⟨z, hz⟩ := z
    exact exFin_cases (P := fun x => ¬ Dominates (exFinEv x) (exFinEv ![1])) (by decide +kernel) hz⟩

open Classical in
/-- A minimizer that solves whatever has a solution. -/
noncomputable def exSolves (t : Task 2 1 ℚ) : Option (Vec 1 ℚ) :=
  if h : ∃ x, Solves t x then some h.choose else none

theorem exPn_nadir : exPn.nadir = ![2, 4] := eq_of_beq (by decide +kernel)

example := C185_starts (P := exSource exFinEv none) (A := exTwoScal) (nrm := fun v => |v 0|) (solve := exSolve exFinEv none)
  (ideal := ![0, 0]) (nadir := ![2, 4]) exTwoScal_prefer (.inl rfl) exPn_ideal.symm exPn_nadir.symm
  ⟨![1], ⟨by decide +kernel, fun h => absurd h (lt_irrefl 0)⟩, fun z hz =>
    exFin_cases (P := fun z => exTwoScal.asf3 ![0, 0] ![2, 4] (fun j => ((![0, 0] : Vec 2 ℚ) j + (![2, 4] : Vec 2 ℚ) j) / 2)
      (exFinEv ![1]) ≤ exTwoScal.asf3 ![0, 0] ![2, 4]
        (fun j => ((![0, 0] : Vec 2 ℚ) j + (![2, 4] : Vec 2 ℚ) j) / 2) (exFinEv z)) (by decide +kernel) hz.1⟩
  (res := exSolves)
  (fun t x h => by
    unfold exSolves at h
    split at h
    · rename_i he
      rw [← Option.some.inj h]
      exact he.choose_spec
    · cases h)
  (fun t h => by
    unfold exSolves
    rw [dif_pos h]
    simp)

def exPu : Cfg 2 1 ℚ := (exSource exUnitEv none).cfg exTwoScal (fun v => |v 0|) (exSolve exUnitEv none)

theorem exPu_ideal : exPu.ideal = ![0, 0] := eq_of_beq (by decide +kernel)

/-- A session that starts at the solution 3, with the objective values (1, 0). -/
theorem exPu_reached : ExactlyReached exPu ⟨![3], ![1, 0], [], [], .classify⟩ [.classify ![1, 0]] := by
  have e1 : (exFour exUnitEv none 3).1 = ![3] := by decide +kernel
  have e2 : exUnitEv ![3] = ![1, 0] := by decide +kernel
  have h := exBd_start_with (A := exTwoScal) (nrm := fun v => |v 0|) (ev := exUnitEv) (ideal := none) (c := exPu)
    (sp := some [1, 0]) (ref := fun j => ([1, 0][j.val]?).getD 0) rfl rfl 3 (by decide +kernel)
  rw [e1, e2] at h
  exact h

/-- From (1, 0) to a solution near (1/3, 4/9), the objective values of 1. -/
example := (C187_nimbus (P := exSource exUnitEv none) exTwoScal_prefer (.inl rfl) (exSolve_exact _ _).each
  (range := fun _ => 1) (rho := 1 / 1000000)
  (by have h := exTwoAsf_spec; rw [← exPu_ideal] at h; exact h) (by norm_num) (fun _ => one_pos) (by decide +kernel)
  exPu_reached (by simp) (y := ⟨![1], by decide +kernel⟩)
  ⟨fun h => absurd h (lt_irrefl 0), fun z _ => by
    obtain ⟨z, hz⟩ := z
    exact exFin_cases (P := fun x => ¬ Dominates (exUnitEv x) (exUnitEv ![1])) (by decide +kernel) hz⟩
  (by decide +kernel) (fun cls hc => by
    obtain ⟨x, h1, h2, h3⟩ := exFin_min (fun x => exTwoAsf (positions cls .lt) (positions cls .le) (exUnitEv ![1])
      (exUnitEv x)) (fun x => Honours cls ![1, 0] (exUnitEv ![1]) (exUnitEv x)) ⟨![1], by decide +kernel, hc⟩
    exact ⟨x, ⟨h1, fun h => absurd h (lt_irrefl 0)⟩, h2, fun z hz => h3 z hz.1⟩)).imp
  fun _ h => h.imp fun _ h => h exExact exExact exExact exExact true (exExact_solves 0)

end Verif.Nimbus
