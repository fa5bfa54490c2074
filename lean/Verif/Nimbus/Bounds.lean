import Verif.Nimbus.Props4
import Verif.Solvers.Nadir
import Mathlib.Tactic.FinCases

/-!
# NIMBUS for problems without ideal or nadir: C136, C137

The constructor (NIMBUS.py:369-378) computes both points by the payoff table method when the problem lacks at
least one of them. Here the constructor is modelled from the problem on, for `MOProblem`s.
-/

set_option linter.unusedSectionVars false

namespace Verif.Nimbus

open Verif.Solvers (Solver ExactFor MinimizesEach)

variable {K : Type} [Field K] [LinearOrder K] {k m : Nat}

/-- An `MOProblem`: objectives, variable bounds, number and values of the constraints, and the attributes `ideal`
and `nadir`, which may be `None`. -/
structure Source (k m : Nat) (K : Type) where
  evaluate : Vec m K → Vec (k + 1) K
  inBounds : Vec m K → Bool
  nCons : Nat
  cons : Vec m K → List K
  ideal : Option (Vec (k + 1) K)
  nadir : Option (Vec (k + 1) K)

/-- The decision vectors within the bounds of the variables. -/
abbrev Source.Box (P : Source k m K) := {x : Vec m K // P.inBounds x = true}

/-- The problem handed to `payoff_table_method` (NIMBUS.py:373, solvers.py:116-128): the solver searches within
the bounds. -/
def Source.table (P : Source k m K) : Solvers.Problem k P.Box K where
  obj := fun x => P.evaluate x.1
  nCons := P.nCons
  cons := fun x => P.cons x.1

/-- NIMBUS.py:371-378: ideal and nadir. -/
def Source.points (P : Source k m K) (solve : Solver P.Box K) : Vec (k + 1) K × Vec (k + 1) K :=
  match P.ideal, P.nadir with
  | none, _ => Solvers.payoff P.table solve
  | some _, none => Solvers.payoff P.table solve
  | some i, some n => (i, n)

/-- The scalarizing functions as functions of ideal and nadir (NIMBUS.py:397, 671, 783, 861, 888, 914). -/
structure Scalarizers (k : Nat) (K : Type) where
  asf1 : (ideal nadir : Vec (k + 1) K) → (lt le : List Nat) → (ref f : Vec (k + 1) K) → K
  asf2 : (ideal : Vec (k + 1) K) → (ref f : Vec (k + 1) K) → K
  asf3 : (ideal nadir : Vec (k + 1) K) → (ref f : Vec (k + 1) K) → K
  asf4 : (ideal nadir : Vec (k + 1) K) → (free : List Nat) → (ref f : Vec (k + 1) K) → K

/-- The method for a problem (NIMBUS.py:369-414): the points it uses, the problem and the scalarizing functions. -/
def Source.cfg (P : Source k m K) (A : Scalarizers k K) (nrm : Vec m K → K) (solve : Solver P.Box K) :
    Cfg (k + 1) m K where
  ideal := (P.points solve).1
  nadir := (P.points solve).2
  problem := .mo P.evaluate
  nrm := nrm
  feasible := fun x => P.inBounds x && (decide (P.nCons = 0) || (P.cons x).all fun v => decide (0 ≤ v))
  asf1 := A.asf1 (P.points solve).1 (P.points solve).2
  asf2 := A.asf2 (P.points solve).1
  asf3 := A.asf3 (P.points solve).1 (P.points solve).2
  asf4 := A.asf4 (P.points solve).1 (P.points solve).2

/-! ### Specification -/

/-- Within the bounds and no constraint breached. -/
def Source.Feasible (P : Source k m K) (x : Vec m K) : Prop :=
  P.inBounds x = true ∧ (P.nCons > 0 → ∀ v ∈ P.cons x, 0 ≤ v)

/-- All scalarizing functions strictly prefer dominating vectors whenever the ideal is nowhere worse than the
nadir. -/
def Scalarizers.PreferDominating (A : Scalarizers k K) : Prop :=
  ∀ ideal nadir, AtLeastAsGood ideal nadir →
    (∀ a b z, PrefersDominating (A.asf1 ideal nadir a b z)) ∧ (∀ z, PrefersDominating (A.asf2 ideal z)) ∧
    (∀ z, PrefersDominating (A.asf3 ideal nadir z)) ∧ (∀ a z, PrefersDominating (A.asf4 ideal nadir a z))

/-! ### Proofs -/

variable [IsStrictOrderedRing K]

theorem Source.feasible_iff (P : Source k m K) (A : Scalarizers k K) (nrm : Vec m K → K) (solve : Solver P.Box K)
    (x : Vec m K) : (P.cfg A nrm solve).feasible x = true ↔ P.Feasible x := by
  simp only [Source.cfg, Source.Feasible, Bool.and_eq_true, Bool.or_eq_true, decide_eq_true_eq, List.all_eq_true]
  refine and_congr_right fun _ => ?_
  constructor
  · rintro (h | h) hn
    · omega
    · exact h
  · intro h
    by_cases hn : P.nCons = 0
    · exact .inl hn
    · exact .inr (h (by omega))

/-- The points of the method when the problem lacks one. -/
theorem Source.points_missing {P : Source k m K} (h : P.ideal = none ∨ P.nadir = none) (solve : Solver P.Box K) :
    P.points solve = Solvers.payoff P.table solve := by
  unfold Source.points
  rcases h with h | h
  · rw [h]
  · rw [h]
    cases P.ideal <;> rfl

theorem Source.points_ordered {P : Source k m K} (h : P.ideal = none ∨ P.nadir = none) (solve : Solver P.Box K) :
    AtLeastAsGood (P.points solve).1 (P.points solve).2 := by
  rw [P.points_missing h]
  obtain ⟨_, _, _, h3, _⟩ := Solvers.C61_payoff P.table solve
  exact h3

/-- A shown objective vector is that of a Pareto optimal solution of the problem of the payoff table. -/
theorem shown_pareto {P : Source k m K} {A : Scalarizers k K} {nrm : Vec m K → K} {solve : Solver P.Box K}
    (hA : A.PreferDominating) (hmiss : P.ideal = none ∨ P.nadir = none) {s : St (k + 1) m K}
    {l : List (Req (k + 1) m K)} (h : ExactlyReached (P.cfg A nrm solve) s l) {f : Vec (k + 1) K}
    (hf : Req.classify f ∈ l) :
    ∃ x : P.Box, f = P.table.obj x ∧ Solvers.ParetoSolution P.table x := by
  obtain ⟨a1, a2, a3, a4⟩ := hA _ _ (P.points_ordered hmiss solve)
  obtain ⟨x, h1, h2, h3⟩ := (C94_shown_solutions_pareto_optimal h (ev := P.evaluate) rfl a1 a2 a3 a4).1 f hf
  have hx := (P.feasible_iff A nrm solve x).1 h1
  refine ⟨⟨x, hx.1⟩, h2, hx.2, fun y hy hd => ?_⟩
  refine h3 y.1 ((P.feasible_iff A nrm solve y.1).2 ⟨y.2, hy⟩) ?_
  rw [h2]
  exact hd

/-! ### C136: the current values are acceptable levels -/

/-- **C136** (ideal). When NIMBUS computes ideal and nadir itself, with exact solvers and scalarizing functions that
prefer dominating vectors, no objective vector it shows for classification is better than the ideal anywhere. -/
theorem C136_ideal_bounds_shown {P : Source k m K} {A : Scalarizers k K} {nrm : Vec m K → K}
    {solve : Solver P.Box K} (hA : A.PreferDominating) (hmiss : P.ideal = none ∨ P.nadir = none)
    (hsolve : MinimizesEach P.table solve) {s : St (k + 1) m K} {l : List (Req (k + 1) m K)}
    (h : ExactlyReached (P.cfg A nrm solve) s l) {f : Vec (k + 1) K} (hf : Req.classify f ∈ l) (j : Fin (k + 1)) :
    (P.cfg A nrm solve).ideal j ≤ f j := by
  obtain ⟨x, rfl, hx⟩ := shown_pareto hA hmiss h hf
  obtain ⟨_, _, _, _, h4⟩ := Solvers.C61_payoff P.table solve
  change (P.points solve).1 j ≤ _
  rw [P.points_missing hmiss]
  exact (h4 hsolve j).2 x hx.1

/-- A complete classification whose levels are in the box is accepted. -/
theorem validate_accepts {c : Cfg k m K} {f : Vec k K} {cls : Fin k → Cls} {lv : Vec k K} {num : Int}
    (hk : k ≠ 1) (ho : ∀ j, cls j ≠ .other) (h1 : 1 ≤ num) (h4 : num ≤ 4)
    (hlv : ∀ j, cls j = .le ∨ cls j = .ge → c.ideal j ≤ lv j ∧ lv j ≤ c.nadir j) :
    validate c (.classify f) (.classify (complete cls lv num)) = .ok () := by
  have hall : ((List.ofFn cls).any fun x => decide (x = Cls.other)) = false := by
    rw [List.any_eq_false]
    intro x hx
    obtain ⟨j, rfl⟩ := List.mem_ofFn.1 hx
    simpa using ho j
  have hlev : ∀ x, x = Cls.le ∨ x = Cls.ge → checkLevels c (List.ofFn cls) x (List.ofFn lv) = .ok () := by
    intro x hx
    rw [checkLevels_ok_iff]
    constructor
    · intro p hp
      by_contra hge
      rw [List.getElem?_eq_none (by simpa using hge)] at hp
      cases hp
    · intro j hj
      rw [ofFn_get, Option.some.injEq] at hj
      rw [levelVec_ofFn]
      exact hlv j (by rw [hj]; exact hx)
  simp only [validate, validateClassify, complete, hall, List.length_ofFn, hk, hlev .le (.inl rfl),
    hlev .ge (.inr rfl), ne_eq, not_true_eq_false, if_false, Bool.false_eq_true]
  rw [if_neg (by omega)]

/-- What holds of C136, for two objectives: when NIMBUS computes ideal and nadir itself, then - with exact solvers and
scalarizing functions that prefer dominating vectors - in every history the objective values to be classified lie
between ideal and nadir, so that every valid classification with the current values as levels of the objectives
classified '<=' or '>=' is accepted. What is missing: more objectives, see `C136_fails`. -/
theorem C136_current_levels_accepted_partial {P : Source 1 m K} {A : Scalarizers 1 K} {nrm : Vec m K → K}
    {solve : Solver P.Box K} (hA : A.PreferDominating) (hmiss : P.ideal = none ∨ P.nadir = none)
    (hsolve : MinimizesEach P.table solve) {s : St 2 m K} {l : List (Req 2 m K)}
    (h : ExactlyReached (P.cfg A nrm solve) s l) {f : Vec 2 K} (hf : Req.classify f ∈ l) :
    InBox (P.cfg A nrm solve).ideal (P.cfg A nrm solve).nadir f ∧
    ∀ (cls : Fin 2 → Cls) (lv : Vec 2 K) (num : Int), (∀ j, cls j ≠ .other) → 1 ≤ num → num ≤ 4 →
      (∀ j, cls j = .le ∨ cls j = .ge → lv j = f j) →
      validate (P.cfg A nrm solve) (.classify f) (.classify (complete cls lv num)) = .ok () := by
  have hi := C136_ideal_bounds_shown hA hmiss hsolve h hf
  have hn : ∀ j, f j ≤ (P.cfg A nrm solve).nadir j := by
    obtain ⟨x, rfl, hx⟩ := shown_pareto hA hmiss h hf
    have := (Solvers.C103_two_objectives_partial P.table).1 solve hsolve x hx
    intro j
    change _ ≤ (P.points solve).2 j
    rw [P.points_missing hmiss]
    exact this j
  refine ⟨fun j => ⟨hi j, hn j⟩, fun cls lv num ho h1 h4 hlv => ?_⟩
  refine validate_accepts (by decide) ho h1 h4 fun j hj => ?_
  rw [hlv j hj]
  exact ⟨hi j, hn j⟩

/-! ### Examples -/

/-- A problem with one variable, feasible at 0, 1, 2 and 3, without ideal and nadir. -/
def exSource (ev : Vec 1 ℚ → Vec (k + 1) ℚ) (ideal : Option (Vec (k + 1) ℚ)) : Source k 1 ℚ where
  evaluate := ev
  inBounds := exFinOk
  nCons := 0
  cons := fun _ => []
  ideal := ideal
  nadir := none

/-- The four decision vectors. -/
def exFour (ev : Vec 1 ℚ → Vec (k + 1) ℚ) (ideal : Option (Vec (k + 1) ℚ)) (i : Fin 4) : (exSource ev ideal).Box :=
  ⟨![(i.val : ℚ)], (by decide +kernel : ∀ i : Fin 4, exFinOk ![(i.val : ℚ)] = true) i⟩

theorem exFour_all (ev : Vec 1 ℚ → Vec (k + 1) ℚ) (ideal : Option (Vec (k + 1) ℚ)) (y : (exSource ev ideal).Box) :
    ∃ i, y = exFour ev ideal i := by
  obtain ⟨y, hy⟩ := y
  have e : y = ![y 0] := by
    funext j
    have : j = 0 := Fin.ext (by omega)
    rw [this]
    rfl
  have h : exFinOk y = true := hy
  simp only [exFinOk, Bool.or_eq_true, decide_eq_true_eq] at h
  rcases h with ((h | h) | h) | h
  · exact ⟨0, Subtype.ext (e.trans (by rw [h]; exact (by decide +kernel : (![0] : Vec 1 ℚ) = ![((0 : Fin 4).val : ℚ)])))⟩
  · exact ⟨1, Subtype.ext (e.trans (by rw [h]; exact (by decide +kernel : (![1] : Vec 1 ℚ) = ![((1 : Fin 4).val : ℚ)])))⟩
  · exact ⟨2, Subtype.ext (e.trans (by rw [h]; exact (by decide +kernel : (![2] : Vec 1 ℚ) = ![((2 : Fin 4).val : ℚ)])))⟩
  · exact ⟨3, Subtype.ext (e.trans (by rw [h]; exact (by decide +kernel : (![3] : Vec 1 ℚ) = ![((3 : Fin 4).val : ℚ)])))⟩

/-- The better of two. -/
def exPick {X : Type} (g : X → ℚ) (a b : X) : X := if g a ≤ g b then a else b

theorem exPick_le {X : Type} (g : X → ℚ) (a b : X) : g (exPick g a b) ≤ g a ∧ g (exPick g a b) ≤ g b := by
  unfold exPick
  split
  · exact ⟨le_refl _, by assumption⟩
  · rename_i h
    exact ⟨(not_le.1 h).le, le_refl _⟩

/-- An exact solver. -/
def exSolve (ev : Vec 1 ℚ → Vec (k + 1) ℚ) (ideal : Option (Vec (k + 1) ℚ)) : Solver (exSource ev ideal).Box ℚ :=
  fun _ _ g => (exPick g (exPick g (exFour ev ideal 0) (exFour ev ideal 1))
    (exPick g (exFour ev ideal 2) (exFour ev ideal 3)), true)

theorem exSolve_exact (ev : Vec 1 ℚ → Vec (k + 1) ℚ) (ideal : Option (Vec (k + 1) ℚ)) :
    ExactFor (exSource ev ideal).table.evaluator (exSolve ev ideal) := by
  intro n g
  have hno : (exSource ev ideal).table.evaluator = none := rfl
  refine ⟨fun _ hg => absurd (hno.symm.trans hg) nofun, fun y _ => ?_⟩
  obtain ⟨i, rfl⟩ := exFour_all ev ideal y
  have h1 := exPick_le g (exFour ev ideal 0) (exFour ev ideal 1)
  have h2 := exPick_le g (exFour ev ideal 2) (exFour ev ideal 3)
  have h3 := exPick_le g (exPick g (exFour ev ideal 0) (exFour ev ideal 1))
    (exPick g (exFour ev ideal 2) (exFour ev ideal 3))
  change g (exPick g _ _) ≤ _
  match i with
  | 0 => exact h3.1.trans h1.1
  | 1 => exact h3.1.trans h1.2
  | 2 => exact h3.2.trans h2.1
  | 3 => exact h3.2.trans h2.2

/-- Scalarizing functions of the form of the third problem. -/
def exScal : Scalarizers k ℚ where
  asf1 := fun i n _ _ => Navigator.pointAsf i n
  asf2 := fun i => Navigator.pointAsf i i
  asf3 := Navigator.pointAsf
  asf4 := fun i n _ => Navigator.pointAsf i n

theorem exScal_prefer : (exScal : Scalarizers k ℚ).PreferDominating := fun _ _ h =>
  ⟨fun _ _ => pointAsf_prefersDominating h, pointAsf_prefersDominating fun _ => le_refl _,
    pointAsf_prefersDominating h, fun _ => pointAsf_prefersDominating h⟩

def exBd (ev : Vec 1 ℚ → Vec (k + 1) ℚ) (ideal : Option (Vec (k + 1) ℚ)) : Cfg (k + 1) 1 ℚ :=
  (exSource ev ideal).cfg exScal (fun v => |v 0|) (exSolve ev ideal)

open Classical in
/-- A constructor's minimizer that reports success only with an exact solution. -/
noncomputable def exBdRes (x : Vec 1 ℚ) (t : Task (k + 1) 1 ℚ) : Option (Vec 1 ℚ) :=
  if Solves t x then some x else none

theorem exBdRes_solves (x : Vec 1 ℚ) (t : Task (k + 1) 1 ℚ) (y : Vec 1 ℚ) (h : exBdRes x t = some y) :
    Solves t y := by
  unfold exBdRes at h
  split at h
  · simp only [Option.some.injEq] at h
    rw [← h]
    assumption
  · simp at h

/-- The start of a session of the example: comparison with the four feasible vectors suffices. -/
theorem exBd_start_with {A : Scalarizers k ℚ} {nrm : Vec 1 ℚ → ℚ} {ev : Vec 1 ℚ → Vec (k + 1) ℚ}
    {ideal : Option (Vec (k + 1) ℚ)} {sp : Option (List ℚ)} {ref : Vec (k + 1) ℚ} {c : Cfg (k + 1) 1 ℚ}
    (hc : c = (exSource ev ideal).cfg A nrm (exSolve ev ideal)) (hsp : startRef c sp = .ok ref) (i : Fin 4)
    (hmin : ∀ j : Fin 4, c.asf3 ref (ev (exFour ev ideal i).1) ≤ c.asf3 ref (ev (exFour ev ideal j).1)) :
    ExactlyReached c ⟨(exFour ev ideal i).1, ev (exFour ev ideal i).1, [], [], .classify⟩
      [.classify (ev (exFour ev ideal i).1)] := by
  subst hc
  refine .init (sp := sp) (res := exBdRes (exFour ev ideal i).1) ?_ (exBdRes_solves _)
  have hs : Solves (task ((exSource ev ideal).cfg A nrm (exSolve ev ideal)) ev ref
      (((exSource ev ideal).cfg A nrm (exSolve ev ideal)).asf3 ref) fun _ => true) (exFour ev ideal i).1 := by
    rw [(task_asks ((exSource ev ideal).cfg A nrm (exSolve ev ideal)) ev ref _ _).solves_iff]
    refine ⟨⟨((exSource ev ideal).feasible_iff A _ (exSolve ev ideal) _).2
      ⟨(exFour ev ideal i).2, fun hn => absurd hn (lt_irrefl 0)⟩, rfl⟩, fun y hy => ?_⟩
    obtain ⟨j, hj⟩ := exFour_all ev ideal ⟨y, (((exSource ev ideal).feasible_iff A _ (exSolve ev ideal) y).1 hy.1).1⟩
    have hj' : y = (exFour ev ideal j).1 := congrArg Subtype.val hj
    rw [hj']
    exact hmin j
  have hp : ((exSource ev ideal).cfg A nrm (exSolve ev ideal)).problem = .mo ev := rfl
  simp only [construct, hsp, hp]
  rw [show exBdRes (exFour ev ideal i).1 _ = some (exFour ev ideal i).1 from if_pos hs]

theorem exBd_start {ev : Vec 1 ℚ → Vec (k + 1) ℚ} {ideal : Option (Vec (k + 1) ℚ)} {sp : Option (List ℚ)}
    {ref : Vec (k + 1) ℚ} (hsp : startRef (exBd ev ideal) sp = .ok ref) (i : Fin 4)
    (hmin : ∀ j : Fin 4, (exBd ev ideal).asf3 ref (ev (exFour ev ideal i).1) ≤
      (exBd ev ideal).asf3 ref (ev (exFour ev ideal j).1)) :
    ExactlyReached (exBd ev ideal) ⟨(exFour ev ideal i).1, ev (exFour ev ideal i).1, [], [], .classify⟩
      [.classify (ev (exFour ev ideal i).1)] :=
  exBd_start_with rfl hsp i hmin

theorem exBd_two : ExactlyReached (exBd exFinEv none) ⟨![1], ![1, 1], [], [], .classify⟩ [.classify ![1, 1]] := by
  have e1 : (exFour exFinEv none 1).1 = ![1] := by decide +kernel
  have e2 : exFinEv ![1] = ![1, 1] := by decide +kernel
  have h := exBd_start (ev := exFinEv) (ideal := none) (sp := some [1, 1]) (ref := fun j => ([1, 1][j.val]?).getD 0)
    rfl 1 (by decide +kernel)
  rw [e1, e2] at h
  exact h

example := C136_ideal_bounds_shown (P := exSource exFinEv none) exScal_prefer (.inl rfl) (exSolve_exact _ _).each exBd_two
  List.mem_cons_self
example := C136_current_levels_accepted_partial (P := exSource exFinEv none) exScal_prefer (.inl rfl)
  (exSolve_exact _ _).each exBd_two List.mem_cons_self

/-- Three objectives; the last solution is Pareto optimal but worse in the third objective than the solutions
that are best in one objective. -/
def exThree : Vec 1 ℚ → Vec 3 ℚ := fun x =>
  if x 0 = 0 then ![0, 1, 1] else if x 0 = 1 then ![1, 0, 1] else if x 0 = 2 then ![1, 1, 0] else ![1/2, 1/2, 2]

theorem exThree_points : (exBd exThree none).ideal = ![0, 0, 0] ∧ (exBd exThree none).nadir = ![1, 1, 1] := by
  constructor <;> decide +kernel

theorem exBd_three : ExactlyReached (exBd exThree none) ⟨![3], ![1/2, 1/2, 2], [], [], .classify⟩
    [.classify ![1/2, 1/2, 2]] := by
  have e1 : (exFour exThree none 3).1 = ![3] := by decide +kernel
  have e2 : exThree ![3] = ![1/2, 1/2, 2] := by decide +kernel
  have h := exBd_start (ev := exThree) (ideal := none) (sp := some [1/2, 1/2, 2])
    (ref := fun j => ([1/2, 1/2, 2][j.val]?).getD 0) rfl 3 (by decide +kernel)
  rw [e1, e2] at h
  exact h

/-- C136 fails for three objectives: everything is solved exactly, the solution to be classified is `(1/2, 1/2, 2)`,
and the classification that wants the first objective improved, leaves the second free and allows the third to keep
its current value 2 is refused, because the computed nadir is `(1, 1, 1)`. -/
theorem C136_fails : ∃ (P : Source 2 1 ℚ) (solve : Solver P.Box ℚ) (s : St 3 1 ℚ) (f : Vec 3 ℚ),
    P.ideal = none ∧ P.nadir = none ∧ ExactFor P.table.evaluator solve ∧
    ExactlyReached (P.cfg exScal (fun v => |v 0|) solve) s [.classify f] ∧
    validate (P.cfg exScal (fun v => |v 0|) solve) (.classify f)
      (.classify (complete ![.lt, .free, .ge] f 1)) = .error .refused :=
  ⟨exSource exThree none, exSolve exThree none, _, ![1/2, 1/2, 2], rfl, rfl, exSolve_exact _ _, exBd_three,
    eq_of_beq (by decide +kernel)⟩

/-! ### C137: the points supplied with the problem are used -/

/-- What holds of C137: an ideal and a nadir supplied with the problem are used if both are supplied. What is
missing: if one is missing, the other one is discarded, see `C137_discarded` and `C137_fails`. -/
theorem C137_supplied_points_used_partial (P : Source k m K) (A : Scalarizers k K) (nrm : Vec m K → K)
    (solve : Solver P.Box K) {i n : Vec (k + 1) K} (hi : P.ideal = some i) (hn : P.nadir = some n) :
    (P.cfg A nrm solve).ideal = i ∧ (P.cfg A nrm solve).nadir = n := by
  simp only [Source.cfg, Source.points, hi, hn, and_self]

/-- If one of the points is missing, the method is the same whatever the other one is. -/
theorem C137_discarded (P : Source k m K) (A : Scalarizers k K) (nrm : Vec m K → K) (solve : Solver P.Box K)
    (h : P.ideal = none ∨ P.nadir = none) (i n : Option (Vec (k + 1) K)) (h' : i = none ∨ n = none) :
    P.cfg A nrm solve = { P with ideal := i, nadir := n : Source k m K }.cfg A nrm solve := by
  have e : P.points solve = { P with ideal := i, nadir := n : Source k m K }.points solve := by
    rw [P.points_missing h, Source.points_missing (P := { P with ideal := i, nadir := n }) h']
    rfl
  unfold Source.cfg
  rw [e]

/-- C137 fails: the problem comes with the ideal `(-1, -1)`, and the level -1 is refused as lying outside of the
ideal and nadir. -/
theorem C137_fails : ∃ (P : Source 1 1 ℚ) (solve : Solver P.Box ℚ),
    P.ideal = some ![-1, -1] ∧ ExactFor P.table.evaluator solve ∧
    (P.cfg exScal (fun v => |v 0|) solve).ideal = ![0, 0] ∧
    validate (P.cfg exScal (fun v => |v 0|) solve) (.classify ![1, 1])
      (.classify (complete ![.le, .free] ![-1, 0] 1)) = .error .refused :=
  ⟨exSource exFinEv (some ![-1, -1]), exSolve exFinEv _, rfl, exSolve_exact _ _, by decide +kernel,
    eq_of_beq (by decide +kernel)⟩

example := C137_supplied_points_used_partial
  { exSource exFinEv (some ![-1, -1]) with nadir := some ![9, 9] } exScal (fun v => |v 0|)
  (exSolve exFinEv (some ![-1, -1])) rfl rfl
example := C137_discarded (exSource exFinEv (some ![-1, -1])) exScal (fun v => |v 0|) (exSolve exFinEv _) (.inr rfl)
  none (some ![3, 3]) (.inl rfl)

end Verif.Nimbus
