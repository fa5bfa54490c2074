import Verif.Navigator.Model
import Verif.Asf
import Mathlib.Algebra.Order.Floor.Ring
import Mathlib.Data.Rat.Floor

/-!
# Model of `desdeo_mcdm/utilities/solvers.py`

Modelled: `weighted_scalarizer`, both payoff table functions and both front representation functions with the
reference point grid of `np.mgrid` and the acceptance test. Parameters, arbitrary in every call: the scalar
minimizers. Not modelled: the messages, ideal and nadir of different lengths. Bounds that are only partly infinite and
NaN objective values in front representations: `Solvers.Special`; NaN and infinite values in the payoff table:
`Solvers.PayoffSpecial`.
-/

namespace Verif.Solvers

variable {K : Type} [Field K] [LinearOrder K] {k : Nat} {X : Type}

/-- solvers.py:22-32, for one vector. -/
def weightedScalarizer (f ws : Vec (k + 1) K) : K := ∑ i, f i * ws i

/-- A minimizer (`ScalarMinimizer.minimize`): from the number of the call, the constraint evaluator and the
scalarized objective, the solution and the flag `success`. -/
abbrev Solver (X K : Type) := Nat → Option (X → List K) → (X → K) → X × Bool

/-- solvers.py:84-89: the payoff table. The flag of the solver is ignored. -/
def payoffTable (obj : X → Vec (k + 1) K) (cons : Option (X → List K)) (solve : Solver X K) :
    Fin (k + 1) → Vec (k + 1) K :=
  fun i => obj (solve i cons fun x => weightedScalarizer (obj x) fun j => if i = j then 1 else 0).1

/-- solvers.py:35-94: ideal and nadir. -/
def payoffGeneral (obj : X → Vec (k + 1) K) (cons : Option (X → List K)) (solve : Solver X K) :
    Vec (k + 1) K × Vec (k + 1) K :=
  (fun i => payoffTable obj cons solve i i, fun j => vmax fun i => payoffTable obj cons solve i j)

/-- A problem: objectives, number of constraints and their values. -/
structure Problem (k : Nat) (X K : Type) where
  obj : X → Vec (k + 1) K
  nCons : Nat
  cons : X → List K

/-- solvers.py:116-119, 297-300. -/
def Problem.evaluator (P : Problem k X K) : Option (X → List K) := if P.nCons > 0 then some P.cons else none

/-- solvers.py:97-128. -/
def payoff (P : Problem k X K) (solve : Solver X K) : Vec (k + 1) K × Vec (k + 1) K :=
  payoffGeneral P.obj P.evaluator solve

/-- An ideal or nadir point as passed by the caller: `None`, all components infinite, or finite. -/
inductive Bound (k : Nat) (K : Type)
  | missing
  | infinite
  | given (v : Vec k K)

/-- The argument `step`: exactly a Python float, an array, or anything else. -/
inductive StepArg (K : Type)
  | float (x : K)
  | array (l : List K)
  | other

/-- solvers.py:196-200: `np.isinf(None)` raises `TypeError`; the second point is looked at only if the first one
is not infinite. -/
def resolveBounds (obj : X → Vec (k + 1) K) (cons : Option (X → List K)) (solve : Solver X K)
    (ideal nadir : Bound (k + 1) K) : Except Err (Vec (k + 1) K × Vec (k + 1) K) :=
  match ideal, nadir with
  | .missing, _ => .error .typeError
  | .infinite, _ => .ok (payoffGeneral obj cons solve)
  | .given _, .missing => .error .typeError
  | .given _, .infinite => .ok (payoffGeneral obj cons solve)
  | .given i, .given n => .ok (i, n)

/-- solvers.py:212-223: one step for every objective. -/
def stepsOf : StepArg K → Except Err (Vec (k + 1) K)
  | .float x => .ok fun _ => x
  | .array l => if l.length = k + 1 then .ok fun i => l.getD i.val 0 else .error .refused
  | .other => .error .refused

variable [FloorRing K]

/-- One axis of `np.mgrid[slices]` (solvers.py:225): `ceil((stop - start) / step)` values. A step of zero raises
`OverflowError` or `ValueError`, a negative number of values `ValueError`. -/
def axis (start stop step : K) : Except Err (List K) :=
  if step = 0 then .error .valueError
  else if ⌈(stop - start) / step⌉ < 0 then .error .valueError
  else .ok ((List.range ⌈(stop - start) / step⌉.toNat).map fun i : Nat => start + (i : K) * step)

/-- All axes; the first one that fails raises. -/
def axesOf : (m : Nat) → Vec m K → Vec m K → Vec m K → Except Err (Fin m → List K)
  | 0, _, _, _ => .ok fun _ => []
  | m + 1, start, stop, step =>
    match axis (start 0) (stop 0) (step 0) with
    | .error e => .error e
    | .ok a =>
      match axesOf m (fun i => start i.succ) (fun i => stop i.succ) (fun i => step i.succ) with
      | .error e => .error e
      | .ok as => .ok (Fin.cons a as)

omit [Field K] [LinearOrder K] [FloorRing K] in
/-- solvers.py:225: the points of the grid, the last coordinate changing fastest. -/
def meshOf : (m : Nat) → (Fin m → List K) → List (Vec m K)
  | 0, _ => [fun i => i.elim0]
  | m + 1, axes => (axes 0).flatMap fun x => (meshOf m fun i => axes i.succ).map fun v => (Fin.cons x v : Vec (m + 1) K)

/-- solvers.py:209-225: the reference points. -/
def referencePoints (ideal nadir : Vec (k + 1) K) (eps : K) (step : StepArg K) :
    Except Err (List (Vec (k + 1) K)) :=
  match stepsOf step with
  | .error e => .error e
  | .ok s =>
    match axesOf (k + 1) (fun i => min (ideal i) (nadir i)) (fun i => max (ideal i) (nadir i) + eps) s with
    | .error e => .error e
    | .ok axes => .ok (meshOf (k + 1) axes)

omit [FloorRing K] in
/-- solvers.py:242-247: is the solution of the `i`-th reference point accepted? Not if it is larger in all
components than all rows accepted so far; the comparison with no rows at all counts as larger. -/
def accepts (prev : List (Option (Vec (k + 1) K))) (i : Nat) (f : Vec (k + 1) K) : Bool :=
  !((prev.filterMap id).all fun p => decide (∀ j, p j < f j)) || decide (i < 1)

omit [FloorRing K] in
/-- solvers.py:230-250: the loop; `none` is a row of NaN. -/
def frontLoop (obj : X → Vec (k + 1) K) (asf : Vec (k + 1) K → Vec (k + 1) K → K)
    (solve : Nat → (X → K) → X × Bool) : Nat → List (Vec (k + 1) K) → List (Option X) →
      List (Option (Vec (k + 1) K)) → List (Option X) × List (Option (Vec (k + 1) K))
  | _, [], xs, fs => (xs, fs)
  | i, z :: zs, xs, fs =>
    let res := solve i fun x => asf z (obj x)
    if res.2 = false then frontLoop obj asf solve (i + 1) zs (xs ++ [none]) (fs ++ [none])
    else if accepts fs i (obj res.1) then
      frontLoop obj asf solve (i + 1) zs (xs ++ [some res.1]) (fs ++ [some (obj res.1)])
    else frontLoop obj asf solve (i + 1) zs (xs ++ [none]) (fs ++ [none])

/-- solvers.py:131-255. The solver of the achievement problems gets no constraints (line 206). -/
def frontGeneral (obj : X → Vec (k + 1) K) (step : StepArg K) (eps : K) (ideal nadir : Bound (k + 1) K)
    (cons : Option (X → List K)) (table front : Solver X K) : Except Err (List X × List (Vec (k + 1) K)) :=
  match resolveBounds obj cons table ideal nadir with
  | .error e => .error e
  | .ok (lo, hi) =>
    match referencePoints lo hi eps step with
    | .error e => .error e
    | .ok zs =>
      let r := frontLoop obj (Navigator.pointAsf lo hi) (fun i g => front i none g) 0 zs [] []
      .ok (r.1.filterMap id, r.2.filterMap id)

/-- solvers.py:258-317. -/
def front (P : Problem k X K) (step : StepArg K) (eps : K) (ideal nadir : Bound (k + 1) K)
    (table solver : Solver X K) : Except Err (List X × List (Vec (k + 1) K)) :=
  frontGeneral P.obj step eps ideal nadir P.evaluator table solver

end Verif.Solvers
