import Verif.Exec
import Mathlib.Algebra.BigOperators.Fin

/-!
# Model of `desdeo_mcdm/interactive/ParetoNavigator.py`

Modelled: the constructor, the validators of the four requests, `start`, `iterate`, the three handlers line
by line, and every computation: extremes, speed, weights, the matrix of the linear problem, classification,
the linear problem with its bounds. Parameters, arbitrary in every call, are Qhull (`hull`), `linprog` (`lp`)
and the minimizers of the achievement function (`asf`, `project`). Not modelled: the messages, `_direction`
(never read before it is overwritten). NaN and infinite components of reference points and a
`preferred_solution` that is not an integer: see `ParetoNav.Special`.

`D` is what a minimizer returns: a decision vector (`MOProblem`) or the number of a row
(`DiscreteDataProblem`).
-/

namespace Verif.ParetoNav

variable {K : Type} [Field K] [LinearOrder K] {k : Nat} {X D : Type}

/-- What `_current_solution` can be: a vector of any length, or a number (the row number that the discrete
minimizer returns, ParetoNavigator.py:441). -/
inductive Cur (K : Type)
  | vec (l : List K)
  | scalar (x : K)
  deriving BEq, ReflBEq, LawfulBEq

/-- The problem. `table` is `some` for a `DiscreteDataProblem` and holds its objectives; `bounds` are ideal
and nadir, `none` if one of their components is infinite. `asCur d` is the minimizer's result itself. -/
structure Prob (k : Nat) (X D K : Type) where
  table : Option (List (Vec k K))
  bounds : Option (Vec k K × Vec k K)
  vars : D → X
  obj : D → Vec k K
  asCur : D → Cur K

/-- External code in one call. `hull` gives the equations of the facets (normal and offset), `lp A b lo hi`
minimizes the first variable subject to `A x ≤ b` and bounds on the other variables. -/
structure Oracle (k : Nat) (D K : Type) where
  asf : List K → Except Err D
  project : Cur K → Except Err D
  hull : List (Vec k K) → Except Err (List (Vec k K × K))
  lp : List (Vec (k + 1) K) → List K → Vec k K → Vec k K → Except Err (Vec (k + 1) K)

/-- The mutable attributes: `_pareto_optimal_solutions`, `_ideal`, `_nadir`, `lppp_A`, `b`,
`_current_speed`, `_reference_point`, `_current_solution`, `_po_solution`, `_po_objectives`. -/
structure St (k : Nat) (X K : Type) where
  sols : List (Vec k K)
  ideal : Vec k K
  nadir : Vec k K
  lppA : List (Vec (k + 1) K)
  b : List K
  speed : Option K := none
  ref : Option (List K) := none
  cur : Option (Cur K) := none
  poX : Option X := none
  poF : Option (Vec k K) := none
  deriving BEq, ReflBEq, LawfulBEq

/-- The requests with their contents; the bounds are those the validators use, which are the ones at the
time the request was made. -/
inductive Req (k : Nat) (X K : Type)
  | initial (ideal nadir : Vec k K) (sols : List (Vec k K))
  | nav (cur : Option (Cur K)) (ideal nadir : Vec k K)
  | solution (approx : Option (Cur K)) (x : Option X) (f : Option (Vec k K))
  | stop (approx : Option (Cur K)) (x : Option X) (f : Option (Vec k K))
  deriving BEq, ReflBEq, LawfulBEq

/-- A response; `none` is a missing key. -/
structure Resp (K : Type) where
  ref : Option (List K) := none
  preferred : Option Int := none
  speed : Option PyVal := none
  showSolution : Option Bool := none
  stepBack : Option Bool := none
  classes : Option (List String) := none
  satisfied : Option Bool := none

/-! ### Computations -/

/-- The component of a list, for lists of known length. -/
def toVec (k : Nat) (l : List K) : Vec k K := fun i => (l[i.val]?).getD 0

/-- ParetoNavigator.py:581-582: maximum and minimum of every column; `ValueError` if there is no row. -/
def extremes (pts : List (Vec k K)) : Except Err (Vec k K × Vec k K) :=
  match pts with
  | [] => .error .valueError
  | p :: ps => .ok (fun i => ps.foldl (fun m v => max m (v i)) (p i),
      fun i => ps.foldl (fun m v => min m (v i)) (p i))

/-- `int(v)`: truncation of floats; strings that are integer literals (Python accepts a few more forms). -/
def intOf : PyVal → Option Int
  | .int z => some z
  | .bool b => some (if b then 1 else 0)
  | .float q => some (q.num.tdiv q.den)
  | .str s => s.toInt?
  | .none => none

/-- ParetoNavigator.py:118-126, 218-227: any problem with the speed becomes the library's exception. -/
def validateSpeed (v : PyVal) : Except Err Unit :=
  match intOf v with
  | none => .error .refused
  | some z => if z = 1 ∨ z = 2 ∨ z = 3 ∨ z = 4 ∨ z = 5 then .ok () else .error .refused

/-- ParetoNavigator.py:600: `given_speed / 5 / 10`; dividing a string or `None` raises `TypeError`. -/
def calcSpeed (v : PyVal) : Except Err K :=
  match v with
  | .int z => .ok ((z : K) / 5 / 10)
  | .bool b => .ok ((if b then 1 else 0) / 5 / 10)
  | .float q => .ok ((q.num : K) / (q.den : K) / 5 / 10)
  | .str _ => .error .typeError
  | .none => .error .typeError

/-- ParetoNavigator.py:613. -/
def weights (ideal nadir : Vec k K) : Vec k K := fun i => 1 / (nadir i - ideal i)

/-- ParetoNavigator.py:633-656, the matrix of the linear problem: on top `-1/w` and the unit matrix, below
zeros and the normals of the hull. If ideal and nadir agree in a component, numpy computes `-1/inf = -0`,
here `-1/0 = 0`. -/
def lppMatrix (w : Vec k K) (A : List (Vec k K)) : List (Vec (k + 1) K) :=
  List.ofFn (fun i : Fin k => (Fin.cons (-1 / w i) (fun j => if j = i then 1 else 0) : Vec (k + 1) K)) ++
    A.map fun a => (Fin.cons 0 a : Vec (k + 1) K)

/-- ParetoNavigator.py:684-696: one entry of the reference point. Indexing a number raises `IndexError`,
as does indexing a vector past its end. -/
def mapClass (ideal nadir : Vec k K) (cur : Option (Cur K)) (i : Nat) (c : String) : Except Err K :=
  if c = "<" then (if h : i < k then .ok (ideal ⟨i, h⟩) else .error .indexError)
  else if c = ">" then (if h : i < k then .ok (nadir ⟨i, h⟩) else .error .indexError)
  else
    match cur with
    | some (.vec l) => (match l[i]? with | some x => .ok x | none => .error .indexError)
    | some (.scalar _) => .error .indexError
    | none => .error .typeError

/-- ParetoNavigator.py:671-696. -/
def mapClasses (ideal nadir : Vec k K) (cur : Option (Cur K)) : Nat → List String → Except Err (List K)
  | _, [] => .ok []
  | i, c :: cs =>
    match mapClass ideal nadir cur i c with
    | .error e => .error e
    | .ok x =>
      match mapClasses ideal nadir cur (i + 1) cs with
      | .error e => .error e
      | .ok xs => .ok (x :: xs)

/-- ParetoNavigator.py:669, 724-728: the direction and the moved reference point. A reference point of
length one is broadcast; a current solution of another length than the number of objectives ends in a
`ValueError`, of the subtraction, of `reshape` or of `linprog`; a number has no `len`. -/
def moved (k : Nat) (ref : Option (List K)) (cur : Option (Cur K)) (a : K) : Except Err (Vec k K) :=
  match ref, cur with
  | none, _ => .error .typeError
  | _, none => .error .typeError
  | _, some (.scalar _) => .error .typeError
  | some r, some (.vec l) =>
    if l.length ≠ k then .error .valueError
    else if r.length = k then .ok fun i => toVec k l i + a * (toVec k r i - toVec k l i)
    else if r.length = 1 then .ok fun i => toVec k l i + a * ((r[0]?).getD 0 - toVec k l i)
    else .error .valueError

/-! ### Validators -/

/-- ReferencePointMethod.py:25-43, called with the bounds of the request. -/
def validateRef (nadir : Vec k K) (l : List K) : Except Err Unit :=
  if l.length ≠ k then .error .refused
  else if ∀ i, nadir i < toVec k l i then .error .refused
  else .ok ()

/-- ParetoNavigator.py:88-128. -/
def validateInitial (nadir : Vec k K) (r : Resp K) : Except Err Unit :=
  if r.ref.isSome ∧ r.preferred.isSome then .error .refused
  else
    match (match r.ref, r.preferred with
      | some l, _ => validateRef nadir l
      | none, some _ => .ok ()
      | none, none => .error .refused : Except Err Unit) with
    | .error e => .error e
    | .ok _ =>
      match r.speed with
      | none => .error .refused
      | some v => validateSpeed v

/-- ParetoNavigator.py:237-242. -/
def validClass (c : String) : Bool := c = "<" || c = ">" || c = "="

/-- ParetoNavigator.py:229-243: the preferences. -/
def validatePref (nadir : Vec k K) (r : Resp K) : Except Err Unit :=
  match r.ref, r.classes with
  | some _, some _ => .error .refused
  | some l, none => validateRef nadir l
  | none, some cs => if cs.all validClass then .ok () else .error .refused
  | none, none => .ok ()

/-- ParetoNavigator.py:204-245. -/
def validateNav (nadir : Vec k K) (r : Resp K) : Except Err Unit :=
  if r.showSolution = some true then .ok ()
  else
    match r.speed with
    | some v =>
      (match validateSpeed v with
      | .error e => .error e
      | .ok _ => validatePref nadir r)
    | none => validatePref nadir r

/-- The validator called when the response of a request is set. -/
def validate (req : Req k X K) (r : Resp K) : Except Err Unit :=
  match req with
  | .initial _ nadir _ => validateInitial nadir r
  | .nav _ _ nadir => validateNav nadir r
  | .solution .. => .ok ()
  | .stop .. => .ok ()

/-! ### Handlers -/

/-- `ParetoNavigatorRequest.init_with_method` (ParetoNavigator.py:185-202). -/
def navReq (s : St k X K) : Req k X K := .nav s.cur s.ideal s.nadir

/-- ParetoNavigator.py:438-446: the starting point. -/
def startingPoint (P : Prob k X D K) (r : Resp K) (orc : Oracle k D K) : Exec (St k X K) (Cur K) :=
  match r.ref with
  | some l => do
    Exec.modify fun s => { s with ref := some l }
    let d ← Exec.lift (orc.asf l)
    pure (P.asCur d)
  | none =>
    match r.preferred with
    | none => Exec.raise .keyError
    | some i => do
      let s ← Exec.get
      let p ← Exec.lift (pyGet s.sols i)
      pure (.vec (List.ofFn p))

/-- ParetoNavigator.py:428-451. -/
def handleInitial (P : Prob k X D K) (r : Resp K) (orc : Oracle k D K) :
    Exec (St k X K) (Req k X K) := do
  let p ← startingPoint P r orc
  Exec.modify fun s => { s with cur := some p }
  match r.speed with
  | none => Exec.raise .keyError
  | some v =>
    let a ← Exec.lift (calcSpeed v)
    Exec.modify fun s => { s with speed := some a }
    let s ← Exec.get
    pure (navReq s)

/-- ParetoNavigator.py:472-489. -/
def handleShow (P : Prob k X D K) (orc : Oracle k D K) : Exec (St k X K) (Req k X K) := do
  let s ← Exec.get
  match s.cur with
  | none => Exec.raise .typeError
  | some p =>
    let d ← Exec.lift (orc.project p)
    Exec.modify fun s => { s with poX := some (P.vars d), poF := some (P.obj d) }
    pure (.solution s.cur (some (P.vars d)) (some (P.obj d)))

/-- ParetoNavigator.py:491-492. -/
def setSpeed (r : Resp K) : Exec (St k X K) Unit :=
  match r.speed with
  | none => pure ()
  | some v => do
    let a ← Exec.lift (calcSpeed v)
    Exec.modify fun s => { s with speed := some a }

/-- ParetoNavigator.py:494-497: the sign of the speed. -/
def setSign (r : Resp K) : Exec (St k X K) K := do
  let s ← Exec.get
  match s.speed with
  | none => Exec.raise .typeError
  | some a =>
    let a' := if r.stepBack = some true then a * (-1) else |a|
    Exec.modify fun s => { s with speed := some a' }
    pure a'

/-- ParetoNavigator.py:499-508: a new reference point, if there is one. -/
def setRef (r : Resp K) : Exec (St k X K) Unit :=
  match r.ref with
  | some l => Exec.modify fun s => { s with ref := some l }
  | none =>
    match r.classes with
    | none => pure ()
    | some cs => do
      let s ← Exec.get
      let l ← Exec.lift (mapClasses s.ideal s.nadir s.cur 0 cs)
      Exec.modify fun s => { s with ref := some l }

/-- ParetoNavigator.py:510-526 and 698-737: one step. -/
def step (orc : Oracle k D K) (a : K) : Exec (St k X K) (Req k X K) := do
  let s ← Exec.get
  let m ← Exec.lift (moved k s.ref s.cur a)
  let x ← Exec.lift (orc.lp s.lppA (List.ofFn m ++ s.b) s.ideal s.nadir)
  Exec.modify fun s => { s with cur := some (.vec (List.ofFn fun i : Fin k => x i.succ)) }
  let s ← Exec.get
  pure (navReq s)

/-- ParetoNavigator.py:453-526; without a response the navigation goes on. -/
def handleNav (P : Prob k X D K) (r : Option (Resp K)) (orc : Oracle k D K) :
    Exec (St k X K) (Req k X K) :=
  let r := r.getD {}
  if r.showSolution = some true then handleShow P orc
  else do
    setSpeed r
    let a ← setSign r
    setRef r
    step orc a

/-- ParetoNavigator.py:549-570: a rejected solution is added to the approximation. -/
def addSolution (orc : Oracle k D K) : Exec (St k X K) (Req k X K) := do
  let s ← Exec.get
  match s.poF with
  | none => Exec.raise .typeError
  | some f =>
    Exec.modify fun s => { s with sols := s.sols ++ [f] }
    let s ← Exec.get
    let eqs ← Exec.lift (orc.hull s.sols)
    Exec.modify fun s => { s with b := eqs.map fun e => -e.2 }
    let (hi, lo) ← Exec.lift (extremes s.sols)
    Exec.modify fun s => { s with
      nadir := fun i => max (hi i) (s.nadir i)
      ideal := fun i => min (lo i) (s.ideal i) }
    Exec.modify fun s => { s with lppA := lppMatrix (weights s.ideal s.nadir) (eqs.map Prod.fst) }
    let s ← Exec.get
    pure (navReq s)

/-- ParetoNavigator.py:528-570; a missing response counts as not satisfied. -/
def handleSolution (r : Option (Resp K)) (orc : Oracle k D K) : Exec (St k X K) (Req k X K) :=
  if (r.getD {}).satisfied = some true then do
    let s ← Exec.get
    pure (.stop s.cur s.poX s.poF)
  else addSolution orc

/-- ParetoNavigator.py:392-426. The initial request needs a response. -/
def iterate (P : Prob k X D K) (req : Req k X K) (r : Option (Resp K)) (orc : Oracle k D K) :
    Exec (St k X K) (Req k X K) :=
  match req with
  | .initial .. =>
    (match r with
    | none => Exec.raise .typeError
    | some r => handleInitial P r orc)
  | .nav .. => handleNav P r orc
  | .solution .. => handleSolution r orc
  | .stop c x f => pure (.stop c x f)

/-- Setting the response of a request (unless it is answered without one), then calling `iterate`. -/
def answer (P : Prob k X D K) (s : St k X K) (req : Req k X K) (r : Option (Resp K)) (orc : Oracle k D K) :
    St k X K × Except Err (Req k X K) :=
  match (match r with | none => .ok () | some r => validate req r : Except Err Unit) with
  | .error e => (s, .error e)
  | .ok _ => iterate P req r orc s

/-- ParetoNavigator.py:383-390. -/
def start (s : St k X K) : Req k X K := .initial s.ideal s.nadir s.sols

/-- ParetoNavigator.py:337-381: the constructor. For a `DiscreteDataProblem` the supplied solutions are
replaced by the objectives of the problem. -/
def construct (P : Prob k X D K) (supplied : Option (List (Vec k K))) (orc : Oracle k D K) :
    Except Err (St k X K) :=
  match (match P.table, supplied with
    | some t, _ => .ok t
    | none, some l => .ok l
    | none, none => .error .refused : Except Err (List (Vec k K))) with
  | .error e => .error e
  | .ok sols =>
    match (match P.bounds with
      | some (ideal, nadir) => .ok (nadir, ideal)
      | none => extremes sols : Except Err (Vec k K × Vec k K)) with
    | .error e => .error e
    | .ok (nadir, ideal) =>
      match orc.hull sols with
      | .error e => .error e
      | .ok eqs => .ok
          { sols := sols, ideal := ideal, nadir := nadir
            lppA := lppMatrix (weights ideal nadir) (eqs.map Prod.fst)
            b := eqs.map fun e => -e.2 }

end Verif.ParetoNav
