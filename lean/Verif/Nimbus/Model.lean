import Verif.Base

/-!
# Model of `desdeo_mcdm/interactive/NIMBUS.py`

Modelled: the four request validators, the state machine `iterate`, all handlers, the archive, the
computation of intermediate points and of new solutions, for both problem kinds. The constructor is
`construct` (a missing ideal or nadir is computed in `Verif.Nimbus.Bounds`); plot requests are modelled in `Verif.Nimbus.Plot`. Scalarizing functions are parameters. For an `MOProblem` the result of every scalar
minimization is arbitrary (`Oracle`), as the code does not look at `res["success"]`, but what the
minimizer is asked for (`Task`) is modelled;
for a `DiscreteDataProblem` `DiscreteMinimizer` is `nanargmin` over the feasible rows.
`number_of_solutions` and `number_of_desired_solutions` are integers (the code truncates floats).
-/

namespace Verif.Nimbus

variable {K : Type} [Field K] [LinearOrder K] {k m : Nat}

/-- The two supported problem types (NIMBUS.py:389, 423). `closest` is `find_closest` of a discrete
problem; its argument is `none` for a NaN vector. -/
inductive Problem (k m : Nat) (K : Type)
  | mo (evaluate : Vec m K → Vec k K)
  | discrete (N : Nat) (obj : Fin N → Vec k K) (dec : Fin N → Vec m K)
      (closest : Option (Vec m K) → Fin N)

/-- Fixed data. `asf1` is `MaxOfTwoASF`, `asf2` `StomASF`, `asf3` `PointMethodASF`, `asf4`
`AugmentedGuessASF`, as functions of reference point and objective vector. -/
structure Cfg (k m : Nat) (K : Type) where
  ideal : Vec k K
  nadir : Vec k K
  problem : Problem k m K
  nrm : Vec m K → K
  /-- Does `x` satisfy the variable bounds and the constraints of an `MOProblem`? -/
  feasible : Vec m K → Bool
  asf1 : (lt le : List Nat) → (ref f : Vec k K) → K
  asf2 : (ref f : Vec k K) → K
  asf3 : (ref f : Vec k K) → K
  asf4 : (free : List Nat) → (ref f : Vec k K) → K

/-- What a `ScalarMinimizer` is given (NIMBUS.py:398-412, 683-697, 814-820, 871-877, 895-901, 921-927):
the reference point (`none` if it is NaN), the scalarized objective as a function of the decision
variables (`none` is NaN) and the conjunction of bounds and constraints. -/
structure Task (k m : Nat) (K : Type) where
  ref : Option (Vec k K)
  value : Vec m K → Option K
  admits : Vec m K → Bool

/-- What the scalar minimizer returns for the `i`-th problem solved in a call. Used for `MOProblem` only;
every call of `iterate` gets its own. -/
structure Oracle (k m : Nat) (K : Type) where
  minimize : Nat → Task k m K → Vec m K

/-- The value of `_state`: NIMBUS.py:444 and 1006-1059. -/
inductive Phase
  | classify | archive | intermediate | preferred | ended
  deriving DecidableEq, Repr

/-- The mutable attributes (NIMBUS.py:418-419, 435-444). -/
structure St (k m : Nat) (K : Type) where
  sol : Vec m K
  obj : Vec k K
  archSols : List (Vec m K)
  archObjs : List (Vec k K)
  phase : Phase
  deriving BEq, ReflBEq, LawfulBEq

/-- The requests and their contents. -/
inductive Req (k m : Nat) (K : Type)
  | classify (objectives : Vec k K)
  | save (solutions : List (Vec m K)) (objectives : List (Vec k K))
  | inter (solutions : List (Vec m K)) (objectives : List (Vec k K))
  | preferred (solutions : List (Vec m K)) (objectives : List (Vec k K))
  | stop (solution : Vec m K) (objective : Vec k K)
  deriving BEq, ReflBEq, LawfulBEq

/-- NIMBUS.py:49. The classes; `other` is any string that is not a valid class. -/
inductive Cls
  | lt | le | eq | ge | free | other
  deriving DecidableEq, Repr

/-- Response to a classification request; `none` is a missing key. -/
structure ClassResp (K : Type) where
  classifications : Option (List Cls)
  levels : Option (List K)
  number : Option Int

/-- Response to an intermediate solutions request. -/
structure InterResp where
  indices : Option (List Int)
  number : Option Int

/-- Response to a most preferred request. -/
structure PrefResp where
  index : Option PyVal
  cont : Option PyVal

/-- A response, by the kind of request it is meant for. -/
inductive Ans (K : Type)
  | classify (r : ClassResp K)
  | save (indices : Option (List Int))
  | inter (r : InterResp)
  | preferred (r : PrefResp)
  | none

/-! ### Validators -/

/-- `np.where(classifications == x)[0]` (NIMBUS.py:96-98, 507-515). -/
def inds (cls : List Cls) (x : Cls) : List Nat :=
  (List.range cls.length).filter fun p => decide (cls[p]? = some x)

/-- Entry `j` of the levels (of length `k`, by the validator). -/
def levelVec (k : Nat) (lv : List K) : Vec k K := fun j => (lv[j.val]?).getD 0

/-- NIMBUS.py:100-116, for one of the classes with levels: numpy raises `IndexError` if a classified
position does not exist. -/
def checkLevels (c : Cfg k m K) (cls : List Cls) (x : Cls) (lv : List K) : Except Err Unit :=
  if (inds cls x).any fun p => decide (k ≤ p) then .error .indexError
  else if (List.finRange k).all fun j => !decide (j.val ∈ inds cls x) ||
      (decide (c.ideal j ≤ levelVec k lv j) && decide (levelVec k lv j ≤ c.nadir j)) then .ok ()
  else .error .refused

/-- NIMBUS.py:59-120. `len(np.array(levels).squeeze())` raises `TypeError` for a single level. -/
def validateClassify (c : Cfg k m K) (r : ClassResp K) : Except Err Unit :=
  match r.classifications, r.levels, r.number with
  | some cls, some lv, some num =>
    if cls.any (fun x => decide (x = .other)) then .error .refused
    else if lv.length = 1 then .error .typeError
    else if lv.length ≠ k then .error .refused
    else match checkLevels c cls .le lv with
      | .error e => .error e
      | .ok _ =>
        match checkLevels c cls .ge lv with
        | .error e => .error e
        | .ok _ => if num > 4 ∨ num < 1 then .error .refused else .ok ()
  | _, _, _ => .error .refused

/-- NIMBUS.py:156-181, `n` shown solutions. -/
def validateSave (n : Nat) (indices : Option (List Int)) : Except Err Unit :=
  match indices with
  | none => .error .refused
  | some idx =>
    if idx.length = 0 then .ok ()
    else if n < idx.length ∨ idx.any (fun i => decide (i < 0)) then .error .refused
    else if idx.any (fun i => decide ((n : Int) ≤ i)) then .error .refused
    else .ok ()

/-- NIMBUS.py:220-253. -/
def validateInter (n : Nat) (r : InterResp) : Except Err Unit :=
  match r.indices, r.number with
  | some idx, some num =>
    if num < 0 then .error .refused
    else if 0 < idx.length ∧ num = 0 then .error .refused
    else if idx.length = 0 ∧ 0 < num then .error .refused
    else if idx.length = 0 then .ok ()
    else if idx.any (fun i => decide ((n : Int) ≤ i)) || idx.any (fun i => decide (i < 0)) then
      .error .refused
    else .ok ()
  | _, _ => .error .refused

/-- NIMBUS.py:290-320. -/
def validatePreferred (n : Nat) (r : PrefResp) : Except Err Unit :=
  match r.index, r.cont with
  | some i, some b =>
    if !i.typeIsInt then .error .refused
    else match b with
      | .bool _ => if 0 ≤ i.asInt ∧ i.asInt < n then .ok () else .error .refused
      | _ => .error .refused
  | _, _ => .error .refused

/-! ### Computations -/

/-- `DiscreteMinimizer(asf, cons).minimize(objectives)["x"]`: `nanargmin` over the feasible rows. -/
def discreteMin {N : Nat} (obj : Fin N → Vec k K) (asf : Vec k K → K) (feasible : Vec k K → Bool) :
    Except Err (Fin N) :=
  match npNanArgmin ((List.finRange N).map fun i =>
      if feasible (obj i) then some (asf (obj i)) else none) with
  | .error e => .error e
  | .ok idx => if h : idx < N then .ok ⟨idx, h⟩ else .error .indexError

/-- NIMBUS.py:825-841, `cons_1` of the discrete case, for one row `f` (all positions exist). -/
def cons1 (cls : List Cls) (cur lv f : Vec k K) : Bool :=
  (List.finRange k).all fun j => match cls[j.val]? with
    | some .lt => decide (0 ≤ cur j - f j)
    | some .le => decide (0 ≤ cur j - f j)
    | some .eq => decide (0 ≤ cur j - f j)
    | some .ge => decide (0 ≤ lv j - f j)
    | _ => true

/-- NIMBUS.py:853-858, the reference point of the last three problems. -/
def zbar (c : Cfg k m K) (cls : List Cls) (lv cur : Vec k K) : Vec k K := fun j =>
  match cls[j.val]? with
  | some .lt => c.ideal j
  | some .le => lv j
  | some .eq => cur j
  | some .ge => lv j
  | some .free => c.nadir j
  | _ => 0

/-- The minimization problems solved, in order (NIMBUS.py:782-939): reference point, scalarizing
function and constraint on the rows of a discrete problem. -/
def problems (c : Cfg k m K) (s : St k m K) (cls : List Cls) (lv : Vec k K) :
    List (Vec k K × (Vec k K → K) × (Vec k K → Bool)) :=
  let zb := zbar c cls lv s.obj
  [ (lv, c.asf1 (inds cls .lt) (inds cls .le) lv, cons1 cls s.obj lv),
    (zb, c.asf2 zb, fun _ => true),
    (zb, c.asf3 zb, fun _ => true),
    (zb, c.asf4 (inds cls .free) zb, fun _ => true) ]

/-- The minimization of `asf` at the reference point `ref`, with the constraint `fe` on the objectives
besides the bounds and constraints of the problem (NIMBUS.py:784-820, 866-877; `cons_1` at 805-810). -/
def task (c : Cfg k m K) (evaluate : Vec m K → Vec k K) (ref : Vec k K) (asf : Vec k K → K)
    (fe : Vec k K → Bool) : Task k m K where
  ref := some ref
  value := fun x => some (asf (evaluate x))
  admits := fun x => c.feasible x && fe (evaluate x)

/-- Solving one of the problems (the `i`-th) and evaluating the result: NIMBUS.py:785-949. -/
def solveOne (c : Cfg k m K) (orc : Oracle k m K) (i : Nat)
    (p : Vec k K × (Vec k K → K) × (Vec k K → Bool)) : Except Err (Vec m K × Vec k K) :=
  match c.problem with
  | .mo evaluate =>
    .ok (orc.minimize i (task c evaluate p.1 p.2.1 p.2.2),
      evaluate (orc.minimize i (task c evaluate p.1 p.2.1 p.2.2)))
  | .discrete _ obj dec _ =>
    match discreteMin obj p.2.1 p.2.2 with
    | .error e => .error e
    | .ok x => .ok (dec x, obj x)

/-- NIMBUS.py:753-956. Classified positions beyond the number of objectives make numpy raise an
`IndexError`: class '0' only when `z_bar` is needed (858), the others already in `cons_1`. -/
def newSolutions (c : Cfg k m K) (s : St k m K) (cls : List Cls) (lv : Vec k K) (num : Int)
    (orc : Oracle k m K) : Except Err (List (Vec m K × Vec k K)) :=
  if (List.range cls.length).any fun p => decide (k ≤ p ∧ cls[p]? ≠ some .free) then
    .error .indexError
  else if 1 < num ∧ k < cls.length then .error .indexError
  else
    mapE (fun (p : (Vec k K × (Vec k K → K) × (Vec k K → Bool)) × Nat) => solveOne c orc p.2 p.1)
      (((problems c s cls lv).take num.toNat).zipIdx)

/-- NIMBUS.py:658-667: the points between the two solutions. Division by a zero norm gives NaN. -/
def interPoints (nrm : Vec m K → K) (a b : Vec m K) (n : Nat) : List (Option (Vec m K)) :=
  let between : Vec m K := fun j => a j - b j
  let norm := nrm between
  (List.range n).map fun i : Nat =>
    if norm = 0 then none
    else some fun j => b j + ((i : K) + 1) * (norm / (2 + (n : K))) * (between j / norm)

/-- NIMBUS.py:681-695: the minimization that projects a point; a NaN point has NaN objectives. -/
def interTask (c : Cfg k m K) (evaluate : Vec m K → Vec k K) : Option (Vec m K) → Task k m K
  | none => { ref := none, value := fun _ => none, admits := c.feasible }
  | some x => task c evaluate (evaluate x) (c.asf3 (evaluate x)) fun _ => true

/-- NIMBUS.py:674-707: projecting the `i`-th point. -/
def interSolve (c : Cfg k m K) (orc : Oracle k m K) (p : Option (Vec m K) × Nat) :
    Except Err (Vec m K × Vec k K) :=
  match c.problem with
  | .mo evaluate =>
    .ok (orc.minimize p.2 (interTask c evaluate p.1), evaluate (orc.minimize p.2 (interTask c evaluate p.1)))
  | .discrete _ obj dec closest =>
    match discreteMin obj (c.asf3 (obj (closest p.1))) (fun _ => true) with
    | .error e => .error e
    | .ok x => .ok (dec x, obj x)

/-- `l[indices]` for a list of indices. -/
def pick {α : Type} (l : List α) (idx : List Int) : Except Err (List α) := mapE (fun i => pyGet l i) idx

/-- `l[mask]` where `mask[indices] = False` (NIMBUS.py:734-743). -/
def unsaved {α : Type} (l : List α) (idx : List Int) : List α :=
  (l.zipIdx.filter fun p => !decide ((p.2 : Int) ∈ idx)).map fun p => p.1

/-! ### Handlers: the new state and the returned request -/

/-- NIMBUS.py:494-526 and 941-956. -/
def handleClassify (c : Cfg k m K) (s : St k m K) (r : ClassResp K) (orc : Oracle k m K) :
    Except Err (Req k m K) :=
  match r.classifications, r.levels, r.number with
  | some cls, some lv, some num =>
    match newSolutions c s cls (levelVec k lv) num orc with
    | .error e => .error e
    | .ok l => .ok (.save (l.map (·.1)) (l.map (·.2)))
  | _, _, _ => .error .keyError

/-- NIMBUS.py:528-546 and 734-751. The archive of objectives is extended before that of the solutions. -/
def handleSave (s : St k m K) (sols : List (Vec m K)) (objs : List (Vec k K)) (idx : List Int) :
    St k m K × Except Err (Req k m K) :=
  if idx.length = 0 then
    (s, .ok (.inter (s.archSols ++ unsaved sols []) (s.archObjs ++ unsaved objs [])))
  else match pick objs idx with
    | .error e => (s, .error e)
    | .ok os =>
      let s1 : St k m K := { s with archObjs := s.archObjs ++ os }
      match pick sols idx with
      | .error e => (s1, .error e)
      | .ok xs =>
        let s2 : St k m K := { s1 with archSols := s1.archSols ++ xs }
        (s2, .ok (.inter (s2.archSols ++ unsaved sols idx) (s2.archObjs ++ unsaved objs idx)))

/-- NIMBUS.py:548-573 and 641-715. -/
def handleInter (c : Cfg k m K) (sols : List (Vec m K)) (objs : List (Vec k K)) (idx : List Int)
    (num : Int) (orc : Oracle k m K) : Except Err (Req k m K) :=
  if 0 < idx.length then
    match pick sols idx with
    | .error e => .error e
    | .ok (a :: b :: _) =>
      match mapE (interSolve c orc) (interPoints c.nrm a b num.toNat).zipIdx with
      | .error e => .error e
      | .ok l => .ok (.save (l.map (·.1)) (l.map (·.2)))
    | .ok _ => .error .indexError
  else .ok (.preferred sols objs)

/-- NIMBUS.py:575-600, 602-614 and 958-978. -/
def handlePreferred (s : St k m K) (sols : List (Vec m K)) (objs : List (Vec k K)) (i : Int)
    (cont : Bool) : St k m K × Except Err (Req k m K) :=
  match pyGet sols i with
  | .error e => (s, .error e)
  | .ok x =>
    match pyGet objs i with
    | .error e => ({ s with sol := x }, .error e)
    | .ok f =>
      let s' : St k m K := { s with sol := x, obj := f }
      (s', if cont then .ok (.classify f) else .ok (.stop x f))

/-! ### The state machine -/

/-- The phase entered after returning `req` (NIMBUS.py:1013-1049); the initial phase is `classify`. -/
def phaseAfter : Req k m K → Phase
  | .classify _ => .classify
  | .save .. => .archive
  | .inter .. => .intermediate
  | .preferred .. => .preferred
  | .stop .. => .ended

/-- Set the phase when a request was returned; an exception leaves the phase as it is. -/
def enter (s : St k m K) (o : Except Err (Req k m K)) (ph : Phase) : St k m K :=
  match o with
  | .error _ => s
  | .ok _ => { s with phase := ph }

/-- Set the phase according to the returned request. -/
def enterAfter (s : St k m K) (o : Except Err (Req k m K)) : St k m K :=
  match o with
  | .error _ => s
  | .ok r => { s with phase := phaseAfter r }

/-- The validator called when the response is set. -/
def validate (c : Cfg k m K) (req : Req k m K) (a : Ans K) : Except Err Unit :=
  match req, a with
  | .classify _, .classify r => validateClassify c r
  | .save _ objs, .save idx => validateSave objs.length idx
  | .inter _ objs, .inter r => validateInter objs.length r
  | .preferred _ objs, .preferred r => validatePreferred objs.length r
  | .stop .., .none => .ok ()
  | _, _ => .error .refused

/-- NIMBUS.py:980-1059, `iterate` with an answered request. -/
def iterate (c : Cfg k m K) (s : St k m K) (req : Req k m K) (a : Ans K) (orc : Oracle k m K) :
    St k m K × Except Err (Req k m K) :=
  match s.phase with
  | .classify =>
    match req, a with
    | .classify _, .classify r =>
      let o := handleClassify c s r orc
      (enter s o .archive, o)
    | _, _ => (s, .error .refused)
  | .archive =>
    match req, a with
    | .save sols objs, .save (some idx) =>
      let so := handleSave s sols objs idx
      (enter so.1 so.2 .intermediate, so.2)
    | _, _ => (s, .error .refused)
  | .intermediate =>
    match req, a with
    | .inter sols objs, .inter ⟨some idx, some num⟩ =>
      let o := handleInter c sols objs idx num orc
      (enterAfter s o, o)
    | _, _ => (s, .error .refused)
  | .preferred =>
    match req, a with
    | .preferred sols objs, .preferred ⟨some i, some b⟩ =>
      let so := handlePreferred s sols objs i.asInt (decide (b = .bool true))
      (enterAfter so.1 so.2, so.2)
    | _, _ => (s, .error .refused)
  | .ended => (s, .ok req)

/-- Setting the response of a request, then calling `iterate`. -/
def answer (c : Cfg k m K) (s : St k m K) (req : Req k m K) (a : Ans K) (orc : Oracle k m K) :
    St k m K × Except Err (Req k m K) :=
  match validate c req a with
  | .error e => (s, .error e)
  | .ok _ => iterate c s req a orc

/-- NIMBUS.py:383-387, 392-395, 425-428: the reference point of the constructor. Without a starting point
it is the midpoint of ideal and nadir. A starting point whose number of components is neither `k` nor 1
is refused. A single component passes the check - after `squeeze` its shape is `()`, whose comparison
with an array is empty and hence false - and is then broadcast by the arithmetic of the scalarizing
function. Starting points are one-dimensional arrays. -/
def startRef (c : Cfg k m K) : Option (List K) → Except Err (Vec k K)
  | none => .ok fun j => (c.ideal j + c.nadir j) / 2
  | some [v] => .ok fun _ => v
  | some p => if p.length = k then .ok fun j => (p[j.val]?).getD 0 else .error .refused

/-- NIMBUS.py:369-446: the state after construction. For an `MOProblem`, `res` is the minimizer's solution
for the task it is given, `none` if it reports failure.
Ideal and nadir are given; their computation (371-375) is in `Verif.Nimbus.Bounds`. -/
def construct (c : Cfg k m K) (startingPoint : Option (List K)) (res : Task k m K → Option (Vec m K)) :
    Except Err (St k m K) :=
  match startRef c startingPoint with
  | .error e => .error e
  | .ok ref =>
    match c.problem with
    | .mo evaluate =>
      match res (task c evaluate ref (c.asf3 ref) fun _ => true) with
      | none => .error .refused
      | some x =>
        .ok { sol := x, obj := evaluate x, archSols := [], archObjs := [], phase := .classify }
    | .discrete _ obj dec _ =>
      match discreteMin obj (c.asf3 ref) (fun _ => true) with
      | .error e => .error e
      | .ok x => .ok { sol := dec x, obj := obj x, archSols := [], archObjs := [], phase := .classify }

/-- NIMBUS.py:448-462, `start`. -/
def start (s : St k m K) : Req k m K := .classify s.obj

end Verif.Nimbus
