import Verif.Exec
import Verif.Asf

/-!
# Model of `desdeo_mcdm/interactive/ReferencePointMethod.py`

Modelled: the validators, `start`, `iterate`, both handlers line by line with the six storage lists and
their expansion, the weights, the perturbed reference points, the checks of the constructor. The
achievement problems are solved by parameters (`Oracle`), arbitrary in every call; what they minimize is
`refPointASF` of `Asf.lean`, which theorems about optimality assume. `D` is what the solver returns: a
decision vector (`MOProblem`) or the index of a row (`DiscreteDataProblem`); `vars` and `obj` give its
decision and objective vectors (ReferencePointMethod.py:380-387, 412-417). `_ds`, `_q`, `_w` are never
read by another call and are not modelled. `np.concatenate` of ragged lists needs numpy < 1.24
(poetry.lock pins 1.23.5).
-/

namespace Verif.Rpm

variable {K : Type} [Field K] [LinearOrder K] {k : Nat} {X D : Type}

/-- Fixed data: ReferencePointMethod.py:263-314. -/
structure Cfg (k : Nat) (X D K : Type) where
  ideal : Vec k K
  nadir : Vec k K
  utopian : Vec k K
  vars : D → X
  obj : D → Vec k K
  nrm : Vec k K → K

/-- What the minimizers return in one call of `iterate`, for given weights and reference point
(ReferencePointMethod.py:554-613): `main` for the reference point itself, `add i` for the `i`-th perturbed
one. -/
structure Oracle (k : Nat) (D K : Type) where
  main : (weights : Fin k → Fl K) → (ref : Vec k K) → D
  add : Fin k → (weights : Fin k → Fl K) → (ref : Vec k K) → D

/-- The mutable attributes `_h`, `_qs`, `_xs`, `_fs`, `_pqs`, `_axs`, `_afs`. -/
structure St (k : Nat) (X K : Type) where
  h : Nat
  qs : List (Option (Vec k K))
  xs : List (Option X)
  fs : List (Option (Vec k K))
  pqs : List (Option (Fin k → Vec k K))
  axs : List (Option (Fin k → X))
  afs : List (Option (Fin k → Vec k K))
  deriving BEq, ReflBEq, LawfulBEq

/-- ReferencePointMethod.py:268-283. -/
def St.init : St k X K := ⟨1, slots _ 10, slots _ 10, slots _ 10, slots _ 10, slots _ 10, slots _ 10⟩

/-- The requests and their contents. -/
inductive Req (k : Nat) (X K : Type)
  | initial
  | nav (current : Vec k K) (additional : Fin k → Vec k K)
  | stop (x : Option X) (f : Option (Vec k K))
  deriving BEq, ReflBEq, LawfulBEq

/-- A response; `none` is a missing key. A reference point is a one dimensional array. -/
structure Resp (K : Type) where
  satisfied : Option Bool := none
  index : Option PyVal := none
  ref : Option (List K) := none

/-! ### Validators -/

/-- The component of a list, for vectors of known length. -/
def toVec (k : Nat) (l : List K) : Vec k K := fun i => (l[i.val]?).getD 0

/-- ReferencePointMethod.py:25-43, for finite components (`validateRefFl` below for all doubles). -/
def validateRef (c : Cfg k X D K) (l : List K) : Except Err Unit :=
  if l.length ≠ k then .error .refused
  else if ∀ i, c.nadir i < toVec k l i then .error .refused
  else .ok ()

/-- The number a value stands for in comparisons. -/
def numVal : PyVal → Option ℚ
  | .int z => some z
  | .bool b => some (if b then 1 else 0)
  | .float q => some q
  | _ => none

/-- ReferencePointMethod.py:149-159: the index of the chosen solution. `None` and the empty string are
refused, comparing another string with a number raises `TypeError`. -/
def validateIndex (k : Nat) (i : Option PyVal) : Except Err Unit :=
  match i with
  | none => .error .keyError
  | some .none => .error .refused
  | some (.str s) => if s = "" then .error .refused else .error .typeError
  | some v => if 0 ≤ (numVal v).getD 0 ∧ (numVal v).getD 0 ≤ k then .ok () else .error .refused

/-- ReferencePointMethod.py:97-101. -/
def validateInitial (c : Cfg k X D K) (r : Resp K) : Except Err Unit :=
  match r.ref with
  | none => .error .refused
  | some l => validateRef c l

/-- ReferencePointMethod.py:148-165. -/
def validateNav (c : Cfg k X D K) (r : Resp K) : Except Err Unit :=
  if r.satisfied = some true then validateIndex k r.index
  else
    match r.ref with
    | none => .error .refused
    | some l => validateRef c l

/-- The validator called when the response of a request is set. -/
def validate (c : Cfg k X D K) (req : Req k X K) (r : Resp K) : Except Err Unit :=
  match req with
  | .initial => validateInitial c r
  | .nav .. => validateNav c r
  | .stop .. => .ok ()

/-- `np.less` on doubles. -/
def flLess : Fl K → Fl K → Bool
  | .num a, .num b => decide (a < b)
  | .num _, .pinf => true
  | .ninf, .num _ => true
  | .ninf, .pinf => true
  | _, _ => false

/-- ReferencePointMethod.py:25-43 on arrays of doubles (infinities and NaN included). -/
def validateRefFl (c : Cfg k X D K) (l : List (Fl K)) : Except Err Unit :=
  if l.length ≠ k then .error .refused
  else if ∀ i : Fin k, flLess (.num (c.nadir i)) ((l[i.val]?).getD .nan) = true then .error .refused
  else .ok ()

/-! ### Computations -/

/-- ReferencePointMethod.py:364, 468: the weights. -/
def weights (c : Cfg k X D K) (q : Vec k K) : Fin k → Fl K := fun i =>
  fdiv (q i) (c.utopian i - c.nadir i)

/-- ReferencePointMethod.py:543-550: the unit vectors. -/
def unit (i j : Fin k) : K := if j = i then 1 else 0

/-- ReferencePointMethod.py:528-552: the perturbed reference points. -/
def prp (c : Cfg k X D K) (q f : Vec k K) : Fin k → Vec k K := fun i j =>
  q j + c.nrm (fun j => q j - f j) * unit i j

/-! ### Storage -/

/-- Assignment to an element of one of the lists. -/
def put {α : Type} (rd : St k X K → List (Option α)) (wr : St k X K → List (Option α) → St k X K)
    (i : Nat) (v : α) : Exec (St k X K) Unit := fun s =>
  match slotSet (rd s) i (some v) with
  | .ok l => (wr s l, .ok ())
  | .error e => (s, .error e)

/-- Reading an element used in arithmetic or indexed. -/
def take {α : Type} (rd : St k X K → List (Option α)) (i : Nat) : Exec (St k X K) α := fun s =>
  (s, slotGet (rd s) i)

/-- Reading an element that is not inspected. -/
def look {α : Type} (rd : St k X K → List (Option α)) (i : Nat) : Exec (St k X K) (Option α) := fun s =>
  (s, slotRead (rd s) i)

/-! ### Handlers -/

/-- ReferencePointMethod.py:360-423 and 463-526: one iteration with the given reference point. -/
def solve (c : Cfg k X D K) (orc : Oracle k D K) (l : List K) : Exec (St k X K) (Option (Req k X K)) := do
  let s ← Exec.get
  put St.qs (fun s l => { s with qs := l }) s.h (toVec k l)
  let q ← take St.qs s.h
  let w := weights c q
  put St.xs (fun s l => { s with xs := l }) s.h (c.vars (orc.main w q))
  put St.fs (fun s l => { s with fs := l }) s.h (c.obj (orc.main w q))
  let f ← take St.fs s.h
  put St.pqs (fun s l => { s with pqs := l }) s.h (prp c q f)
  let p ← take St.pqs s.h
  put St.axs (fun s l => { s with axs := l }) s.h (fun i => c.vars (orc.add i w (p i)))
  put St.afs (fun s l => { s with afs := l }) s.h (fun i => c.obj (orc.add i w (p i)))
  let a ← take St.afs s.h
  pure (some (.nav f a))

/-- ReferencePointMethod.py:348-423. -/
def handleInitial (c : Cfg k X D K) (r : Resp K) (orc : Oracle k D K) :
    Exec (St k X K) (Option (Req k X K)) :=
  match r.ref with
  | none => Exec.raise .keyError
  | some l => solve c orc l

/-- ReferencePointMethod.py:452-461: expand the lists by ten places when at most two are left. -/
def expand (s : St k X K) : St k X K :=
  if (s.qs.length : Int) - s.h ≤ 2 then
    { s with
      qs := s.qs ++ slots _ 10, xs := s.xs ++ slots _ 10, fs := s.fs ++ slots _ 10,
      pqs := s.pqs ++ slots _ 10, axs := s.axs ++ slots _ 10, afs := s.afs ++ slots _ 10 }
  else s

/-- The entry of a list of `k` solutions at a Python index that must be an integer. -/
def entry {α : Type} (a : Fin k → α) (v : PyVal) : Except Err α :=
  if v.isInstanceInt then pyGet (List.ofFn a) (v.asInt - 1) else .error .typeError

/-- ReferencePointMethod.py:439-448: the chosen solution. -/
def choose (v : PyVal) : Exec (St k X K) (Option (Req k X K)) := do
  let s ← Exec.get
  if numVal v = some 0 then
    let x ← look St.xs s.h
    let f ← look St.fs s.h
    pure (some (.stop x f))
  else
    let ax ← take St.axs s.h
    let x ← Exec.lift (entry ax v)
    let af ← take St.afs s.h
    let f ← Exec.lift (entry af v)
    pure (some (.stop (some x) (some f)))

/-- ReferencePointMethod.py:425-526. -/
def handleNav (c : Cfg k X D K) (r : Resp K) (orc : Oracle k D K) :
    Exec (St k X K) (Option (Req k X K)) :=
  if r.satisfied = some true then
    match r.index with
    | none => Exec.raise .keyError
    | some v => choose v
  else do
    Exec.modify fun s => { s with h := s.h + 1 }
    Exec.modify expand
    match r.ref with
    | none => Exec.raise .keyError
    | some l => solve c orc l

/-- ReferencePointMethod.py:325-346. -/
def iterate (c : Cfg k X D K) (req : Req k X K) (r : Resp K) (orc : Oracle k D K) :
    Exec (St k X K) (Option (Req k X K)) :=
  match req with
  | .initial => handleInitial c r orc
  | .nav .. => handleNav c r orc
  | .stop x f => pure (some (.stop x f))

/-- Setting the response of a request, then calling `iterate`. -/
def answer (c : Cfg k X D K) (s : St k X K) (req : Req k X K) (r : Resp K) (orc : Oracle k D K) :
    St k X K × Except Err (Option (Req k X K)) :=
  match validate c req r with
  | .error e => (s, .error e)
  | .ok _ => iterate c req r orc s

/-- ReferencePointMethod.py:246-266, the checks of the constructor; lists by their lengths, `len(None)`
raises `TypeError`. -/
def construct (idealLen nadirLen : Nat) (names minimize : Option Nat) : Except Err Unit :=
  if idealLen ≠ nadirLen then .error .refused
  else
    let nm := names.filter (· ≠ 0)
    let mn := minimize.filter (· ≠ 0)
    if nm.isSome ∧ nm ≠ some idealLen then .error .refused
    else if mn.isSome then
      match names with
      | none => .error .typeError
      | some l => if l ≠ idealLen then .error .refused else .ok ()
    else .ok ()

end Verif.Rpm
