import Verif.Exec

/-!
# Model of `desdeo_mcdm/interactive/Nautilus.py` (NAUTILUS 1)

Modelled: both validators, `start`, `iterate`, both handlers line by line including the preallocated
storage, the preferential factors, the iteration point, the bounds and the distance. The constructor is
`construct`. The two kinds of scalar minimizations (achievement function,
epsilon constraint problems) are parameters (`Oracle`), arbitrary in every call; the code does not look
at `res["success"]`. The flags `_step_back`, `_short_step`, `_use_previous_preference`,
`_first_iteration` and the attributes `_q`, `_preference_*` are never read and not modelled.
The storage `_lower_bounds`, `_upper_bounds`, `_ds` is only read back at the index just written, always
has the length of `_zs` and is written right after `_zs` at the same index; only the contents shown are
modelled. `np.concatenate` of ragged lists needs numpy < 1.24 (poetry.lock pins 1.23.5).
-/

namespace Verif.Nautilus

variable {K : Type} [Field K] [LinearOrder K] {k m : Nat}

/-- Fixed data: Nautilus.py:371-378. `evaluate` is `problem.evaluate(x).objectives` for one vector. -/
structure Cfg (k m : Nat) (K : Type) where
  ideal : Vec k K
  nadir : Vec k K
  utopian : Vec k K
  evaluate : Vec m K → Vec k K
  nrm : Vec k K → K

/-- What the minimizers return in one call of `iterate`: `asf` for the achievement problem with the given
weights and reference point (Nautilus.py:842-852), `eps` for the `i`-th epsilon constraint problem with
bounds `z` (Nautilus.py:906-919). -/
structure Oracle (k m : Nat) (K : Type) where
  asf : (weights : Fin k → Fl K) → (ref : Vec k K) → Vec m K
  eps : Fin k → (z : Vec k K) → Vec m K

/-- The mutable attributes `_step_number`, `_n_iterations`, `_n_iterations_left`, `_zs`, `_xs`, `_fs`
(Nautilus.py:385-405). The counts are `None` before the first answer; nothing reads them then. -/
structure St (k m : Nat) (K : Type) where
  step : Nat
  n : Int
  left : Int
  zs : List (Option (Vec k K))
  xs : List (Option (Vec m K))
  fs : List (Option (Vec k K))
  deriving BEq, ReflBEq, LawfulBEq

/-- Nautilus.py:381-405, the attributes after construction. -/
def St.init : St k m K := ⟨1, 0, 0, [], [], []⟩

/-- The requests and their contents. -/
inductive Req (k m : Nat) (K : Type)
  | initial
  | nav (z lower upper : Vec k K) (dist : Fl K)
  | stop (x : Option (Vec m K)) (f : Option (Vec k K))
  deriving BEq, ReflBEq, LawfulBEq

/-- A response; `none` is a missing key. `isArray` tells whether `preference_info` is a numpy array
(otherwise it is a Python list). -/
structure Resp (K : Type) where
  nIterations : Option PyVal := none
  stepBack : Option Bool := none
  shortStep : Option Bool := none
  usePrevious : Option Bool := none
  method : Option Int := none
  info : Option (List K) := none
  isArray : Bool := true

/-! ### Validators -/

/-- Python's `max` of a list: `ValueError` if it is empty. -/
def pyMax : List K → Except Err K := npMax

/-- Nautilus.py:66-96. -/
def validatePreferences (k : Nat) (r : Resp K) : Except Err Unit :=
  match r.method, r.info with
  | some meth, some info =>
    if ¬ (meth = 1 ∨ meth = 2) then .error .refused
    else if meth = 1 then
      if info.length < k then .error .refused
      else match pyMax info with
        | .error e => .error e
        | .ok mx => if 1 ≤ mx ∧ mx ≤ (k : K) then .ok () else .error .refused
    else
      if info.length < k then .error .refused
      else if info.sum ≠ 100 then .error .refused
      else .ok ()
  | _, _ => .error .refused

/-- Nautilus.py:99-116, called if the entry is present (49-50). -/
def validateN (n : Option PyVal) : Except Err Unit :=
  match n with
  | none => .ok ()
  | some v => if v.isInstanceInt ∧ 1 ≤ v.asInt then .ok () else .error .refused

/-- Nautilus.py:33-40, 49-50: the response to the initial request. -/
def validateInitial (k : Nat) (r : Resp K) : Except Err Unit :=
  if r.nIterations.isNone then .error .refused
  else if r.stepBack.isSome then .error .refused
  else if r.usePrevious.isSome then .error .refused
  else match validatePreferences k r with
    | .error e => .error e
    | .ok _ => validateN r.nIterations

/-- Nautilus.py:41-50: the response to a later request showing the point `z`. -/
def validateNav (c : Cfg k m K) (z : Vec k K) (r : Resp K) : Except Err Unit :=
  match r.stepBack with
  | none => .error .keyError
  | some back =>
    if back ∧ (∀ j, z j = c.nadir j) then .error .refused
    else match r.usePrevious with
      | none => .error .keyError
      | some prev =>
        match (if prev then .ok () else validatePreferences k r) with
        | .error e => .error e
        | .ok _ => validateN r.nIterations

/-- The validator called when the response of a request is set. A stop request needs no response. -/
def validate (c : Cfg k m K) (req : Req k m K) (r : Resp K) : Except Err Unit :=
  match req with
  | .initial => validateInitial k r
  | .nav z _ _ _ => validateNav c z r
  | .stop .. => .ok ()

/-! ### Computations -/

/-- Nautilus.py:806-807: entry `i` for ranks (numpy division). -/
def rankFactor (r n u : K) : Fl K := fdiv 1 (r * (n - u))

/-- Nautilus.py:805-809. `info` has at least `k` entries by the validator; `zip` ignores further ones.
`pref_info / 100` raises `TypeError` for a Python list. -/
def factors (c : Cfg k m K) (meth : Int) (info : List K) (isArray : Bool) :
    Except Err (Fin k → Fl K) :=
  if meth = 1 then
    .ok fun i => rankFactor ((info[i.val]?).getD 0) (c.nadir i) (c.utopian i)
  else if isArray then
    .ok fun i => rankFactor ((info[i.val]?).getD 0 / 100) (c.nadir i) (c.utopian i)
  else .error .typeError

/-- Nautilus.py:868. -/
def iterationPoint (itn : Int) (zPrev f : Vec k K) : Vec k K := fun j =>
  (((itn : K) - 1) / (itn : K)) * zPrev j + (1 / (itn : K)) * f j

/-- Nautilus.py:894-921: component `i` of the solution found for the `i`-th problem. -/
def bounds (c : Cfg k m K) (orc : Oracle k m K) (z : Vec k K) : Vec k K := fun i =>
  c.evaluate (orc.eps i z) i

/-- Nautilus.py:937-940. -/
def distance (c : Cfg k m K) (z f : Vec k K) : Fl K :=
  (fdiv (c.nrm fun j => z j - c.nadir j) (c.nrm fun j => f j - c.nadir j)).scalePos 100

/-! ### Reading and writing the storage -/

/-- `self._zs[i] = v`. -/
def setZ (i : Nat) (v : Vec k K) : Exec (St k m K) Unit := fun s =>
  match slotSet s.zs i (some v) with
  | .ok l => ({ s with zs := l }, .ok ())
  | .error e => (s, .error e)

/-- `self._xs[i] = v`. -/
def setX (i : Nat) (v : Option (Vec m K)) : Exec (St k m K) Unit := fun s =>
  match slotSet s.xs i v with
  | .ok l => ({ s with xs := l }, .ok ())
  | .error e => (s, .error e)

/-- `self._fs[i] = v`. -/
def setF (i : Nat) (v : Option (Vec k K)) : Exec (St k m K) Unit := fun s =>
  match slotSet s.fs i v with
  | .ok l => ({ s with fs := l }, .ok ())
  | .error e => (s, .error e)

/-- `self._zs[i]`, used in arithmetic. -/
def getZ (i : Nat) : Exec (St k m K) (Vec k K) := fun s => (s, slotGet s.zs i)

/-- `self._fs[i]`, used in arithmetic. -/
def getF (i : Nat) : Exec (St k m K) (Vec k K) := fun s => (s, slotGet s.fs i)

/-- `self._xs[i]`, not inspected. -/
def readX (i : Nat) : Exec (St k m K) (Option (Vec m K)) := fun s => (s, slotRead s.xs i)

/-- `self._fs[i]`, not inspected. -/
def readF (i : Nat) : Exec (St k m K) (Option (Vec k K)) := fun s => (s, slotRead s.fs i)

/-! ### Handlers -/

/-- Nautilus.py:497-508, 604-622, 699-721: compute the factors, solve the achievement problem with the
previous iteration point as reference point, store the solution and its objectives. -/
def solveNew (c : Cfg k m K) (orc : Oracle k m K) (meth : Int) (info : List K) (isArray : Bool) :
    Exec (St k m K) Unit := do
  let w ← Exec.lift (factors c meth info isArray)
  let s ← Exec.get
  let q ← getZ (s.step - 1)
  setX s.step (some (orc.asf w q))
  setF s.step (some (c.evaluate (orc.asf w q)))

/-- Nautilus.py:510-542, 626-656, 723-754: the next iteration point, its bounds and distance. -/
def movePoint (c : Cfg k m K) (orc : Oracle k m K) : Exec (St k m K) (Option (Req k m K)) := do
  let s ← Exec.get
  let zPrev ← getZ (s.step - 1)
  let f ← getF s.step
  let z := iterationPoint s.left zPrev f
  setZ s.step z
  pure (some (.nav z (bounds c orc z) z (distance c z f)))

/-- Nautilus.py:455-542. -/
def handleInitial (c : Cfg k m K) (r : Resp K) (orc : Oracle k m K) :
    Exec (St k m K) (Option (Req k m K)) := do
  match r.nIterations, r.method, r.info with
  | some n, some meth, some info =>
    let cap := (n.asInt + 2).toNat
    Exec.modify fun s =>
      { s with n := n.asInt, left := n.asInt, zs := slots _ cap, xs := slots _ cap, fs := slots _ cap }
    let s ← Exec.get
    setZ (s.step - 1) c.nadir
    solveNew c orc meth info r.isArray
    movePoint c orc
  | _, _, _ => Exec.raise .keyError

/-- Nautilus.py:560-577. -/
def changeN (s : St k m K) (n : Option PyVal) : St k m K :=
  match n with
  | none => s
  | some v =>
    let extra := (v.asInt - s.n).toNat
    { s with
      zs := s.zs ++ slots _ extra, xs := s.xs ++ slots _ extra, fs := s.fs ++ slots _ extra,
      left := s.left + v.asInt - s.n, n := v.asInt }

/-- Nautilus.py:585-656: no step back. -/
def forward (c : Cfg k m K) (r : Resp K) (orc : Oracle k m K) :
    Exec (St k m K) (Option (Req k m K)) := do
  Exec.modify fun s => { s with left := s.left - 1, step := s.step + 1 }
  match r.usePrevious, r.method, r.info with
  | none, _, _ => Exec.raise .keyError
  | some true, _, _ =>
    let s ← Exec.get
    let x ← readX (s.step - 1)
    setX s.step x
    let f ← readF (s.step - 1)
    setF s.step f
    movePoint c orc
  | some false, some meth, some info =>
    solveNew c orc meth info r.isArray
    movePoint c orc
  | _, _, _ => Exec.raise .keyError

/-- Nautilus.py:663-693: step back and take a short step. -/
def shortStep (c : Cfg k m K) (orc : Oracle k m K) : Exec (St k m K) (Option (Req k m K)) := do
  let s ← Exec.get
  let z0 ← getZ s.step
  let zPrev ← getZ (s.step - 1)
  let z : Vec k K := fun j => 1 / 2 * z0 j + 1 / 2 * zPrev j
  setZ s.step z
  let f ← getF s.step
  pure (some (.nav z (bounds c orc z) z (distance c z f)))

/-- Nautilus.py:659-754: step back; `None` is returned when the previous preference is to be used. -/
def goBack (c : Cfg k m K) (r : Resp K) (orc : Oracle k m K) :
    Exec (St k m K) (Option (Req k m K)) := do
  match r.shortStep with
  | none => Exec.raise .keyError
  | some true => shortStep c orc
  | some false =>
    match r.usePrevious, r.method, r.info with
    | none, _, _ => Exec.raise .keyError
    | some true, _, _ => pure none
    | some false, some meth, some info =>
      solveNew c orc meth info r.isArray
      movePoint c orc
    | _, _, _ => Exec.raise .keyError

/-- Nautilus.py:544-754. -/
def handleNav (c : Cfg k m K) (r : Resp K) (orc : Oracle k m K) :
    Exec (St k m K) (Option (Req k m K)) := do
  Exec.modify fun s => changeN s r.nIterations
  let s ← Exec.get
  if s.left ≤ 1 then
    Exec.modify fun s => { s with left := 0 }
    let x ← readX s.step
    let f ← readF s.step
    pure (some (.stop x f))
  else
    match r.stepBack with
    | none => Exec.raise .keyError
    | some false => forward c r orc
    | some true => goBack c r orc

/-- Nautilus.py:432-453. -/
def iterate (c : Cfg k m K) (req : Req k m K) (r : Resp K) (orc : Oracle k m K) :
    Exec (St k m K) (Option (Req k m K)) :=
  match req with
  | .initial => handleInitial c r orc
  | .nav .. => handleNav c r orc
  | .stop x f => pure (some (.stop x f))

/-- Setting the response of a request, then calling `iterate`: the new state and the result, which may be
an exception, a request or `None`. -/
def answer (c : Cfg k m K) (s : St k m K) (req : Req k m K) (r : Resp K) (orc : Oracle k m K) :
    St k m K × Except Err (Option (Req k m K)) :=
  match validate c req r with
  | .error e => (s, .error e)
  | .ok _ => iterate c req r orc s

/-- Nautilus.py:336-419, the dimension checks and the utopian point. `objective_names` and `minimize` by
their lengths; `len(None)` raises `TypeError`. -/
def construct (idealLen nadirLen : Nat) (names minimize : Option Nat) : Except Err Unit :=
  if idealLen ≠ nadirLen then .error .refused
  else
    let nm := names.filter (· ≠ 0)
    let mn := minimize.filter (· ≠ 0)
    if nm.isSome ∧ nm ≠ some idealLen then .error .refused
    else if mn.isSome then
      match names with
      | none => .error .typeError
      | some l => if l ≠ idealLen then .error .refused else .ok ()
    else .ok ()

/-- Nautilus.py:378. -/
def utopianOf (eps : K) (ideal : Vec k K) : Vec k K := fun j => ideal j - eps

end Verif.Nautilus
