import Verif.Exec

/-!
# Model of `desdeo_mcdm/interactive/NautilusV2.py` (NAUTILUS 2)

Modelled: both validators, `start`, `iterate`, both handlers line by line including the preallocated
storage (the bounds are stored one place further than the points), the preferential factors including the
search for the direction of improvement, the iteration point, the bounds and the distance, and the checks
of the constructor (`construct`). The two kinds of scalar minimizations (achievement function, epsilon
constraint problems) are parameters (`Oracle`), arbitrary in every call; the code does not look at
`res["success"]`. The flags `_step_back`, `_short_step`, `_use_previous_preference`, `_first_iteration`
and the attributes `_q`, `_preference_*` are never read and not modelled. `_upper_bounds` always has the
length of `_lower_bounds` and is written at the same index; `_ds` has the length of `_zs` and is written
at an index written in `_zs` just before. `np.concatenate` of ragged lists needs numpy < 1.24
(poetry.lock pins 1.23.5).
-/

namespace Verif.NautilusV2

variable {K : Type} [Field K] [LinearOrder K] {k m : Nat}

/-- Fixed data: NautilusV2.py:427-438. `evaluate` is `problem.evaluate(x).objectives` for one vector. -/
structure Cfg (k m : Nat) (K : Type) where
  start : Vec k K
  ideal : Vec k K
  nadir : Vec k K
  evaluate : Vec m K → Vec k K
  nrm : Vec k K → K

/-- What the minimizers return in one call of `iterate`: `asf` for the achievement problem with the given
weights and reference point (NautilusV2.py:950-964), `eps` for the `i`-th epsilon constraint problem with
bounds `z` (NautilusV2.py:1018-1032). -/
structure Oracle (k m : Nat) (K : Type) where
  asf : (weights : Vec k K) → (ref : Vec k K) → Vec m K
  eps : Fin k → (z : Vec k K) → Vec m K

/-- The mutable attributes `_step_number`, `_n_iterations`, `_n_iterations_left`, `_zs`, `_xs`, `_fs`,
`_lower_bounds` (NautilusV2.py:440-463). The counts are `None` before the first answer; nothing reads them
then. -/
structure St (k m : Nat) (K : Type) where
  step : Nat
  n : Int
  left : Int
  zs : List (Option (Vec k K))
  xs : List (Option (Vec m K))
  fs : List (Option (Vec k K))
  bs : List (Option (Vec k K))
  deriving BEq, ReflBEq, LawfulBEq

/-- NautilusV2.py:440-463, the attributes after construction. -/
def St.init : St k m K := ⟨1, 0, 0, [], [], [], []⟩

/-- The requests and their contents. -/
inductive Req (k m : Nat) (K : Type)
  | initial
  | nav (z lower upper : Vec k K) (dist : Fl K)
  | stop (x : Option (Vec m K)) (f : Option (Vec k K))
  deriving BEq, ReflBEq, LawfulBEq

/-- An element `((i, j), T)` of the preference information of method 3. -/
structure Pair (K : Type) where
  fst : PyVal
  snd : PyVal
  ratio : K

/-- `preference_info`: a numpy array of numbers, a Python list of numbers, or a list (or object array) of
pairs with ratios. The ratios are numbers; the refusal of ratios that are not `int` or `float`
(NautilusV2.py:135-139) is not modelled. -/
inductive Pref (K : Type)
  | arr (l : List K)
  | list (l : List K)
  | pairs (l : List (Pair K))

/-- A response; `none` is a missing key. -/
structure Resp (K : Type) where
  nIterations : Option PyVal := none
  stepBack : Option Bool := none
  shortStep : Option Bool := none
  usePrevious : Option Bool := none
  method : Option Int := none
  info : Option (Pref K) := none

/-! ### Validators -/

/-- NautilusV2.py:117-133: an index of an objective, numbered from 1. -/
def validIndex (k : Nat) (v : PyVal) : Bool := v.isInstanceInt && decide (1 ≤ v.asInt) && decide (v.asInt ≤ k)

/-- NautilusV2.py:115-145: one pair. -/
def validPair (k : Nat) (p : Pair K) : Bool :=
  validIndex k p.fst && validIndex k p.snd && decide (0 < p.ratio)

/-- NautilusV2.py:133: `obj_mask`. -/
def included (l : List (Pair K)) (i : Nat) : Bool :=
  l.any fun p => decide (p.fst.asInt = i + 1) || decide (p.snd.asInt = i + 1)

/-- NautilusV2.py:101-151: every failing check raises the exception of the module. -/
def validatePairs (k : Nat) (l : List (Pair K)) : Except Err Unit :=
  if l.length + 1 ≠ k then .error .refused
  else if l.all (validPair k) then
    if (List.range k).all (included l) then .ok () else .error .refused
  else .error .refused

/-- NautilusV2.py:66-151. `preference_info <= 0` raises `TypeError` unless it is an array of numbers;
`elem[0]` raises for numbers. -/
def validatePreferences (k : Nat) (r : Resp K) : Except Err Unit :=
  match r.method, r.info with
  | some meth, some info =>
    if ¬ (meth = 1 ∨ meth = 2 ∨ meth = 3) then .error .refused
    else if meth = 3 then
      match info with
      | .pairs l => validatePairs k l
      | .arr l => if l.length + 1 ≠ k ∨ l = [] then .error .refused else .error .indexError
      | .list l => if l.length + 1 ≠ k ∨ l = [] then .error .refused else .error .typeError
    else
      match info with
      | .arr l =>
        if l.any fun x => decide (x ≤ 0) then .error .refused
        else if l.length < k then .error .refused
        else if meth = 2 ∧ ¬ (1 : K) ∈ l then .error .refused
        else .ok ()
      | _ => .error .typeError
  | _, _ => .error .refused

/-- NautilusV2.py:156-173, called if the entry is present (49-50). -/
def validateN (n : Option PyVal) : Except Err Unit :=
  match n with
  | none => .ok ()
  | some v => if v.isInstanceInt ∧ 1 ≤ v.asInt then .ok () else .error .refused

/-- NautilusV2.py:34-41, 49-50: the response to the initial request. -/
def validateInitial (k : Nat) (r : Resp K) : Except Err Unit :=
  if r.nIterations.isNone then .error .refused
  else if r.stepBack.isSome then .error .refused
  else if r.usePrevious.isSome then .error .refused
  else match validatePreferences k r with
    | .error e => .error e
    | .ok _ => validateN r.nIterations

/-- NautilusV2.py:42-50: the response to a later request showing the point `z`. -/
def validateNav (c : Cfg k m K) (z : Vec k K) (r : Resp K) : Except Err Unit :=
  match r.stepBack with
  | none => .error .keyError
  | some back =>
    if back ∧ (∀ j, z j = c.nadir j) then .error .refused
    else match r.usePrevious with
      | none => .error .keyError
      | some prev =>
        match (if prev then .ok () else validatePreferences k r) with
        | .error e => .error e
        | .ok _ => validateN r.nIterations

/-- The validator called when the response of a request is set. A stop request needs no response. -/
def validate (c : Cfg k m K) (req : Req k m K) (r : Resp K) : Except Err Unit :=
  match req with
  | .initial => validateInitial k r
  | .nav z _ _ _ => validateNav c z r
  | .stop .. => .ok ()

/-! ### The direction of improvement -/

/-- `deltas[a - 1]` for an objective number `a` (in range by the validator). -/
def rd (d : Vec k K) (a : Int) : K := if h : 1 ≤ a ∧ a ≤ k then d ⟨(a - 1).toNat, by omega⟩ else 0

/-- `deltas[a - 1] = v`. -/
def wr (d : Vec k K) (a : Int) (v : K) : Vec k K := fun i => if (i : Int) + 1 = a then v else d i

/-- NautilusV2.py:878-881. -/
def deltas0 : Vec k K := fun i => if i.val = 0 then 1 else 0

/-- NautilusV2.py:884-896, one turn of the loop. -/
def firstTurn (d : Vec k K) (p : Pair K) : Vec k K :=
  if p.fst.asInt = 1 then wr d p.snd.asInt p.ratio
  else if p.snd.asInt = 1 then wr d p.fst.asInt (1 / p.ratio)
  else d

/-- NautilusV2.py:884-896. -/
def deltas1 (l : List (Pair K)) : Vec k K := l.foldl firstTurn deltas0

/-- NautilusV2.py:900: the objectives whose deltas are missing after the first search. -/
def missing (d : Vec k K) : List Int :=
  ((List.finRange k).filter fun i => decide (d i = 0)).map fun i : Fin k => (i : Int) + 1

/-- NautilusV2.py:906-915, one turn of the inner loop for the objective `a`. -/
def innerTurn (a : Int) (d : Vec k K) (p : Pair K) : Vec k K :=
  if p.fst.asInt = a then
    if rd d p.snd.asInt ≠ 0 then wr d p.fst.asInt (rd d p.snd.asInt * (1 / p.ratio)) else d
  else if p.snd.asInt = a then
    if rd d p.fst.asInt ≠ 0 then wr d p.snd.asInt (rd d p.fst.asInt * p.ratio) else d
  else d

/-- NautilusV2.py:905-915, one turn of the `while` loop; `miss` is not updated by the code. -/
def pass (miss : List Int) (l : List (Pair K)) (d : Vec k K) : Vec k K :=
  miss.foldl (fun d a => l.foldl (innerTurn a) d) d

/-- NautilusV2.py:902: `0 in deltas`. -/
def hasZero (d : Vec k K) : Bool := (List.finRange k).any fun i => decide (d i = 0)

/-- NautilusV2.py:902-915 with at most `fuel` turns. -/
def doiLoop (miss : List Int) (l : List (Pair K)) : Nat → Vec k K → Except Err (Vec k K)
  | 0, d => if hasZero d then .error .diverges else .ok d
  | fuel + 1, d => if hasZero d then doiLoop miss l fuel (pass miss l d) else .ok d

/-- NautilusV2.py:863-917. The number of turns is limited to the number of objectives; `doi_returns` and
`doi_diverges` (Doi.lean) show that this limit is not a restriction: if zeros are left after so many turns
the loop never ends. -/
def doi (k : Nat) (l : List (Pair K)) : Except Err (Vec k K) :=
  doiLoop (missing (deltas1 l : Vec k K)) l k (deltas1 l)

/-! ### Computations -/

/-- NautilusV2.py:857-861, and the evaluation of the achievement function in `solve_asf`, where an array
that is longer than the number of objectives cannot be broadcast (`ValueError`; for a single objective
numpy would broadcast it, which is not modelled). The first two methods need an array by the validator. -/
def factors (k : Nat) (meth : Int) (info : Pref K) : Except Err (Vec k K) :=
  match info with
  | .arr l => if l.length = k then .ok fun i => (l[i.val]?).getD 0 else .error .valueError
  | .pairs l => if meth = 3 then doi k l else .error .typeError
  | .list _ => .error .typeError

/-- NautilusV2.py:955: the weights. -/
def weights (w : Vec k K) : Vec k K := fun i => 1 / w i

/-- NautilusV2.py:980. -/
def iterationPoint (itn : Int) (zPrev f : Vec k K) : Vec k K := fun j =>
  (((itn : K) - 1) / (itn : K)) * zPrev j + (1 / (itn : K)) * f j

/-- NautilusV2.py:1008-1037: component `i` of the solution found for the `i`-th problem. -/
def bounds (c : Cfg k m K) (orc : Oracle k m K) (z : Vec k K) : Vec k K := fun i =>
  c.evaluate (orc.eps i z) i

/-- NautilusV2.py:1055-1058. -/
def distance (c : Cfg k m K) (z f : Vec k K) : Fl K :=
  (fdiv (c.nrm fun j => z j - c.start j) (c.nrm fun j => f j - c.start j)).scalePos 100

/-! ### Reading and writing the storage -/

/-- `self._zs[i] = v`. -/
def setZ (i : Nat) (v : Vec k K) : Exec (St k m K) Unit := fun s =>
  match slotSet s.zs i (some v) with
  | .ok l => ({ s with zs := l }, .ok ())
  | .error e => (s, .error e)

/-- `self._xs[i] = v`. -/
def setX (i : Nat) (v : Option (Vec m K)) : Exec (St k m K) Unit := fun s =>
  match slotSet s.xs i v with
  | .ok l => ({ s with xs := l }, .ok ())
  | .error e => (s, .error e)

/-- `self._fs[i] = v`. -/
def setF (i : Nat) (v : Option (Vec k K)) : Exec (St k m K) Unit := fun s =>
  match slotSet s.fs i v with
  | .ok l => ({ s with fs := l }, .ok ())
  | .error e => (s, .error e)

/-- `self._zs[i]`, used in arithmetic. -/
def getZ (i : Nat) : Exec (St k m K) (Vec k K) := fun s => (s, slotGet s.zs i)

/-- `self._lower_bounds[i] = v` (and `self._upper_bounds[i]`). -/
def setB (i : Nat) (v : Vec k K) : Exec (St k m K) Unit := fun s =>
  match slotSet s.bs i (some v) with
  | .ok l => ({ s with bs := l }, .ok ())
  | .error e => (s, .error e)

/-- `self._fs[i]`, used in arithmetic. -/
def getF (i : Nat) : Exec (St k m K) (Vec k K) := fun s => (s, slotGet s.fs i)

/-- `self._xs[i]`, not inspected. -/
def readX (i : Nat) : Exec (St k m K) (Option (Vec m K)) := fun s => (s, slotRead s.xs i)

/-- `self._fs[i]`, not inspected. -/
def readF (i : Nat) : Exec (St k m K) (Option (Vec k K)) := fun s => (s, slotRead s.fs i)

/-! ### Handlers -/

/-- NautilusV2.py:549-570, 669-686, 768-785: solve the achievement problem with the previous iteration
point as reference point, store the solution and its objectives. -/
def solveWith (c : Cfg k m K) (orc : Oracle k m K) (w : Vec k K) : Exec (St k m K) Unit := do
  let s ← Exec.get
  let q ← getZ (s.step - 1)
  setX s.step (some (orc.asf (weights w) q))
  setF s.step (some (c.evaluate (orc.asf (weights w) q)))

/-- NautilusV2.py:572-602, 688-715, 787-813: the next iteration point, its bounds and distance. -/
def movePoint (c : Cfg k m K) (orc : Oracle k m K) : Exec (St k m K) (Option (Req k m K)) := do
  let s ← Exec.get
  let zPrev ← getZ (s.step - 1)
  let f ← getF s.step
  let z := iterationPoint s.left zPrev f
  setZ s.step z
  setB (s.step + 1) (bounds c orc z)
  pure (some (.nav z (bounds c orc z) z (distance c z f)))

/-- NautilusV2.py:515-602. -/
def handleInitial (c : Cfg k m K) (r : Resp K) (orc : Oracle k m K) :
    Exec (St k m K) (Option (Req k m K)) := do
  match r.nIterations, r.method, r.info with
  | some n, some meth, some info =>
    let cap := (n.asInt + 2).toNat
    Exec.modify fun s =>
      { s with n := n.asInt, left := n.asInt, zs := slots _ cap, xs := slots _ cap, fs := slots _ cap,
               bs := slots _ cap }
    let s ← Exec.get
    setZ (s.step - 1) c.start
    let w ← Exec.lift (factors k meth info)
    setB s.step c.ideal
    solveWith c orc w
    movePoint c orc
  | _, _, _ => Exec.raise .keyError

/-- NautilusV2.py:620-636. -/
def changeN (s : St k m K) (n : Option PyVal) : St k m K :=
  match n with
  | none => s
  | some v =>
    let extra := (v.asInt - s.n).toNat
    { s with
      zs := s.zs ++ slots _ extra, xs := s.xs ++ slots _ extra, fs := s.fs ++ slots _ extra,
      bs := s.bs ++ slots _ extra, left := v.asInt }

/-- NautilusV2.py:644-715: no step back. -/
def forward (c : Cfg k m K) (r : Resp K) (orc : Oracle k m K) :
    Exec (St k m K) (Option (Req k m K)) := do
  Exec.modify fun s => { s with left := s.left - 1, step := s.step + 1 }
  match r.usePrevious, r.method, r.info with
  | none, _, _ => Exec.raise .keyError
  | some true, _, _ =>
    let s ← Exec.get
    let x ← readX (s.step - 1)
    setX s.step x
    let f ← readF (s.step - 1)
    setF s.step f
    movePoint c orc
  | some false, some meth, some info =>
    let w ← Exec.lift (factors k meth info)
    solveWith c orc w
    movePoint c orc
  | _, _, _ => Exec.raise .keyError

/-- NautilusV2.py:722-752: step back and take a short step. -/
def shortStep (c : Cfg k m K) (orc : Oracle k m K) : Exec (St k m K) (Option (Req k m K)) := do
  let s ← Exec.get
  let z0 ← getZ s.step
  let zPrev ← getZ (s.step - 1)
  let z : Vec k K := fun j => 1 / 2 * z0 j + 1 / 2 * zPrev j
  setZ s.step z
  setB (s.step + 1) (bounds c orc z)
  let f ← getF s.step
  pure (some (.nav z (bounds c orc z) z (distance c z f)))

/-- NautilusV2.py:718-813: step back; `None` is returned when the previous preference is to be used. -/
def goBack (c : Cfg k m K) (r : Resp K) (orc : Oracle k m K) :
    Exec (St k m K) (Option (Req k m K)) := do
  match r.shortStep with
  | none => Exec.raise .keyError
  | some true => shortStep c orc
  | some false =>
    match r.usePrevious, r.method, r.info with
    | none, _, _ => Exec.raise .keyError
    | some true, _, _ => pure none
    | some false, some meth, some info =>
      let w ← Exec.lift (factors k meth info)
      solveWith c orc w
      movePoint c orc
    | _, _, _ => Exec.raise .keyError

/-- NautilusV2.py:604-813. -/
def handleNav (c : Cfg k m K) (r : Resp K) (orc : Oracle k m K) :
    Exec (St k m K) (Option (Req k m K)) := do
  Exec.modify fun s => changeN s r.nIterations
  let s ← Exec.get
  if s.left ≤ 1 then
    Exec.modify fun s => { s with left := 0 }
    let x ← readX s.step
    let f ← readF s.step
    pure (some (.stop x f))
  else
    match r.stepBack with
    | none => Exec.raise .keyError
    | some false => forward c r orc
    | some true => goBack c r orc

/-- NautilusV2.py:492-513. -/
def iterate (c : Cfg k m K) (req : Req k m K) (r : Resp K) (orc : Oracle k m K) :
    Exec (St k m K) (Option (Req k m K)) :=
  match req with
  | .initial => handleInitial c r orc
  | .nav .. => handleNav c r orc
  | .stop x f => pure (some (.stop x f))

/-- Setting the response of a request, then calling `iterate`: the new state and the result, which may be
an exception, a request or `None`. -/
def answer (c : Cfg k m K) (s : St k m K) (req : Req k m K) (r : Resp K) (orc : Oracle k m K) :
    St k m K × Except Err (Option (Req k m K)) :=
  match validate c req r with
  | .error e => (s, .error e)
  | .ok _ => iterate c req r orc s

/-- NautilusV2.py:399-424, the checks of the constructor for points of matching length `k` (the first two
checks compare the lengths). `objective_names` and `minimize` are given by their lengths; `len(None)`
raises `TypeError`. -/
def construct (idealLen nadirLen startLen : Nat) (start nadir : Nat → K) (names minimize : Option Nat) :
    Except Err Unit :=
  if idealLen ≠ nadirLen then .error .refused
  else if idealLen ≠ startLen then .error .refused
  else if (List.range idealLen).all fun i => decide (nadir i < start i) then .error .refused
  else
    let nm := names.filter (· ≠ 0)
    let mn := minimize.filter (· ≠ 0)
    if nm.isSome ∧ nm ≠ some idealLen then .error .refused
    else if mn.isSome then
      match names with
      | none => .error .typeError
      | some l => if l ≠ idealLen then .error .refused else .ok ()
    else .ok ()

end Verif.NautilusV2
