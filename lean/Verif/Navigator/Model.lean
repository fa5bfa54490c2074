import Verif.Base
import Mathlib.Data.Fintype.Defs

/-!
# Model of `desdeo_mcdm/interactive/NautilusNavigator.py`

Modelled: the request validator, `iterate`/`handle_request`, `update` and the static/helper methods.
The front has `n` rows and `k` columns (the constructor's checks, NautilusNavigator.py:232-261).
The achievement function is a parameter `asf`; `pointAsf` is the one the code uses.
`DiscreteMinimizer` is `nanargmin` over the rows. NaN entries are `none`.
-/

namespace Verif.Navigator

variable {K V : Type} [Field K] [LinearOrder K] {n k : Nat}

/-- NautilusNavigator.py:225-267. The data fixed at construction. The constructor refuses decision
variables with another number of rows than the front (238-246), hence `Fin n → V`. -/
structure Cfg (n k : Nat) (K V : Type) where
  front : Fin n → Vec k K
  ideal : Vec k K
  nadir : Vec k K
  vars : Option (Fin n → V)
  /-- `np.linalg.norm` of one vector. -/
  nrm : Vec k K → K
  /-- The achievement function `PointMethodASF(nadir, ideal)(f, reference_point)`. -/
  asf : (ref f : Vec k K) → K

/-- The largest component (`np.max`) of a vector with at least one component. -/
def vmax {k : Nat} (v : Vec (k + 1) K) : K :=
  ((List.finRange k).map fun j => v j.succ).foldl max (v 0)

/-- desdeo_tools `PointMethodASF.__call__` (used at NautilusNavigator.py:536):
`max((f-z)/(nadir-(ideal-rho))) + rho_sum * sum(f/(nadir-(ideal-rho)))`, `rho = rho_sum = 1e-6`. -/
def pointAsf {k : Nat} (ideal nadir ref f : Vec (k + 1) K) : K :=
  vmax (fun j => (f j - ref j) / (nadir j - (ideal j - 1 / 1000000))) +
    1 / 1000000 * ((List.finRange (k + 1)).map
      fun j => f j / (nadir j - (ideal j - 1 / 1000000))).sum

/-- NautilusNavigator.py:269-292. The mutable attributes. -/
structure St (n k : Nat) (K : Type) where
  lb : Vec k K
  ub : Vec k K
  userBounds : Vec k (Option K)
  reach : List (Fin n)
  step : Int
  rem : Int
  dist : Fl K
  speed : Option PyVal
  ref : Option (Vec k (Option K))
  nav : Vec k K
  proj : Option (Fin n)
  deriving BEq, ReflBEq, LawfulBEq

/-- NautilusNavigator.py:269-292. -/
def initSt (c : Cfg n k K V) : St n k K :=
  { lb := c.ideal, ub := c.nadir, userBounds := fun _ => none, reach := List.finRange n,
    step := 1, rem := 100, dist := .num 0, speed := none, ref := none, nav := c.nadir, proj := none }

/-- NautilusNavigator.py:76-90. The entries of a request's content (without the constant message,
ideal, nadir and allowed speeds). -/
structure Content (n k : Nat) (K : Type) where
  lb : Vec k K
  ub : Vec k K
  userBounds : Vec k (Option K)
  reach : List (Fin n)
  step : Int
  rem : Int
  dist : Fl K
  speed : Option PyVal
  nav : Vec k K
  deriving BEq, ReflBEq, LawfulBEq

/-- NautilusNavigator.py:94-109, `init_with_method`. -/
def St.content (s : St n k K) : Content n k K :=
  { lb := s.lb, ub := s.ub, userBounds := s.userBounds, reach := s.reach, step := s.step,
    rem := s.rem, dist := s.dist, speed := s.speed, nav := s.nav }

/-- NautilusNavigator.py:294-300, `start`. -/
def start (s : St n k K) : Content n k K := s.content

/-- A response; `none` is a missing key. Entries of the reference point and of the user bounds are
numbers or NaN/None (`none`); the other values may have any type. -/
structure Resp (K : Type) where
  ref : Option (List (Option K))
  speed : Option PyVal
  goToPrevious : Option PyVal
  userBounds : Option (List (Option K))
  stop : Option PyVal

/-- What `iterate` returns. -/
inductive Out (n k : Nat) (K V : Type)
  | nav (c : Content n k K)
  | stop (idx : List (Fin n)) (objectives : List (Vec k K)) (decisions : Option (List V))
  deriving BEq, ReflBEq, LawfulBEq

/-- numpy broadcasting of the reference point against a vector of length `k`: the same length, or a
single number. Anything else raises `ValueError`. -/
def broadcast (k : Nat) (l : List (Option K)) : Except Err (Vec k (Option K)) :=
  if h : l.length = k then .ok (fun j => l[j.val]'(by rw [h]; exact j.2))
  else match l with
    | [a] => .ok (fun _ => a)
    | _ => .error .valueError

/-- `x < y` for a number or NaN `x`. -/
def nanLt (x : Option K) (y : K) : Bool :=
  match x with
  | none => false
  | some a => decide (a < y)

/-- `x > y` for a number or NaN `x`. -/
def nanGt (x : Option K) (y : K) : Bool :=
  match x with
  | none => false
  | some a => decide (y < a)

/-- Python's `int(v)`: truncation of floats, parsing of strings (decimal digits with an optional
sign; surrounding spaces and underscores are not modelled), error otherwise. -/
def pyInt : PyVal → Option Int
  | .int z => some z
  | .bool b => some (if b then 1 else 0)
  | .float q => some (if 0 ≤ q then q.floor else -(-q).floor)
  | .str s => s.toInt?
  | .none => none

/-- `type(v) == bool`. -/
def PyVal.typeIsBool : PyVal → Bool
  | .bool _ => true
  | _ => false

/-- NautilusNavigator.py:127-140. -/
def validateRef (c : Cfg n k K V) (l : List (Option K)) : Except Err Unit :=
  match broadcast k l with
  | .error _ => .error .refused
  | .ok q =>
    if (List.finRange k).any (fun j => nanLt (q j) (c.ideal j)) ||
        (List.finRange k).any (fun j => nanGt (q j) (c.nadir j)) then .error .refused
    else .ok ()

/-- NautilusNavigator.py:142-150, with `allowed_speeds = [1, 2, 3, 4, 5]` (line 287). -/
def validateSpeed (v : PyVal) : Except Err Unit :=
  match pyInt v with
  | none => .error .refused
  | some z => if z ∈ [1, 2, 3, 4, 5] then .ok () else .error .refused

/-- NautilusNavigator.py:111-188. `raise (f"...")` (153, 185) raises a `TypeError`, since a string is
not an exception. -/
def validate (c : Cfg n k K V) (r : Resp K) : Except Err Unit :=
  match r.ref, r.speed, r.goToPrevious, r.userBounds, r.stop with
  | some q, some v, some g, some u, some st =>
    match validateRef c q with
    | .error e => .error e
    | .ok _ =>
      match validateSpeed v with
      | .error e => .error e
      | .ok _ =>
        if !PyVal.typeIsBool g then .error .typeError
        else if u.length ≠ k then .error .refused
        else if !PyVal.typeIsBool st then .error .typeError
        else .ok ()
  | _, _, _, _, _ => .error .refused

/-- NautilusNavigator.py:324: the user bounds as an array (of length `k`, by the validator). -/
def toBounds (k : Nat) (u : List (Option K)) : Vec k (Option K) := fun j => (u[j.val]?).getD none

/-- NautilusNavigator.py:549 and 605: the row exceeds a given user bound (comparison with NaN is
false). -/
def exceeds (u : Vec k (Option K)) (f : Vec k K) : Bool :=
  (List.finRange k).any fun j => match u j with
    | none => false
    | some b => decide (b < f j)

/-- The achievement value of a row; NaN if the reference point has a NaN entry. -/
def asfValue (c : Cfg n k K V) (q : Vec k (Option K)) (f : Vec k K) : Option K :=
  if (List.finRange k).all (fun j => (q j).isSome) then
    some (c.asf (fun j => (q j).getD 0) f)
  else none

/-- NautilusNavigator.py:511-554: `nanargmin` of the achievement values; rows that are not reachable
or exceed the bounds are NaN. -/
def solve (c : Cfg n k K V) (reach : List (Fin n)) (q u : Vec k (Option K)) : Except Err (Fin n) :=
  match npNanArgmin ((List.finRange n).map fun i =>
      if decide (i ∈ reach) && !exceeds u (c.front i) then asfValue c q (c.front i) else none) with
  | .error e => .error e
  | .ok idx => if h : idx < n then .ok ⟨idx, h⟩ else .error .indexError

/-- `np.allclose(a, b)`: `|a-b| ≤ 1e-8 + 1e-5 |b|` everywhere, false if a NaN is present. -/
def allclose (a b : Vec k (Option K)) : Bool :=
  (List.finRange k).all fun j => match a j, b j with
    | some x, some y => decide (|x - y| ≤ 1 / 100000000 + 1 / 100000 * |y|)
    | _, _ => false

/-- NautilusNavigator.py:556-574 (`steps_remaining` is a nonzero Python int, see `forward`). -/
def navPoint (p nav : Vec k K) (rem : Int) : Vec k K :=
  fun j => (((rem : K) - 1) / (rem : K)) * nav j + (1 / (rem : K)) * p j

/-- NautilusNavigator.py:602-619: the values of objective `r` on the rows that respect the user bounds
and are selected by `con_mask`. (NaN rows are not selected. Only with a single objective numpy would
select them; they do not change `nanmin` unless all rows are NaN.) -/
def candidates (front : Fin n → Vec k K) (reach : List (Fin n)) (nav : Vec k K)
    (u : Vec k (Option K)) (r : Fin k) : List K :=
  (reach.filter fun i => !exceeds u (front i) && decide (∀ j, j ≠ r → front i j ≤ nav j)).map
    fun i => front i r

/-- `np.nanmin` of the candidates, or the previous bound if there are none
(NautilusNavigator.py:619-624). -/
def minOr (l : List K) (prev : K) : K :=
  match npMin l with
  | .ok m => m
  | .error _ => prev

/-- `np.nanmax` of the candidates, or the previous bound if there are none
(NautilusNavigator.py:619-624). -/
def maxOr (l : List K) (prev : K) : K :=
  match npMax l with
  | .ok m => m
  | .error _ => prev

/-- NautilusNavigator.py:577-629, lower bounds. -/
def lowerBounds (front : Fin n → Vec k K) (reach : List (Fin n)) (nav : Vec k K)
    (u : Vec k (Option K)) (prev : Vec k K) : Vec k K :=
  fun r => minOr (candidates front reach nav u r) (prev r)

/-- NautilusNavigator.py:577-629, upper bounds. -/
def upperBounds (front : Fin n → Vec k K) (reach : List (Fin n)) (nav : Vec k K)
    (u : Vec k (Option K)) (prev : Vec k K) : Vec k K :=
  fun r => maxOr (candidates front reach nav u r) (prev r)

/-- NautilusNavigator.py:491-508 (`argwhere` lists indices in increasing order). -/
def reachable (front : Fin n → Vec k K) (lb ub : Vec k K) : List (Fin n) :=
  (List.finRange n).filter fun i => decide (∀ j, lb j ≤ front i j) && decide (∀ j, front i j ≤ ub j)

/-- NautilusNavigator.py:631-650. -/
def distance (nrm : Vec k K → K) (nav p nadir : Vec k K) : Fl K :=
  (fdiv (nrm fun j => nav j - nadir j) (nrm fun j => p j - nadir j)).scalePos 100

/-- NautilusNavigator.py:447-487: move one step towards the projection `p` and update the state. -/
def move (c : Cfg n k K V) (s : St n k K) (p : Fin n) (u : Vec k (Option K)) : St n k K :=
  let nav := navPoint (c.front p) s.nav s.rem
  let lb := lowerBounds c.front s.reach nav u s.lb
  let ub := upperBounds c.front s.reach nav u s.ub
  { s with
    nav := nav, userBounds := u, lb := lb, ub := ub,
    dist := distance c.nrm nav (c.front p) c.nadir,
    reach := reachable c.front lb ub,
    step := if s.rem = 1 then s.step else s.step + 1,
    rem := if s.rem = 1 then s.rem else s.rem - 1 }

/-- NautilusNavigator.py:447-489: the second half of `update`. A projection index `None` (which
numpy would accept as a new axis) is modelled as a `TypeError`; `Props` shows it does not occur. -/
def advance (c : Cfg n k K V) (s : St n k K) (u : Vec k (Option K)) :
    St n k K × Except Err (Out n k K V) :=
  match s.proj with
  | none => (s, .error .typeError)
  | some p =>
    if s.rem = 0 then (s, .error .zeroDivisionError)
    else (move c s p u, .ok (.nav (move c s p u).content))

/-- NautilusNavigator.py:429-431: must the reference point be projected again? `allclose` with `None`
raises a `TypeError`. -/
def needsProjection (s : St n k K) (q : Vec k (Option K)) : Except Err Bool :=
  if s.step = 1 then .ok true
  else match s.ref with
    | none => .error .typeError
    | some q0 => .ok (!allclose q q0)

/-- NautilusNavigator.py:429-489: a forward step. -/
def forward (c : Cfg n k K V) (s : St n k K) (q : Vec k (Option K)) (v : PyVal)
    (u : Vec k (Option K)) : St n k K × Except Err (Out n k K V) :=
  match needsProjection s q with
  | .error e => (s, .error e)
  | .ok false => advance c s u
  | .ok true =>
    let s1 : St n k K := { s with speed := if s.step = 1 then some v else s.speed }
    match solve c s.reach q s.userBounds with
    | .error e => (s1, .error e)
    | .ok p => advance c { s1 with ref := some q, proj := some p } u

/-- NautilusNavigator.py:416-425 with the arguments of 333-354. -/
def goBack (s : St n k K) (ct : Content n k K) (u : Vec k (Option K)) : St n k K :=
  { s with step := ct.step, nav := ct.nav, lb := ct.lb, ub := ct.ub, userBounds := u,
           reach := ct.reach, dist := ct.dist, rem := ct.rem }

/-- NautilusNavigator.py:17-40, the stop request. -/
def stopRequest (c : Cfg n k K V) (idx : List (Fin n)) : Out n k K V :=
  .stop idx (idx.map c.front) (c.vars.map fun d => idx.map d)

/-- NautilusNavigator.py:309-359. -/
def handle (c : Cfg n k K V) (s : St n k K) (ct : Content n k K) (r : Resp K) :
    St n k K × Except Err (Out n k K V) :=
  match r.ref, r.speed, r.goToPrevious, r.userBounds, r.stop with
  | some ql, some v, some g, some ul, some st =>
    if st = .bool true then (s, .ok (stopRequest c ct.reach))
    else if g = .bool true then
      (goBack s ct (toBounds k ul), .ok (.nav (goBack s ct (toBounds k ul)).content))
    else match broadcast k ql with
      | .error e => (s, .error e)
      | .ok q => forward c s q v (toBounds k ul)
  | _, _, _, _, _ => (s, .error .keyError)

/-- Setting the response of a request (NautilusNavigator.py:190-193) and calling `iterate`
(302-307). `ct` is the content of the answered request, which need not be the last one. -/
def answer (c : Cfg n k K V) (s : St n k K) (ct : Content n k K) (r : Resp K) :
    St n k K × Except Err (Out n k K V) :=
  match validate c r with
  | .error e => (s, .error e)
  | .ok _ => handle c s ct r

/-- A forward response. -/
def forwardResp (q : List (Option K)) (v : PyVal) (u : List (Option K)) : Resp K :=
  { ref := some q, speed := some v, goToPrevious := some (.bool false), userBounds := some u,
    stop := some (.bool false) }

/-- A response that returns to the answered request. -/
def backResp (q : List (Option K)) (v : PyVal) (u : List (Option K)) : Resp K :=
  { ref := some q, speed := some v, goToPrevious := some (.bool true), userBounds := some u,
    stop := some (.bool false) }

/-- A response that stops. -/
def stopResp (q : List (Option K)) (v : PyVal) (g : Bool) (u : List (Option K)) : Resp K :=
  { ref := some q, speed := some v, goToPrevious := some (.bool g), userBounds := some u,
    stop := some (.bool true) }

/-- A run: each request returned is answered by the next response; the first exception or stop
ends it. -/
def run (c : Cfg n k K V) (s : St n k K) (ct : Content n k K) :
    List (Resp K) → Except Err (St n k K × Content n k K)
  | [] => .ok (s, ct)
  | r :: rest =>
    match answer c s ct r with
    | (_, .error e) => .error e
    | (s', .ok (.nav ct')) => run c s' ct' rest
    | (_, .ok (.stop ..)) => .error .typeError

end Verif.Navigator
