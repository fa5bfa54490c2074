import Verif.Base
import Mathlib.Data.Fintype.Defs

/-!
# Model of `desdeo_mcdm/interactive/ENautilus.py`

Modelled: both request validators, `iterate`, `handle_initial_request`, `handle_request` and the
five `calculate_*` methods. The front has `n` rows and `k` columns (the constructor's dimension
checks, ENautilus.py:199-215, are what makes `Fin n → Vec k K` adequate).
k-means (`sklearn`) is a parameter of every call: the `closest` array computed at line 386.
Numbers are exact elements of a linearly ordered field; distances may be NaN or infinite.
-/

namespace Verif.ENautilus

variable {K V : Type} [Field K] [LinearOrder K] {n k : Nat}

/-- ENautilus.py:169-246. The data fixed at construction. `vars` (`variables` in Python) need not have as many rows
as the front: the constructor does not check it. -/
structure Cfg (n k : Nat) (K V : Type) where
  front : Fin n → Vec k K
  ideal : Vec k K
  nadir : Vec k K
  vars : Option (List V)
  /-- `np.linalg.norm` of one vector. -/
  nrm : Vec k K → K

/-- ENautilus.py:235-246. The mutable attributes. -/
structure St (n k : Nat) (K : Type) where
  preferred : Option (Vec k K)
  lb : Vec k K
  ub : Vec k K
  reach : List (Fin n)
  nPoints : Option Int
  left : Option Int
  deriving BEq, ReflBEq, LawfulBEq

/-- ENautilus.py:235-246. -/
def initSt (c : Cfg n k K V) : St n k K :=
  { preferred := none, lb := c.ideal, ub := c.nadir, reach := List.finRange n,
    nPoints := none, left := none }

/-- ENautilus.py:96-105. The content of an `ENautilusRequest` that varies. -/
structure Content (k : Nat) (K : Type) where
  points : List (Vec k K)
  lowers : List (Vec k K)
  uppers : List (Vec k K)
  left : Int
  distances : List (Fl K)
  deriving BEq, ReflBEq, LawfulBEq

/-- A response to `ENautilusInitialRequest`; `none` is a missing key. -/
structure InitResp where
  nIterations : Option PyVal
  nPoints : Option PyVal

/-- A response to `ENautilusRequest`; `none` is a missing key. Values are taken to have the
documented types (integers, booleans, arrays with `k` columns). -/
structure Resp (k : Nat) (K : Type) where
  preferredIndex : Option Int
  stepBack : Option Bool
  changeRemaining : Option Bool
  iterationsLeft : Option Int
  prevSolutions : Option (List (Vec k K))
  prevLower : Option (List (Vec k K))
  prevUpper : Option (List (Vec k K))
  prevDistances : Option (List (Fl K))

/-- What `iterate` returns. -/
inductive Out (k : Nat) (K V : Type)
  | points (c : Content k K)
  | stop (objective : Vec k K) (solution : Option V)
  deriving BEq, ReflBEq, LawfulBEq

/-- The `closest` array of `pairwise_distances_argmin_min` (ENautilus.py:386), as a function of the
reachable points and `n_points`. k-means is random, so every call of `iterate` gets its own. -/
abbrev KMeans (k : Nat) (K : Type) := List (Vec k K) → Int → List Nat

/-- ENautilus.py:36-55. `int(v) < 1` is reached only for `int`/`bool` values. -/
def validateInitial (r : InitResp) : Except Err Unit :=
  match r.nIterations, r.nPoints with
  | none, _ => .error .refused
  | _, none => .error .refused
  | some nIt, some nP =>
    if !nIt.isInstanceInt || nIt.asInt < 1 then .error .refused
    else if !nP.isInstanceInt || nP.asInt < 1 then .error .refused
    else .ok ()

/-- ENautilus.py:82, `len(np.squeeze(points))`: for a single point the row is squeezed to a 1D array
of length `k`, and for a single point with a single objective to a scalar without `len`. -/
def maxIndex (points : List (Vec k K)) : Except Err Nat :=
  if points.length = 1 then (if k = 1 then .error .typeError else .ok k)
  else .ok points.length

/-- ENautilus.py:109-146. -/
def validate (c : Content k K) (r : Resp k K) : Except Err Unit :=
  match r.preferredIndex, r.stepBack, r.changeRemaining with
  | some i, some sb, some ch =>
    if !sb then
      match maxIndex c.points with
      | .error e => .error e
      | .ok mx =>
        if i < 0 ∨ i > mx then .error .refused
        else if ch then
          (if r.iterationsLeft.isNone then .error .refused else .ok ())
        else .ok ()
    else if r.prevSolutions.isNone then .error .refused
    else if r.prevLower.isNone then .error .refused
    else if r.prevUpper.isNone then .error .refused
    else if r.iterationsLeft.isNone then .error .refused
    else if r.prevDistances.isNone then .error .refused
    else .ok ()
  | _, _, _ => .error .refused

/-- ENautilus.py:365-395. -/
def representative (front : Fin n → Vec k K) (subset : List (Fin n)) (nPts : Int)
    (km : KMeans k K) : Except Err (List (Vec k K)) :=
  let pts := subset.map front
  if (subset.length : Int) > nPts then mapE (fun (c : Nat) => pyGet pts c) (km pts nPts)
  else .ok pts

/-- ENautilus.py:410-412, for one representative point (`n ≠ 0`). -/
def intermediatePoint (pref zbar : Vec k K) (left : Int) : Vec k K :=
  fun j => (((left : K) - 1) / (left : K)) * pref j + (1 / (left : K)) * zbar j

/-- ENautilus.py:397-413. `n_iterations_left` is a Python int, so `0` raises. -/
def intermediate (pref : Vec k K) (zbars : List (Vec k K)) (left : Int) :
    Except Err (List (Vec k K)) :=
  if left = 0 then .error .zeroDivisionError
  else .ok (zbars.map fun zb => intermediatePoint pref zb left)

/-- ENautilus.py:439-446: the values of objective `r` on the rows selected by `con_mask`. -/
def candidates (front : Fin n → Vec k K) (z : Vec k K) (r : Fin k) : List K :=
  ((List.finRange n).filter fun i => decide (∀ j, j ≠ r → front i j ≤ z j)).map fun i => front i r

/-- ENautilus.py:445-446, for one objective. -/
def rangeAt (front : Fin n → Vec k K) (z : Vec k K) (r : Fin k) : Except Err (K × K) :=
  match npMin (candidates front z r) with
  | .error e => .error e
  | .ok lo =>
    match npMax (candidates front z r) with
    | .error e => .error e
    | .ok hi => .ok (lo, hi)

/-- ENautilus.py:435-449, for one intermediate point. -/
def boundsAt (front : Fin n → Vec k K) (z : Vec k K) : Except Err (Vec k K × Vec k K) :=
  match vecM (rangeAt front z) with
  | .error e => .error e
  | .ok b => .ok (fun r => (b r).1, fun r => (b r).2)

/-- ENautilus.py:415-451. -/
def bounds (front : Fin n → Vec k K) (zs : List (Vec k K)) :
    Except Err (List (Vec k K) × List (Vec k K)) :=
  match mapE (boundsAt front) zs with
  | .error e => .error e
  | .ok bs => .ok (bs.map Prod.fst, bs.map Prod.snd)

/-- ENautilus.py:453-471. -/
def distances (nrm : Vec k K → K) (zs zbars : List (Vec k K)) (nadir : Vec k K) : List (Fl K) :=
  List.zipWith (fun z zb =>
    (fdiv (nrm fun j => z j - nadir j) (nrm fun j => zb j - nadir j)).scalePos 100) zs zbars

/-- ENautilus.py:473-490 (`argwhere` lists indices in increasing order). -/
def reachable (front : Fin n → Vec k K) (lb ub : Vec k K) : List (Fin n) :=
  (List.finRange n).filter fun i => decide (∀ j, lb j ≤ front i j) && decide (∀ j, front i j ≤ ub j)

/-- ENautilus.py:336-345 and 276-285: compute the next points to show. -/
def compute (c : Cfg n k K V) (reach : List (Fin n)) (pref : Vec k K) (nPts left : Int)
    (km : KMeans k K) : Except Err (Content k K) :=
  match representative c.front reach nPts km with
  | .error e => .error e
  | .ok zbars =>
    match intermediate pref zbars left with
    | .error e => .error e
    | .ok zs =>
      match bounds c.front zs with
      | .error e => .error e
      | .ok (lo, hi) =>
        .ok { points := zs, lowers := lo, uppers := hi, left := left,
              distances := distances c.nrm zs zbars c.nadir }

/-- ENautilus.py:82: the constructor of the request fails when `len` is not defined. -/
def mkRequest (c : Content k K) : Except Err (Out k K V) :=
  match maxIndex c.points with
  | .error e => .error e
  | .ok _ => .ok (.points c)

/-- ENautilus.py:265-295 with the validated response. -/
def handleInitial (c : Cfg n k K V) (s : St n k K) (r : InitResp) (km : KMeans k K) :
    St n k K × Except Err (Out k K V) :=
  match r.nIterations, r.nPoints with
  | some nIt, some nP =>
    let s' : St n k K :=
      { s with left := some nIt.asInt, nPoints := some nP.asInt, preferred := some c.nadir }
    match compute c s'.reach c.nadir nP.asInt nIt.asInt km with
    | .error e => (s', .error e)
    | .ok content => (s', mkRequest content)
  | _, _ => (s, .error .keyError)

/-- ENautilus.py:313-319: the decision vector of the front row nearest to the preferred point. -/
def findSolution (c : Cfg n k K V) (pref : Vec k K) : Except Err (Option V) :=
  match c.vars with
  | none => .ok none
  | some vars =>
    match npArgmin ((List.finRange n).map fun i => c.nrm fun j => |c.front i j - pref j|) with
    | .error e => .error e
    | .ok idx =>
      match vars[idx]? with
      | none => .error .indexError
      | some v => .ok (some v)

/-- ENautilus.py:307-320: the last iteration. -/
def handleStop (c : Cfg n k K V) (s : St n k K) (z : Vec k K) : St n k K × Except Err (Out k K V) :=
  let s' : St n k K := { s with preferred := some z, left := some 0 }
  match findSolution c z with
  | .error e => (s', .error e)
  | .ok sol => (s', .ok (.stop z sol))

/-- ENautilus.py:303-345: a point was chosen. -/
def handleChoice (c : Cfg n k K V) (s : St n k K) (content : Content k K) (r : Resp k K)
    (km : KMeans k K) : St n k K × Except Err (Out k K V) :=
  match r.preferredIndex with
  | none => (s, .error .keyError)
  | some i =>
    match pyGet content.points i with
    | .error e => (s, .error e)
    | .ok z =>
      let s1 : St n k K := { s with preferred := some z }
      match s.left with
      | none => (s1, .error .typeError)
      | some left =>
        if left ≤ 1 then handleStop c s z
        else
          match pyGet content.lowers i with
          | .error e => (s1, .error e)
          | .ok lo =>
            let s2 : St n k K := { s1 with lb := lo }
            match pyGet content.uppers i with
            | .error e => (s2, .error e)
            | .ok hi =>
              let s3 : St n k K := { s2 with ub := hi, reach := reachable c.front lo hi }
              match r.changeRemaining with
              | none => (s3, .error .keyError)
              | some ch =>
                match (if ch then r.iterationsLeft else some (left - 1)) with
                | none => (s3, .error .keyError)
                | some left' =>
                  let s4 : St n k K := { s3 with left := some left' }
                  match s.nPoints with
                  | none => (s4, .error .typeError)
                  | some nP =>
                    match compute c s4.reach z nP left' km with
                    | .error e => (s4, .error e)
                    | .ok content' => (s4, mkRequest content')

/-- ENautilus.py:347-363: stepping back. -/
def handleBack (s : St n k K) (r : Resp k K) : St n k K × Except Err (Out k K V) :=
  match r.prevSolutions, r.prevLower, r.prevUpper, r.iterationsLeft with
  | some zs, some lo, some hi, some left =>
    let s' : St n k K := { s with left := some left }
    match r.prevDistances with
    | none => (s', .error .keyError)
    | some ds =>
      (s', mkRequest { points := zs, lowers := lo, uppers := hi, left := left, distances := ds })
  | _, _, _, _ => (s, .error .keyError)

/-- ENautilus.py:297-363. -/
def handle (c : Cfg n k K V) (s : St n k K) (content : Content k K) (r : Resp k K)
    (km : KMeans k K) : St n k K × Except Err (Out k K V) :=
  match r.stepBack with
  | none => (s, .error .keyError)
  | some false => handleChoice c s content r km
  | some true => handleBack s r

/-- Setting the response of the initial request (ENautilus.py:61-64) and calling `iterate`
(ENautilus.py:257-258). -/
def begin (c : Cfg n k K V) (s : St n k K) (r : InitResp) (km : KMeans k K) :
    St n k K × Except Err (Out k K V) :=
  match validateInitial r with
  | .error e => (s, .error e)
  | .ok _ => handleInitial c s r km

/-- Setting the response of an `ENautilusRequest` (ENautilus.py:148-151) and calling `iterate`
(ENautilus.py:259-260). -/
def answer (c : Cfg n k K V) (s : St n k K) (content : Content k K) (r : Resp k K)
    (km : KMeans k K) : St n k K × Except Err (Out k K V) :=
  match validate content r with
  | .error e => (s, .error e)
  | .ok _ => handle c s content r km

/-- `iterate` on the last request returned (ENautilus.py:251-263): a stop request is returned
unchanged. -/
def next (c : Cfg n k K V) (s : St n k K) (o : Out k K V) (r : Resp k K)
    (km : KMeans k K) : St n k K × Except Err (Out k K V) :=
  match o with
  | .points content => answer c s content r km
  | .stop z sol => (s, .ok (.stop z sol))

/-- The response choosing point `i`, neither stepping back nor changing the iterations. -/
def chooseResp (i : Int) : Resp k K :=
  { preferredIndex := some i, stepBack := some false, changeRemaining := some false,
    iterationsLeft := none, prevSolutions := none, prevLower := none, prevUpper := none,
    prevDistances := none }

/-- A session: answer request after request; the first exception ends it. -/
def session (c : Cfg n k K V) (s : St n k K) (o : Out k K V) :
    List (Resp k K × KMeans k K) → Except Err (St n k K × Out k K V)
  | [] => .ok (s, o)
  | (r, km) :: rest =>
    match next c s o r km with
    | (_, .error e) => .error e
    | (s', .ok o') => session c s' o' rest

end Verif.ENautilus
