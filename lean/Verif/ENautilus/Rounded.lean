import Verif.ENautilus.Model
import Verif.Rounding

/-!
# E-NAUTILUS with rounded arithmetic

The functions of `Verif.ENautilus.Model` with every arithmetic operation on floats rounded by `rnd`
(ENautilus.py:313-314, 410-412 and 456-458, 471). Comparisons, minima and maxima are exact in floating-point arithmetic.
`Cfg.nrm` is the norm as computed. With `rnd = id` this is the exact model (`beginR_id`, `answerR_id`).
-/

set_option linter.unusedSectionVars false

namespace Verif.ENautilus

variable {K V : Type} [Field K] [LinearOrder K] {n k : Nat}

/-- ENautilus.py:410-412 in rounded arithmetic. -/
def intermediatePointR (rnd : K → K) (pref zbar : Vec k K) (left : Int) : Vec k K :=
  fun j => stepTo rnd (left : K) (pref j) (zbar j)

/-- ENautilus.py:397-413 in rounded arithmetic. -/
def intermediateR (rnd : K → K) (pref : Vec k K) (zbars : List (Vec k K)) (left : Int) :
    Except Err (List (Vec k K)) :=
  if left = 0 then .error .zeroDivisionError
  else .ok (zbars.map fun zb => intermediatePointR rnd pref zb left)

/-- ENautilus.py:453-471 in rounded arithmetic. -/
def distancesR (rnd : K → K) (nrm : Vec k K → K) (zs zbars : List (Vec k K)) (nadir : Vec k K) : List (Fl K) :=
  List.zipWith (fun z zb =>
    flRound rnd ((flRound rnd (fdiv (nrm fun j => rnd (z j - nadir j)) (nrm fun j => rnd (zb j - nadir j)))).scalePos
      100)) zs zbars

/-- ENautilus.py:336-345 and 276-285: compute the next points to show. Rounded. -/
def computeR (rnd : K → K) (c : Cfg n k K V) (reach : List (Fin n)) (pref : Vec k K) (nPts left : Int)
    (km : KMeans k K) : Except Err (Content k K) :=
  match representative c.front reach nPts km with
  | .error e => .error e
  | .ok zbars =>
    match intermediateR rnd pref zbars left with
    | .error e => .error e
    | .ok zs =>
      match bounds c.front zs with
      | .error e => .error e
      | .ok (lo, hi) =>
        .ok { points := zs, lowers := lo, uppers := hi, left := left,
              distances := distancesR rnd c.nrm zs zbars c.nadir }

/-- ENautilus.py:265-295 with the validated response. Rounded. -/
def handleInitialR (rnd : K → K) (c : Cfg n k K V) (s : St n k K) (r : InitResp) (km : KMeans k K) :
    St n k K × Except Err (Out k K V) :=
  match r.nIterations, r.nPoints with
  | some nIt, some nP =>
    let s' : St n k K :=
      { s with left := some nIt.asInt, nPoints := some nP.asInt, preferred := some c.nadir }
    match computeR rnd c s'.reach c.nadir nP.asInt nIt.asInt km with
    | .error e => (s', .error e)
    | .ok content => (s', mkRequest content)
  | _, _ => (s, .error .keyError)

/-- ENautilus.py:313-319: the decision vector of the front row nearest to the preferred point. Rounded. -/
def findSolutionR (rnd : K → K) (c : Cfg n k K V) (pref : Vec k K) : Except Err (Option V) :=
  match c.vars with
  | none => .ok none
  | some vars =>
    match npArgmin ((List.finRange n).map fun i => c.nrm fun j => |rnd (c.front i j - pref j)|) with
    | .error e => .error e
    | .ok idx =>
      match vars[idx]? with
      | none => .error .indexError
      | some v => .ok (some v)

/-- ENautilus.py:307-320: the last iteration. Rounded. -/
def handleStopR (rnd : K → K) (c : Cfg n k K V) (s : St n k K) (z : Vec k K) :
    St n k K × Except Err (Out k K V) :=
  let s' : St n k K := { s with preferred := some z, left := some 0 }
  match findSolutionR rnd c z with
  | .error e => (s', .error e)
  | .ok sol => (s', .ok (.stop z sol))

/-- ENautilus.py:303-345: a point was chosen. Rounded. -/
def handleChoiceR (rnd : K → K) (c : Cfg n k K V) (s : St n k K) (content : Content k K) (r : Resp k K)
    (km : KMeans k K) : St n k K × Except Err (Out k K V) :=
  match r.preferredIndex with
  | none => (s, .error .keyError)
  | some i =>
    match pyGet content.points i with
    | .error e => (s, .error e)
    | .ok z =>
      let s1 : St n k K := { s with preferred := some z }
      match s.left with
      | none => (s1, .error .typeError)
      | some left =>
        if left ≤ 1 then handleStopR rnd c s z
        else
          match pyGet content.lowers i with
          | .error e => (s1, .error e)
          | .ok lo =>
            let s2 : St n k K := { s1 with lb := lo }
            match pyGet content.uppers i with
            | .error e => (s2, .error e)
            | .ok hi =>
              let s3 : St n k K := { s2 with ub := hi, reach := reachable c.front lo hi }
              match r.changeRemaining with
              | none => (s3, .error .keyError)
              | some ch =>
                match (if ch then r.iterationsLeft else some (left - 1)) with
                | none => (s3, .error .keyError)
                | some left' =>
                  let s4 : St n k K := { s3 with left := some left' }
                  match s.nPoints with
                  | none => (s4, .error .typeError)
                  | some nP =>
                    match computeR rnd c s4.reach z nP left' km with
                    | .error e => (s4, .error e)
                    | .ok content' => (s4, mkRequest content')

/-- ENautilus.py:297-363. Rounded. -/
def handleR (rnd : K → K) (c : Cfg n k K V) (s : St n k K) (content : Content k K) (r : Resp k K)
    (km : KMeans k K) : St n k K × Except Err (Out k K V) :=
  match r.stepBack with
  | none => (s, .error .keyError)
  | some false => handleChoiceR rnd c s content r km
  | some true => handleBack s r

/-- Setting the response of the initial request (ENautilus.py:61-64) and calling `iterate`
(ENautilus.py:257-258). Rounded. -/
def beginR (rnd : K → K) (c : Cfg n k K V) (s : St n k K) (r : InitResp) (km : KMeans k K) :
    St n k K × Except Err (Out k K V) :=
  match validateInitial r with
  | .error e => (s, .error e)
  | .ok _ => handleInitialR rnd c s r km

/-- Setting the response of an `ENautilusRequest` (ENautilus.py:148-151) and calling `iterate`
(ENautilus.py:259-260). Rounded. -/
def answerR (rnd : K → K) (c : Cfg n k K V) (s : St n k K) (content : Content k K) (r : Resp k K)
    (km : KMeans k K) : St n k K × Except Err (Out k K V) :=
  match validate content r with
  | .error e => (s, .error e)
  | .ok _ => handleR rnd c s content r km

/-! ## The exact model is the case without rounding -/

theorem intermediateR_id (pref : Vec k K) (zbars : List (Vec k K)) (left : Int) :
    intermediateR id pref zbars left = intermediate pref zbars left := rfl

theorem distancesR_id (nrm : Vec k K → K) (zs zbars : List (Vec k K)) (nadir : Vec k K) :
    distancesR id nrm zs zbars nadir = distances nrm zs zbars nadir := by
  simp [distancesR, distances, flRound_id]

theorem computeR_id (c : Cfg n k K V) : computeR id c = compute c := by
  funext reach pref nP left km
  simp only [computeR, compute, distancesR_id, intermediateR_id]
  rfl

theorem findSolutionR_id (c : Cfg n k K V) : findSolutionR id c = findSolution c := rfl

theorem beginR_id (c : Cfg n k K V) : beginR id c = begin c := by
  funext s r km
  simp only [beginR, begin, handleInitialR, handleInitial, computeR_id]
  rfl

theorem answerR_id (c : Cfg n k K V) : answerR id c = answer c := by
  funext s ct r km
  simp only [answerR, answer, handleR, handle, handleChoiceR, handleChoice, computeR_id, handleStopR, handleStop,
    findSolutionR_id]
  rfl

end Verif.ENautilus
