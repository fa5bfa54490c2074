import Verif.Navigator.Model
import Verif.Rounding

/-!
# NAUTILUS Navigator with rounded arithmetic

The functions of `Verif.Navigator.Model` with every arithmetic operation on floats rounded (NautilusNavigator.py:572-575
and 646-648). Comparisons, minima and maxima are exact in floating-point arithmetic. `Cfg.asf` and `Cfg.nrm` are the
achievement function and the norm as computed, and so is `np.allclose`. With exact arithmetic this is the exact model
(`answerR_exact`).
-/

set_option linter.unusedSectionVars false

namespace Verif.Navigator

variable {K V : Type} [Field K] [LinearOrder K] {n k : Nat}

/-- How the machine computes: the rounding of `+`, `-`, `*`, `/`, and `np.allclose` as computed. -/
structure Arith (k : Nat) (K : Type) where
  rnd : K → K
  close : Vec k (Option K) → Vec k (Option K) → Bool

/-- Exact arithmetic. -/
def Arith.exact : Arith k K := { rnd := id, close := allclose }

/-- NautilusNavigator.py:572-575 in rounded arithmetic. -/
def navPointR (A : Arith k K) (p nav : Vec k K) (rem : Int) : Vec k K :=
  fun j => stepTo A.rnd (rem : K) (nav j) (p j)

/-- NautilusNavigator.py:631-650 in rounded arithmetic. -/
def distanceR (A : Arith k K) (nrm : Vec k K → K) (nav p nadir : Vec k K) : Fl K :=
  flRound A.rnd ((flRound A.rnd (fdiv (nrm fun j => A.rnd (nav j - nadir j))
    (nrm fun j => A.rnd (p j - nadir j)))).scalePos 100)

/-- NautilusNavigator.py:447-487: move one step towards the projection `p` and update the state. Rounded. -/
def moveR (A : Arith k K) (c : Cfg n k K V) (s : St n k K) (p : Fin n) (u : Vec k (Option K)) : St n k K :=
  let nav := navPointR A (c.front p) s.nav s.rem
  let lb := lowerBounds c.front s.reach nav u s.lb
  let ub := upperBounds c.front s.reach nav u s.ub
  { s with
    nav := nav, userBounds := u, lb := lb, ub := ub,
    dist := distanceR A c.nrm nav (c.front p) c.nadir,
    reach := reachable c.front lb ub,
    step := if s.rem = 1 then s.step else s.step + 1,
    rem := if s.rem = 1 then s.rem else s.rem - 1 }

/-- NautilusNavigator.py:447-489: the second half of `update`. A projection index `None` (which
numpy would accept as a new axis) is modelled as a `TypeError`; `Props` shows it does not occur. Rounded. -/
def advanceR (A : Arith k K) (c : Cfg n k K V) (s : St n k K) (u : Vec k (Option K)) :
    St n k K × Except Err (Out n k K V) :=
  match s.proj with
  | none => (s, .error .typeError)
  | some p =>
    if s.rem = 0 then (s, .error .zeroDivisionError)
    else (moveR A c s p u, .ok (.nav (moveR A c s p u).content))

/-- NautilusNavigator.py:429-431: must the reference point be projected again? `allclose` with `None`
raises a `TypeError`. Rounded. -/
def needsProjectionR (A : Arith k K) (s : St n k K) (q : Vec k (Option K)) : Except Err Bool :=
  if s.step = 1 then .ok true
  else match s.ref with
    | none => .error .typeError
    | some q0 => .ok (!A.close q q0)

/-- NautilusNavigator.py:429-489: a forward step. Rounded. -/
def forwardR (A : Arith k K) (c : Cfg n k K V) (s : St n k K) (q : Vec k (Option K)) (v : PyVal)
    (u : Vec k (Option K)) : St n k K × Except Err (Out n k K V) :=
  match needsProjectionR A s q with
  | .error e => (s, .error e)
  | .ok false => advanceR A c s u
  | .ok true =>
    let s1 : St n k K := { s with speed := if s.step = 1 then some v else s.speed }
    match solve c s.reach q s.userBounds with
    | .error e => (s1, .error e)
    | .ok p => advanceR A c { s1 with ref := some q, proj := some p } u

/-- NautilusNavigator.py:309-359. Rounded. -/
def handleR (A : Arith k K) (c : Cfg n k K V) (s : St n k K) (ct : Content n k K) (r : Resp K) :
    St n k K × Except Err (Out n k K V) :=
  match r.ref, r.speed, r.goToPrevious, r.userBounds, r.stop with
  | some ql, some v, some g, some ul, some st =>
    if st = .bool true then (s, .ok (stopRequest c ct.reach))
    else if g = .bool true then
      (goBack s ct (toBounds k ul), .ok (.nav (goBack s ct (toBounds k ul)).content))
    else match broadcast k ql with
      | .error e => (s, .error e)
      | .ok q => forwardR A c s q v (toBounds k ul)
  | _, _, _, _, _ => (s, .error .keyError)

/-- Setting the response of a request (NautilusNavigator.py:190-193) and calling `iterate`
(302-307). `ct` is the content of the answered request, which need not be the last one. Rounded. -/
def answerR (A : Arith k K) (c : Cfg n k K V) (s : St n k K) (ct : Content n k K) (r : Resp K) :
    St n k K × Except Err (Out n k K V) :=
  match validate c r with
  | .error e => (s, .error e)
  | .ok _ => handleR A c s ct r

/-- A run: each request returned is answered by the next response; the first exception or stop
ends it. Rounded. -/
def runR (A : Arith k K) (c : Cfg n k K V) (s : St n k K) (ct : Content n k K) :
    List (Resp K) → Except Err (St n k K × Content n k K)
  | [] => .ok (s, ct)
  | r :: rest =>
    match answerR A c s ct r with
    | (_, .error e) => .error e
    | (s', .ok (.nav ct')) => runR A c s' ct' rest
    | (_, .ok (.stop ..)) => .error .typeError

/-! ## The exact model is the case without rounding -/

theorem moveR_exact (c : Cfg n k K V) : moveR Arith.exact c = move c := by
  funext s p u
  simp only [moveR, move, distanceR, distance, flRound_id, Arith.exact]
  rfl

theorem answerR_exact (c : Cfg n k K V) : answerR Arith.exact c = answer c := by
  funext s ct r
  simp only [answerR, answer, handleR, handle, forwardR, forward, needsProjectionR, needsProjection, advanceR, advance,
    moveR_exact]
  rfl

theorem runR_exact (c : Cfg n k K V) (s : St n k K) (ct : Content n k K) (rs : List (Resp K)) :
    runR Arith.exact c s ct rs = run c s ct rs := by
  induction rs generalizing s ct with
  | nil => rfl
  | cons r rs ih =>
    simp only [runR, run, answerR_exact, ih]
    rfl

end Verif.Navigator
