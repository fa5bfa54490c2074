import Verif.NautilusV2.Model
import Verif.Rounding

/-!
# NAUTILUS 2 with rounded arithmetic

The functions of `Verif.NautilusV2.Model` with every arithmetic operation on floats rounded (NautilusV2.py:742,
884-917, 955, 980, 1055-1058). Comparisons are exact in floating-point arithmetic, so the validators are those of the
exact model. `Cfg.nrm` is the norm as computed and `Cfg.evaluate` the objectives as computed. All names are in the
namespace `Verif.NautilusV2.Rounded`; the states, requests, responses and the storage are those of the exact model.
With exact arithmetic this is the exact model (`answer_exact`).
-/

set_option linter.unusedSectionVars false

namespace Verif.NautilusV2.Rounded

variable {K : Type} [Field K] [LinearOrder K] {k m : Nat}

/-- The fixed data of the exact model and the rounding of `+`, `-`, `*`, `/`. -/
structure Cfg (k m : Nat) (K : Type) extends Verif.NautilusV2.Cfg k m K where
  rnd : K → K

/-- Exact arithmetic. -/
def Cfg.exact (c : Verif.NautilusV2.Cfg k m K) : Cfg k m K := { c with rnd := id }

/-- NautilusV2.py:884-896, one turn of the loop. Rounded. -/
def firstTurn (c : Cfg k m K) (d : Vec k K) (p : Pair K) : Vec k K :=
  if p.fst.asInt = 1 then wr d p.snd.asInt p.ratio
  else if p.snd.asInt = 1 then wr d p.fst.asInt (c.rnd (1 / p.ratio))
  else d

/-- NautilusV2.py:884-896. Rounded. -/
def deltas1 (c : Cfg k m K) (l : List (Pair K)) : Vec k K := l.foldl (firstTurn c) deltas0

/-- NautilusV2.py:906-915, one turn of the inner loop for the objective `a`. Rounded. -/
def innerTurn (c : Cfg k m K) (a : Int) (d : Vec k K) (p : Pair K) : Vec k K :=
  if p.fst.asInt = a then
    if rd d p.snd.asInt ≠ 0 then wr d p.fst.asInt (c.rnd (rd d p.snd.asInt * c.rnd (1 / p.ratio))) else d
  else if p.snd.asInt = a then
    if rd d p.fst.asInt ≠ 0 then wr d p.snd.asInt (c.rnd (rd d p.fst.asInt * p.ratio)) else d
  else d

/-- NautilusV2.py:905-915, one turn of the `while` loop; `miss` is not updated by the code. Rounded. -/
def pass (c : Cfg k m K) (miss : List Int) (l : List (Pair K)) (d : Vec k K) : Vec k K :=
  miss.foldl (fun d a => l.foldl (innerTurn c a) d) d

/-- NautilusV2.py:902-915 with at most `fuel` turns. Rounded. -/
def doiLoop (c : Cfg k m K) (miss : List Int) (l : List (Pair K)) : Nat → Vec k K → Except Err (Vec k K)
  | 0, d => if hasZero d then .error .diverges else .ok d
  | fuel + 1, d => if hasZero d then doiLoop c miss l fuel (pass c miss l d) else .ok d

/-- NautilusV2.py:863-917. The number of turns is limited to the number of objectives; `doi_diverges`
(RoundedDoi.lean) shows that this limit is not a restriction: if zeros are left after so many turns
the loop never ends. Rounded. -/
def doi (c : Cfg k m K) (l : List (Pair K)) : Except Err (Vec k K) :=
  doiLoop c (missing (deltas1 c l)) l k (deltas1 c l)

/-- NautilusV2.py:857-861, and the evaluation of the achievement function in `solve_asf`, where an array
that is longer than the number of objectives cannot be broadcast (`ValueError`; for a single objective
numpy would broadcast it, which is not modelled). The first two methods need an array by the validator. Rounded. -/
def factors (c : Cfg k m K) (meth : Int) (info : Pref K) : Except Err (Vec k K) :=
  match info with
  | .arr l => if l.length = k then .ok fun i => (l[i.val]?).getD 0 else .error .valueError
  | .pairs l => if meth = 3 then doi c l else .error .typeError
  | .list _ => .error .typeError

/-- NautilusV2.py:955: the weights. Rounded. -/
def weights (c : Cfg k m K) (w : Vec k K) : Vec k K := fun i => c.rnd (1 / w i)

/-- NautilusV2.py:980. Rounded. -/
def iterationPoint (c : Cfg k m K) (itn : Int) (zPrev f : Vec k K) : Vec k K := fun j =>
  stepTo c.rnd (itn : K) (zPrev j) (f j)

/-- NautilusV2.py:1008-1037: component `i` of the solution found for the `i`-th problem. Rounded. -/
def bounds (c : Cfg k m K) (orc : Oracle k m K) (z : Vec k K) : Vec k K := fun i =>
  c.evaluate (orc.eps i z) i

/-- NautilusV2.py:1055-1058. Rounded. -/
def distance (c : Cfg k m K) (z f : Vec k K) : Fl K :=
  flRound c.rnd ((flRound c.rnd (fdiv (c.nrm fun j => c.rnd (z j - c.start j))
    (c.nrm fun j => c.rnd (f j - c.start j)))).scalePos 100)

/-- NautilusV2.py:549-570, 669-686, 768-785: solve the achievement problem with the previous iteration
point as reference point, store the solution and its objectives. Rounded. -/
def solveWith (c : Cfg k m K) (orc : Oracle k m K) (w : Vec k K) : Exec (St k m K) Unit := do
  let s ← Exec.get
  let q ← getZ (s.step - 1)
  setX s.step (some (orc.asf (weights c w) q))
  setF s.step (some (c.evaluate (orc.asf (weights c w) q)))

/-- NautilusV2.py:572-602, 688-715, 787-813: the next iteration point, its bounds and distance. Rounded. -/
def movePoint (c : Cfg k m K) (orc : Oracle k m K) : Exec (St k m K) (Option (Req k m K)) := do
  let s ← Exec.get
  let zPrev ← getZ (s.step - 1)
  let f ← getF s.step
  let z := iterationPoint c s.left zPrev f
  setZ s.step z
  setB (s.step + 1) (bounds c orc z)
  pure (some (.nav z (bounds c orc z) z (distance c z f)))

/-- NautilusV2.py:515-602. Rounded. -/
def handleInitial (c : Cfg k m K) (r : Resp K) (orc : Oracle k m K) :
    Exec (St k m K) (Option (Req k m K)) := do
  match r.nIterations, r.method, r.info with
  | some n, some meth, some info =>
    let cap := (n.asInt + 2).toNat
    Exec.modify fun s =>
      { s with n := n.asInt, left := n.asInt, zs := slots _ cap, xs := slots _ cap, fs := slots _ cap,
               bs := slots _ cap }
    let s ← Exec.get
    setZ (s.step - 1) c.start
    let w ← Exec.lift (factors c meth info)
    setB s.step c.ideal
    solveWith c orc w
    movePoint c orc
  | _, _, _ => Exec.raise .keyError

/-- NautilusV2.py:644-715: no step back. Rounded. -/
def forward (c : Cfg k m K) (r : Resp K) (orc : Oracle k m K) :
    Exec (St k m K) (Option (Req k m K)) := do
  Exec.modify fun s => { s with left := s.left - 1, step := s.step + 1 }
  match r.usePrevious, r.method, r.info with
  | none, _, _ => Exec.raise .keyError
  | some true, _, _ =>
    let s ← Exec.get
    let x ← readX (s.step - 1)
    setX s.step x
    let f ← readF (s.step - 1)
    setF s.step f
    movePoint c orc
  | some false, some meth, some info =>
    let w ← Exec.lift (factors c meth info)
    solveWith c orc w
    movePoint c orc
  | _, _, _ => Exec.raise .keyError

/-- NautilusV2.py:722-752: step back and take a short step. Rounded. -/
def shortStep (c : Cfg k m K) (orc : Oracle k m K) : Exec (St k m K) (Option (Req k m K)) := do
  let s ← Exec.get
  let z0 ← getZ s.step
  let zPrev ← getZ (s.step - 1)
  let z : Vec k K := fun j => c.rnd (c.rnd (1 / 2 * z0 j) + c.rnd (1 / 2 * zPrev j))
  setZ s.step z
  setB (s.step + 1) (bounds c orc z)
  let f ← getF s.step
  pure (some (.nav z (bounds c orc z) z (distance c z f)))

/-- NautilusV2.py:718-813: step back; `None` is returned when the previous preference is to be used. Rounded. -/
def goBack (c : Cfg k m K) (r : Resp K) (orc : Oracle k m K) :
    Exec (St k m K) (Option (Req k m K)) := do
  match r.shortStep with
  | none => Exec.raise .keyError
  | some true => shortStep c orc
  | some false =>
    match r.usePrevious, r.method, r.info with
    | none, _, _ => Exec.raise .keyError
    | some true, _, _ => pure none
    | some false, some meth, some info =>
      let w ← Exec.lift (factors c meth info)
      solveWith c orc w
      movePoint c orc
    | _, _, _ => Exec.raise .keyError

/-- NautilusV2.py:604-813. Rounded. -/
def handleNav (c : Cfg k m K) (r : Resp K) (orc : Oracle k m K) :
    Exec (St k m K) (Option (Req k m K)) := do
  Exec.modify fun s => changeN s r.nIterations
  let s ← Exec.get
  if s.left ≤ 1 then
    Exec.modify fun s => { s with left := 0 }
    let x ← readX s.step
    let f ← readF s.step
    pure (some (.stop x f))
  else
    match r.stepBack with
    | none => Exec.raise .keyError
    | some false => forward c r orc
    | some true => goBack c r orc

/-- NautilusV2.py:492-513. Rounded. -/
def iterate (c : Cfg k m K) (req : Req k m K) (r : Resp K) (orc : Oracle k m K) :
    Exec (St k m K) (Option (Req k m K)) :=
  match req with
  | .initial => handleInitial c r orc
  | .nav .. => handleNav c r orc
  | .stop x f => pure (some (.stop x f))

/-- Setting the response of a request, then calling `iterate`: the new state and the result, which may be
an exception, a request or `None`. Rounded. -/
def answer (c : Cfg k m K) (s : St k m K) (req : Req k m K) (r : Resp K) (orc : Oracle k m K) :
    St k m K × Except Err (Option (Req k m K)) :=
  match validate c.toCfg req r with
  | .error e => (s, .error e)
  | .ok _ => iterate c req r orc s

/-! ## The exact model is the case without rounding -/

theorem doiLoop_exact (c : Verif.NautilusV2.Cfg k m K) (miss : List Int) (l : List (Pair K)) (fuel : Nat) (d : Vec k K) :
    doiLoop (Cfg.exact c) miss l fuel d = Verif.NautilusV2.doiLoop miss l fuel d := by
  have hi : ∀ a, innerTurn (Cfg.exact c) a = Verif.NautilusV2.innerTurn a := by
    intro a; funext d p; simp only [innerTurn, Verif.NautilusV2.innerTurn, Cfg.exact, id]
  have hp : pass (Cfg.exact c) miss l = Verif.NautilusV2.pass miss l := by
    funext d; simp only [pass, Verif.NautilusV2.pass, hi]
  induction fuel generalizing d with
  | zero => rfl
  | succ n ih => simp only [doiLoop, Verif.NautilusV2.doiLoop, hp, ih]

theorem doi_exact (c : Verif.NautilusV2.Cfg k m K) (l : List (Pair K)) :
    doi (Cfg.exact c) l = Verif.NautilusV2.doi k l := by
  have h : deltas1 (Cfg.exact c) l = Verif.NautilusV2.deltas1 l := by
    have : firstTurn (Cfg.exact c) = Verif.NautilusV2.firstTurn := by
      funext d p; simp only [firstTurn, Verif.NautilusV2.firstTurn, Cfg.exact, id]
    simp only [deltas1, Verif.NautilusV2.deltas1, this]
  simp only [doi, Verif.NautilusV2.doi, doiLoop_exact, h]

theorem answer_exact (c : Verif.NautilusV2.Cfg k m K) (s : St k m K) (req : Req k m K) (r : Resp K)
    (orc : Oracle k m K) : answer (Cfg.exact c) s req r orc = Verif.NautilusV2.answer c s req r orc := by
  have hd : ∀ z f, distance (Cfg.exact c) z f = Verif.NautilusV2.distance c z f := by
    intro z f; simp only [distance, Verif.NautilusV2.distance, Cfg.exact, flRound_id, id]
  have hf : ∀ i l, factors (Cfg.exact c) i l = Verif.NautilusV2.factors k i l := by
    intro i l; cases l <;> simp only [factors, Verif.NautilusV2.factors, doi_exact]
  have hs : ∀ w, solveWith (Cfg.exact c) orc w = Verif.NautilusV2.solveWith c orc w := by
    intro w; rfl
  have hm : movePoint (Cfg.exact c) orc = Verif.NautilusV2.movePoint c orc := by
    simp only [movePoint, Verif.NautilusV2.movePoint, hd]; rfl
  have hb : shortStep (Cfg.exact c) orc = Verif.NautilusV2.shortStep c orc := by
    simp only [shortStep, Verif.NautilusV2.shortStep, hd]; rfl
  have hv : validate (Cfg.exact c).toCfg req r = Verif.NautilusV2.validate c req r := rfl
  unfold answer Verif.NautilusV2.answer
  rw [hv]
  simp only [iterate, Verif.NautilusV2.iterate, handleInitial, Verif.NautilusV2.handleInitial, handleNav,
    Verif.NautilusV2.handleNav, forward, Verif.NautilusV2.forward, goBack, Verif.NautilusV2.goBack, hs, hm, hb, hf]
  rfl

end Verif.NautilusV2.Rounded
