import Verif.Nautilus.Model
import Verif.Rounding

/-!
# NAUTILUS with rounded arithmetic

The functions of `Verif.Nautilus.Model` with every arithmetic operation on floats rounded (Nautilus.py:683, 806-809,
868, 937-940), and with the sum of the percentages as numpy computes it (Nautilus.py:91). Comparisons are exact in
floating-point arithmetic. `Cfg.nrm` is the norm as computed and `Cfg.evaluate` the objectives as computed. All names
are in the namespace `Verif.Nautilus.Rounded`; the states, requests, responses and the storage are those of the exact
model. With exact arithmetic this is the exact model (`answer_exact`).
-/

set_option linter.unusedSectionVars false

namespace Verif.Nautilus.Rounded

variable {K : Type} [Field K] [LinearOrder K] {k m : Nat}

/-- The fixed data of the exact model, the rounding of `+`, `-`, `*`, `/`, and `np.sum` as computed. -/
structure Cfg (k m : Nat) (K : Type) extends Verif.Nautilus.Cfg k m K where
  rnd : K → K
  sum : List K → K

/-- Exact arithmetic. -/
def Cfg.exact (c : Verif.Nautilus.Cfg k m K) : Cfg k m K := { c with rnd := id, sum := List.sum }

/-- Nautilus.py:66-96. Rounded. -/
def validatePreferences (c : Cfg k m K) (r : Resp K) : Except Err Unit :=
  match r.method, r.info with
  | some meth, some info =>
    if ¬ (meth = 1 ∨ meth = 2) then .error .refused
    else if meth = 1 then
      if info.length < k then .error .refused
      else match pyMax info with
        | .error e => .error e
        | .ok mx => if 1 ≤ mx ∧ mx ≤ (k : K) then .ok () else .error .refused
    else
      if info.length < k then .error .refused
      else if c.sum info ≠ 100 then .error .refused
      else .ok ()
  | _, _ => .error .refused

/-- Nautilus.py:33-40, 49-50: the response to the initial request. Rounded. -/
def validateInitial (c : Cfg k m K) (r : Resp K) : Except Err Unit :=
  if r.nIterations.isNone then .error .refused
  else if r.stepBack.isSome then .error .refused
  else if r.usePrevious.isSome then .error .refused
  else match validatePreferences c r with
    | .error e => .error e
    | .ok _ => validateN r.nIterations

/-- Nautilus.py:41-50: the response to a later request showing the point `z`. Rounded. -/
def validateNav (c : Cfg k m K) (z : Vec k K) (r : Resp K) : Except Err Unit :=
  match r.stepBack with
  | none => .error .keyError
  | some back =>
    if back ∧ (∀ j, z j = c.nadir j) then .error .refused
    else match r.usePrevious with
      | none => .error .keyError
      | some prev =>
        match (if prev then .ok () else validatePreferences c r) with
        | .error e => .error e
        | .ok _ => validateN r.nIterations

/-- The validator called when the response of a request is set. A stop request needs no response. Rounded. -/
def validate (c : Cfg k m K) (req : Req k m K) (r : Resp K) : Except Err Unit :=
  match req with
  | .initial => validateInitial c r
  | .nav z _ _ _ => validateNav c z r
  | .stop .. => .ok ()

/-- Nautilus.py:806-807: entry `i` for ranks (numpy division). Rounded. -/
def rankFactor (c : Cfg k m K) (r n u : K) : Fl K := flRound c.rnd (fdiv 1 (c.rnd (r * c.rnd (n - u))))

/-- Nautilus.py:805-809. `info` has at least `k` entries by the validator; `zip` ignores further ones.
`pref_info / 100` raises `TypeError` for a Python list. Rounded. -/
def factors (c : Cfg k m K) (meth : Int) (info : List K) (isArray : Bool) :
    Except Err (Fin k → Fl K) :=
  if meth = 1 then
    .ok fun i => rankFactor c ((info[i.val]?).getD 0) (c.nadir i) (c.utopian i)
  else if isArray then
    .ok fun i => rankFactor c (c.rnd ((info[i.val]?).getD 0 / 100)) (c.nadir i) (c.utopian i)
  else .error .typeError

/-- Nautilus.py:868. Rounded. -/
def iterationPoint (c : Cfg k m K) (itn : Int) (zPrev f : Vec k K) : Vec k K := fun j =>
  stepTo c.rnd (itn : K) (zPrev j) (f j)

/-- Nautilus.py:894-921: component `i` of the solution found for the `i`-th problem. Rounded. -/
def bounds (c : Cfg k m K) (orc : Oracle k m K) (z : Vec k K) : Vec k K := fun i =>
  c.evaluate (orc.eps i z) i

/-- Nautilus.py:937-940. Rounded. -/
def distance (c : Cfg k m K) (z f : Vec k K) : Fl K :=
  flRound c.rnd ((flRound c.rnd (fdiv (c.nrm fun j => c.rnd (z j - c.nadir j))
    (c.nrm fun j => c.rnd (f j - c.nadir j)))).scalePos 100)

/-- Nautilus.py:497-508, 604-622, 699-721: compute the factors, solve the achievement problem with the
previous iteration point as reference point, store the solution and its objectives. Rounded. -/
def solveNew (c : Cfg k m K) (orc : Oracle k m K) (meth : Int) (info : List K) (isArray : Bool) :
    Exec (St k m K) Unit := do
  let w ← Exec.lift (factors c meth info isArray)
  let s ← Exec.get
  let q ← getZ (s.step - 1)
  setX s.step (some (orc.asf w q))
  setF s.step (some (c.evaluate (orc.asf w q)))

/-- Nautilus.py:510-542, 626-656, 723-754: the next iteration point, its bounds and distance. Rounded. -/
def movePoint (c : Cfg k m K) (orc : Oracle k m K) : Exec (St k m K) (Option (Req k m K)) := do
  let s ← Exec.get
  let zPrev ← getZ (s.step - 1)
  let f ← getF s.step
  let z := iterationPoint c s.left zPrev f
  setZ s.step z
  pure (some (.nav z (bounds c orc z) z (distance c z f)))

/-- Nautilus.py:455-542. Rounded. -/
def handleInitial (c : Cfg k m K) (r : Resp K) (orc : Oracle k m K) :
    Exec (St k m K) (Option (Req k m K)) := do
  match r.nIterations, r.method, r.info with
  | some n, some meth, some info =>
    let cap := (n.asInt + 2).toNat
    Exec.modify fun s =>
      { s with n := n.asInt, left := n.asInt, zs := slots _ cap, xs := slots _ cap, fs := slots _ cap }
    let s ← Exec.get
    setZ (s.step - 1) c.nadir
    solveNew c orc meth info r.isArray
    movePoint c orc
  | _, _, _ => Exec.raise .keyError

/-- Nautilus.py:585-656: no step back. Rounded. -/
def forward (c : Cfg k m K) (r : Resp K) (orc : Oracle k m K) :
    Exec (St k m K) (Option (Req k m K)) := do
  Exec.modify fun s => { s with left := s.left - 1, step := s.step + 1 }
  match r.usePrevious, r.method, r.info with
  | none, _, _ => Exec.raise .keyError
  | some true, _, _ =>
    let s ← Exec.get
    let x ← readX (s.step - 1)
    setX s.step x
    let f ← readF (s.step - 1)
    setF s.step f
    movePoint c orc
  | some false, some meth, some info =>
    solveNew c orc meth info r.isArray
    movePoint c orc
  | _, _, _ => Exec.raise .keyError

/-- Nautilus.py:663-693: step back and take a short step. Rounded. -/
def shortStep (c : Cfg k m K) (orc : Oracle k m K) : Exec (St k m K) (Option (Req k m K)) := do
  let s ← Exec.get
  let z0 ← getZ s.step
  let zPrev ← getZ (s.step - 1)
  let z : Vec k K := fun j => c.rnd (c.rnd (1 / 2 * z0 j) + c.rnd (1 / 2 * zPrev j))
  setZ s.step z
  let f ← getF s.step
  pure (some (.nav z (bounds c orc z) z (distance c z f)))

/-- Nautilus.py:659-754: step back; `None` is returned when the previous preference is to be used. Rounded. -/
def goBack (c : Cfg k m K) (r : Resp K) (orc : Oracle k m K) :
    Exec (St k m K) (Option (Req k m K)) := do
  match r.shortStep with
  | none => Exec.raise .keyError
  | some true => shortStep c orc
  | some false =>
    match r.usePrevious, r.method, r.info with
    | none, _, _ => Exec.raise .keyError
    | some true, _, _ => pure none
    | some false, some meth, some info =>
      solveNew c orc meth info r.isArray
      movePoint c orc
    | _, _, _ => Exec.raise .keyError

/-- Nautilus.py:544-754. Rounded. -/
def handleNav (c : Cfg k m K) (r : Resp K) (orc : Oracle k m K) :
    Exec (St k m K) (Option (Req k m K)) := do
  Exec.modify fun s => changeN s r.nIterations
  let s ← Exec.get
  if s.left ≤ 1 then
    Exec.modify fun s => { s with left := 0 }
    let x ← readX s.step
    let f ← readF s.step
    pure (some (.stop x f))
  else
    match r.stepBack with
    | none => Exec.raise .keyError
    | some false => forward c r orc
    | some true => goBack c r orc

/-- Nautilus.py:432-453. Rounded. -/
def iterate (c : Cfg k m K) (req : Req k m K) (r : Resp K) (orc : Oracle k m K) :
    Exec (St k m K) (Option (Req k m K)) :=
  match req with
  | .initial => handleInitial c r orc
  | .nav .. => handleNav c r orc
  | .stop x f => pure (some (.stop x f))

/-- Setting the response of a request, then calling `iterate`: the new state and the result, which may be
an exception, a request or `None`. Rounded. -/
def answer (c : Cfg k m K) (s : St k m K) (req : Req k m K) (r : Resp K) (orc : Oracle k m K) :
    St k m K × Except Err (Option (Req k m K)) :=
  match validate c req r with
  | .error e => (s, .error e)
  | .ok _ => iterate c req r orc s

/-! ## The exact model is the case without rounding -/

theorem answer_exact (c : Verif.Nautilus.Cfg k m K) (s : St k m K) (req : Req k m K) (r : Resp K)
    (orc : Oracle k m K) : answer (Cfg.exact c) s req r orc = Verif.Nautilus.answer c s req r orc := by
  have hd : ∀ z f, distance (Cfg.exact c) z f = Verif.Nautilus.distance c z f := by
    intro z f; simp only [distance, Verif.Nautilus.distance, Cfg.exact, flRound_id, id]
  have hf : ∀ i l b, factors (Cfg.exact c) i l b = Verif.Nautilus.factors c i l b := by
    intro i l b; simp only [factors, Verif.Nautilus.factors, rankFactor, Verif.Nautilus.rankFactor, Cfg.exact, flRound_id, id]
  have hs : ∀ i l b, solveNew (Cfg.exact c) orc i l b = Verif.Nautilus.solveNew c orc i l b := by
    intro i l b; simp only [solveNew, Verif.Nautilus.solveNew, hf]; rfl
  have hm : movePoint (Cfg.exact c) orc = Verif.Nautilus.movePoint c orc := by
    simp only [movePoint, Verif.Nautilus.movePoint, hd]; rfl
  have hb : shortStep (Cfg.exact c) orc = Verif.Nautilus.shortStep c orc := by
    simp only [shortStep, Verif.Nautilus.shortStep, hd]; rfl
  have hv : validate (Cfg.exact c) req r = Verif.Nautilus.validate c req r := rfl
  unfold answer Verif.Nautilus.answer
  rw [hv]
  simp only [iterate, Verif.Nautilus.iterate, handleInitial, Verif.Nautilus.handleInitial, handleNav,
    Verif.Nautilus.handleNav, forward, Verif.Nautilus.forward, goBack, Verif.Nautilus.goBack, hs, hm, hb]
  rfl

end Verif.Nautilus.Rounded
