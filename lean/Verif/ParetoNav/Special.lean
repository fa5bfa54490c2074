import Verif.ParetoNav.Validation
import Verif.ParetoNav.Robust

set_option linter.unusedSectionVars false

/-!
# Pareto Navigator with unusual responses: properties C153 and C154

The model of `ParetoNav.Model` extended by reference points with infinite or undefined (NaN) components and
by preferred solutions that are not a row number. numpy as locked in /repo/poetry.lock (1.23.5) and at least
two objectives; with one objective Qhull raises in the constructor.
-/

namespace Verif.ParetoNav

variable {K : Type} [Field K] [LinearOrder K] {k : Nat} {X D : Type}

/-! ### Model -/

/-- What can be given as the preferred solution (ParetoNavigator.py:97-99 checks nothing): an integer, `None`
or `True` (`axis true`), `False` (`axis false`), a list of integers, or a float or a string (`other`). -/
inductive Pref
  | index (i : Int)
  | axis (b : Bool)
  | rows (l : List Int)
  | other

/-- Arrays with more than one axis: shape `(1, n, k)`, shape `(0, n, k)`, shape `(m, k)`. -/
inductive Stack (k : Nat) (K : Type)
  | whole (l : List (Vec k K))
  | empty
  | rows (l : List (Vec k K))

/-- The length of the first axis. -/
def Stack.len : Stack k K → Nat
  | .whole _ => 1
  | .empty => 0
  | .rows l => l.length

/-- Stored reference points that are not a vector of numbers: one with an infinite or undefined component, an
array with several axes, and an array of `c` objects that are not all numbers. -/
inductive BadRef (K : Type)
  | special (l : List (Fl K))
  | matrix
  | ragged (c : Nat)

/-- The attributes; `bad` and `stack` take the place of the reference point and the current solution. -/
structure StF (k : Nat) (X K : Type) where
  base : St k X K
  bad : Option (BadRef K) := none
  stack : Option (Stack k K) := none

/-- A request; `stack` takes the place of the solution it shows. -/
structure ReqF (k : Nat) (X K : Type) where
  req : Req k X K
  stack : Option (Stack k K) := none

/-- A response; `none` is a missing key. -/
structure RespF (K : Type) where
  ref : Option (List (Fl K)) := none
  preferred : Option Pref := none
  speed : Option PyVal := none
  showSolution : Option Bool := none
  stepBack : Option Bool := none
  classes : Option (List String) := none
  satisfied : Option Bool := none

/-- External code; the minimizers can also be called with unusual reference points. -/
structure OracleF (k : Nat) (D K : Type) extends Oracle k D K where
  asfF : List (Fl K) → Except Err D
  projectF : Stack k K → Except Err D

/-- The numbers in a list without infinite and undefined entries. -/
def finite : List (Fl K) → Option (List K)
  | [] => some []
  | .num x :: l => (finite l).map (x :: ·)
  | _ :: _ => none

/-- The integer, if it is one. -/
def Pref.int : Pref → Option Int
  | .index i => some i
  | _ => none

/-- The response without its unusual parts. -/
def RespF.plain (r : RespF K) : Resp K where
  ref := r.ref.bind finite
  preferred := r.preferred.bind Pref.int
  speed := r.speed
  showSolution := r.showSolution
  stepBack := r.stepBack
  classes := r.classes
  satisfied := r.satisfied

/-- ReferencePointMethod.py:25-43: comparisons with NaN are false. -/
def validateRefF (nadir : Vec k K) (l : List (Fl K)) : Except Err Unit :=
  if l.length ≠ k then .error .refused
  else if ∀ i : Fin k, Rpm.flLess (.num (nadir i)) ((l[i.val]?).getD .nan) = true then .error .refused
  else .ok ()

/-- ParetoNavigator.py:88-128. -/
def validateInitialF (nadir : Vec k K) (r : RespF K) : Except Err Unit :=
  if r.ref.isSome ∧ r.preferred.isSome then .error .refused
  else
    match (match r.ref, r.preferred with
      | some l, _ => validateRefF nadir l
      | none, some _ => .ok ()
      | none, none => .error .refused : Except Err Unit) with
    | .error e => .error e
    | .ok _ =>
      match r.speed with
      | none => .error .refused
      | some v => validateSpeed v

/-- ParetoNavigator.py:229-243. -/
def validatePrefF (nadir : Vec k K) (r : RespF K) : Except Err Unit :=
  match r.ref, r.classes with
  | some _, some _ => .error .refused
  | some l, none => validateRefF nadir l
  | none, some cs => if cs.all validClass then .ok () else .error .refused
  | none, none => .ok ()

/-- ParetoNavigator.py:204-245. -/
def validateNavF (nadir : Vec k K) (r : RespF K) : Except Err Unit :=
  if r.showSolution = some true then .ok ()
  else
    match r.speed with
    | some v =>
      (match validateSpeed v with
      | .error e => .error e
      | .ok _ => validatePrefF nadir r)
    | none => validatePrefF nadir r

/-- The validator called when the response of a request is set. -/
def validateF (q : ReqF k X K) (r : RespF K) : Except Err Unit :=
  match q.req with
  | .initial _ nadir _ => validateInitialF nadir r
  | .nav _ _ nadir => validateNavF nadir r
  | .solution .. => .ok ()
  | .stop .. => .ok ()

/-- A part of a method body that only uses the other attributes. -/
def onBase {α : Type} (x : Exec (St k X K) α) : Exec (StF k X K) α := fun s =>
  ({ s with base := (x s.base).1 }, (x s.base).2)

/-- ParetoNavigator.py:185-202. -/
def navReqF (s : StF k X K) : ReqF k X K := ⟨navReq s.base, s.stack⟩

/-- `_reference_point = l` (ParetoNavigator.py:439, 500). -/
def storeRef (l : List (Fl K)) (s : StF k X K) : StF k X K :=
  match finite l with
  | some q => { s with base := { s.base with ref := some q }, bad := none }
  | none => { s with bad := some (.special l) }

/-- `_current_solution = c` (ParetoNavigator.py:446). -/
def storeCur (c : Cur K ⊕ Stack k K) (s : StF k X K) : StF k X K :=
  match c with
  | .inl c => { s with base := { s.base with cur := some c }, stack := none }
  | .inr c => { s with stack := some c }

/-- Indexing with a list of integers. -/
def pickRows (sols : List (Vec k K)) : List Int → Except Err (List (Vec k K))
  | [] => .ok []
  | i :: l =>
    match pyGet sols i with
    | .error e => .error e
    | .ok p =>
      match pickRows sols l with
      | .error e => .error e
      | .ok ps => .ok (p :: ps)

/-- ParetoNavigator.py:442-444: indexing a numpy array with two axes. -/
def pick (sols : List (Vec k K)) : Pref → Except Err (Cur K ⊕ Stack k K)
  | .index i =>
    (match pyGet sols i with
    | .error e => .error e
    | .ok p => .ok (.inl (.vec (List.ofFn p))))
  | .axis true => .ok (.inr (.whole sols))
  | .axis false => .ok (.inr .empty)
  | .rows l =>
    (match pickRows sols l with
    | .error e => .error e
    | .ok ps => .ok (.inr (.rows ps)))
  | .other => .error .indexError

/-- ParetoNavigator.py:438-446. -/
def startingPointF (P : Prob k X D K) (r : RespF K) (orc : OracleF k D K) :
    Exec (StF k X K) (Cur K ⊕ Stack k K) :=
  match r.ref with
  | some l => do
    Exec.modify (storeRef l)
    let d ← Exec.lift (match finite l with | some q => orc.asf q | none => orc.asfF l)
    pure (.inl (P.asCur d))
  | none =>
    match r.preferred with
    | none => Exec.raise .keyError
    | some p => do
      let s ← Exec.get
      Exec.lift (pick s.base.sols p)

/-- ParetoNavigator.py:428-451. -/
def handleInitialF (P : Prob k X D K) (r : RespF K) (orc : OracleF k D K) :
    Exec (StF k X K) (ReqF k X K) := do
  let p ← startingPointF P r orc
  Exec.modify (storeCur p)
  match r.speed with
  | none => Exec.raise .keyError
  | some v =>
    let a ← Exec.lift (calcSpeed v)
    Exec.modify fun s => { s with base := { s.base with speed := some a } }
    let s ← Exec.get
    pure (navReqF s)

/-- ParetoNavigator.py:472-489. -/
def handleShowF (P : Prob k X D K) (orc : OracleF k D K) : Exec (StF k X K) (ReqF k X K) := do
  let s ← Exec.get
  match s.stack with
  | none => do
    let q ← onBase (handleShow P orc.toOracle)
    pure ⟨q, none⟩
  | some p =>
    let d ← Exec.lift (orc.projectF p)
    Exec.modify fun s => { s with base := { s.base with poX := some (P.vars d), poF := some (P.obj d) } }
    pure ⟨.solution none (some (P.vars d)) (some (P.obj d)), some p⟩

/-- ParetoNavigator.py:684-696 when the current solution has more axes; `none` is an entry that is an
array. -/
def mapClassF (ideal nadir : Vec k K) (c : Stack k K) (i : Nat) (x : String) : Except Err (Option K) :=
  if x = "<" then (if h : i < k then .ok (some (ideal ⟨i, h⟩)) else .error .indexError)
  else if x = ">" then (if h : i < k then .ok (some (nadir ⟨i, h⟩)) else .error .indexError)
  else if i < c.len then .ok none else .error .indexError

/-- ParetoNavigator.py:695. -/
def mapClassesF (ideal nadir : Vec k K) (c : Stack k K) : Nat → List String → Except Err (List (Option K))
  | _, [] => .ok []
  | i, x :: xs =>
    match mapClassF ideal nadir c i x with
    | .error e => .error e
    | .ok y =>
      match mapClassesF ideal nadir c (i + 1) xs with
      | .error e => .error e
      | .ok ys => .ok (y :: ys)

/-- `np.array` of such a list (ParetoNavigator.py:696): numbers only, a single row (which later counts as a
vector), arrays only, or both kinds. -/
def storeClasses (c : Stack k K) (l : List (Option K)) (s : StF k X K) : StF k X K :=
  match l.mapM id, c, l with
  | some q, _, _ => { s with base := { s.base with ref := some q }, bad := none }
  | none, .rows (p :: _), [none] => { s with base := { s.base with ref := some (List.ofFn p) }, bad := none }
  | none, _, _ => { s with bad := some (if l.all Option.isNone then .matrix else .ragged l.length) }

/-- ParetoNavigator.py:499-508. -/
def setRefF (r : RespF K) : Exec (StF k X K) Unit :=
  match r.ref with
  | some l => Exec.modify (storeRef l)
  | none =>
    match r.classes with
    | none => pure ()
    | some cs => do
      let s ← Exec.get
      match s.stack with
      | none => do
        let l ← Exec.lift (mapClasses s.base.ideal s.base.nadir s.base.cur 0 cs)
        Exec.modify fun s => { s with base := { s.base with ref := some l }, bad := none }
      | some c => do
        let l ← Exec.lift (mapClassesF s.base.ideal s.base.nadir c 0 cs)
        Exec.modify (storeClasses c l)

/-- The exception of a step with an unusual reference point: `linprog` raises `ValueError` for infinite and
undefined numbers and `TypeError` for objects, `reshape` and the subtraction raise `ValueError`, a number has
no `len`. -/
def badStep (k : Nat) (b : BadRef K) (cur : Option (Cur K)) : Err :=
  match cur with
  | some (.vec l) =>
    (match b with
    | .ragged c => if c = k ∧ l.length = k then .typeError else .valueError
    | _ => .valueError)
  | _ => .typeError

/-- ParetoNavigator.py:510-526 and 698-737. A current solution with more axes does not fit: `reshape` or
`linprog` raise `ValueError` (without any reference point the subtraction raises `TypeError`). -/
def stepF (orc : OracleF k D K) (a : K) : Exec (StF k X K) (ReqF k X K) := do
  let s ← Exec.get
  match s.stack, s.bad with
  | some _, some _ => Exec.raise .valueError
  | some _, none => Exec.raise (if s.base.ref.isNone then .typeError else .valueError)
  | none, some b => Exec.raise (badStep k b s.base.cur)
  | none, none => do
    let q ← onBase (step orc.toOracle a)
    pure ⟨q, none⟩

/-- ParetoNavigator.py:453-526. -/
def handleNavF (P : Prob k X D K) (r : Option (RespF K)) (orc : OracleF k D K) :
    Exec (StF k X K) (ReqF k X K) :=
  let r := r.getD {}
  if r.showSolution = some true then handleShowF P orc
  else do
    onBase (setSpeed r.plain)
    let a ← onBase (setSign r.plain)
    setRefF r
    stepF orc a

/-- ParetoNavigator.py:528-570. -/
def handleSolutionF (r : Option (RespF K)) (orc : OracleF k D K) : Exec (StF k X K) (ReqF k X K) := do
  let q ← onBase (handleSolution (r.map RespF.plain) orc.toOracle)
  let s ← Exec.get
  pure ⟨q, s.stack⟩

/-- ParetoNavigator.py:392-426. -/
def iterateF (P : Prob k X D K) (q : ReqF k X K) (r : Option (RespF K)) (orc : OracleF k D K) :
    Exec (StF k X K) (ReqF k X K) :=
  match q.req with
  | .initial .. =>
    (match r with
    | none => Exec.raise .typeError
    | some r => handleInitialF P r orc)
  | .nav .. => handleNavF P r orc
  | .solution .. => handleSolutionF r orc
  | .stop c x f => pure ⟨.stop c x f, q.stack⟩

/-- Setting the response of a request (unless it is answered without one), then calling `iterate`. -/
def answerF (P : Prob k X D K) (s : StF k X K) (q : ReqF k X K) (r : Option (RespF K)) (orc : OracleF k D K) :
    StF k X K × Except Err (ReqF k X K) :=
  match (match r with | none => .ok () | some r => validateF q r : Except Err Unit) with
  | .error e => (s, .error e)
  | .ok _ => iterateF P q r orc s

/-! ### Specification -/

/-- A navigation request. -/
def ReqF.IsNav (q : ReqF k X K) : Prop := ∃ c lo hi, q.req = .nav c lo hi

/-- The first request. -/
def ReqF.IsFirst (q : ReqF k X K) : Prop := ∃ lo hi sols, q.req = .initial lo hi sols

/-- A response with ordinary numbers: the reference point, if there is one, consists of numbers, and the
preferred solution, if there is one, is an integer. -/
structure RespF.Ordinary (r : RespF K) : Prop where
  ref : ∀ l, r.ref = some l → ∃ q : List K, l = q.map .num
  preferred : ∀ p, r.preferred = some p → ∃ i, p = .index i

/-- A component that is infinite or undefined. -/
def HasSpecial (l : List (Fl K)) : Prop := .nan ∈ l ∨ .pinf ∈ l ∨ .ninf ∈ l

/-- The state and the requests of the ordinary model. -/
def St.emb (s : St k X K) : StF k X K := ⟨s, none, none⟩
def Req.emb (q : Req k X K) : ReqF k X K := ⟨q, none⟩

/-! ### Ordinary responses -/

theorem finite_num (q : List K) : finite (q.map Fl.num) = some q := by
  induction q with
  | nil => rfl
  | cons x q ih => simp [finite, ih]

theorem finite_none {l : List (Fl K)} (h : HasSpecial l) : finite l = none := by
  induction l with
  | nil => simp [HasSpecial] at h
  | cons x l ih =>
    cases x with
    | num y =>
      have : HasSpecial l := by simpa [HasSpecial] using h
      simp [finite, ih this]
    | nan => rfl
    | pinf => rfl
    | ninf => rfl

theorem finite_some {l : List (Fl K)} {q : List K} (h : finite l = some q) : l = q.map .num := by
  induction l generalizing q with
  | nil => simp [finite] at h; simp [← h]
  | cons x l ih =>
    cases x with
    | num y =>
      simp only [finite, Option.map_eq_some_iff] at h
      obtain ⟨q', h1, rfl⟩ := h
      simp [ih h1]
    | nan => simp [finite] at h
    | pinf => simp [finite] at h
    | ninf => simp [finite] at h

theorem validateRefF_num (nadir : Vec k K) (q : List K) :
    validateRefF nadir (q.map Fl.num) = validateRef nadir q := by
  unfold validateRefF validateRef
  by_cases hk : q.length = k
  · have : (∀ i : Fin k, Rpm.flLess (.num (nadir i)) (((q.map Fl.num)[i.val]?).getD .nan) = true) ↔
        ∀ i, nadir i < toVec k q i := by
      refine forall_congr' fun i => ?_
      have : i.val < q.length := by omega
      simp [toVec, List.getElem?_eq_getElem this, Rpm.flLess]
    simp only [List.length_map, hk, this]
  · simp [hk]

/-- The extended program run on ordinary data. -/
def Emb {α β : Type} (x : Exec (StF k X K) β) (y : Exec (St k X K) α) (g : α → β) : Prop :=
  ∀ s, x s.emb = ((y s).1.emb, (y s).2.map g)

theorem Emb.bind {α β γ δ : Type} {x : Exec (StF k X K) β} {y : Exec (St k X K) α} {g : α → β}
    {f : β → Exec (StF k X K) δ} {f' : α → Exec (St k X K) γ} {h : γ → δ}
    (hx : Emb x y g) (hf : ∀ a, Emb (f (g a)) (f' a) h) : Emb (x >>= f) (y >>= f') h := by
  intro s
  show Exec.bind x f s.emb = ((Exec.bind y f' s).1.emb, (Exec.bind y f' s).2.map h)
  unfold Exec.bind
  rw [hx s]
  cases hy : (y s).2 with
  | error e => rfl
  | ok a => exact hf a _

theorem emb_onBase {α : Type} (y : Exec (St k X K) α) : Emb (onBase y) y id := by
  intro s
  simp only [onBase, St.emb]
  cases (y s).2 <;> rfl

theorem emb_pure {α β : Type} (a : α) (g : α → β) : Emb (pure (g a) : Exec (StF k X K) β) (pure a) g :=
  fun _ => rfl

theorem emb_get : Emb (Exec.get : Exec (StF k X K) _) (Exec.get : Exec (St k X K) _) St.emb := fun _ => rfl

theorem emb_raise {α β : Type} (e : Err) (g : α → β) :
    Emb (Exec.raise e : Exec (StF k X K) β) (Exec.raise e) g := fun _ => rfl

theorem emb_lift {α β : Type} {x : Except Err β} {y : Except Err α} {g : α → β} (h : x = y.map g) :
    Emb (Exec.lift x : Exec (StF k X K) β) (Exec.lift y) g := fun s => by rw [h]; rfl

theorem emb_modify {f : StF k X K → StF k X K} {g : St k X K → St k X K} (h : ∀ s, f s.emb = (g s).emb) :
    Emb (Exec.modify f) (Exec.modify g) id := fun s => by
  rw [Exec.modify_run, Exec.modify_run, h s]
  rfl

theorem emb_navReq (s : St k X K) : navReqF s.emb = (navReq s).emb := rfl

theorem validate_emb (q : Req k X K) {r : RespF K} (hr : r.Ordinary) :
    validateF q.emb r = validate q r.plain := by
  have hp : ∀ nadir : Vec k K, validatePrefF nadir r = validatePref nadir r.plain := by
    intro nadir
    unfold validatePrefF validatePref
    cases hl : r.ref with
    | none => simp only [RespF.plain, hl, Option.bind_none]; cases r.classes <;> rfl
    | some l =>
      obtain ⟨q, rfl⟩ := hr.ref l hl
      simp only [RespF.plain, hl, Option.bind_some, finite_num]
      cases r.classes
      · exact validateRefF_num _ _
      · rfl
  cases q with
  | initial lo hi sols =>
    show validateInitialF hi r = validateInitial hi r.plain
    unfold validateInitialF validateInitial
    cases hl : r.ref with
    | none =>
      cases hp : r.preferred with
      | none => simp [RespF.plain, hl, hp]
      | some p =>
        obtain ⟨i, rfl⟩ := hr.preferred p hp
        simp only [RespF.plain, hl, hp, Option.bind_none, Option.bind_some, Pref.int]
        rfl
    | some l =>
      obtain ⟨q, rfl⟩ := hr.ref l hl
      cases hp : r.preferred with
      | none =>
        simp only [RespF.plain, hl, hp, Option.bind_none, Option.bind_some, finite_num, validateRefF_num]
        rfl
      | some p =>
        obtain ⟨i, rfl⟩ := hr.preferred p hp
        simp [RespF.plain, hl, hp, Pref.int, finite_num]
  | nav c lo hi =>
    show validateNavF hi r = validateNav hi r.plain
    unfold validateNavF validateNav
    rw [hp]
    rfl
  | solution a x f => rfl
  | stop a x f => rfl

theorem emb_storeRef (q : List K) (s : St k X K) :
    storeRef (q.map .num) s.emb = ({ s with ref := some q } : St k X K).emb := by
  simp only [storeRef, finite_num, St.emb]

theorem emb_setRef {r : RespF K} (hr : r.Ordinary) :
    Emb (setRefF r : Exec (StF k X K) Unit) (setRef r.plain) id := by
  unfold setRefF setRef
  cases hl : r.ref with
  | some l =>
    obtain ⟨q, rfl⟩ := hr.ref l hl
    simp only [RespF.plain, hl, Option.bind_some, finite_num]
    exact emb_modify (emb_storeRef q)
  | none =>
    simp only [RespF.plain, hl, Option.bind_none]
    cases hc : r.classes with
    | none => exact emb_pure () id
    | some cs =>
      refine emb_get.bind fun s => ?_
      refine Emb.bind (g := id) (emb_lift ?_) fun l => emb_modify fun s => rfl
      simp only [St.emb]
      cases mapClasses s.ideal s.nadir s.cur 0 cs <;> rfl

theorem emb_step (orc : OracleF k D K) (a : K) :
    Emb (stepF orc a : Exec (StF k X K) _) (step orc.toOracle a) Req.emb := by
  intro s
  have := (emb_onBase (step orc.toOracle a)).bind (f := fun q => (pure ⟨q, none⟩ : Exec (StF k X K) (ReqF k X K)))
    (f' := fun q => pure q) (h := Req.emb) (fun q => emb_pure q Req.emb) s
  have h2 : (step orc.toOracle a >>= fun q => (pure q : Exec (St k X K) (Req k X K))) s =
      step orc.toOracle a s := by
    show Exec.bind _ _ s = _
    unfold Exec.bind
    rcases step orc.toOracle a s with ⟨t, _ | q⟩ <;> rfl
  rw [h2] at this
  exact this

theorem emb_show (P : Prob k X D K) (orc : OracleF k D K) :
    Emb (handleShowF P orc : Exec (StF k X K) _) (handleShow P orc.toOracle) Req.emb := by
  intro s
  have := (emb_onBase (handleShow P orc.toOracle)).bind
    (f := fun q => (pure ⟨q, none⟩ : Exec (StF k X K) (ReqF k X K)))
    (f' := fun q => pure q) (h := Req.emb) (fun q => emb_pure q Req.emb) s
  have h2 : (handleShow P orc.toOracle >>= fun q => (pure q : Exec (St k X K) (Req k X K))) s =
      handleShow P orc.toOracle s := by
    show Exec.bind _ _ s = _
    unfold Exec.bind
    rcases handleShow P orc.toOracle s with ⟨t, _ | q⟩ <;> rfl
  rw [h2] at this
  exact this

theorem emb_nav (P : Prob k X D K) {r : RespF K} (hr : r.Ordinary) (orc : OracleF k D K) :
    Emb (handleNavF P (some r) orc) (handleNav P (some r.plain) orc.toOracle) Req.emb := by
  unfold handleNavF handleNav
  simp only [Option.getD_some]
  by_cases hs : r.showSolution = some true
  · rw [if_pos hs, if_pos (show r.plain.showSolution = some true from hs)]
    exact emb_show P orc
  · rw [if_neg hs, if_neg (show ¬ r.plain.showSolution = some true from hs)]
    exact (emb_onBase _).bind fun _ => (emb_onBase _).bind fun a => (emb_setRef hr).bind fun _ => emb_step orc a

theorem emb_start (P : Prob k X D K) {r : RespF K} (hr : r.Ordinary) (orc : OracleF k D K) :
    Emb (startingPointF P r orc : Exec (StF k X K) _) (startingPoint P r.plain orc.toOracle) Sum.inl := by
  unfold startingPointF startingPoint
  cases hl : r.ref with
  | some l =>
    obtain ⟨q, rfl⟩ := hr.ref l hl
    simp only [RespF.plain, hl, Option.bind_some, finite_num]
    refine (emb_modify (emb_storeRef q)).bind fun _ => ?_
    refine Emb.bind (g := id) (emb_lift ?_) fun d => emb_pure _ _
    cases orc.asf q <;> rfl
  | none =>
    simp only [RespF.plain, hl, Option.bind_none]
    cases hp : r.preferred with
    | none => exact emb_raise _ _
    | some p =>
      obtain ⟨i, rfl⟩ := hr.preferred p hp
      simp only [Option.bind_some, Pref.int]
      intro s
      simp only [Exec.get_bind, Exec.lift_run, St.emb, pick]
      cases hq : pyGet s.sols i with
      | error e => rfl
      | ok p => rfl

theorem emb_initial (P : Prob k X D K) {r : RespF K} (hr : r.Ordinary) (orc : OracleF k D K) :
    Emb (handleInitialF P r orc) (handleInitial P r.plain orc.toOracle) Req.emb := by
  unfold handleInitialF handleInitial
  refine (emb_start P hr orc).bind fun c => ?_
  refine (emb_modify (fun s => rfl)).bind fun _ => ?_
  show Emb _ (match r.speed with | none => _ | some v => _) _
  cases r.speed with
  | none => exact emb_raise _ _
  | some v =>
    refine Emb.bind (g := id) (emb_lift ?_) fun a => ?_
    · cases (calcSpeed v : Except Err K) <;> rfl
    · exact (emb_modify fun s => rfl).bind fun _ => emb_get.bind fun s => emb_pure _ _

theorem emb_solution (r : Option (RespF K)) (orc : OracleF k D K) :
    Emb (handleSolutionF r orc : Exec (StF k X K) _) (handleSolution (r.map RespF.plain) orc.toOracle)
      Req.emb := by
  intro s
  have := (emb_onBase (handleSolution (r.map RespF.plain) orc.toOracle)).bind
    (f := fun q => (Exec.get >>= fun s => pure ⟨q, s.stack⟩ : Exec (StF k X K) (ReqF k X K)))
    (f' := fun q => pure q) (h := Req.emb) (fun q _ => rfl) s
  have h2 : (handleSolution (r.map RespF.plain) orc.toOracle >>=
      fun q => (pure q : Exec (St k X K) (Req k X K))) s = handleSolution (r.map RespF.plain) orc.toOracle s := by
    show Exec.bind _ _ s = _
    unfold Exec.bind
    rcases handleSolution (r.map RespF.plain) orc.toOracle s with ⟨t, _ | q⟩ <;> rfl
  rw [h2] at this
  exact this

theorem emb_iterate (P : Prob k X D K) (q : Req k X K) {r : RespF K} (hr : r.Ordinary) (orc : OracleF k D K) :
    Emb (iterateF P q.emb (some r) orc) (iterate P q (some r.plain) orc.toOracle) Req.emb := by
  cases q with
  | initial lo hi sols => exact emb_initial P hr orc
  | nav c lo hi => exact emb_nav P hr orc
  | solution a x f => exact emb_solution (some r) orc
  | stop a x f => exact fun _ => rfl

theorem emb_iterate_none (P : Prob k X D K) (q : Req k X K) (orc : OracleF k D K) :
    Emb (iterateF P q.emb none orc) (iterate P q none orc.toOracle) Req.emb := by
  cases q with
  | initial lo hi sols => exact emb_raise _ _
  | nav c lo hi => exact emb_nav P (r := {}) ⟨by simp, by simp⟩ orc
  | solution a x f => exact emb_solution none orc
  | stop a x f => exact fun _ => rfl

/-- **C153, C154** (ordinary responses). On ordinary responses the extended program is the program that the
other theorems are about. -/
theorem C153_ordinary_partial (P : Prob k X D K) (s : St k X K) (q : Req k X K) (r : Option (RespF K))
    (orc : OracleF k D K) (hr : ∀ x, r = some x → x.Ordinary) :
    answerF P s.emb q.emb r orc =
      ((answer P s q (r.map RespF.plain) orc.toOracle).1.emb,
        (answer P s q (r.map RespF.plain) orc.toOracle).2.map Req.emb) := by
  unfold answerF answer
  cases r with
  | none => exact emb_iterate_none P q orc s
  | some r =>
    simp only [Option.map_some, validate_emb q (hr r rfl)]
    cases validate q r.plain with
    | error e => rfl
    | ok u => exact emb_iterate P q (hr r rfl) orc s

/-- The external code of the example; the minimizers find nothing for unusual points. -/
def exOrcF : OracleF 2 ℚ ℚ where
  toOracle := exOrc
  asfF := fun _ => .error .valueError
  projectF := fun _ => .error .valueError

/-- An ordinary response: navigate towards the middle. -/
def exRefF : RespF ℚ := { ref := some [.num (1/2), .num (1/2)] }

theorem exRefF_ordinary : exRefF.Ordinary :=
  ⟨fun l hl => by cases hl; exact ⟨[1/2, 1/2], rfl⟩, fun p hp => by cases hp⟩

example : answerF exProb exS1.emb exR1.emb (some exRefF) exOrcF = (exS2.emb, .ok exR2.emb) := by
  rw [C153_ordinary_partial exProb exS1 exR1 (some exRefF) exOrcF fun x hx => by cases hx; exact exRefF_ordinary]
  have : answer exProb exS1 exR1 ((some exRefF).map RespF.plain) exOrcF.toOracle = (exS2, .ok exR2) := ex_step2
  rw [this]
  rfl

/-! ### Reference points with infinite or undefined components -/

/-- The accepted reference points: one entry per objective, and not every entry is worse than the nadir
(an undefined entry is not worse). -/
def GoodRefF (nadir : Vec k K) (l : List (Fl K)) : Prop :=
  l.length = k ∧ ¬ ∀ i : Fin k, l[i.val]? = some .pinf ∨ ∃ x, l[i.val]? = some (.num x) ∧ nadir i < x

theorem validateRefF_iff (nadir : Vec k K) (l : List (Fl K)) :
    validateRefF nadir l = .ok () ↔ GoodRefF nadir l := by
  have key : l.length = k → ∀ i : Fin k, (Rpm.flLess (.num (nadir i)) ((l[i.val]?).getD .nan) = true ↔
      (l[i.val]? = some .pinf ∨ ∃ x, l[i.val]? = some (.num x) ∧ nadir i < x)) := by
    intro hk i
    have : i.val < l.length := by omega
    rw [List.getElem?_eq_getElem this]
    cases hx : l[i.val] <;> simp [Rpm.flLess]
  unfold validateRefF GoodRefF
  by_cases hk : l.length = k
  · simp only [hk, ne_eq, not_true_eq_false, if_false, true_and]
    rw [← forall_congr' (key hk)]
    by_cases h : ∀ i : Fin k, Rpm.flLess (.num (nadir i)) ((l[i.val]?).getD .nan) = true
    · rw [if_pos h]; simp [h]
    · rw [if_neg h]; simp only [h, not_false_eq_true]
  · simp [hk]

/-- **C153** (which are accepted). A navigation response that only has a reference point is accepted exactly
if the point has one entry per objective and not every entry is worse than the nadir; undefined entries are
not worse. -/
theorem C153_accepted (q : Option (Cur K)) (lo hi : Vec k K) (c : Option (Stack k K)) (l : List (Fl K)) :
    validateF (⟨.nav q lo hi, c⟩ : ReqF k X K) { ref := some l } = .ok () ↔ GoodRefF hi l := by
  rw [← validateRefF_iff]
  rfl

example : validateF (⟨.nav none ![0, 0] ![1, 1], none⟩ : ReqF 2 ℚ ℚ) { ref := some [.nan, .pinf] } = .ok () :=
  (C153_accepted _ _ _ _ _).2 ⟨rfl, fun h => by simpa using h 0⟩

example : validateF (⟨.nav none ![0, 0] ![1, 1], none⟩ : ReqF 2 ℚ ℚ) { ref := some [.num 2, .pinf] } ≠ .ok () :=
  fun h => ((C153_accepted _ _ _ _ _).1 h).2 fun i => by
    fin_cases i
    · exact .inr ⟨2, rfl, by simp⟩
    · exact .inl rfl

/-- What `_reference_point = l` leaves behind. -/
theorem storeRef_special {l : List (Fl K)} (h : HasSpecial l) (s : StF k X K) :
    storeRef l s = { s with bad := some (.special l) } := by
  simp only [storeRef, finite_none h]

/-- A step with an unusual reference point raises. -/
theorem stepF_bad (orc : OracleF k D K) (a : K) {s : StF k X K} (h : s.bad.isSome) :
    ∃ e, (e = .valueError ∨ e = .typeError) ∧ stepF orc a s = (s, .error e) := by
  obtain ⟨b, hb⟩ := Option.isSome_iff_exists.1 h
  unfold stepF
  simp only [Exec.get_bind, hb]
  cases hs : s.stack with
  | some c => exact ⟨.valueError, .inl rfl, rfl⟩
  | none =>
    refine ⟨_, ?_, rfl⟩
    unfold badStep
    split
    · split
      · split
        · exact .inr rfl
        · exact .inl rfl
      · exact .inl rfl
    · exact .inr rfl

/-- Setting the speed and its sign changes nothing but the speed. -/
theorem setSpeed_frame (r : Resp K) (s : StF k X K) :
    ∃ v, (onBase (setSpeed r) s).1 = { s with base := { s.base with speed := v } } := by
  obtain ⟨v, hv⟩ := setSpeed_run r s.base
  exact ⟨v, by simp only [onBase, hv]⟩

theorem setSign_frame (r : Resp K) (s : StF k X K) :
    ∃ v, (onBase (setSign r) s).1 = { s with base := { s.base with speed := v } } := by
  simp only [onBase, setSign, Exec.get_bind]
  cases hv : s.base.speed with
  | none => exact ⟨none, by simp [← hv]⟩
  | some a => exact ⟨_, rfl⟩

theorem setSpeed_error {r : Resp K} {s : St k X K} {e : Err} (h : (setSpeed r s).2 = .error e) :
    e = .typeError := by
  unfold setSpeed at h
  cases hv : r.speed with
  | none => simp [hv] at h
  | some v =>
    simp only [hv] at h
    cases v <;> simp [calcSpeed] at h <;> exact h.symm

theorem setSign_error {r : Resp K} {s : St k X K} {e : Err} (h : (setSign r s).2 = .error e) :
    e = .typeError := by
  unfold setSign at h
  simp only [Exec.get_bind] at h
  cases hv : s.speed with
  | none => simp [hv] at h; exact h.symm
  | some v => simp [hv] at h

/-- Where the handling of a navigation response that does not ask for a solution can go. -/
theorem handleNavF_cases (P : Prob k X D K) {r : RespF K} (orc : OracleF k D K) (s : StF k X K)
    (hs : r.showSolution ≠ some true) :
    (∃ v, handleNavF P (some r) orc s = ({ s with base := { s.base with speed := v } }, .error .typeError)) ∨
    ∃ v a, handleNavF P (some r) orc s =
      (setRefF r >>= fun _ => stepF orc a) { s with base := { s.base with speed := v } } := by
  unfold handleNavF
  simp only [Option.getD_some]
  rw [if_neg hs]
  obtain ⟨v, hv⟩ := setSpeed_frame r.plain s
  show (∃ v, Exec.bind _ _ s = _) ∨ ∃ v a, Exec.bind _ _ s = _
  unfold Exec.bind
  cases h1 : (onBase (setSpeed r.plain) s).2 with
  | error e =>
    have := setSpeed_error (show (setSpeed r.plain s.base).2 = .error e from h1)
    subst this
    exact .inl ⟨v, by simp only [hv]⟩
  | ok u =>
    simp only [hv]
    obtain ⟨w, hw⟩ := setSign_frame r.plain { s with base := { s.base with speed := v } }
    show (∃ v, Exec.bind _ _ _ = _) ∨ ∃ v a, Exec.bind _ _ _ = _
    unfold Exec.bind
    cases h2 : (onBase (setSign r.plain) { s with base := { s.base with speed := v } }).2 with
    | error e =>
      have := setSign_error (show (setSign r.plain _).2 = .error e from h2)
      subst this
      exact .inl ⟨w, by simp only [hw]⟩
    | ok a => exact .inr ⟨w, a, by simp only [hw]⟩

theorem answerF_nav (P : Prob k X D K) (s : StF k X K) {q : ReqF k X K} (hq : q.IsNav) (r : RespF K)
    (orc : OracleF k D K) :
    (∃ e, answerF P s q (some r) orc = (s, .error e)) ∨
      answerF P s q (some r) orc = handleNavF P (some r) orc s := by
  obtain ⟨c, lo, hi, hq⟩ := hq
  unfold answerF
  simp only
  cases hv : validateF q r with
  | error e => exact .inl ⟨e, rfl⟩
  | ok u => exact .inr (by simp only [iterateF, hq])

theorem answerF_nav_none (P : Prob k X D K) (s : StF k X K) {q : ReqF k X K} (hq : q.IsNav)
    (orc : OracleF k D K) : answerF P s q none orc = handleNavF P (some {}) orc s := by
  obtain ⟨c, lo, hi, hq⟩ := hq
  simp only [answerF, iterateF, hq]
  rfl

/-- **C153 fails** (accepted, then an exception). Every accepted reference point with an infinite or undefined
component makes the navigation raise `ValueError` or `TypeError` instead of the library's exception, at every
current solution, with every speed and in both directions; the current solution stays. -/
theorem C153_fails (P : Prob k X D K) (s : StF k X K) {q : ReqF k X K} (hq : q.IsNav) (r : RespF K)
    (orc : OracleF k D K) {l : List (Fl K)} (hl : r.ref = some l) (hsp : HasSpecial l)
    (hs : r.showSolution ≠ some true) (hv : validateF q r = .ok ()) :
    ∃ s' e, answerF P s q (some r) orc = (s', .error e) ∧ (e = .valueError ∨ e = .typeError) ∧
      s'.stack = s.stack ∧ s'.base.cur = s.base.cur := by
  have h : answerF P s q (some r) orc = handleNavF P (some r) orc s := by
    obtain ⟨c, lo, hi, hq⟩ := hq
    simp only [answerF, hv, iterateF, hq]
  rw [h]
  rcases handleNavF_cases P orc s hs with ⟨v, h⟩ | ⟨v, a, h⟩
  · exact ⟨_, _, h, .inr rfl, rfl, rfl⟩
  · rw [h]
    simp only [setRefF, hl, Exec.modify_bind, storeRef_special hsp]
    obtain ⟨e, he, h⟩ := stepF_bad orc a
      (s := { s with base := { s.base with speed := v }, bad := some (.special l) }) rfl
    exact ⟨_, e, h, he, rfl, rfl⟩

/-- A reached session of the example in which an undefined reference point is given. -/
def exNanF : RespF ℚ := { ref := some [.nan, .num 0] }

theorem exNanF_accepted : validateF exR1.emb exNanF = .ok () :=
  (C153_accepted _ _ _ _ _).2 ⟨rfl, fun h => by simpa using h 0⟩

theorem exR1_isNav : (exR1.emb).IsNav := ⟨_, _, _, rfl⟩

example : ∃ s' e, answerF exProb exS1.emb exR1.emb (some exNanF) exOrcF = (s', .error e) ∧
    (e = .valueError ∨ e = .typeError) ∧ s'.stack = none ∧ s'.base.cur = exS1.cur :=
  C153_fails exProb exS1.emb exR1_isNav exNanF exOrcF rfl (.inl (by simp)) (by simp [exNanF]) exNanF_accepted

/-- **C153** (it stays). While the stored reference point is unusual, every answer to a navigation request that
neither asks for a solution nor brings a new reference point or a classification raises, and the stored point
and the current solution stay as they are; going on without a response raises as well. -/
theorem C153_stuck (P : Prob k X D K) {s : StF k X K} (hb : s.bad.isSome) {q : ReqF k X K} (hq : q.IsNav)
    (r : Option (RespF K)) (orc : OracleF k D K)
    (hr : ∀ x, r = some x → x.showSolution ≠ some true ∧ x.ref = none ∧ x.classes = none) :
    ∃ s' e, answerF P s q r orc = (s', .error e) ∧ s'.bad = s.bad ∧ s'.stack = s.stack ∧
      s'.base.cur = s.base.cur := by
  have key : ∀ x : RespF K, x.showSolution ≠ some true → x.ref = none → x.classes = none →
      ∃ s' e, handleNavF P (some x) orc s = (s', .error e) ∧ s'.bad = s.bad ∧ s'.stack = s.stack ∧
      s'.base.cur = s.base.cur := by
    intro x h1 h2 h3
    rcases handleNavF_cases P orc s h1 with ⟨v, h⟩ | ⟨v, a, h⟩
    · exact ⟨_, _, h, rfl, rfl, rfl⟩
    · rw [h]
      simp only [setRefF, h2, h3, Exec.pure_bind_run]
      obtain ⟨e, _, h⟩ := stepF_bad orc a (s := { s with base := { s.base with speed := v } }) hb
      exact ⟨_, e, h, rfl, rfl, rfl⟩
  cases r with
  | none =>
    rw [answerF_nav_none P s hq]
    exact key {} (by simp) rfl rfl
  | some x =>
    obtain ⟨h1, h2, h3⟩ := hr x rfl
    rcases answerF_nav P s hq x orc with ⟨e, h⟩ | h
    · exact ⟨s, e, h, rfl, rfl, rfl⟩
    · rw [h]; exact key x h1 h2 h3

example : ∃ s' e, answerF exProb ⟨exS1, some (.special [.nan, .num 0]), none⟩ exR1.emb none exOrcF =
      (s', .error e) ∧ s'.bad = some (.special [.nan, .num 0]) ∧ s'.stack = none ∧ s'.base.cur = exS1.cur :=
  C153_stuck exProb rfl exR1_isNav none exOrcF (by simp)

/-- **C153** (a way out). Giving a reference point of numbers has the same effect as if the unusual one had
never been given, whenever that call succeeds. -/
theorem C153_recovers (P : Prob k X D K) (s : St k X K) (b : BadRef K) {c : Option (Cur K)} {lo hi : Vec k K}
    {r : RespF K} (orc : OracleF k D K) (hr : r.Ordinary) (hl : r.ref.isSome)
    (hs : r.showSolution ≠ some true) {s' : St k X K} {q' : Req k X K}
    (h : answer P s (.nav c lo hi) (some r.plain) orc.toOracle = (s', .ok q')) :
    answerF P ⟨s, some b, none⟩ ⟨.nav c lo hi, none⟩ (some r) orc = (s'.emb, .ok q'.emb) := by
  have h0 := C153_ordinary_partial P s (.nav c lo hi) (some r) orc (fun x hx => by cases hx; exact hr)
  simp only [Option.map_some, h] at h0
  rw [show (Except.ok q' : Except Err _).map Req.emb = .ok q'.emb from rfl] at h0
  obtain ⟨l, hl⟩ := Option.isSome_iff_exists.1 hl
  obtain ⟨w, rfl⟩ := hr.ref l hl
  unfold answerF at h0 ⊢
  simp only [Req.emb] at h0
  cases hv : validateF (⟨.nav c lo hi, none⟩ : ReqF k X K) r with
  | error e => simp only [hv] at h0; cases (Prod.mk.inj h0).2
  | ok u =>
    simp only [hv, iterateF] at h0 ⊢
    unfold handleNavF at h0 ⊢
    simp only [Option.getD_some] at h0 ⊢
    rw [if_neg hs] at h0 ⊢
    obtain ⟨s1, _, h1, h0⟩ := Exec.bind_ok.1 h0
    obtain ⟨s2, a, h2, h0⟩ := Exec.bind_ok.1 h0
    obtain ⟨v, hv1⟩ := setSpeed_frame r.plain s.emb
    rw [h1] at hv1
    simp only at hv1
    subst hv1
    obtain ⟨v2, hv2⟩ := setSign_frame r.plain { s.emb with base := { s.emb.base with speed := v } }
    rw [h2] at hv2
    simp only at hv2
    subst hv2
    refine Exec.bind_ok.2 ⟨⟨{ s with speed := v }, some b, none⟩, (), ?_, ?_⟩
    · have e1 := Prod.mk.inj h1
      simp only [onBase, St.emb, StF.mk.injEq, and_true] at e1 ⊢
      exact Prod.ext (by simp only [e1.1]) e1.2
    refine Exec.bind_ok.2 ⟨⟨{ s with speed := v2 }, some b, none⟩, a, ?_, ?_⟩
    · have e1 := Prod.mk.inj h2
      simp only [onBase, St.emb, StF.mk.injEq, and_true] at e1 ⊢
      exact Prod.ext (by simp only [e1.1]) e1.2
    · simp only [setRefF, hl, Exec.modify_bind, storeRef, finite_num] at h0 ⊢
      exact h0

example : answerF exProb ⟨exS1, some (.special [.nan, .num 0]), none⟩ exR1.emb (some exRefF) exOrcF =
    (exS2.emb, .ok exR2.emb) :=
  C153_recovers exProb exS1 _ exOrcF exRefF_ordinary rfl (by simp [exRefF]) ex_step2

/-! ### Preferred solutions that are not row numbers -/

/-- **C154** (nothing is checked). Any preferred solution is accepted with a valid speed. -/
theorem C154_accepted (lo hi : Vec k K) (sols : List (Vec k K)) (p : Pref) {v : PyVal} (hv : GoodSpeed v) :
    validateF (⟨.initial lo hi sols, none⟩ : ReqF k X K) { preferred := some p, speed := some v } = .ok () :=
  validateSpeed_iff.2 hv

/-- **C154** (row numbers, strings, floats). An integer in range starts at that row; one out of range, a float
or a string raises `IndexError` and changes nothing. -/
theorem C154_index_partial (P : Prob k X D K) (s : St k X K) (lo hi : Vec k K) (sols : List (Vec k K))
    (p : Pref) (orc : OracleF k D K) {z : Int} (hz : 1 ≤ z ∧ z ≤ 5) :
    (∀ (i : Nat) (row : Vec k K), p = .index i → s.sols[i]? = some row →
      answerF P s.emb ⟨.initial lo hi sols, none⟩ (some { preferred := some p, speed := some (.int z) }) orc =
        ({ s with cur := some (.vec (List.ofFn row)), speed := some ((z : K) / 5 / 10) : St k X K}.emb,
          .ok ⟨.nav (some (.vec (List.ofFn row))) s.ideal s.nadir, none⟩)) ∧
    ((p = .other ∨ ∃ i : Int, p = .index i ∧ (i < -(s.sols.length : Int) ∨ (s.sols.length : Int) ≤ i)) →
      answerF P s.emb ⟨.initial lo hi sols, none⟩ (some { preferred := some p, speed := some (.int z) }) orc =
        (s.emb, .error .indexError)) := by
  have hv := C154_accepted (X := X) lo hi sols p (.int z hz.1 hz.2)
  constructor
  · intro i row hp hrow
    subst hp
    have hg : pyGet s.sols (i : Int) = .ok row := pyGet_nat.2 hrow
    unfold answerF
    simp only [hv, iterateF, handleInitialF, startingPointF, St.emb, calcSpeed]
    show Exec.bind _ _ _ = _
    simp only [Exec.bind, Exec.get_bind, Exec.lift_run, pick, hg]
    rfl
  · intro hp
    have hg : pick s.sols p = .error .indexError := by
      rcases hp with rfl | ⟨i, rfl, hi⟩
      · rfl
      · have : pyGet s.sols i = .error .indexError := by
          rcases pyGet_cases s.sols i with ⟨j, hj, a, ha, _⟩ | ⟨_, h⟩
          · have hlt : j < s.sols.length := by
              by_contra hge
              rw [List.getElem?_eq_none (by omega)] at ha
              cases ha
            split at hj <;> omega
          · exact h
        simp only [pick, this]
    unfold answerF
    simp only [hv, iterateF, handleInitialF, startingPointF, St.emb]
    show Exec.bind _ _ _ = _
    simp only [Exec.bind, Exec.get_bind, Exec.lift_run, hg]

example : answerF exProb exS0.emb ⟨.initial ![0, 0] ![1, 1] exSols, none⟩
    (some { preferred := some (.index 1), speed := some (.int 3) }) exOrcF =
      ({ exS0 with cur := some (.vec (List.ofFn ![1, 0])), speed := some ((3 : Int) / 5 / 10) : St 2 ℚ ℚ}.emb,
        .ok ⟨.nav (some (.vec (List.ofFn ![1, 0]))) exS0.ideal exS0.nadir, none⟩) :=
  (C154_index_partial exProb exS0 ![0, 0] ![1, 1] exSols (.index 1) exOrcF (z := 3) ⟨by omega, by omega⟩).1 1
    ![1, 0] rfl rfl

example : answerF exProb exS0.emb ⟨.initial ![0, 0] ![1, 1] exSols, none⟩
    (some { preferred := some (.index 3), speed := some (.int 3) }) exOrcF = (exS0.emb, .error .indexError) :=
  (C154_index_partial exProb exS0 ![0, 0] ![1, 1] exSols (.index 3) exOrcF (z := 3) ⟨by omega, by omega⟩).2
    (.inr ⟨3, rfl, .inr (by decide +kernel)⟩)

/-- **C154 fails** (accepted). `None`, a Boolean or a list of row numbers is accepted, and the current solution
becomes an array with more than one axis. -/
theorem C154_fails (P : Prob k X D K) (s : St k X K) (lo hi : Vec k K) (sols : List (Vec k K))
    (orc : OracleF k D K) {z : Int} (hz : 1 ≤ z ∧ z ≤ 5) :
    (∀ b, ∃ s' q' c, answerF P s.emb ⟨.initial lo hi sols, none⟩
        (some { preferred := some (.axis b), speed := some (.int z) }) orc = (s', .ok q') ∧
      q'.IsNav ∧ q'.stack = some c ∧ s'.stack = some c ∧ c = if b then .whole s.sols else .empty) ∧
    (∀ is : List Nat, (∀ i ∈ is, i < s.sols.length) → ∃ s' q' c, answerF P s.emb ⟨.initial lo hi sols, none⟩
        (some { preferred := some (.rows (is.map Int.ofNat)), speed := some (.int z) }) orc = (s', .ok q') ∧
      q'.IsNav ∧ q'.stack = some (.rows c) ∧ s'.stack = some (.rows c) ∧
      c.map some = is.map fun i => s.sols[i]?) := by
  have hv := fun p => C154_accepted (X := X) lo hi sols p (.int z hz.1 hz.2)
  have key : ∀ p c, pick s.sols p = .ok (.inr c) → ∃ s' q', answerF P s.emb ⟨.initial lo hi sols, none⟩
        (some { preferred := some p, speed := some (.int z) }) orc = (s', .ok q') ∧
      q'.IsNav ∧ q'.stack = some c ∧ s'.stack = some c := by
    intro p c hp
    refine ⟨⟨{ s with speed := some ((z : K) / 5 / 10) }, none, some c⟩, ⟨.nav s.cur s.ideal s.nadir, some c⟩,
      ?_, ⟨_, _, _, rfl⟩, rfl, rfl⟩
    unfold answerF
    simp only [hv, iterateF, handleInitialF, startingPointF, St.emb, calcSpeed]
    show Exec.bind _ _ _ = _
    simp only [Exec.bind, Exec.get_bind, Exec.lift_run, hp]
    rfl
  constructor
  · intro b
    cases b
    · obtain ⟨s', q', h⟩ := key (.axis false) .empty rfl
      exact ⟨s', q', _, h.1, h.2.1, h.2.2.1, h.2.2.2, rfl⟩
    · obtain ⟨s', q', h⟩ := key (.axis true) (.whole s.sols) rfl
      exact ⟨s', q', _, h.1, h.2.1, h.2.2.1, h.2.2.2, rfl⟩
  · intro is his
    have : ∃ c, pickRows s.sols (is.map Int.ofNat) = .ok c ∧ c.map some = is.map fun i => s.sols[i]? := by
      induction is with
      | nil => exact ⟨[], rfl, rfl⟩
      | cons i is ih =>
        obtain ⟨c, h1, h2⟩ := ih fun j hj => his j (List.mem_cons_of_mem _ hj)
        have hi := his i List.mem_cons_self
        have hg : pyGet s.sols (Int.ofNat i) = .ok s.sols[i] := pyGet_nat.2 (List.getElem?_eq_getElem hi)
        refine ⟨s.sols[i] :: c, ?_, ?_⟩
        · simp only [List.map_cons, pickRows, hg, h1]
        · simp only [List.map_cons, h2, List.getElem?_eq_getElem hi]
    obtain ⟨c, h1, h2⟩ := this
    obtain ⟨s', q', h⟩ := key (.rows (is.map Int.ofNat)) (.rows c) (by simp only [pick, h1])
    exact ⟨s', q', c, h.1, h.2.1, h.2.2.1, h.2.2.2, h2⟩

example : ∃ s' q' c, answerF exProb exS0.emb ⟨.initial ![0, 0] ![1, 1] exSols, none⟩
      (some { preferred := some (.axis true), speed := some (.int 3) }) exOrcF = (s', .ok q') ∧
    q'.IsNav ∧ q'.stack = some c ∧ s'.stack = some c ∧ c = if true then .whole exS0.sols else .empty :=
  (C154_fails exProb exS0 ![0, 0] ![1, 1] exSols exOrcF (z := 3) ⟨by omega, by omega⟩).1 true

/-- A step from an array with more axes raises. -/
theorem stepF_stack (orc : OracleF k D K) (a : K) {s : StF k X K} (h : s.stack.isSome) :
    ∃ e, stepF orc a s = (s, .error e) := by
  obtain ⟨c, hc⟩ := Option.isSome_iff_exists.1 h
  unfold stepF
  simp only [Exec.get_bind, hc]
  cases s.bad <;> exact ⟨_, rfl⟩

theorem setRefF_stack (r : RespF K) (s : StF k X K) : (setRefF r s).1.stack = s.stack := by
  unfold setRefF
  cases hl : r.ref with
  | some l =>
    simp only [Exec.modify_run, storeRef]
    cases finite l <;> rfl
  | none =>
    cases hc : r.classes with
    | none => rfl
    | some cs =>
      simp only [Exec.get_bind]
      cases hs : s.stack with
      | none =>
        simp only
        cases mapClasses s.base.ideal s.base.nadir s.base.cur 0 cs <;> simp [hs]
      | some c =>
        simp only
        cases mapClassesF s.base.ideal s.base.nadir c 0 cs with
        | error e => simp [hs]
        | ok l =>
          simp only [Exec.lift_ok_bind, Exec.modify_run, storeClasses]
          split <;> exact hs

theorem handleNavF_stack (P : Prob k X D K) {s : StF k X K} (hs : s.stack.isSome) {r : RespF K}
    (orc : OracleF k D K) (hr : r.showSolution ≠ some true) :
    ∃ s' e, handleNavF P (some r) orc s = (s', .error e) ∧ s'.stack = s.stack := by
  rcases handleNavF_cases P orc s hr with ⟨v, h⟩ | ⟨v, a, h⟩
  · exact ⟨_, _, h, rfl⟩
  · rw [h]
    have hk := setRefF_stack r { s with base := { s.base with speed := v } }
    rcases hx : setRefF r { s with base := { s.base with speed := v } } with ⟨t, _ | u⟩
    · rename_i e
      rw [hx] at hk
      exact ⟨t, e, Exec.bind_error.2 (.inl hx), hk⟩
    · rw [hx] at hk
      simp only at hk
      obtain ⟨e, he⟩ := stepF_stack orc a (s := t) (by rw [hk]; exact hs)
      exact ⟨t, e, Exec.bind_error.2 (.inr ⟨t, u, hx, he⟩), hk⟩

/-- One answer keeps an array with more axes, unless it answers the first request. -/
theorem answerF_stack (P : Prob k X D K) {s : StF k X K} (hs : s.stack.isSome) {q : ReqF k X K}
    (hq : ¬ q.IsFirst) (r : Option (RespF K)) (orc : OracleF k D K) :
    (answerF P s q r orc).1.stack = s.stack := by
  have hshow : ∀ {s : StF k X K}, (handleShowF P orc s).1.stack = s.stack := by
    intro s
    unfold handleShowF
    simp only [Exec.get_bind]
    cases hs : s.stack with
    | none =>
      show (Exec.bind _ _ s).1.stack = _
      unfold Exec.bind
      simp only [onBase]
      cases (handleShow P orc.toOracle s.base).2 <;> exact hs
    | some p =>
      simp only
      cases orc.projectF p <;> simp [hs]
  have hnav : ∀ x : RespF K, (handleNavF P (some x) orc s).1.stack = s.stack := by
    intro x
    by_cases hx : x.showSolution = some true
    · simp only [handleNavF, Option.getD_some, hx, if_true]
      exact hshow
    · obtain ⟨s', e, h, hk⟩ := handleNavF_stack P hs orc hx
      rw [h]; exact hk
  have hsol : ∀ x, (handleSolutionF x orc s).1.stack = s.stack := by
    intro x
    unfold handleSolutionF
    show (Exec.bind _ _ s).1.stack = _
    unfold Exec.bind
    simp only [onBase]
    cases (handleSolution (x.map RespF.plain) orc.toOracle s.base).2 <;> rfl
  have hit : ∀ r : Option (RespF K), (iterateF P q r orc s).1.stack = s.stack := by
    intro r
    unfold iterateF
    cases he : q.req with
    | initial lo hi sols => exact absurd ⟨lo, hi, sols, he⟩ hq
    | nav c lo hi =>
      cases r with
      | none => exact hnav {}
      | some x => exact hnav x
    | solution a x f => exact hsol r
    | stop a x f => rfl
  unfold answerF
  cases r with
  | none => exact hit none
  | some x =>
    simp only
    cases validateF q x with
    | error e => rfl
    | ok u => exact hit (some x)

/-- Calls, one after the other; after an exception the session goes on with any of the requests. -/
def afterF (P : Prob k X D K) : StF k X K → List (ReqF k X K × Option (RespF K) × OracleF k D K) → StF k X K
  | s, [] => s
  | s, c :: cs => afterF P (answerF P s c.1 c.2.1 c.2.2).1 cs

/-- **C154** (no way out). From then on, whatever is answered to requests other than the first one, and however
often, every answer to a navigation request that does not ask for a solution raises: also with a new reference
point, a new speed or a classification, and after solutions were shown and rejected. -/
theorem C154_stuck (P : Prob k X D K) {s : StF k X K} (hs : s.stack.isSome)
    (cs : List (ReqF k X K × Option (RespF K) × OracleF k D K)) (hcs : ∀ c ∈ cs, ¬ c.1.IsFirst)
    {q : ReqF k X K} (hq : q.IsNav) (r : Option (RespF K)) (orc : OracleF k D K)
    (hr : ∀ x, r = some x → x.showSolution ≠ some true) :
    ∃ s' e, answerF P (afterF P s cs) q r orc = (s', .error e) := by
  induction cs generalizing s with
  | nil =>
    show ∃ s' e, answerF P s q r orc = (s', .error e)
    cases r with
    | none =>
      rw [answerF_nav_none P s hq]
      obtain ⟨s', e, h, _⟩ := handleNavF_stack P hs (r := {}) orc (by simp)
      exact ⟨s', e, h⟩
    | some x =>
      rcases answerF_nav P s hq x orc with ⟨e, h⟩ | h
      · exact ⟨s, e, h⟩
      · rw [h]
        obtain ⟨s', e, h, _⟩ := handleNavF_stack P hs orc (hr x rfl)
        exact ⟨s', e, h⟩
  | cons c cs ih =>
    exact ih (by rw [answerF_stack P hs (hcs c List.mem_cons_self)]; exact hs)
      fun c' hc => hcs c' (List.mem_cons_of_mem _ hc)

example : ∃ s' e, answerF exProb ⟨exS1, none, some (.rows [![0, 1]])⟩ exR1.emb (some exRefF) exOrcF =
    (s', .error e) :=
  C154_stuck exProb rfl [] (by simp) exR1_isNav (some exRefF) exOrcF fun x hx => by cases hx; simp [exRefF]

end Verif.ParetoNav
