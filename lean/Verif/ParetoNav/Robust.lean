import Verif.ParetoNav.Props2

set_option linter.unusedSectionVars false
set_option linter.unusedTactic false
set_option linter.unreachableTactic false

/-!
# Pareto Navigator: C95 (failed calls), C96 (starting over)
-/

namespace Verif.ParetoNav

open Exec

variable {K : Type} [Field K] [LinearOrder K] {k : Nat} {X D : Type}

/-! ### C95 -/

theorem setSpeed_run (r : Resp K) (s : St k X K) : ∃ a, (setSpeed r s).1 = { s with speed := a } := by
  unfold setSpeed
  cases r.speed with
  | none => exact ⟨s.speed, rfl⟩
  | some v =>
    dsimp only
    cases calcSpeed (K := K) v with
    | error e => exact ⟨s.speed, rfl⟩
    | ok a => exact ⟨some a, rfl⟩

theorem setRef_run (r : Resp K) (s : St k X K) : ∃ l, (setRef r s).1 = { s with ref := l } := by
  unfold setRef
  cases r.ref with
  | some l => exact ⟨some l, rfl⟩
  | none =>
    cases r.classes with
    | none => exact ⟨s.ref, rfl⟩
    | some cs =>
      dsimp only
      rw [get_bind]
      cases mapClasses s.ideal s.nadir s.cur 0 cs with
      | error e => exact ⟨s.ref, rfl⟩
      | ok l => exact ⟨some l, rfl⟩

theorem step_error {orc : Oracle k D K} {a : K} {s s' : St k X K} {e : Err}
    (h : step orc a s = (s', .error e)) : s' = s := by
  unfold step at h
  rw [get_bind] at h
  cases hm : moved k s.ref s.cur a with
  | error e => simp only [hm, lift_error_bind, Prod.mk.injEq] at h; exact h.1.symm
  | ok m =>
    simp only [hm, lift_ok_bind] at h
    cases hx : orc.lp s.lppA (List.ofFn m ++ s.b) s.ideal s.nadir with
    | error e => simp only [hx, lift_error_bind, Prod.mk.injEq] at h; exact h.1.symm
    | ok x => simp [hx] at h

/-- What a failing call may change, by the kind of request. -/
def MayChange (s s' : St k X K) (r : Option (Resp K)) : Req k X K → Prop
  | .initial .. => ∃ l c, s' = { s with ref := l, cur := c }
  | .nav .. => (∃ a l, s' = { s with speed := a, ref := l }) ∧
      ((∃ r', r = some r' ∧ r'.showSolution = some true) → s' = s)
  | .solution .. => s' = s ∨ ∃ f, s.poF = some f ∧ s' = { s with sols := s.sols ++ [f] }
  | .stop .. => False

/-- **C95** (Pareto Navigator). In every history, a call that raises never changes the box, the linear
problem or the last shown Pareto optimal solution. Beyond this: a refused response changes nothing, and so
does asking for a solution; navigating can only change the step length and the reference point; rejecting a
solution can only append that solution to the known ones; the initial request can only change the reference
point and the current solution. Missing from the full claim: these changes, see `C95_fails_direction` and
`C95_fails_added`. -/
theorem C95_failed_call_partial {P : Prob k X D K} {s s' : St k X K} {req : Req k X K} {r : Option (Resp K)}
    {orc : Oracle k D K} {e : Err} (ha : answer P s req r orc = (s', .error e)) :
    (∀ r', r = some r' → validate req r' = .error e → s' = s) ∧
    MayChange s s' r req := by
  have h := answer_step ha
  generalize hq : (Except.error e : Except Err (Req k X K)) = o at h
  cases h with
  | refused hv =>
    refine ⟨fun _ _ _ => rfl, ?_⟩
    cases req with
    | initial => exact ⟨s.ref, s.cur, rfl⟩
    | nav => exact ⟨⟨s.speed, s.ref, rfl⟩, fun _ => rfl⟩
    | solution => exact .inl rfl
    | stop => simp [validate] at hv
  | noAnswer => exact ⟨fun _ _ _ => rfl, s.ref, s.cur, rfl⟩
  | ended => simp at hq
  | @startFails lo hi l r s' e' hv hh _ =>
    refine ⟨?_, ?_⟩
    · intro r' hr' hv'
      cases hr'
      have : validateInitial hi r = .error e := hv'
      rw [hv] at this
      simp at this
    · show ∃ l c, s' = { s with ref := l, cur := c }
      unfold handleInitial at hh
      rcases bind_error.1 hh with hh | ⟨s1, p, h1, hh⟩
      · unfold startingPoint at hh
        cases hr : r.ref with
        | some l =>
          simp only [hr, modify_bind] at hh
          rcases bind_error.1 hh with hh | ⟨s2, d, h2, hh⟩
          · simp only [lift_run, Prod.mk.injEq] at hh
            exact ⟨some l, s.cur, hh.1.symm⟩
          · simp at hh
        | none =>
          simp only [hr] at hh
          cases hp : r.preferred with
          | none =>
            simp only [hp, raise_run, Prod.mk.injEq] at hh
            exact ⟨s.ref, s.cur, hh.1.symm⟩
          | some i =>
            simp only [hp, get_bind] at hh
            rcases bind_error.1 hh with hh | ⟨s2, d, h2, hh⟩
            · simp only [lift_run, Prod.mk.injEq] at hh
              exact ⟨s.ref, s.cur, hh.1.symm⟩
            · simp at hh
      · have hs1 : ∃ l, s1 = { s with ref := l } := by
          unfold startingPoint at h1
          cases hr : r.ref with
          | some l =>
            simp only [hr, modify_bind] at h1
            obtain ⟨s2, d, h2, h1⟩ := bind_ok.1 h1
            simp only [lift_run, Prod.mk.injEq, pure_run] at h2 h1
            exact ⟨some l, by rw [← h1.1, ← h2.1]⟩
          | none =>
            simp only [hr] at h1
            cases hp : r.preferred with
            | none => simp [hp] at h1
            | some i =>
              simp only [hp, get_bind] at h1
              obtain ⟨s2, d, h2, h1⟩ := bind_ok.1 h1
              simp only [lift_run, Prod.mk.injEq, pure_run] at h2 h1
              exact ⟨s.ref, by rw [← h1.1, ← h2.1]⟩
        obtain ⟨l, rfl⟩ := hs1
        rw [modify_bind] at hh
        cases hsp : r.speed with
        | none =>
          simp only [hsp, raise_run, Prod.mk.injEq] at hh
          exact ⟨l, some p, hh.1.symm⟩
        | some v =>
          simp only [hsp] at hh
          rcases bind_error.1 hh with hh | ⟨s2, d, h2, hh⟩
          · simp only [lift_run, Prod.mk.injEq] at hh
            exact ⟨l, some p, hh.1.symm⟩
          · simp at hh
  | started => simp at hq
  | showFails => exact ⟨fun _ _ _ => rfl, ⟨s.speed, s.ref, rfl⟩, fun _ => rfl⟩
  | showed => simp at hq
  | @moveFails c lo hi r s' e' hn hh _ =>
    have h2 : ∃ a l, s' = { s with speed := a, ref := l } := by
      unfold handleNav at hh
      simp only [if_neg hn] at hh
      generalize r.getD {} = r at hh
      obtain ⟨a1, e1⟩ := setSpeed_run r s
      rcases bind_error.1 hh with hh | ⟨s1, u, h1, hh⟩
      · rw [hh] at e1; exact ⟨a1, s.ref, e1⟩
      · rw [h1] at e1
        dsimp only at e1
        subst e1
        rcases setSign_cases r { s with speed := a1 } with ⟨_, hc⟩ | ⟨a2, _, hc⟩
        · rw [Exec.bind_error] at hh
          rcases hh with hh | ⟨s2, u2, h2, hh⟩
          · rw [hc] at hh
            simp only [Prod.mk.injEq] at hh
            exact ⟨a1, s.ref, hh.1.symm⟩
          · rw [hc] at h2; simp at h2
        · rw [Exec.bind_error] at hh
          rcases hh with hh | ⟨s2, u2, h2, hh⟩
          · rw [hc] at hh; simp at hh
          · rw [hc] at h2
            simp only [Prod.mk.injEq] at h2
            obtain ⟨rfl, _⟩ := h2
            generalize (if r.stepBack = some true then a2 * (-1) else |a2|) = a3 at hh
            obtain ⟨l, e3⟩ := setRef_run r { s with speed := some a3 }
            rcases bind_error.1 hh with hh | ⟨s3, u3, h3, hh⟩
            · rw [hh] at e3; exact ⟨some a3, l, e3⟩
            · rw [h3] at e3
              dsimp only at e3
              subst e3
              exact ⟨some a3, l, step_error hh⟩
    refine ⟨?_, h2, ?_⟩
    · intro r' hr' hv'
      subst hr'
      unfold answer at ha
      simp only [hv', Prod.mk.injEq] at ha
      exact ha.1.symm
    · rintro ⟨r', rfl, h⟩
      exact absurd h hn
  | moved => simp at hq
  | satisfied => simp at hq
  | addNothing => exact ⟨fun _ _ _ => rfl, .inl rfl⟩
  | @addFails c x f r f' e' _ hf _ =>
    refine ⟨?_, .inr ⟨f', hf, rfl⟩⟩
    intro r' _ hv
    simp [validate] at hv
  | added => simp at hq

/-- External code that fails. -/
def exOrcFail : Oracle 2 ℚ ℚ where
  asf := fun _ => .error .valueError
  project := fun _ => .error .valueError
  hull := fun _ => .error .valueError
  lp := fun _ _ _ _ => .error .valueError

/-- A step back for which the linear problem fails. -/
def exF3 : St 2 ℚ ℚ := (answer exProb exS2 exR2 (some exBack) exOrcFail).1
theorem ex_fail3 : answer exProb exS2 exR2 (some exBack) exOrcFail = (exF3, .error .valueError) :=
  eq_of_beq (by decide +kernel)

example := C95_failed_call_partial ex_fail3

/-- **C95 fails** (Pareto Navigator), direction. From the same history, stepping back moves to `(1/180, ...)`
before and to `(19/200, ...)`, forward, after a call that failed; here the current solution is
`(1/20, 19/20)` and the navigation came from `(0, 1)`. -/
theorem C95_fails_direction : ∃ (s s' t u : St 2 ℚ ℚ) (iss : List (Req 2 ℚ ℚ)) (req : Req 2 ℚ ℚ) (r : Resp ℚ),
    Reached exProb (some exSols) (fun _ => True) s iss ∧ req ∈ iss ∧
    s.cur = some (.vec [1/20, 19/20]) ∧
    answer exProb s req (some r) exOrcFail = (s', .error .valueError) ∧
    answer exProb s req (some r) exOrc = (t, .ok (.nav (some (.vec [1/200, 199/200])) ![0, 0] ![1, 1])) ∧
    answer exProb s' req (some r) exOrc = (u, .ok (.nav (some (.vec [19/200, 181/200])) ![0, 0] ![1, 1])) :=
  ⟨exS2, exF3, exS3, (answer exProb exF3 exR2 (some exBack) exOrc).1, _, exR2, exBack,
    ex_reached2 (G := fun _ => True) trivial, List.mem_cons_self, eq_of_beq (by decide +kernel), ex_fail3,
    eq_of_beq (by decide +kernel), eq_of_beq (by decide +kernel)⟩

/-- Rejecting a solution when Qhull fails. -/
def exF6 : St 2 ℚ ℚ := (answer exProb exS5 exR5 none exOrcFail).1
theorem ex_fail6 : answer exProb exS5 exR5 none exOrcFail = (exF6, .error .valueError) :=
  eq_of_beq (by decide +kernel)

/-- **C95 fails** (Pareto Navigator), known solutions. After a failed rejection `start` shows a further
solution. -/
theorem C95_fails_added : ∃ (s s' : St 2 ℚ ℚ) (iss : List (Req 2 ℚ ℚ)) (req : Req 2 ℚ ℚ) (f lo hi : Vec 2 ℚ),
    Reached exProb (some exSols) (fun _ => True) s iss ∧ req ∈ iss ∧
    answer exProb s req none exOrcFail = (s', .error .valueError) ∧
    start s = .initial lo hi exSols ∧ start s' = .initial lo hi (exSols ++ [f]) :=
  ⟨exS5, exF6, _, exR5, (exS5.poF).getD ![0, 0], ![0, 0], ![1, 1], ex_reached5 (G := fun _ => True) trivial,
    List.mem_cons_self, ex_fail6, eq_of_beq (by decide +kernel), eq_of_beq (by decide +kernel)⟩

/-! ### C96 -/

/-- The request that is answered next: the new one, if there is one. -/
def newest (req : Req k X K) : Except Err (Req k X K) → Req k X K
  | .ok q => q
  | .error _ => req

/-- What the decision maker sees who always answers the newest request, with or without a response; after
an exception the same request is answered again. -/
def play (P : Prob k X D K) (s : St k X K) (req : Req k X K) :
    List (Option (Resp K) × Oracle k D K) → List (Except Err (Req k X K))
  | [] => []
  | (r, orc) :: rest =>
    (answer P s req r orc).2 :: play P (answer P s req r orc).1 (newest req (answer P s req r orc).2) rest

/-- The same approximation: solutions, box and linear problem. -/
def Fixed (s t : St k X K) : Prop :=
  t = { s with speed := t.speed, ref := t.ref, cur := t.cur, poX := t.poX, poF := t.poF }

/-- The attributes a request of this kind depends on agree. -/
def Agree (s t : St k X K) : Req k X K → Prop
  | .initial .. => Fixed s t
  | .nav .. => Fixed s t ∧ s.cur = t.cur ∧ s.speed = t.speed
  | .solution .. => Fixed s t ∧ s.cur = t.cur ∧ s.speed = t.speed ∧ s.poX = t.poX ∧ s.poF = t.poF
  | .stop .. => True

theorem handleInitial_agree (P : Prob k X D K) (r : Resp K) (orc : Oracle k D K) {s t : St k X K}
    (h : Fixed s t) :
    (handleInitial P r orc s).2 = (handleInitial P r orc t).2 ∧
    Fixed (handleInitial P r orc s).1 (handleInitial P r orc t).1 ∧
    ((handleInitial P r orc s).1.ref = (handleInitial P r orc t).1.ref ∨
      r.ref = none ∧ (handleInitial P r orc s).1.ref = s.ref ∧ (handleInitial P r orc t).1.ref = t.ref) ∧
    (∀ q, (handleInitial P r orc s).2 = .ok q → (∃ c lo hi, q = .nav c lo hi) ∧
      (handleInitial P r orc s).1.cur = (handleInitial P r orc t).1.cur ∧
      (handleInitial P r orc s).1.speed = (handleInitial P r orc t).1.speed) := by
  obtain ⟨sp, rf, cu, px, pf, h⟩ : ∃ sp rf cu px pf, t =
    { s with speed := sp, ref := rf, cur := cu, poX := px, poF := pf } := ⟨_, _, _, _, _, h⟩
  subst h
  have hno : ∀ (e : Err) (q : Req k X K) {Q : Prop}, (Except.error e : Except Err (Req k X K)) = .ok q → Q := by
    intro e q Q h; cases h
  unfold handleInitial startingPoint
  cases hr : r.ref with
  | some l =>
    dsimp only
    simp only [Bind.bind, Exec.bind, Exec.modify, Exec.lift]
    cases orc.asf l with
    | error e => exact ⟨(by first | rfl | trivial), rfl, .inl (by first | rfl | trivial), fun q hq => hno _ _ hq⟩
    | ok d =>
      cases r.speed with
      | none => exact ⟨(by first | rfl | trivial), rfl, .inl (by first | rfl | trivial), fun q hq => hno _ _ hq⟩
      | some v =>
        cases hv : calcSpeed (K := K) v with
        | error e =>
          simp only [Pure.pure, Exec.bind, Exec.lift, hv]
          exact ⟨(by first | rfl | trivial), rfl, .inl (by first | rfl | trivial), fun q hq => hno _ _ hq⟩
        | ok a =>
          simp only [Pure.pure, Exec.bind, Exec.lift, hv]
          exact ⟨rfl, rfl, .inl (by first | rfl | trivial), fun q hq => ⟨⟨_, _, _, (Except.ok.inj hq).symm⟩, (by first | rfl | trivial), (by first | rfl | trivial)⟩⟩
  | none =>
    cases r.preferred with
    | none => exact ⟨(by first | rfl | trivial), rfl, .inr ⟨(by first | rfl | trivial), (by first | rfl | trivial), (by first | rfl | trivial)⟩, fun q hq => hno _ _ hq⟩
    | some i =>
      simp only [Bind.bind, Exec.bind, Exec.modify, Exec.lift, Exec.get]
      cases pyGet s.sols i with
      | error e => exact ⟨(by first | rfl | trivial), rfl, .inr ⟨(by first | rfl | trivial), (by first | rfl | trivial), (by first | rfl | trivial)⟩, fun q hq => hno _ _ hq⟩
      | ok d =>
        cases r.speed with
        | none => exact ⟨(by first | rfl | trivial), rfl, .inr ⟨(by first | rfl | trivial), (by first | rfl | trivial), (by first | rfl | trivial)⟩, fun q hq => hno _ _ hq⟩
        | some v =>
          cases hv : calcSpeed (K := K) v with
          | error e =>
            simp only [Pure.pure, Exec.bind, Exec.lift, hv]
            exact ⟨(by first | rfl | trivial), rfl, .inr ⟨(by first | rfl | trivial), (by first | rfl | trivial), (by first | rfl | trivial)⟩, fun q hq => hno _ _ hq⟩
          | ok a =>
            simp only [Pure.pure, Exec.bind, Exec.lift, hv]
            exact ⟨rfl, rfl, .inr ⟨(by first | rfl | trivial), (by first | rfl | trivial), (by first | rfl | trivial)⟩,
              fun q hq => ⟨⟨_, _, _, (Except.ok.inj hq).symm⟩, (by first | rfl | trivial), (by first | rfl | trivial)⟩⟩

/-- The same state with another last shown solution. -/
def other (px : Option X) (pf : Option (Vec k K)) (s : St k X K) : St k X K := { s with poX := px, poF := pf }

/-- The body does not depend on the last shown solution. -/
def Blind {α : Type} (x : Exec (St k X K) α) : Prop :=
  ∀ px pf s, x (other px pf s) = (other px pf (x s).1, (x s).2)

theorem Blind.bind {α β : Type} {x : Exec (St k X K) α} {y : α → Exec (St k X K) β} (hx : Blind x)
    (hy : ∀ a, Blind (y a)) : Blind (x >>= y) := by
  intro px pf s
  show Exec.bind x y _ = (other px pf (Exec.bind x y s).1, (Exec.bind x y s).2)
  unfold Exec.bind
  rw [hx px pf s]
  dsimp only
  cases (x s).2 with
  | error e => rfl
  | ok a => exact hy a px pf (x s).1

theorem blind_setSpeed (r : Resp K) : Blind (setSpeed r : Exec (St k X K) Unit) := by
  unfold setSpeed
  cases r.speed with
  | none => intro px pf s; rfl
  | some v => exact .bind (fun _ _ _ => rfl) fun a _ _ _ => rfl

theorem blind_setSign (r : Resp K) : Blind (setSign r : Exec (St k X K) K) := by
  intro px pf s
  unfold setSign
  rw [get_bind, get_bind]
  have : (other px pf s).speed = s.speed := rfl
  rw [this]
  cases s.speed <;> rfl

theorem blind_setRef (r : Resp K) : Blind (setRef r : Exec (St k X K) Unit) := by
  unfold setRef
  cases r.ref with
  | some l => intro px pf s; rfl
  | none =>
    cases r.classes with
    | none => intro px pf s; rfl
    | some cs =>
      intro px pf s
      dsimp only
      rw [get_bind, get_bind]
      have : mapClasses (other px pf s).ideal (other px pf s).nadir (other px pf s).cur 0 cs =
        mapClasses s.ideal s.nadir s.cur 0 cs := rfl
      rw [this]
      cases mapClasses s.ideal s.nadir s.cur 0 cs <;> rfl

theorem blind_step (orc : Oracle k D K) (a : K) : Blind (step orc a : Exec (St k X K) (Req k X K)) := by
  intro px pf s
  unfold step
  rw [get_bind, get_bind]
  have : moved k (other px pf s).ref (other px pf s).cur a = moved k s.ref s.cur a := rfl
  rw [this]
  cases moved k s.ref s.cur a with
  | error e => rfl
  | ok m =>
    simp only [lift_ok_bind]
    have : orc.lp (other px pf s).lppA (List.ofFn m ++ (other px pf s).b) (other px pf s).ideal (other px pf s).nadir =
      orc.lp s.lppA (List.ofFn m ++ s.b) s.ideal s.nadir := rfl
    rw [this]
    cases orc.lp s.lppA (List.ofFn m ++ s.b) s.ideal s.nadir <;> rfl

theorem blind_move (orc : Oracle k D K) (r : Resp K) :
    Blind (do
      setSpeed r
      let a ← setSign r
      setRef r
      step orc a : Exec (St k X K) (Req k X K)) :=
  (blind_setSpeed r).bind fun _ => (blind_setSign r).bind fun a => (blind_setRef r).bind fun _ => blind_step orc a

theorem move_shape {orc : Oracle k D K} {r : Resp K} {s s' : St k X K} {q : Req k X K}
    (h : (do
      setSpeed r
      let a ← setSign r
      setRef r
      step orc a : Exec (St k X K) (Req k X K)) s = (s', .ok q)) : ∃ c lo hi, q = .nav c lo hi := by
  obtain ⟨s1, a, _, h⟩ := bind_ok.1 h
  obtain ⟨s2, a, _, h⟩ := bind_ok.1 h
  obtain ⟨s3, a, _, h⟩ := bind_ok.1 h
  unfold step at h
  rw [get_bind] at h
  obtain ⟨s4, m, _, h⟩ := bind_ok.1 h
  obtain ⟨s5, x, _, h⟩ := bind_ok.1 h
  simp only [modify_bind, get_bind, pure_run, Prod.mk.injEq, Except.ok.injEq] at h
  exact ⟨_, _, _, h.2.symm⟩

theorem answer_eq (P : Prob k X D K) (req : Req k X K) (r : Option (Resp K)) (orc : Oracle k D K) :
    (∃ e, ∀ s, answer P s req r orc = (s, .error e)) ∨ ∀ s, answer P s req r orc = iterate P req r orc s := by
  cases r with
  | none => exact .inr fun _ => rfl
  | some r =>
    cases h : validate req r with
    | error e => exact .inl ⟨e, fun _ => by unfold answer; simp only [h]⟩
    | ok u => exact .inr fun _ => by unfold answer; simp only [h]

/-- Answering the same request in states that agree: the same result, and states that agree for the next
request. -/
theorem answer_agree {P : Prob k X D K} {s t : St k X K} {req : Req k X K} (h : Agree s t req)
    (hr : s.ref = t.ref) (r : Option (Resp K)) (orc : Oracle k D K) :
    (answer P s req r orc).2 = (answer P t req r orc).2 ∧
    Agree (answer P s req r orc).1 (answer P t req r orc).1 (newest req (answer P s req r orc).2) ∧
    (answer P s req r orc).1.ref = (answer P t req r orc).1.ref := by
  rcases answer_eq P req r orc with ⟨e, he⟩ | he
  · rw [he, he]
    exact ⟨rfl, h, hr⟩
  · rw [he, he]
    unfold iterate
    cases req with
    | stop c x f => exact ⟨rfl, h, hr⟩
    | initial lo hi l =>
      cases r with
      | none => exact ⟨rfl, h, hr⟩
      | some r =>
        dsimp only
        obtain ⟨h1, h2, h3, h4⟩ := handleInitial_agree P r orc h
        refine ⟨h1, ?_, ?_⟩
        · cases hq : (handleInitial P r orc s).2 with
          | error e => exact h2
          | ok q =>
            obtain ⟨⟨c, lo, hi, rfl⟩, h5, h6⟩ := h4 q hq
            exact ⟨h2, h5, h6⟩
        · rcases h3 with h3 | ⟨_, h3, h4⟩
          · exact h3
          · rw [h3, h4, hr]
    | nav c lo hi =>
      obtain ⟨h, hc, hs⟩ := h
      have ht : t = other t.poX t.poF s := by
        unfold Fixed at h
        rw [← hr, ← hc, ← hs] at h
        exact h
      generalize t.poX = px at ht
      generalize t.poF = pf at ht
      subst ht
      dsimp only
      unfold handleNav
      generalize r.getD {} = r
      by_cases hsh : r.showSolution = some true
      all_goals simp only [hsh, if_true, if_false]
      · unfold handleShow
        rw [get_bind, get_bind]
        have : (other px pf s).cur = s.cur := rfl
        rw [this]
        cases s.cur with
        | none => exact ⟨rfl, ⟨rfl, hc, hs⟩, hr⟩
        | some p =>
          dsimp only
          cases orc.project p with
          | error e => exact ⟨rfl, ⟨rfl, hc, hs⟩, hr⟩
          | ok d => exact ⟨rfl, ⟨rfl, rfl, rfl, rfl, rfl⟩, rfl⟩
      · have hb := blind_move orc r px pf s
        rw [hb]
        refine ⟨rfl, ?_, rfl⟩
        generalize hm : (do
            setSpeed r
            let a ← setSign r
            setRef r
            step orc a : Exec (St k X K) (Req k X K)) s = m
        obtain ⟨s1, o⟩ := m
        cases o with
        | error e => exact ⟨rfl, rfl, rfl⟩
        | ok q =>
          obtain ⟨c, lo, hi, rfl⟩ := move_shape hm
          exact ⟨rfl, rfl, rfl⟩
    | solution c x f =>
      obtain ⟨h, hc, hs, hx, hf⟩ := h
      have ht : t = s := by
        unfold Fixed at h
        rw [← hr, ← hc, ← hs, ← hx, ← hf] at h
        exact h
      subst ht
      refine ⟨rfl, ?_, rfl⟩
      dsimp only
      cases (handleSolution r orc t).2 with
      | error e => exact ⟨rfl, rfl, rfl, rfl, rfl⟩
      | ok q =>
        cases q with
        | initial => exact rfl
        | nav => exact ⟨rfl, rfl, rfl⟩
        | solution => exact ⟨rfl, rfl, rfl, rfl, rfl⟩
        | stop => trivial

theorem play_agree (P : Prob k X D K) (rs : List (Option (Resp K) × Oracle k D K)) :
    ∀ {s t : St k X K} {req : Req k X K}, Agree s t req → s.ref = t.ref → play P s req rs = play P t req rs := by
  induction rs with
  | nil => intros; rfl
  | cons p rest ih =>
    intro s t req h hr
    obtain ⟨r, orc⟩ := p
    obtain ⟨h1, h2, h3⟩ := answer_agree (P := P) h hr r orc
    simp only [play]
    rw [← h1]
    exact congrArg _ (ih h2 h3)

/-- Every possible history of the method constructed as `s0`: at any time `start` may be called, and any
request issued so far answered with any response or none; the external code behaves in any way; exceptions
included. -/
inductive Life (P : Prob k X D K) (s0 : St k X K) : St k X K → List (Req k X K) → Prop
  | init : Life P s0 s0 []
  | start {s iss} : Life P s0 s iss → Life P s0 s (start s :: iss)
  | next {s iss req r orc s' o} : Life P s0 s iss → req ∈ iss → answer P s req r orc = (s', o) →
      Life P s0 s' (extend o iss)

theorem answer_grows {P : Prob k X D K} {s s' : St k X K} {req : Req k X K} {r : Option (Resp K)}
    {orc : Oracle k D K} {o : Except Err (Req k X K)} (ha : answer P s req r orc = (s', o)) :
    Fixed s' s ∨ s.sols.length < s'.sols.length := by
  have hfr : ∀ {s' : St k X K}, Frame s s' → Fixed s' s := by
    rintro s' ⟨h1, h2, h3, h4, h5, h6, h7⟩
    unfold Fixed
    rw [h1, h2, h3, h4, h5]
  have h := answer_step ha
  cases h with
  | refused => exact .inl rfl
  | noAnswer => exact .inl rfl
  | ended => exact .inl rfl
  | startFails _ _ h => exact .inl (hfr h)
  | started => exact .inl rfl
  | showFails => exact .inl rfl
  | showed => exact .inl rfl
  | moveFails _ _ h => exact .inl (hfr h)
  | moved => exact .inl rfl
  | satisfied => exact .inl rfl
  | addNothing => exact .inl rfl
  | addFails => exact .inr (by simp)
  | added => exact .inr (by simp [addedSt])

theorem Fixed.trans {s t u : St k X K} (h : Fixed s t) (h' : Fixed t u) : Fixed s u := by
  unfold Fixed at *
  rw [h'] at *
  rw [h]

theorem Life.fixed {P : Prob k X D K} {s0 s : St k X K} {iss : List (Req k X K)} (h : Life P s0 s iss) :
    s0.sols.length ≤ s.sols.length ∧ (s.sols.length = s0.sols.length → Fixed s s0) := by
  induction h with
  | init => exact ⟨le_rfl, fun _ => rfl⟩
  | start _ ih => exact ih
  | @next s iss req r orc s' o _ _ ha ih =>
    rcases answer_grows ha with hf | hl
    · have hl : s.sols.length = s'.sols.length := by unfold Fixed at hf; rw [hf]
      exact ⟨hl ▸ ih.1, fun h => hf.trans (ih.2 (hl.trans h))⟩
    · exact ⟨by omega, fun h => by omega⟩

/-- **C96** (Pareto Navigator). In every history in which no rejected solution was added, `start` gives the
first request, and answering it starts over, but for the last reference point: whatever the decision maker
answers from then on, always answering the newest request, every request and every exception is the one a
newly constructed method gives that was told that reference point. Missing from the full claim: added solutions
stay, and the reference point is used if the navigation is restarted from a preferred solution and no
preferences are given, see `C96_fails_kept_solutions` and `C96_fails_old_reference`. -/
theorem C96_restart_partial {P : Prob k X D K} {supplied : Option (List (Vec k K))} {orc0 : Oracle k D K}
    {s0 s : St k X K} {iss : List (Req k X K)} (_hc : construct P supplied orc0 = .ok s0) (h : Life P s0 s iss)
    (hn : s.sols.length = s0.sols.length) (rs : List (Option (Resp K) × Oracle k D K)) :
    start s = start s0 ∧ play P s (start s) rs = play P { s0 with ref := s.ref } (start s0) rs := by
  have hf := h.fixed.2 hn
  have hst : start s = start s0 := by
    unfold Fixed at hf
    rw [hf]
    rfl
  refine ⟨hst, ?_⟩
  rw [hst]
  refine play_agree P rs ?_ rfl
  show Fixed s _
  unfold Fixed at hf ⊢
  rw [hf]

/-- **C96** (Pareto Navigator), restarting from a reference point: then the method behaves exactly as a newly
constructed one. -/
theorem C96_restart_reference {P : Prob k X D K} {supplied : Option (List (Vec k K))} {orc0 : Oracle k D K}
    {s0 s : St k X K} {iss : List (Req k X K)} (_hc : construct P supplied orc0 = .ok s0) (h : Life P s0 s iss)
    (hn : s.sols.length = s0.sols.length) {r : Resp K} {l : List K} (hl : r.ref = some l)
    (hv : validate (start s0) r = .ok ()) (orc : Oracle k D K) (rs : List (Option (Resp K) × Oracle k D K)) :
    play P s (start s) ((some r, orc) :: rs) = play P s0 (start s0) ((some r, orc) :: rs) := by
  have hf := h.fixed.2 hn
  have hst : start s = start s0 := by
    unfold Fixed at hf
    rw [hf]
    rfl
  rw [hst]
  obtain ⟨h1, h2, h3, h4⟩ := handleInitial_agree P r orc hf
  have e : ∀ s, answer P s (start s0) (some r) orc = handleInitial P r orc s := by
    intro s
    unfold answer
    simp only [hv]
    rfl
  simp only [play, e]
  rw [← h1]
  refine congrArg _ (play_agree P rs ?_ ?_)
  · cases hq : (handleInitial P r orc s).2 with
    | error e => exact h2
    | ok q =>
      obtain ⟨⟨c, lo, hi, rfl⟩, h5, h6⟩ := h4 q hq
      exact ⟨h2, h5, h6⟩
  · rcases h3 with h3 | ⟨h3, _⟩
    · exact h3
    · rw [hl] at h3; simp at h3

/-- **C96** (Pareto Navigator), restarting from a preferred solution and then giving a reference point: again
the method behaves exactly as a newly constructed one. -/
theorem C96_restart_preferred {P : Prob k X D K} {supplied : Option (List (Vec k K))} {orc0 : Oracle k D K}
    {s0 s s' : St k X K} {iss : List (Req k X K)} (_hc : construct P supplied orc0 = .ok s0) (h : Life P s0 s iss)
    (hn : s.sols.length = s0.sols.length) {r r2 : Resp K} {orc : Oracle k D K} {q : Req k X K}
    (ha : answer P s (start s) (some r) orc = (s', .ok q)) {l : List K} (hl : r2.ref = some l)
    (hsp : r2.speed = none) (hv : validate q r2 = .ok ()) (hsh : r2.showSolution ≠ some true)
    (orc2 : Oracle k D K) (rs : List (Option (Resp K) × Oracle k D K)) :
    play P s (start s) ((some r, orc) :: (some r2, orc2) :: rs) =
      play P s0 (start s0) ((some r, orc) :: (some r2, orc2) :: rs) := by
  have hf := h.fixed.2 hn
  have hst : start s = start s0 := by
    unfold Fixed at hf
    rw [hf]
    rfl
  rw [hst] at ha ⊢
  obtain ⟨h1, h2, h3, h4⟩ := handleInitial_agree P r orc hf
  have hv1 : validate (start s0) r = .ok () := by
    cases hv1 : validate (start s0) r with
    | ok u => rfl
    | error e => simp [answer, hv1] at ha
  have e : ∀ s, answer P s (start s0) (some r) orc = handleInitial P r orc s := by
    intro s
    unfold answer
    simp only [hv1]
    rfl
  have hspeed : ∃ a, s'.speed = some a := by
    have hS := answer_step ha
    generalize hq : Except.ok q = o at hS
    generalize hr' : some r = r' at hS
    have hs0 : start s0 = .initial s0.ideal s0.nadir s0.sols := rfl
    rw [hs0] at hS
    cases hS with
    | refused => simp at hq
    | noAnswer => simp at hq
    | startFails => simp at hq
    | started => exact ⟨_, rfl⟩
  rw [e] at ha
  simp only [play, e]
  rw [← h1]
  rw [ha] at h1 h2 h3 h4 ⊢
  dsimp only at h1 h2 h3 h4 ⊢
  obtain ⟨⟨c, lo, hi, rfl⟩, h5, h6⟩ := h4 q rfl
  generalize hT : handleInitial P r orc s0 = T at h1 h2 h3 h5 h6 ⊢
  obtain ⟨t, o⟩ := T
  dsimp only at h1 h2 h3 h5 h6 ⊢
  simp only [newest]
  have hmove : ∀ (u : St k X K) (a : K), u.speed = some a → answer P u (.nav c lo hi) (some r2) orc2 =
      answer P { u with ref := some l } (.nav c lo hi) (some r2) orc2 := by
    intro u a hu
    unfold answer
    simp only [hv, iterate, handleNav, Option.getD_some, if_neg hsh]
    unfold setSpeed setRef setSign
    simp only [hsp, hl, pure_bind_run]
    have hbind : ∀ {α β : Type} (x : Exec (St k X K) α) (y : α → Exec (St k X K) β) (s : St k X K),
      (x >>= y) s = Exec.bind x y s := fun _ _ _ => rfl
    rw [hbind, hbind]
    unfold Exec.bind
    rw [get_bind, get_bind]
    simp only [hu]
    rfl
  obtain ⟨a, ha'⟩ := hspeed
  rw [hmove s' a ha', hmove t a (h6 ▸ ha')]
  have hag : Agree { s' with ref := some l } { t with ref := some l } (.nav c lo hi) := by
    refine ⟨?_, h5, h6⟩
    unfold Fixed at h2 ⊢
    rw [h2]
  obtain ⟨g1, g2, g3⟩ := answer_agree (P := P) hag rfl (some r2) orc2
  rw [← g1]
  exact congrArg _ (congrArg _ (play_agree P rs g2 g3))

theorem ex_life2 : Life exProb exS0 exS2 [exR2, exR1, start exS0] :=
  .next (.next (.start .init) List.mem_cons_self ex_step1) List.mem_cons_self ex_step2

def exAgain : Resp ℚ := { preferred := some 1, speed := some (.int 1) }
def exT3 : St 2 ℚ ℚ := (answer exProb exS2 (start exS2) (some exAgain) exOrc).1
def exQ3 : Req 2 ℚ ℚ := getReq (answer exProb exS2 (start exS2) (some exAgain) exOrc).2
theorem ex_again : answer exProb exS2 (start exS2) (some exAgain) exOrc = (exT3, .ok exQ3) :=
  eq_of_beq (by decide +kernel)

example := C96_restart_partial ex_construct ex_life2 (by decide +kernel)
  [(some exFirst, exOrc), (some exRef, exOrc), (none, exOrc)]
example := C96_restart_reference ex_construct ex_life2 (by decide +kernel)
  (r := { ref := some [1/4, 1/4], speed := some (.int 1) }) rfl (eq_of_beq (by decide +kernel)) exOrc
  [(some exRef, exOrc), (none, exOrc)]
example := C96_restart_preferred ex_construct ex_life2 (by decide +kernel) ex_again (r2 := exRef) rfl rfl
  (eq_of_beq (by decide +kernel)) (by simp [exRef]) exOrc [(none, exOrc)]

/-- **C96 fails** (Pareto Navigator), solutions. A solution added after a rejection stays when the method is
started again. -/
theorem C96_fails_kept_solutions : ∃ (s : St 2 ℚ ℚ) (iss : List (Req 2 ℚ ℚ)) (f lo hi : Vec 2 ℚ),
    Reached exProb (some exSols) (fun _ => True) s iss ∧ start exS0 = .initial lo hi exSols ∧
    start s = .initial lo hi (exSols ++ [f]) :=
  ⟨exS6, _, (exS5.poF).getD ![0, 0], ![0, 0], ![1, 1], ex_reached6 (G := fun _ => True) trivial,
    eq_of_beq (by decide +kernel), eq_of_beq (by decide +kernel)⟩

/-- **C96 fails** (Pareto Navigator), reference point. A new method raises when navigation goes on from a
preferred solution without preferences; a restarted one moves towards the reference point of the previous
navigation. -/
theorem C96_fails_old_reference :
    play exProb exS0 (start exS0) [(some exFirst, exOrc), (none, exOrc)] = [.ok exR1, .error .typeError] ∧
    play exProb exS2 (start exS2) [(some exFirst, exOrc), (none, exOrc)] =
      [.ok exR1, .ok (.nav (some (.vec [1/20, 19/20])) ![0, 0] ![1, 1])] :=
  ⟨eq_of_beq (by decide +kernel), eq_of_beq (by decide +kernel)⟩

end Verif.ParetoNav
