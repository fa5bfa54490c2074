import Verif.ParetoNav.Model
import Verif.BaseLemmas
import Verif.Spec

set_option linter.unusedSectionVars false

/-! What one answer of Pareto Navigator does, and its histories. -/

namespace Verif.ParetoNav

open Exec

variable {K : Type} [Field K] [LinearOrder K] {k : Nat} {X D : Type}

/-- The approximation (solutions, box, matrix) and the last shown solution are not touched. -/
structure Frame (s s' : St k X K) : Prop where
  sols : s'.sols = s.sols
  ideal : s'.ideal = s.ideal
  nadir : s'.nadir = s.nadir
  lppA : s'.lppA = s.lppA
  b : s'.b = s.b
  poX : s'.poX = s.poX
  poF : s'.poF = s.poF

theorem Frame.refl (s : St k X K) : Frame s s := ⟨rfl, rfl, rfl, rfl, rfl, rfl, rfl⟩

theorem Frame.trans {s s1 s2 : St k X K} (h : Frame s s1) (h' : Frame s1 s2) : Frame s s2 :=
  ⟨h'.1.trans h.1, h'.2.trans h.2, h'.3.trans h.3, h'.4.trans h.4, h'.5.trans h.5, h'.6.trans h.6,
    h'.7.trans h.7⟩

theorem frame_bind {α β : Type} {x : Exec (St k X K) α} {f : α → Exec (St k X K) β}
    (hx : ∀ s, Frame s (x s).1) (hf : ∀ a s, Frame s (f a s).1) (s : St k X K) :
    Frame s ((x >>= f) s).1 := by
  show Frame s (Exec.bind x f s).1
  unfold Exec.bind
  split
  · exact (hx s).trans (hf _ _)
  · exact hx s

theorem frame_modify {g : St k X K → St k X K} (h : ∀ s, Frame s (g s)) (s : St k X K) :
    Frame s (Exec.modify g s).1 := h s

theorem frame_setSpeed (r : Resp K) (s : St k X K) : Frame s (setSpeed r s).1 := by
  unfold setSpeed
  cases r.speed with
  | none => exact Frame.refl s
  | some v =>
    refine frame_bind (x := Exec.lift (calcSpeed v)) (fun s => Frame.refl s) (fun a => frame_modify fun s => ?_) s
    exact ⟨rfl, rfl, rfl, rfl, rfl, rfl, rfl⟩

theorem setSign_cases (r : Resp K) (s : St k X K) :
    (s.speed = none ∧ setSign r s = (s, .error .typeError)) ∨
    ∃ a, s.speed = some a ∧ setSign r s =
      ({ s with speed := some (if r.stepBack = some true then a * (-1) else |a|) },
        .ok (if r.stepBack = some true then a * (-1) else |a|)) := by
  unfold setSign
  rw [get_bind]
  cases h : s.speed with
  | none => left; exact ⟨rfl, rfl⟩
  | some a => right; exact ⟨a, rfl, rfl⟩

theorem frame_setSign (r : Resp K) (s : St k X K) : Frame s (setSign r s).1 := by
  rcases setSign_cases r s with ⟨_, h⟩ | ⟨a, _, h⟩ <;> rw [h] <;> exact ⟨rfl, rfl, rfl, rfl, rfl, rfl, rfl⟩

theorem frame_setRef (r : Resp K) (s : St k X K) : Frame s (setRef r s).1 := by
  unfold setRef
  cases r.ref with
  | some l => exact ⟨rfl, rfl, rfl, rfl, rfl, rfl, rfl⟩
  | none =>
    cases r.classes with
    | none => exact Frame.refl s
    | some cs =>
      refine frame_bind (fun s => Frame.refl s) (fun t => frame_bind (fun s => Frame.refl s) fun l => ?_) s
      exact frame_modify fun s => ⟨rfl, rfl, rfl, rfl, rfl, rfl, rfl⟩

theorem frame_step (orc : Oracle k D K) (a : K) (s : St k X K) : Frame s (step orc a s).1 := by
  unfold step
  refine frame_bind (fun s => Frame.refl s) (fun t => frame_bind (fun s => Frame.refl s) fun m =>
    frame_bind (fun s => Frame.refl s) fun x => frame_bind (frame_modify fun s => ?_) fun _ =>
    frame_bind (fun s => Frame.refl s) fun u s => Frame.refl s) s
  exact ⟨rfl, rfl, rfl, rfl, rfl, rfl, rfl⟩

theorem frame_move (orc : Oracle k D K) (r : Resp K) (s : St k X K) :
    Frame s ((do
      setSpeed r
      let a ← setSign r
      setRef r
      step orc a : Exec (St k X K) (Req k X K)) s).1 :=
  frame_bind (frame_setSpeed r) (fun _ => frame_bind (frame_setSign r) fun a =>
    frame_bind (frame_setRef r) fun _ => frame_step orc a) s

theorem frame_start (P : Prob k X D K) (r : Resp K) (orc : Oracle k D K) (s : St k X K) :
    Frame s (startingPoint P r orc s).1 := by
  unfold startingPoint
  cases r.ref with
  | some l =>
    refine frame_bind (frame_modify fun s => ?_) (fun _ => frame_bind (f := fun d => pure (P.asCur d))
      (fun s => Frame.refl s) fun d s => Frame.refl s) s
    exact ⟨rfl, rfl, rfl, rfl, rfl, rfl, rfl⟩
  | none =>
    cases r.preferred with
    | none => exact Frame.refl s
    | some i =>
      exact frame_bind (fun s => Frame.refl s) (fun t => frame_bind (f := fun d => pure (Cur.vec (List.ofFn d)))
        (fun s => Frame.refl s) fun d s => Frame.refl s) s

theorem frame_initial (P : Prob k X D K) (r : Resp K) (orc : Oracle k D K) (s : St k X K) :
    Frame s (handleInitial P r orc s).1 := by
  unfold handleInitial
  refine frame_bind (frame_start P r orc) (fun p => frame_bind (frame_modify fun s => ?_) fun _ s => ?_) s
  · exact ⟨rfl, rfl, rfl, rfl, rfl, rfl, rfl⟩
  · cases r.speed with
    | none => exact Frame.refl s
    | some v =>
      refine frame_bind (fun s => Frame.refl s) (fun a => frame_bind (frame_modify fun s => ?_) fun _ =>
        frame_bind (fun s => Frame.refl s) fun u s => Frame.refl s) s
      exact ⟨rfl, rfl, rfl, rfl, rfl, rfl, rfl⟩

/-! ### Successful steps -/

/-- The step length before its sign is set. -/
def baseSpeed (s : St k X K) (r : Resp K) : Except Err K :=
  match r.speed with
  | some v => calcSpeed v
  | none => match s.speed with
    | some a => .ok a
    | none => .error .typeError

/-- The reference point used by a step. -/
def newRef (s : St k X K) (r : Resp K) : Except Err (Option (List K)) :=
  match r.ref with
  | some l => .ok (some l)
  | none => match r.classes with
    | none => .ok s.ref
    | some cs => match mapClasses s.ideal s.nadir s.cur 0 cs with
      | .ok l => .ok (some l)
      | .error e => .error e

theorem setSpeed_ok {r : Resp K} {s s1 : St k X K} {u : Unit} (h : setSpeed r s = (s1, .ok u)) :
    ∃ o, s1 = { s with speed := o } ∧ (∀ a, o = some a → baseSpeed s r = .ok a) := by
  unfold setSpeed at h
  unfold baseSpeed
  cases hs : r.speed with
  | none =>
    simp only [hs, pure_run, Prod.mk.injEq] at h
    refine ⟨s.speed, h.1.symm, ?_⟩
    intro a ha
    simp [ha]
  | some v =>
    simp only [hs] at h
    obtain ⟨s2, a, h1, h⟩ := bind_ok.1 h
    simp only [lift_run, Prod.mk.injEq] at h1
    obtain ⟨rfl, h1⟩ := h1
    simp only [modify_run, Prod.mk.injEq] at h
    exact ⟨some a, h.1.symm, by rintro a' ⟨⟩; exact h1⟩

theorem setRef_ok {r : Resp K} {s s1 : St k X K} {u : Unit} (h : setRef r s = (s1, .ok u)) :
    ∃ l, newRef s r = .ok l ∧ s1 = { s with ref := l } := by
  unfold setRef at h
  unfold newRef
  cases hr : r.ref with
  | some l =>
    simp only [hr, modify_run, Prod.mk.injEq] at h
    exact ⟨some l, rfl, h.1.symm⟩
  | none =>
    cases hc : r.classes with
    | none =>
      simp only [hr, hc, pure_run, Prod.mk.injEq] at h
      exact ⟨s.ref, rfl, h.1.symm⟩
    | some cs =>
      simp only [hr, hc, get_bind] at h
      obtain ⟨s2, l, h1, h⟩ := bind_ok.1 h
      simp only [lift_run, Prod.mk.injEq] at h1
      obtain ⟨rfl, h1⟩ := h1
      simp only [modify_run, Prod.mk.injEq] at h
      exact ⟨some l, by simp only [h1], h.1.symm⟩

/-- The state after a step. -/
def stepped (s : St k X K) (a : K) (l : Option (List K)) (x : Vec (k + 1) K) : St k X K :=
  { s with speed := some a, ref := l, cur := some (.vec (List.ofFn fun i : Fin k => x i.succ)) }

theorem move_ok {orc : Oracle k D K} {r : Resp K} {s s' : St k X K} {q : Req k X K}
    (h : (do
      setSpeed r
      let a ← setSign r
      setRef r
      step orc a : Exec (St k X K) (Req k X K)) s = (s', .ok q)) :
    ∃ a0 a l m x, baseSpeed s r = .ok a0 ∧ a = (if r.stepBack = some true then a0 * (-1) else |a0|) ∧
      newRef s r = .ok l ∧ moved k l s.cur a = .ok m ∧
      orc.lp s.lppA (List.ofFn m ++ s.b) s.ideal s.nadir = .ok x ∧
      s' = stepped s a l x ∧ q = navReq s' := by
  obtain ⟨s1, u1, h1, h⟩ := bind_ok.1 h
  obtain ⟨o, rfl, ho⟩ := setSpeed_ok h1
  obtain ⟨s2, a, h2, h⟩ := bind_ok.1 h
  rcases setSign_cases r { s with speed := o } with ⟨_, he⟩ | ⟨a0, ha0, he⟩
  · rw [he] at h2; simp at h2
  rw [he] at h2
  simp only [Prod.mk.injEq, Except.ok.injEq] at h2
  obtain ⟨rfl, ha⟩ := h2
  obtain ⟨s3, u3, h3, h⟩ := bind_ok.1 h
  obtain ⟨l, hl, rfl⟩ := setRef_ok h3
  unfold step at h
  rw [get_bind] at h
  obtain ⟨s4, m, h4, h⟩ := bind_ok.1 h
  simp only [lift_run, Prod.mk.injEq] at h4
  obtain ⟨rfl, h4⟩ := h4
  obtain ⟨s5, x, h5, h⟩ := bind_ok.1 h
  simp only [lift_run, Prod.mk.injEq] at h5
  obtain ⟨rfl, h5⟩ := h5
  rw [modify_bind, get_bind] at h
  simp only [pure_run, Prod.mk.injEq, Except.ok.injEq] at h
  obtain ⟨rfl, rfl⟩ := h
  refine ⟨a0, a, l, m, x, ho a0 ha0, ha.symm, hl, h4, h5, ?_, rfl⟩
  simp only [stepped, ← ha]

/-- The state after the first answer. -/
def startedSt (s : St k X K) (l : Option (List K)) (p : Cur K) (a : K) : St k X K :=
  { s with ref := l, cur := some p, speed := some a }

theorem initial_ok {P : Prob k X D K} {r : Resp K} {orc : Oracle k D K} {s s' : St k X K} {q : Req k X K}
    (h : handleInitial P r orc s = (s', .ok q)) :
    ∃ v a p l, r.speed = some v ∧ calcSpeed v = .ok a ∧ s' = startedSt s l p a ∧ q = navReq s' ∧
      ((∃ r0 d, r.ref = some r0 ∧ orc.asf r0 = .ok d ∧ p = P.asCur d ∧ l = some r0) ∨
       (∃ i z, r.ref = none ∧ r.preferred = some i ∧ pyGet s.sols i = .ok z ∧ p = .vec (List.ofFn z) ∧
        l = s.ref)) := by
  unfold handleInitial at h
  obtain ⟨s1, p, h1, h⟩ := bind_ok.1 h
  have hp : ∃ l, s1 = { s with ref := l } ∧
      ((∃ r0 d, r.ref = some r0 ∧ orc.asf r0 = .ok d ∧ p = P.asCur d ∧ l = some r0) ∨
       (∃ i z, r.ref = none ∧ r.preferred = some i ∧ pyGet s.sols i = .ok z ∧ p = .vec (List.ofFn z) ∧
        l = s.ref)) := by
    unfold startingPoint at h1
    cases hr : r.ref with
    | some l =>
      simp only [hr, modify_bind] at h1
      obtain ⟨s2, d, h2, h1⟩ := bind_ok.1 h1
      simp only [lift_run, Prod.mk.injEq] at h2
      obtain ⟨rfl, h2⟩ := h2
      simp only [pure_run, Prod.mk.injEq, Except.ok.injEq] at h1
      exact ⟨some l, h1.1.symm, .inl ⟨l, d, rfl, h2, h1.2.symm, rfl⟩⟩
    | none =>
      cases hi : r.preferred with
      | none => simp [hr, hi] at h1
      | some i =>
        simp only [hr, hi, get_bind] at h1
        obtain ⟨s2, z, h2, h1⟩ := bind_ok.1 h1
        simp only [lift_run, Prod.mk.injEq] at h2
        obtain ⟨rfl, h2⟩ := h2
        simp only [pure_run, Prod.mk.injEq, Except.ok.injEq] at h1
        exact ⟨s.ref, h1.1.symm, .inr ⟨i, z, rfl, rfl, h2, h1.2.symm, rfl⟩⟩
  obtain ⟨l, rfl, hp⟩ := hp
  rw [modify_bind] at h
  cases hv : r.speed with
  | none => simp [hv] at h
  | some v =>
    simp only [hv] at h
    obtain ⟨s2, a, h2, h⟩ := bind_ok.1 h
    simp only [lift_run, Prod.mk.injEq] at h2
    obtain ⟨rfl, h2⟩ := h2
    rw [modify_bind, get_bind] at h
    simp only [pure_run, Prod.mk.injEq, Except.ok.injEq] at h
    exact ⟨v, a, p, l, rfl, h2, h.1.symm, by rw [← h.1]; exact h.2.symm, hp⟩

/-- The state after a rejected solution was added. -/
def addedSt (s : St k X K) (f : Vec k K) (eqs : List (Vec k K × K)) (hi lo : Vec k K) : St k X K :=
  { s with
    sols := s.sols ++ [f]
    b := eqs.map fun e => -e.2
    nadir := fun i => max (hi i) (s.nadir i)
    ideal := fun i => min (lo i) (s.ideal i)
    lppA := lppMatrix (weights (fun i => min (lo i) (s.ideal i)) (fun i => max (hi i) (s.nadir i)))
      (eqs.map Prod.fst) }

theorem extremes_append (l : List (Vec k K)) (f : Vec k K) : ∃ hi lo, extremes (l ++ [f]) = .ok (hi, lo) := by
  cases l <;> exact ⟨_, _, rfl⟩

theorem add_cases (orc : Oracle k D K) (s : St k X K) :
    (s.poF = none ∧ addSolution orc s = (s, .error .typeError)) ∨
    ∃ f, s.poF = some f ∧ ((∃ e, orc.hull (s.sols ++ [f]) = .error e ∧
        addSolution orc s = ({ s with sols := s.sols ++ [f] }, .error e)) ∨
      ∃ eqs hi lo, orc.hull (s.sols ++ [f]) = .ok eqs ∧ extremes (s.sols ++ [f]) = .ok (hi, lo) ∧
        addSolution orc s = (addedSt s f eqs hi lo, .ok (navReq (addedSt s f eqs hi lo)))) := by
  have hf : s.poF = none ∨ ∃ f, s.poF = some f := by cases s.poF <;> simp
  rcases hf with hf | ⟨f, hf⟩
  · left
    refine ⟨hf, ?_⟩
    unfold addSolution
    rw [get_bind, hf]
    rfl
  · right
    refine ⟨f, hf, ?_⟩
    cases hh : orc.hull (s.sols ++ [f]) with
    | error e =>
      left
      refine ⟨e, rfl, ?_⟩
      unfold addSolution
      rw [get_bind]
      simp only [hf, modify_bind, get_bind, hh, lift_error_bind]
    | ok eqs =>
      right
      obtain ⟨hi, lo, he⟩ := extremes_append s.sols f
      refine ⟨eqs, hi, lo, rfl, he, ?_⟩
      unfold addSolution
      rw [get_bind]
      simp only [hf, modify_bind, get_bind, hh, lift_ok_bind, he, pure_run, addedSt]

/-- What an answer can do. -/
inductive Step (P : Prob k X D K) (orc : Oracle k D K) (s : St k X K) :
    Req k X K → Option (Resp K) → St k X K → Except Err (Req k X K) → Prop
  | refused {req r e} : validate req r = .error e → Step P orc s req (some r) s (.error e)
  | noAnswer {lo hi l} : Step P orc s (.initial lo hi l) none s (.error .typeError)
  | ended {c x f r} : Step P orc s (.stop c x f) r s (.ok (.stop c x f))
  | startFails {lo hi l r s' e} : validateInitial hi r = .ok () → handleInitial P r orc s = (s', .error e) →
      Frame s s' → Step P orc s (.initial lo hi l) (some r) s' (.error e)
  | started {lo hi l r v a p l'} : validateInitial hi r = .ok () → r.speed = some v → calcSpeed v = .ok a →
      ((∃ r0 d, r.ref = some r0 ∧ orc.asf r0 = .ok d ∧ p = P.asCur d ∧ l' = some r0) ∨
       (∃ i z, r.ref = none ∧ r.preferred = some i ∧ pyGet s.sols i = .ok z ∧ p = .vec (List.ofFn z) ∧
        l' = s.ref)) →
      Step P orc s (.initial lo hi l) (some r) (startedSt s l' p a) (.ok (navReq (startedSt s l' p a)))
  | showFails {c lo hi r e} : (r.getD {}).showSolution = some true →
      Step P orc s (.nav c lo hi) r s (.error e)
  | showed {c lo hi r p d} : (r.getD {}).showSolution = some true → s.cur = some p →
      orc.project p = .ok d →
      Step P orc s (.nav c lo hi) r { s with poX := some (P.vars d), poF := some (P.obj d) }
        (.ok (.solution s.cur (some (P.vars d)) (some (P.obj d))))
  | moveFails {c lo hi r s' e} : (r.getD {}).showSolution ≠ some true →
      handleNav P r orc s = (s', .error e) → Frame s s' → Step P orc s (.nav c lo hi) r s' (.error e)
  | moved {c lo hi r a0 a l m x} : (∀ r', r = some r' → validateNav hi r' = .ok ()) →
      (r.getD {}).showSolution ≠ some true → baseSpeed s (r.getD {}) = .ok a0 →
      a = (if (r.getD {}).stepBack = some true then a0 * (-1) else |a0|) →
      newRef s (r.getD {}) = .ok l → moved k l s.cur a = .ok m →
      orc.lp s.lppA (List.ofFn m ++ s.b) s.ideal s.nadir = .ok x →
      Step P orc s (.nav c lo hi) r (stepped s a l x) (.ok (navReq (stepped s a l x)))
  | satisfied {c x f r} : (r.getD {}).satisfied = some true →
      Step P orc s (.solution c x f) r s (.ok (.stop s.cur s.poX s.poF))
  | addNothing {c x f r} : (r.getD {}).satisfied ≠ some true → s.poF = none →
      Step P orc s (.solution c x f) r s (.error .typeError)
  | addFails {c x f r f' e} : (r.getD {}).satisfied ≠ some true → s.poF = some f' →
      orc.hull (s.sols ++ [f']) = .error e →
      Step P orc s (.solution c x f) r { s with sols := s.sols ++ [f'] } (.error e)
  | added {c x f r f' eqs hi lo} : (r.getD {}).satisfied ≠ some true → s.poF = some f' →
      orc.hull (s.sols ++ [f']) = .ok eqs → extremes (s.sols ++ [f']) = .ok (hi, lo) →
      Step P orc s (.solution c x f) r (addedSt s f' eqs hi lo) (.ok (navReq (addedSt s f' eqs hi lo)))

theorem show_cases (P : Prob k X D K) (orc : Oracle k D K) (s : St k X K) :
    (∃ e, handleShow P orc s = (s, .error e)) ∨ ∃ p d, s.cur = some p ∧ orc.project p = .ok d ∧
      handleShow P orc s = ({ s with poX := some (P.vars d), poF := some (P.obj d) },
        .ok (.solution s.cur (some (P.vars d)) (some (P.obj d)))) := by
  have hf : s.cur = none ∨ ∃ f, s.cur = some f := by cases s.cur <;> simp
  rcases hf with hf | ⟨p, hf⟩
  · left
    refine ⟨.typeError, ?_⟩
    unfold handleShow
    rw [get_bind, hf]
    rfl
  · cases hd : orc.project p with
    | error e =>
      left
      refine ⟨e, ?_⟩
      unfold handleShow
      rw [get_bind]
      simp only [hf, hd, lift_error_bind]
    | ok d =>
      right
      refine ⟨p, d, hf, hd, ?_⟩
      unfold handleShow
      rw [get_bind]
      simp only [hf, hd, lift_ok_bind, modify_bind, pure_run]

theorem answer_step {P : Prob k X D K} {orc : Oracle k D K} {s s' : St k X K} {req : Req k X K}
    {r : Option (Resp K)} {o : Except Err (Req k X K)} (h : answer P s req r orc = (s', o)) :
    Step P orc s req r s' o := by
  unfold answer at h
  split at h
  · rename_i e he
    cases h
    cases r with
    | none => simp at he
    | some r => exact .refused he
  · rename_i u hv
    have hv' : ∀ r', r = some r' → validate req r' = .ok () := by
      rintro r' rfl
      exact hv
    clear hv
    cases req with
    | initial lo hi l =>
      cases r with
      | none =>
        simp only [iterate, raise_run] at h
        cases h
        exact .noAnswer
      | some r =>
        simp only [iterate] at h
        have hv : validateInitial hi r = .ok () := hv' r rfl
        cases o with
        | error e =>
          have := frame_initial P r orc s
          rw [h] at this
          exact .startFails hv h this
        | ok q =>
          obtain ⟨v, a, p, l', h1, h2, rfl, rfl, h5⟩ := initial_ok h
          exact .started hv h1 h2 h5
    | stop c x f =>
      simp only [iterate, pure_run] at h
      cases h
      exact .ended
    | nav c lo hi =>
      simp only [iterate] at h
      by_cases hs : (r.getD {}).showSolution = some true
      · simp only [handleNav, hs, if_true] at h
        rcases show_cases P orc s with ⟨e, he⟩ | ⟨p, d, hp, hd, he⟩
        · rw [he] at h
          cases h
          exact .showFails hs
        · rw [he] at h
          cases h
          exact .showed hs hp hd
      · have h0 := h
        simp only [handleNav] at h
        rw [if_neg hs] at h
        cases o with
        | error e =>
          have := frame_move orc (r.getD {}) s
          rw [h] at this
          exact .moveFails hs h0 this
        | ok q =>
          obtain ⟨a0, a, l, m, x, h1, h2, h3, h4, h5, rfl, rfl⟩ := move_ok h
          exact .moved hv' hs h1 h2 h3 h4 h5
    | solution c x f =>
      simp only [iterate, handleSolution] at h
      by_cases hs : (r.getD {}).satisfied = some true
      · rw [if_pos hs, get_bind] at h
        simp only [pure_run] at h
        cases h
        exact .satisfied hs
      · rw [if_neg hs] at h
        rcases add_cases orc s with ⟨hf, he⟩ | ⟨f', hf, ⟨e, hh, he⟩ | ⟨eqs, hi, lo, hh, hex, he⟩⟩
        · rw [he] at h; cases h; exact .addNothing hs hf
        · rw [he] at h; cases h; exact .addFails hs hf hh
        · rw [he] at h; cases h; exact .added hs hf hh hex

/-! ### Histories -/

/-- The issued requests after an answer, newest first. -/
def extend (o : Except Err (Req k X K)) (iss : List (Req k X K)) : List (Req k X K) :=
  match o with
  | .ok r => r :: iss
  | _ => iss

/-- Every possible history of a constructed object: at any time `start` may be called, and any request
issued so far answered with any response or none; the external code behaves in any way that satisfies `G`;
exceptions included. -/
inductive Reached (P : Prob k X D K) (supplied : Option (List (Vec k K))) (G : Oracle k D K → Prop) :
    St k X K → List (Req k X K) → Prop
  | init {s orc} : G orc → construct P supplied orc = .ok s → Reached P supplied G s []
  | start {s iss} : Reached P supplied G s iss → Reached P supplied G s (start s :: iss)
  | next {s iss req r orc s' o} : Reached P supplied G s iss → req ∈ iss → G orc →
      answer P s req r orc = (s', o) → Reached P supplied G s' (extend o iss)

end Verif.ParetoNav
