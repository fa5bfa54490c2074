import Verif.ParetoNav.Props2
import Verif.Finish

set_option linter.unusedSectionVars false

/-!
# The decision maker can always finish Pareto Navigator: property C162
-/

namespace Verif.ParetoNav

open Exec

variable {K : Type} [Field K] [LinearOrder K] {k : Nat} {X D : Type}

/-- Specification: the response is accepted and answered with the request `q'`. -/
def Next (P : Prob k X D K) (s : St k X K) (q : Req k X K) (r : Resp K) (orc : Oracle k D K) (s' : St k X K)
    (q' : Req k X K) : Prop :=
  validate q r = .ok () ∧ answer P s q (some r) orc = (s', .ok q')

/-- Specification: a stop request. -/
def IsStop : Req k X K → Prop
  | .stop .. => True
  | _ => False

/-- Specification: a stop request with a decision vector and its objective vector. -/
def IsSolution (P : Prob k X D K) (q : Req k X K) : Prop :=
  ∃ p d, q = .stop p (some (P.vars d)) (some (P.obj d))

/-- Specification: the minimizer used to show a solution returns something. -/
def AlwaysProjects (orc : Oracle k D K) : Prop := ∀ p, ∃ d, orc.project p = .ok d

/-- The body does not forget the current point. -/
def Held {α : Type} (x : Exec (St k X K) α) : Prop := ∀ s, s.cur.isSome = true → (x s).1.cur.isSome = true

theorem Held.bind {α β : Type} {x : Exec (St k X K) α} {y : α → Exec (St k X K) β} (hx : Held x)
    (hy : ∀ a, Held (y a)) : Held (x >>= y) := by
  intro s hs
  show (Exec.bind x y s).1.cur.isSome = true
  unfold Exec.bind
  cases (x s).2 with
  | error e => exact hx s hs
  | ok a => exact hy a _ (hx s hs)

theorem Held.same {α : Type} {x : Exec (St k X K) α} (h : ∀ s, (x s).1.cur = s.cur) : Held x := fun s hs => by
  rw [h s]; exact hs

theorem held_initial (P : Prob k X D K) (r : Resp K) (orc : Oracle k D K) : Held (handleInitial P r orc) := by
  have h1 : Held (startingPoint P r orc : Exec (St k X K) (Cur K)) := by
    unfold startingPoint
    split
    · exact Held.bind (.same fun _ => rfl) fun _ => Held.bind (.same fun _ => rfl) fun _ => .same fun _ => rfl
    · split
      · exact .same fun _ => rfl
      · exact Held.bind (.same fun _ => rfl) fun _ => Held.bind (.same fun _ => rfl) fun _ => .same fun _ => rfl
  unfold handleInitial
  refine h1.bind fun p => Held.bind (x := Exec.modify fun s => { s with cur := some p }) (fun _ _ => rfl) fun _ => ?_
  split
  · exact .same fun _ => rfl
  · exact Held.bind (.same fun _ => rfl) fun _ => Held.bind (.same fun _ => rfl) fun _ =>
      Held.bind (.same fun _ => rfl) fun _ => .same fun _ => rfl

theorem held_nav (P : Prob k X D K) (r : Option (Resp K)) (orc : Oracle k D K) : Held (handleNav P r orc) := by
  unfold handleNav
  dsimp only
  split
  · unfold handleShow
    refine Held.bind (.same fun _ => rfl) fun s => ?_
    split
    · exact .same fun _ => rfl
    · exact Held.bind (.same fun _ => rfl) fun _ => Held.bind (.same fun _ => rfl) fun _ => .same fun _ => rfl
  · refine Held.bind ?_ fun _ => Held.bind ?_ fun a => Held.bind ?_ fun _ => ?_
    · unfold setSpeed
      split
      · exact .same fun _ => rfl
      · exact Held.bind (.same fun _ => rfl) fun _ => .same fun _ => rfl
    · unfold setSign
      refine Held.bind (.same fun _ => rfl) fun s => ?_
      split
      · exact .same fun _ => rfl
      · exact Held.bind (.same fun _ => rfl) fun _ => .same fun _ => rfl
    · unfold setRef
      split
      · exact .same fun _ => rfl
      · split
        · exact .same fun _ => rfl
        · exact Held.bind (.same fun _ => rfl) fun _ => Held.bind (.same fun _ => rfl) fun _ => .same fun _ => rfl
    · unfold step
      exact Held.bind (.same fun _ => rfl) fun _ => Held.bind (.same fun _ => rfl) fun _ =>
        Held.bind (.same fun _ => rfl) fun _ => Held.bind (fun _ _ => rfl) fun _ =>
          Held.bind (.same fun _ => rfl) fun _ => .same fun _ => rfl

/-- The request was made after a starting point was set. -/
def Started : Req k X K → Prop
  | .nav .. => True
  | .solution .. => True
  | _ => False

theorem step_later {P : Prob k X D K} {orc : Oracle k D K} {s s' : St k X K} {req : Req k X K} {r : Option (Resp K)}
    {o : Except Err (Req k X K)} (h : Step P orc s req r s' o) (hreq : Started req → s.cur.isSome = true) :
    (s.cur.isSome = true → s'.cur.isSome = true) ∧ ∀ q, o = .ok q → Started q → s'.cur.isSome = true := by
  cases h with
  | refused => exact ⟨id, fun q h => by cases h⟩
  | noAnswer => exact ⟨id, fun q h => by cases h⟩
  | ended => exact ⟨id, fun q h => by cases h; exact False.elim⟩
  | @startFails _ _ _ r _ _ hv h _ =>
    refine ⟨fun hs => ?_, fun q h => by cases h⟩
    have := held_initial P r orc s hs
    rw [h] at this
    exact this
  | started => exact ⟨fun _ => rfl, fun _ _ _ => rfl⟩
  | showFails => exact ⟨id, fun q h => by cases h⟩
  | showed hs hc hp => exact ⟨id, fun _ _ _ => by show s.cur.isSome = true; rw [hc]; rfl⟩
  | moveFails hs h _ =>
    refine ⟨fun hs => ?_, fun q h => by cases h⟩
    have := held_nav P r orc s hs
    rw [h] at this
    exact this
  | moved => exact ⟨fun _ => rfl, fun _ _ _ => rfl⟩
  | satisfied => exact ⟨id, fun q h => by cases h; exact False.elim⟩
  | addNothing => exact ⟨id, fun q h => by cases h⟩
  | addFails => exact ⟨id, fun q h => by cases h⟩
  | added => exact ⟨id, fun _ _ _ => hreq trivial⟩

theorem Reached.held {P : Prob k X D K} {sup G} {s : St k X K} {iss} (h : Reached P sup G s iss) :
    ∀ q ∈ iss, Started q → s.cur.isSome = true := by
  induction h with
  | init => intro q hq; cases hq
  | start _ ih =>
    intro q hq hl
    rcases List.mem_cons.1 hq with rfl | hq
    · exact hl.elim
    · exact ih q hq hl
  | @next s iss req r orc s' o _ hr hG ha ih =>
    obtain ⟨h1, h2⟩ := step_later (answer_step ha) (ih _ hr)
    intro q hq hl
    cases o with
    | error e => exact h1 (ih q hq hl)
    | ok q' =>
      rcases List.mem_cons.1 hq with rfl | hq
      · exact h2 _ rfl hl
      · exact h1 (ih q hq hl)

theorem finish_solution (P : Prob k X D K) (G : Oracle k D K → Prop) (s : St k X K) (a x f) :
    Finishes (Next P) G (fun q => q = .stop s.cur s.poX s.poF) s (.solution a x f) 1 :=
  .of_step { satisfied := some true } fun _ _ => ⟨s, .stop s.cur s.poX s.poF, ⟨rfl, rfl⟩, .done rfl⟩

theorem finishes_weaken {S Q R O : Type} {Next : S → Q → R → O → S → Q → Prop} {good : O → Prop} {stop stop' : Q → Prop}
    {s : S} {q : Q} {n : Nat} (h : Finishes Next good stop s q n) (hs : ∀ q, stop q → stop' q) :
    Finishes Next good stop' s q n := by
  induction h with
  | done h => exact .done (hs _ h)
  | step r next h1 _ ih => exact .step r next h1 ih

theorem finish_nav {P : Prob k X D K} {s : St k X K} (hc : s.cur.isSome = true) (a lo hi) :
    Finishes (Next P) AlwaysProjects (IsSolution P) s (.nav a lo hi) 2 := by
  refine .of_step { showSolution := some true } fun orc ho => ?_
  obtain ⟨p, hp⟩ := Option.isSome_iff_exists.1 hc
  obtain ⟨d, hd⟩ := ho p
  refine ⟨{ s with poX := some (P.vars d), poF := some (P.obj d) }, .solution s.cur (some (P.vars d)) (some (P.obj d)),
    ⟨rfl, ?_⟩, finishes_weaken (finish_solution P _ _ _ _ _) fun q hq => ⟨_, d, hq⟩⟩
  show handleShow P orc s = _
  rcases show_cases P orc s with ⟨e, he⟩ | ⟨p', d', hp', hd', h⟩
  · unfold handleShow at he
    rw [get_bind] at he
    simp only [hp, hd, lift_ok_bind, modify_bind, pure_run] at he
    exact absurd (Prod.mk.inj he).2 (by simp)
  · rw [hp] at hp'
    cases hp'
    rw [hd] at hd'
    cases hd'
    exact h

/-- C162 for Pareto Navigator: from every state that can arise, also after refused responses and exceptions, every issued
request can be answered such that a stop request comes after at most three answers, if the minimizer that projects the
shown point returns a solution. -/
theorem C162_paretonav {P : Prob k X D K} {sup G} {s : St k X K} {iss : List (Req k X K)} (hR : Reached P sup G s iss)
    (hs : s.sols ≠ []) {q : Req k X K} (h : q ∈ iss) : Finishes (Next P) AlwaysProjects IsStop s q 3 := by
  have hw : ∀ q : Req k X K, IsSolution P q → IsStop q := by rintro q ⟨p, d, rfl⟩; trivial
  cases q with
  | stop a x f => exact .done trivial
  | solution a x f =>
    exact (finishes_weaken (finish_solution P _ s a x f) fun q hq => by rw [hq]; trivial).mono (by omega)
  | nav a lo hi => exact (finishes_weaken (finish_nav (hR.held _ h trivial) a lo hi) hw).mono (by omega)
  | initial lo hi l =>
    refine .of_step { preferred := some 0, speed := some (.int 1) } fun orc ho => ?_
    have hv : validate (.initial lo hi l : Req k X K) { preferred := some 0, speed := some (.int 1) } = .ok () := by
      simp [validate, validateInitial, validateSpeed, intOf]
    obtain ⟨p, ps, hps⟩ : ∃ p ps, s.sols = p :: ps := List.exists_cons_of_ne_nil hs
    have hp : pyGet s.sols 0 = .ok p := by
      rw [hps]
      exact pyGet_nat (i := 0).2 rfl
    refine ⟨{ s with cur := some (.vec (List.ofFn p)), speed := some (((1 : Int) : K) / 5 / 10) },
      .nav (some (.vec (List.ofFn p))) s.ideal s.nadir, ⟨hv, ?_⟩, finishes_weaken (finish_nav rfl _ _ _) hw⟩
    · unfold answer
      dsimp only
      rw [hv]
      show handleInitial P _ orc s = _
      have hst : startingPoint P ({ preferred := some 0, speed := some (.int 1) } : Resp K) orc s =
          (s, .ok (.vec (List.ofFn p))) := by
        simp only [startingPoint]
        rw [get_bind, hp]
        rfl
      exact bind_ok.2 ⟨s, .vec (List.ofFn p), hst, rfl⟩

/-- C162 for Pareto Navigator: from the navigation requests the end is a solution with its objectives, after two
answers. -/
theorem C162_paretonav_solution {P : Prob k X D K} {sup G} {s : St k X K} {iss : List (Req k X K)}
    (hR : Reached P sup G s iss) {a lo hi} (h : .nav a lo hi ∈ iss) :
    Finishes (Next P) AlwaysProjects (IsSolution P) s (.nav a lo hi) 2 := finish_nav (hR.held _ h trivial) a lo hi

example := C162_paretonav (ex_reached4 (G := fun _ => True) trivial) (by decide +kernel) (q := start exS0) (by simp)
example := C162_paretonav_solution (ex_reached1 (G := fun _ => True) trivial) (List.mem_cons_self)

end Verif.ParetoNav
