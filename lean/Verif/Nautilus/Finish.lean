import Verif.Nautilus.Props2
import Verif.Nautilus.Robust
import Verif.Finish

set_option linter.unusedSectionVars false

/-!
# The decision maker can always finish NAUTILUS: property C162
-/

namespace Verif.Nautilus

open Exec

variable {K : Type} [Field K] [LinearOrder K] [IsStrictOrderedRing K] {k m : Nat}

/-- Specification: the response is accepted and answered with the request `q'`. -/
def Next (c : Cfg k m K) (s : St k m K) (q : Req k m K) (r : Resp K) (orc : Oracle k m K) (s' : St k m K)
    (q' : Req k m K) : Prop :=
  validate c q r = .ok () ∧ answer c s q r orc = (s', .ok (some q'))

/-- Specification: a stop request. -/
def IsStop : Req k m K → Prop
  | .stop .. => True
  | _ => False

/-- Specification: a stop request with a decision vector and its own objective vector. -/
def IsSolution (c : Cfg k m K) (q : Req k m K) : Prop := ∃ x, q = .stop (some x) (some (c.evaluate x))

/-- At most as many iterations are left as were asked for. -/
def Within (s : St k m K) : Prop := s.left ≤ s.n ∧ 1 ≤ s.n

/-- The body keeps the counts. -/
def Counts {α : Type} (x : Exec (St k m K) α) : Prop := ∀ s, Within s → Within (x s).1

theorem Counts.bind {α β : Type} {x : Exec (St k m K) α} {y : α → Exec (St k m K) β} (hx : Counts x)
    (hy : ∀ a, Counts (y a)) : Counts (x >>= y) := by
  intro s hs
  show Within (Exec.bind x y s).1
  unfold Exec.bind
  cases (x s).2 with
  | error e => exact hx s hs
  | ok a => exact hy a _ (hx s hs)

theorem Counts.same {α : Type} {x : Exec (St k m K) α} (h : ∀ s, (x s).1 = s) : Counts x := fun s hs => by
  rw [h s]; exact hs

theorem counts_setZ (i : Nat) (v : Vec k K) : Counts (setZ i v : Exec (St k m K) Unit) := by
  intro s; unfold setZ; split <;> exact id
theorem counts_setX (i : Nat) (v : Option (Vec m K)) : Counts (setX i v : Exec (St k m K) Unit) := by
  intro s; unfold setX; split <;> exact id
theorem counts_setF (i : Nat) (v : Option (Vec k K)) : Counts (setF i v : Exec (St k m K) Unit) := by
  intro s; unfold setF; split <;> exact id

theorem counts_solveNew (c : Cfg k m K) (orc : Oracle k m K) (meth : Int) (info : List K) (arr : Bool) :
    Counts (solveNew c orc meth info arr) :=
  Counts.bind (.same fun _ => rfl) fun _ => Counts.bind (.same fun _ => rfl) fun _ =>
    Counts.bind (.same fun _ => rfl) fun _ => (counts_setX _ _).bind fun _ => counts_setF _ _

theorem counts_movePoint (c : Cfg k m K) (orc : Oracle k m K) : Counts (movePoint c orc) :=
  Counts.bind (.same fun _ => rfl) fun _ => Counts.bind (.same fun _ => rfl) fun _ =>
    Counts.bind (.same fun _ => rfl) fun _ => (counts_setZ _ _).bind fun _ => .same fun _ => rfl

theorem counts_shortStep (c : Cfg k m K) (orc : Oracle k m K) : Counts (shortStep c orc) :=
  Counts.bind (.same fun _ => rfl) fun _ => Counts.bind (.same fun _ => rfl) fun _ =>
    Counts.bind (.same fun _ => rfl) fun _ => (counts_setZ _ _).bind fun _ =>
      Counts.bind (.same fun _ => rfl) fun _ => .same fun _ => rfl

theorem counts_goBack (c : Cfg k m K) (r : Resp K) (orc : Oracle k m K) : Counts (goBack c r orc) := by
  unfold goBack
  split
  · exact .same fun _ => rfl
  · exact counts_shortStep c orc
  · split
    · exact .same fun _ => rfl
    · exact .same fun _ => rfl
    · exact (counts_solveNew _ _ _ _ _).bind fun _ => counts_movePoint c orc
    · exact .same fun _ => rfl

theorem counts_forward (c : Cfg k m K) (r : Resp K) (orc : Oracle k m K) : Counts (forward c r orc) := by
  unfold forward
  refine Counts.bind (x := Exec.modify fun s => { s with left := s.left - 1, step := s.step + 1 })
    (fun s hs => ⟨?_, hs.2⟩) fun _ => ?_
  · have := hs.1
    show s.left - 1 ≤ s.n
    omega
  split
  · exact .same fun _ => rfl
  · exact Counts.bind (.same fun _ => rfl) fun _ => Counts.bind (.same fun _ => rfl) fun _ =>
      (counts_setX _ _).bind fun _ => Counts.bind (.same fun _ => rfl) fun _ => (counts_setF _ _).bind fun _ =>
        counts_movePoint c orc
  · exact (counts_solveNew _ _ _ _ _).bind fun _ => counts_movePoint c orc
  · exact .same fun _ => rfl

theorem within_changeN {s : St k m K} {n : Option PyVal} (hn : validateN n = .ok ()) (h : Within s) :
    Within (changeN s n) := by
  unfold changeN
  cases n with
  | none => exact h
  | some v =>
    obtain ⟨v', hv', _, h1⟩ := (validateN_ok hn).resolve_left (by simp)
    cases hv'
    have := h.1
    refine ⟨?_, h1⟩
    show s.left + v.asInt - s.n ≤ v.asInt
    omega

theorem answer_within {c : Cfg k m K} {s s' : St k m K} {req r orc o} (hreq : req ≠ .initial)
    (ha : answer c s req r orc = (s', o)) (h : Within s) : Within s' := by
  unfold answer at ha
  cases hv : validate c req r with
  | error e => rw [hv] at ha; cases ha; exact h
  | ok u =>
    rw [hv] at ha
    cases req with
    | initial => exact absurd rfl hreq
    | stop x f => cases ha; exact h
    | nav z lo up d =>
      change handleNav c r orc s = (s', o) at ha
      have hn : validateN r.nIterations = .ok () := by
        change validateNav c z r = .ok () at hv
        unfold validateNav at hv
        split at hv
        · cases hv
        split at hv
        · cases hv
        split at hv
        · cases hv
        split at hv
        · cases hv
        exact hv
      have : Within (handleNav c r orc s).1 := by
        unfold handleNav
        rw [modify_bind, get_bind]
        have h1 := within_changeN hn h
        split
        · refine Counts.bind (x := Exec.modify fun s => { s with left := 0 }) (fun s hs => ⟨?_, hs.2⟩)
            (fun _ => Counts.bind (.same fun _ => rfl) fun _ => Counts.bind (.same fun _ => rfl) fun _ =>
              .same fun _ => rfl) _ h1
          have := hs.2
          show (0 : Int) ≤ s.n
          omega
        · cases hb : r.stepBack with
          | none => exact h1
          | some b =>
            cases b
            · exact counts_forward c r orc _ h1
            · exact counts_goBack c r orc _ h1
      rw [ha] at this
      exact this

theorem Session.within {c : Cfg k m K} {G} {s iss} (h : Session c G s iss) : Within s := by
  induction h with
  | first h0 hG ha =>
    have hst := answer_ok (by omega) ha
    generalize hqq : some _ = q' at hst
    cases hst with
    | initial hv hn hm hi hw hcap hlt h1 hx hf hz =>
      obtain ⟨v', hv', _, hv1, _⟩ := validateInitial_ok hv
      rw [hn] at hv'
      cases hv'
      exact ⟨le_rfl, hv1⟩
  | next hs hr hG ha ih => exact answer_within (hs.not_initial.2.2 _ hr) ha ih

/-- The response that finishes: one iteration in total. -/
def lastResp : Resp K := { nIterations := some (.int 1), stepBack := some false, usePrevious := some true }

theorem last_accepted (c : Cfg k m K) (z lo up : Vec k K) (d : Fl K) :
    validate c (.nav z lo up d) lastResp = .ok () := by
  simp [validate, validateNav, lastResp, validateN, PyVal.isInstanceInt, PyVal.asInt]

theorem last_stops {c : Cfg k m K} {s : St k m K} {z lo up d orc} (hw : Within s) {x f}
    (hx : (changeN s (some (.int 1))).xs[s.step]? = some x) (hf : (changeN s (some (.int 1))).fs[s.step]? = some f) :
    answer c s (.nav z lo up d) lastResp orc =
      ({ changeN s (some (.int 1)) with left := 0 }, .ok (some (.stop x f))) := by
  unfold answer
  rw [last_accepted]
  show handleNav c lastResp orc s = _
  unfold handleNav
  rw [modify_bind, get_bind]
  have hle : (changeN s (lastResp (K := K)).nIterations).left ≤ 1 := by
    have := hw.1
    show s.left + (PyVal.int 1).asInt - s.n ≤ 1
    simp only [PyVal.asInt]
    omega
  rw [if_pos hle, modify_bind]
  have hst : (changeN s (lastResp (K := K)).nIterations).step = s.step := (changeN_get _).1
  refine bind_ok.2 ⟨_, x, readX_ok.2 ⟨rfl, ?_⟩, bind_ok.2 ⟨_, f, readF_ok.2 ⟨rfl, ?_⟩, rfl⟩⟩
  · rw [hst]; exact hx
  · rw [hst]; exact hf

/-- C162 for NAUTILUS, after the first answer: from every state that can arise, also after refused responses and
exceptions, one answer to any request shown is enough for a stop request. -/
theorem C162_nautilus {c : Cfg k m K} {G : Oracle k m K → Prop} {s : St k m K} {iss : List (Req k m K)}
    (hS : Session c G s iss) {q : Req k m K} (h : q ∈ iss) : Finishes (Next c) G IsStop s q 1 := by
  obtain ⟨_, hst, hni⟩ := hS.not_initial
  cases q with
  | initial => exact absurd rfl (hni _ h)
  | stop x f => exact .done trivial
  | nav z lo up d =>
    refine .of_step lastResp fun orc _ => ?_
    have hroom := hst.room
    have hx : s.step < (changeN s (some (.int 1))).xs.length := by
      simp only [changeN, List.length_append, hst.x]; omega
    have hf : s.step < (changeN s (some (.int 1))).fs.length := by
      simp only [changeN, List.length_append, hst.f]; omega
    exact ⟨_, _, ⟨last_accepted c z lo up d, last_stops hS.within (List.getElem?_eq_getElem hx)
      (List.getElem?_eq_getElem hf)⟩, .done trivial⟩

/-- C162 for NAUTILUS: the request that comes then shows a solution and its objectives, if no accepted response has
raised an exception before. -/
theorem C162_nautilus_solution {c : Cfg k m K} {G : Oracle k m K → Prop} {s : St k m K} {iss : List (Req k m K)}
    (hS : Smooth c G s iss) {q : Req k m K} (h : q ∈ iss) : Finishes (Next c) G (IsSolution c) s q 1 := by
  obtain ⟨_, _, hni⟩ := hS.session.not_initial
  cases q with
  | initial => exact absurd rfl (hni _ h)
  | stop x f =>
    obtain ⟨x', rfl, rfl⟩ := C37_stop_pair hS h
    exact .done ⟨x', rfl⟩
  | nav z lo up d =>
    refine .of_step lastResp fun orc _ => ?_
    obtain ⟨x, hx, hf⟩ := hS.inv.sol
    obtain ⟨_, _, h2, h3⟩ := changeN_get (s := s) (some (.int 1))
    exact ⟨_, _, ⟨last_accepted c z lo up d, last_stops hS.session.within (h2 _ _ hx) (h3 _ _ hf)⟩, .done ⟨x, rfl⟩⟩

/-- C162 for NAUTILUS, from the start: two answers are enough for a solution. -/
theorem C162_nautilus_start (c : Cfg (k + 1) m K) (G : Oracle (k + 1) m K → Prop) :
    Finishes (Next c) G (IsSolution c) St.init .initial 2 := by
  have hv : validate c .initial
      { nIterations := some (.int 1), method := some 1, info := some (List.replicate (k + 1) 1) } = .ok () := by
    have hmax : pyMax (List.replicate (k + 1) (1 : K)) = .ok 1 := by
      have : ∀ n, (List.replicate n (1 : K)).foldl max 1 = 1 := by
        intro n
        induction n with
        | zero => rfl
        | succ n ih => simpa [List.replicate_succ] using ih
      simp only [pyMax, npMax, List.replicate_succ, this]
    have hk : (1 : K) ≤ ((k + 1 : Nat) : K) := by exact_mod_cast Nat.le_add_left 1 k
    simp only [validate, validateInitial, validatePreferences, List.length_replicate, hmax]
    simp [validateN, PyVal.isInstanceInt, PyVal.asInt]
  refine .of_step { nIterations := some (.int 1), method := some 1, info := some (List.replicate (k + 1) 1) }
    fun orc ho => ?_
  obtain ⟨s', q, ha⟩ := C36_first_answered_partial (c := c) (s := St.init) (orc := orc) rfl hv (by simp)
  exact ⟨s', q, ⟨hv, ha⟩, C162_nautilus_solution (.first rfl ho ha) List.mem_cons_self⟩

example := C162_nautilus (ex_smooth5 (fun _ => True) trivial).session List.mem_cons_self
example := C162_nautilus_solution (ex_smooth5 (fun _ => True) trivial) List.mem_cons_self
example := C162_nautilus_start exCfg (fun _ => True)

end Verif.Nautilus
