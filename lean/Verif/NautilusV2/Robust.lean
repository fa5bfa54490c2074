import Verif.NautilusV2.Props2

set_option linter.unusedSectionVars false

/-!
# NAUTILUS 2: C95 (failed calls), C96 (starting over)
-/

namespace Verif.NautilusV2

open Exec

variable {K : Type} [Field K] [LinearOrder K] [IsStrictOrderedRing K] {k m : Nat}

/-! ### C95 -/

theorem solve_move_error {c : Cfg k m K} {orc : Oracle k m K} {meth : Int} {info : Pref K}
    {s s' : St k m K} {q e} (hq : s.zs[s.step - 1]? = some (some q)) (hx : s.step < s.xs.length)
    (hf : s.step < s.fs.length) (hz : s.step < s.zs.length) (hb : s.step + 1 < s.bs.length)
    (h : (Exec.lift (factors k meth info) >>= fun w => solveWith c orc w >>= fun _ => movePoint c orc) s =
      (s', .error e)) : s' = s := by
  cases hw : factors k meth info with
  | ok w =>
    obtain ⟨s1, r, h1⟩ := solve_move_total (c := c) (orc := orc) (w := w) hq hx hf hz hb
    rw [hw, lift_ok_bind, h1] at h
    simp at h
  | error e1 =>
    rw [hw, lift_error_bind] at h
    simp only [Prod.mk.injEq] at h
    exact h.1.symm

/-- **C95** (NAUTILUS 2). In every run in which no accepted response has raised before and all numbers of
iterations fit the storage, a call that raises changes nothing if the response is refused, or if it is a step
back that does not change the number of iterations; a step back never changes the iteration number; and the
stored points, solutions and objective vectors stay in any case. Missing from the full claim: a step forward
advances the iteration number before it raises, which breaks the run, see `C44_fails_broken_state`. -/
theorem C95_failed_call_partial {c : Cfg k m K} {G : Oracle k m K → Prop} {s s' : St k m K}
    {iss : List (Req k m K)} {req : Req k m K} {r : Resp K} {orc : Oracle k m K} {e : Err}
    (hS : Smooth c G s iss) (hP : Planned c s iss) (hr : req ∈ iss)
    (hfit : ∀ v, r.nIterations = some v → s.step + v.asInt ≤ max s.n v.asInt + 1)
    (ha : answer c s req r orc = (s', .error e)) :
    (validate c req r ≠ .ok () → s' = s) ∧
    (r.stepBack = some true → r.nIterations = none → s' = s) ∧
    (r.stepBack = some true → s'.step = s.step) ∧
    (∀ (i : Nat) v, s.zs[i]? = some (some v) → s'.zs[i]? = some (some v)) ∧
    (∀ (i : Nat) v, s.xs[i]? = some (some v) → s'.xs[i]? = some (some v)) ∧
    (∀ (i : Nat) v, s.fs[i]? = some (some v) → s'.fs[i]? = some (some v)) := by
  have hi := hS.inv
  have hreq := hS.session.not_initial _ hr
  by_cases hv : validate c req r = .ok ()
  swap
  · obtain ⟨rfl, _⟩ := answer_refused ha hv
    exact ⟨fun _ => rfl, fun _ _ => rfl, fun _ => rfl, fun _ _ h => h, fun _ _ h => h, fun _ _ h => h⟩
  obtain ⟨zp, hzp⟩ := hi.prev
  obtain ⟨z, hz, hlp⟩ := hi.cur
  obtain ⟨x, hx, hf⟩ := hi.sol
  obtain ⟨e1, e2, e3, e4⟩ := changeN_get (s := s) r.nIterations
  have hzp' := e2 _ _ hzp
  have hz' := e2 _ _ hz
  have hx' := e3 _ _ hx
  have hf' := e4 _ _ hf
  rw [← e1] at hzp' hz' hx' hf'
  obtain ⟨l1, l2, l2', l3, l4, l5, l6⟩ := hP.not_initial.1.changeN (n := r.nIterations) hfit
  have hN : r.nIterations = none → changeN s r.nIterations = s := by
    intro h; rw [h]; rfl
  refine ⟨fun h => absurd hv h, ?_⟩
  suffices hs' : (r.stepBack = some true ∧ s' = changeN s r.nIterations) ∨
      (r.stepBack = some false ∧ s' = { changeN s r.nIterations with
        left := (changeN s r.nIterations).left - 1, step := (changeN s r.nIterations).step + 1 }) by
    rcases hs' with ⟨hb, rfl⟩ | ⟨hb, rfl⟩
    · exact ⟨fun _ h => hN h, fun _ => e1, e2, e3, e4⟩
    · exact ⟨fun h => by simp [hb] at h, fun h => by simp [hb] at h, e2, e3, e4⟩
  unfold answer at ha
  rw [hv] at ha
  dsimp only at ha
  cases req with
  | initial => exact absurd rfl hreq
  | stop x f => simp [iterate] at ha
  | nav zz lo up d =>
    simp only [validate] at hv
    obtain ⟨back, prev, hb, hp, _, hpref, _⟩ := validateNav_ok hv
    change handleNav c r orc s = (s', .error e) at ha
    unfold handleNav at ha
    rw [modify_bind, get_bind] at ha
    generalize changeN s r.nIterations = s1 at *
    split at ha
    · rw [modify_bind] at ha
      have : ∃ s' q, (do
          let x ← readX s1.step
          let f ← readF s1.step
          pure (some (Req.stop x f)) : Exec (St k m K) (Option (Req k m K))) { s1 with left := 0 } =
            (s', .ok q) :=
        ⟨_, _, bind_ok.2 ⟨_, some x, readX_ok.2 ⟨rfl, hx'⟩,
          bind_ok.2 ⟨_, some _, readF_ok.2 ⟨rfl, hf'⟩, rfl⟩⟩⟩
      obtain ⟨_, _, this⟩ := this
      rw [this] at ha
      simp at ha
    · rename_i hl
      simp only [hb, forward, goBack, hp] at ha
      cases back with
      | false =>
        refine .inr ⟨hb, ?_⟩
        dsimp only at ha
        rw [modify_bind] at ha
        cases prev with
        | true =>
          exfalso
          dsimp only at ha
          rw [get_bind] at ha
          have hl1 : s1.step + 1 < s1.zs.length := by omega
          have hlx : s1.step + 1 < s1.xs.length := by omega
          have hlf : s1.step + 1 < s1.fs.length := by omega
          obtain ⟨s2, q, h⟩ := movePoint_total (c := c) (orc := orc)
            (s := { step := s1.step + 1, n := s1.n, left := s1.left - 1, zs := s1.zs,
                    xs := s1.xs.set (s1.step + 1) (some x),
                    fs := s1.fs.set (s1.step + 1) (some (c.evaluate x)), bs := s1.bs }) (q := z) (f := c.evaluate x)
            (by simpa using hz') (getElem?_set_same (by omega)) hl1 (by dsimp only; omega)
          have hgood : ∃ s' q, (do
              let x ← readX s1.step
              setX (s1.step + 1) x
              let f ← readF s1.step
              setF (s1.step + 1) f
              movePoint c orc : Exec (St k m K) (Option (Req k m K)))
              { s1 with left := s1.left - 1, step := s1.step + 1 } = (s', .ok q) :=
            ⟨_, _, bind_ok.2 ⟨_, some x, readX_ok.2 ⟨rfl, hx'⟩,
              bind_ok.2 ⟨_, (), setX_ok.2 ⟨hlx, rfl⟩,
              bind_ok.2 ⟨_, some (c.evaluate x), readF_ok.2 ⟨rfl, hf'⟩,
              bind_ok.2 ⟨_, (), setF_ok.2 ⟨hlf, rfl⟩, h⟩⟩⟩⟩⟩
          obtain ⟨_, _, hgood⟩ := hgood
          simp only [Nat.add_sub_cancel] at ha
          rw [hgood] at ha
          simp at ha
        | false =>
          obtain ⟨meth, info, hm, hinf, _⟩ := validatePreferences_ok (hpref rfl)
          simp only [hm, hinf] at ha
          exact solve_move_error (q := z) (by simpa using hz') (by dsimp only; omega)
              (by dsimp only; omega) (by dsimp only; omega) (by dsimp only; omega) ha
      | true =>
        refine .inl ⟨hb, ?_⟩
        dsimp only at ha
        cases hsh : r.shortStep with
        | none =>
          simp only [hsh, raise_run, Prod.mk.injEq] at ha
          exact ha.1.symm
        | some sh =>
          simp only [hsh] at ha
          cases sh with
          | true =>
            exfalso
            dsimp only at ha
            unfold shortStep at ha
            rw [get_bind] at ha
            have hlb : s1.step + 1 < s1.bs.length := by omega
            have hgood : ∃ s' q, (do
                let z0 ← getZ s1.step
                let zPrev ← getZ (s1.step - 1)
                let z : Vec k K := fun j => 1 / 2 * z0 j + 1 / 2 * zPrev j
                setZ s1.step z
                setB (s1.step + 1) (bounds c orc z)
                let f ← getF s1.step
                pure (some (.nav z (bounds c orc z) z (distance c z f))) :
                Exec (St k m K) (Option (Req k m K))) s1 = (s', .ok q) :=
              ⟨_, _, bind_ok.2 ⟨s1, z, getZ_ok.2 ⟨rfl, hz'⟩,
                bind_ok.2 ⟨s1, zp, getZ_ok.2 ⟨rfl, hzp'⟩,
                bind_ok.2 ⟨_, (), setZ_ok.2 ⟨by omega, rfl⟩,
                bind_ok.2 ⟨_, (), setB_ok.2 ⟨hlb, rfl⟩,
                bind_ok.2 ⟨_, c.evaluate x, getF_ok.2 ⟨rfl, hf'⟩, rfl⟩⟩⟩⟩⟩⟩
            obtain ⟨_, _, hgood⟩ := hgood
            rw [hgood] at ha
            simp at ha
          | false =>
            dsimp only at ha
            cases prev with
            | true => simp at ha
            | false =>
              obtain ⟨meth, info, hm, hinf, _⟩ := validatePreferences_ok (hpref rfl)
              simp only [hm, hinf] at ha
              exact solve_move_error (q := zp) hzp' (by omega) (by omega) (by omega) (by omega) ha

/-- Stepping back with a preference array that is too long. -/
def exLongBack : Resp ℚ :=
  { stepBack := some true, shortStep := some false, usePrevious := some false, method := some 2,
    info := some (.arr [1, 2, 3]) }

theorem ex_longBack : answer exCfg exS2 exR2 exLongBack exOrc = (exS2, .error .valueError) :=
  eq_of_beq (by decide +kernel)

example := C95_failed_call_partial (ex_smooth2 (fun _ => True) trivial) ex_planned2 List.mem_cons_self
  (fun _ h => by cases h) ex_longBack

/-! ### C96 -/

/-- The request that is answered next: the new one, if there is one. -/
def newest (req : Req k m K) : Except Err (Option (Req k m K)) → Req k m K
  | .ok (some q) => q
  | _ => req

/-- What the decision maker sees who always answers the newest request; after an exception the same request
is answered again. -/
def play (c : Cfg k m K) (s : St k m K) (req : Req k m K) :
    List (Resp K × Oracle k m K) → List (Except Err (Option (Req k m K)))
  | [] => []
  | (r, orc) :: rest =>
    (answer c s req r orc).2 :: play c (answer c s req r orc).1 (newest req (answer c s req r orc).2) rest

/-- The histories in which no step forward was taken: the initial request was answered any number of times,
the others with steps back or with responses that were refused. -/
inductive Early (c : Cfg k m K) : St k m K → List (Req k m K) → Prop
  | init : Early c St.init [.initial]
  | next {s iss req r orc s' o} : Early c s iss → req ∈ iss →
      (req = .initial ∨ r.stepBack = some true ∨ validate c req r ≠ .ok ()) →
      answer c s req r orc = (s', o) → Early c s' (extend o iss)

/-- The body does not touch the iteration number. -/
def Keeps {α : Type} (x : Exec (St k m K) α) : Prop := ∀ s, (x s).1.step = s.step

theorem Keeps.bind {α β : Type} {x : Exec (St k m K) α} {y : α → Exec (St k m K) β} (hx : Keeps x)
    (hy : ∀ a, Keeps (y a)) : Keeps (x >>= y) := by
  intro s
  show (Exec.bind x y s).1.step = _
  unfold Exec.bind
  cases (x s).2 with
  | error e => exact hx s
  | ok a => exact (hy a _).trans (hx s)

theorem keeps_setZ (i : Nat) (v : Vec k K) : Keeps (setZ i v : Exec (St k m K) Unit) := by
  intro s; unfold setZ; split <;> rfl
theorem keeps_setX (i : Nat) (v : Option (Vec m K)) : Keeps (setX i v : Exec (St k m K) Unit) := by
  intro s; unfold setX; split <;> rfl
theorem keeps_setF (i : Nat) (v : Option (Vec k K)) : Keeps (setF i v : Exec (St k m K) Unit) := by
  intro s; unfold setF; split <;> rfl

theorem keeps_setB (i : Nat) (v : Vec k K) : Keeps (setB i v : Exec (St k m K) Unit) := by
  intro s; unfold setB; split <;> rfl

theorem keeps_solveWith (c : Cfg k m K) (orc : Oracle k m K) (w : Vec k K) : Keeps (solveWith c orc w) :=
  Keeps.bind (fun _ => rfl) fun _ => Keeps.bind (fun _ => rfl) fun _ =>
    (keeps_setX _ _).bind fun _ => keeps_setF _ _

theorem keeps_movePoint (c : Cfg k m K) (orc : Oracle k m K) : Keeps (movePoint c orc) :=
  Keeps.bind (fun _ => rfl) fun _ => Keeps.bind (fun _ => rfl) fun _ => Keeps.bind (fun _ => rfl) fun _ =>
    (keeps_setZ _ _).bind fun _ => (keeps_setB _ _).bind fun _ _ => rfl

theorem keeps_shortStep (c : Cfg k m K) (orc : Oracle k m K) : Keeps (shortStep c orc) :=
  Keeps.bind (fun _ => rfl) fun _ => Keeps.bind (fun _ => rfl) fun _ => Keeps.bind (fun _ => rfl) fun _ =>
    (keeps_setZ _ _).bind fun _ => (keeps_setB _ _).bind fun _ => Keeps.bind (fun _ => rfl) fun _ _ => rfl

theorem keeps_goBack (c : Cfg k m K) (r : Resp K) (orc : Oracle k m K) : Keeps (goBack c r orc) := by
  unfold goBack
  split
  · exact fun _ => rfl
  · exact keeps_shortStep c orc
  · split
    · exact fun _ => rfl
    · exact fun _ => rfl
    · exact Keeps.bind (fun _ => rfl) fun _ => (keeps_solveWith _ _ _).bind fun _ => keeps_movePoint c orc
    · exact fun _ => rfl

theorem Early.step {c : Cfg k m K} {s : St k m K} {iss : List (Req k m K)} (h : Early c s iss) : s.step = 1 := by
  induction h with
  | init => rfl
  | @next s iss req r orc s' o _ _ hr ha ih =>
    by_cases hv : validate c req r = .ok ()
    swap
    · rw [(answer_refused ha hv).1]; exact ih
    rcases hr with rfl | hb | hn
    · exact (initial_fail_step ha).trans ih
    · unfold answer at ha
      rw [hv] at ha
      dsimp only at ha
      cases req with
      | initial =>
        have : answer c s .initial r orc = (s', o) := by unfold answer; rw [hv]; exact ha
        exact (initial_fail_step this).trans ih
      | stop x f =>
        simp only [iterate, pure_run, Prod.mk.injEq] at ha
        rw [← ha.1]; exact ih
      | nav z lo up d =>
        have hk : Keeps (handleNav c r orc) := by
          unfold handleNav
          refine Keeps.bind (x := Exec.modify fun s => changeN s r.nIterations)
            (fun s => (changeN_get (s := s) r.nIterations).1) fun _ => Keeps.bind (fun _ => rfl) fun s1 => ?_
          split
          · exact Keeps.bind (fun _ => rfl) fun _ => Keeps.bind (fun _ => rfl) fun _ =>
              Keeps.bind (fun _ => rfl) fun _ _ => rfl
          · rw [hb]
            exact keeps_goBack c r orc
        have := hk s
        change handleNav c r orc s = (s', o) at ha
        rw [ha] at this
        exact this.trans ih
    · exact absurd hv hn

theorem play_initial (c : Cfg k m K) (rs : List (Resp K × Oracle k m K)) : ∀ {s t : St k m K},
    s.step = t.step → play c s .initial rs = play c t .initial rs := by
  induction rs with
  | nil => intros; rfl
  | cons p rest ih =>
    intro s t h
    obtain ⟨r, orc⟩ := p
    simp only [play]
    by_cases hv : validate c .initial r = .ok ()
    · have hsame : answer c s .initial r orc = answer c t .initial r orc := by
        unfold answer
        rw [hv]
        dsimp only
        obtain ⟨v, hn, _, _, _, _, hpref⟩ := validateInitial_ok hv
        obtain ⟨meth, info, hm, hinf, _⟩ := validatePreferences_ok hpref
        simp only [iterate, handleInitial, hn, hm, hinf]
        rw [modify_bind, modify_bind]
        obtain ⟨step, n, left, zs, xs, fs, bs⟩ := s
        obtain ⟨step', n', left', zs', xs', fs', bs'⟩ := t
        dsimp only at h
        subst h
        rfl
      rw [hsame]
    · cases hv' : validate c .initial r with
      | ok u => exact absurd hv' hv
      | error e =>
        have e1 : ∀ s, answer c s .initial r orc = (s, .error e) := by
          intro s; unfold answer; rw [hv']
        rw [e1, e1]
        exact congrArg _ (ih h)

/-- **C96** (NAUTILUS 2). As long as no step forward was taken, answering the initial request again starts
over: whatever the decision maker answers from then on, always answering the newest request, every request and
every exception is the one a newly constructed method gives. Missing from the full claim: after a step forward
the iteration number is kept, and starting over goes wrong, see `C96_fails_restart`. -/
theorem C96_restart_partial {c : Cfg k m K} {s : St k m K} {iss : List (Req k m K)} (h : Early c s iss)
    (rs : List (Resp K × Oracle k m K)) : play c s .initial rs = play c St.init .initial rs :=
  play_initial c rs h.step

theorem ex_early : Early exCfg exS1 [exR1, .initial] := .next .init List.mem_cons_self (.inl rfl) ex_step1

example := C96_restart_partial ex_early [(exFirst, exOrc), (exShort, exOrc)]

/-- One iteration, from the initial request. -/
def exSingle : Resp ℚ := { nIterations := some (.int 1), method := some 1, info := some (.arr [1, 2]) }

/-- C96 fails: after one step forward the initial request is answered again, asking for one iteration.
`IndexError` is raised where a newly constructed method gives an iteration point. -/
theorem C96_fails_restart : Smooth exCfg (fun _ => True) exS2 [exR2, exR1] ∧
    (answer exCfg exS2 .initial exSingle exOrc).2 = .error .indexError ∧
    ∃ q, (answer exCfg St.init .initial exSingle exOrc).2 = .ok (some q) :=
  ⟨ex_smooth2 _ trivial, eq_of_beq (by decide +kernel),
    getReq (answer exCfg St.init .initial exSingle exOrc).2, eq_of_beq (by decide +kernel)⟩

end Verif.NautilusV2
