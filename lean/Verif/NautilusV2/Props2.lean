import Verif.NautilusV2.Props

set_option linter.unusedSectionVars false

/-!
# Properties C41, C43, C44, C66, C67 and C68 of NAUTILUS 2
-/

namespace Verif.NautilusV2

variable {K : Type} [Field K] [LinearOrder K] [IsStrictOrderedRing K] {k m : Nat}

/-! ### C41: the direction of improvement, examples -/

/-- The example in the documentation of the code: four objectives, three ratios. -/
def exPairs : List (Pair ℚ) :=
  [⟨.int 1, .int 2, 1/2⟩, ⟨.int 3, .int 4, 1⟩, ⟨.int 2, .int 3, 3/2⟩]

theorem exPairs_connected : Connected 3 exPairs := by
  have h01 : Linked exPairs (0 : Fin 4) 1 := ⟨⟨.int 1, .int 2, 1/2⟩, by simp [exPairs], .inl ⟨rfl, rfl⟩⟩
  have h12 : Linked exPairs (1 : Fin 4) 2 := ⟨⟨.int 2, .int 3, 3/2⟩, by simp [exPairs], .inl ⟨rfl, rfl⟩⟩
  have h23 : Linked exPairs (2 : Fin 4) 3 := ⟨⟨.int 3, .int 4, 1⟩, by simp [exPairs], .inl ⟨rfl, rfl⟩⟩
  intro i
  match i with
  | 0 => exact .refl
  | 1 => exact .single h01
  | 2 => exact (Relation.ReflTransGen.single h01).tail h12
  | 3 => exact ((Relation.ReflTransGen.single h01).tail h12).tail h23

theorem exPairs_valid : validatePairs 4 exPairs = .ok () := by decide +kernel

example := C41_direction_partial exPairs_valid exPairs_connected
example := C41_terminates_iff exPairs_valid

/-- The direction found for the example. -/
def exDoi : Vec 4 ℚ := ![1, 1/2, 3/4, 3/4]

theorem exPairs_doi : doi 4 exPairs = .ok exDoi := eq_of_beq (by decide +kernel)

example : exDoi = ![1, 1/2, 3/4, 3/4] :=
  C41_unique exPairs_valid exPairs_doi rfl (by decide +kernel)

/-- Three pairs that mention all four objectives, but leave the last two unrelated to the first two. -/
def exBroken : List (Pair ℚ) :=
  [⟨.int 1, .int 2, 1/2⟩, ⟨.int 2, .int 1, 2⟩, ⟨.int 3, .int 4, 1⟩]

/-- C41 fails: this list of pairs is accepted, and the computation of the direction never ends. -/
theorem C41_fails : validatePairs 4 exBroken = .ok () ∧ LoopsForever 3 exBroken ∧
    (answer exCfg4 St.init .initial
      { nIterations := some (.int 4), method := some 3, info := some (.pairs exBroken) } exOrc4).2 =
      .error .diverges := by
  have hv : validatePairs 4 exBroken = .ok () := by decide +kernel
  obtain ⟨n, hn, hp, -⟩ := validatePairs_ok hv
  obtain rfl : n = 3 := by omega
  refine ⟨hv, ((doi_diverges (e := .diverges) hp).1 ?_).2, eq_of_beq (by decide +kernel)⟩
  exact eq_of_beq (by decide +kernel)

/-! ### C43: positive factors -/

/-- C43: for every accepted preference, the factors and the weights given to the achievement function are
positive (whenever there are any; a list of pairs that does not connect the objectives gives none,
`C41_fails`). -/
theorem C43_factors_positive {r : Resp K} {meth : Int} {info : Pref K} {w : Vec k K}
    (hv : validatePreferences k r = .ok ()) (hm : r.method = some meth) (hi : r.info = some info)
    (hw : factors k meth info = .ok w) : ∀ i, 0 < w i ∧ weights w i = 1 / w i ∧ 0 < weights w i := by
  have key : ∀ i, 0 < w i := by
    intro i
    obtain ⟨meth', info', hm', hi', h⟩ := validatePreferences_ok hv
    rw [hm] at hm'
    rw [hi] at hi'
    cases hm'; cases hi'
    rcases h with ⟨l, rfl, -, hpos, hlen⟩ | ⟨l, rfl, rfl, hl⟩
    · simp only [factors] at hw
      split_ifs at hw with hk
      cases hw
      have hlt : i.val < l.length := by have := i.isLt; omega
      simp only [List.getElem?_eq_getElem hlt, Option.getD_some]
      exact hpos _ (List.getElem_mem _)
    · simp only [factors, if_true] at hw
      obtain ⟨n, rfl, hp, -⟩ := validatePairs_ok hl
      have hc : Connected n l := (C41_terminates_iff hl).1.1 ⟨w, (doi_returns hp).1 hw⟩
      obtain ⟨d, hd, -, hpos, -⟩ := C41_direction_partial hl hc
      rw [hd] at hw
      cases hw
      exact hpos i
  exact fun i => ⟨key i, rfl, one_div_pos.2 (key i)⟩

example := C43_factors_positive (k := 2) (r := exFirst) (by decide +kernel) rfl rfl rfl
example := C43_factors_positive (k := 4)
  (r := { method := some 3, info := some (.pairs exPairs) }) (by decide +kernel) rfl rfl exPairs_doi

/-- What the factors are: for the first two methods the entries of the array, in order; for the third the
direction of improvement. -/
theorem C43_factors_given {r : Resp K} {meth : Int} {info : Pref K} {w : Vec k K}
    (hv : validatePreferences k r = .ok ()) (hm : r.method = some meth) (hi : r.info = some info)
    (hw : factors k meth info = .ok w) :
    (∃ l, info = .arr l ∧ (meth = 1 ∨ meth = 2) ∧ l = List.ofFn w) ∨
    (∃ n l, ∃ hk : k = n + 1, info = .pairs l ∧ meth = 3 ∧ w ⟨0, by omega⟩ = 1 ∧
      ∀ p ∈ l, ∀ i j : Fin k, p.fst.asInt = (i : Int) + 1 → p.snd.asInt = (j : Int) + 1 →
        w j = p.ratio * w i) := by
  obtain ⟨meth', info', hm', hi', h⟩ := validatePreferences_ok hv
  rw [hm] at hm'
  rw [hi] at hi'
  cases hm'; cases hi'
  rcases h with ⟨l, rfl, hmeth, hpos, hlen⟩ | ⟨l, rfl, rfl, hl⟩
  · left
    simp only [factors] at hw
    split_ifs at hw with hk
    subst hk
    cases hw
    refine ⟨l, rfl, by tauto, ?_⟩
    apply List.ext_getElem
    · simp
    · intro i h1 h2
      simp
  · right
    simp only [factors, if_true] at hw
    obtain ⟨n, rfl, hp, -⟩ := validatePairs_ok hl
    have hc : Connected n l := (C41_terminates_iff hl).1.1 ⟨w, (doi_returns hp).1 hw⟩
    obtain ⟨d, hd, h1, -, hr⟩ := C41_direction_partial hl hc
    rw [hd] at hw
    cases hw
    exact ⟨n, l, rfl, rfl, rfl, h1, hr⟩

example := C43_factors_given (k := 2) (r := exFirst) (by decide +kernel) rfl rfl rfl

/-! ### C44: accepted responses are answered -/

/-- C44 fails, in a state reached by one accepted answer: stepping back with the previous preference
returns `None`; stepping back without the key `short_step` raises `KeyError`; a preference array with more
entries than objectives raises `ValueError`. Each of these responses passes validation; a fourth way is
`C41_fails`, a fifth `C40_fails`. -/
theorem C44_fails :
    Smooth exCfg (fun _ => True) exS1 [exR1] ∧
    (∃ r, validate exCfg exR1 r = .ok () ∧ (answer exCfg exS1 exR1 r exOrc).2 = .ok none) ∧
    (∃ r, validate exCfg exR1 r = .ok () ∧ (answer exCfg exS1 exR1 r exOrc).2 = .error .keyError) ∧
    (∃ r, validate exCfg exR1 r = .ok () ∧ (answer exCfg exS1 exR1 r exOrc).2 = .error .valueError) ∧
    (∃ r, validate exCfg (.initial (k := 2) (m := 1)) r = .ok () ∧
      (answer exCfg St.init .initial r exOrc).2 = .error .valueError) := by
  refine ⟨ex_smooth1 _ trivial,
    ⟨{ stepBack := some true, shortStep := some false, usePrevious := some true }, by decide +kernel,
      eq_of_beq (by decide +kernel)⟩,
    ⟨{ stepBack := some true, usePrevious := some true }, by decide +kernel,
      eq_of_beq (by decide +kernel)⟩,
    ⟨{ stepBack := some false, usePrevious := some false, method := some 2, info := some (.arr [1, 2, 3]) },
      by decide +kernel, eq_of_beq (by decide +kernel)⟩,
    ⟨{ nIterations := some (.int 4), method := some 2, info := some (.arr [1, 2, 3]) },
      by decide +kernel, eq_of_beq (by decide +kernel)⟩⟩

/-- The exception of a forward step leaves the object in a state from which the run cannot go on. -/
theorem C44_fails_broken_state :
    let bad : Resp ℚ := { stepBack := some false, usePrevious := some false, method := some 2,
                          info := some (.arr [1, 2, 3]) }
    let s := (answer exCfg exS1 exR1 bad exOrc).1
    s.step = 2 ∧ (answer exCfg s exR1 keepResp exOrc).2 = .error .typeError ∧
      (answer exCfg s exR1 exShort exOrc).2 = .error .typeError := by
  refine ⟨by decide +kernel, eq_of_beq (by decide +kernel), eq_of_beq (by decide +kernel)⟩

/-- C44, partial: in every run in which no accepted response has raised before and all numbers of
iterations fit the storage, an accepted response is answered with a request if it asks for something the
code implements: when stepping back, the key `short_step` is present and, unless it is true, new
preferences are given; preference arrays have one entry per objective; pairs connect all objectives.
Missing: the cases of `C44_fails`, `C41_fails` and `C40_fails`. -/
theorem C44_answered_partial {c : Cfg k m K} {G : Oracle k m K → Prop} {s : St k m K}
    {iss : List (Req k m K)} {req : Req k m K} {r : Resp K} {orc : Oracle k m K}
    (hS : Smooth c G s iss) (hP : Planned c s iss) (hr : req ∈ iss)
    (hfit : ∀ v, r.nIterations = some v → s.step + v.asInt ≤ max s.n v.asInt + 1)
    (hv : validate c req r = .ok ())
    (hback : r.stepBack = some true → r.shortStep = some true ∨
      (r.shortStep = some false ∧ r.usePrevious = some false))
    (harr : ∀ l, r.info = some (.arr l) → l.length = k)
    (hpairs : ∀ l, r.info = some (.pairs l) → ∃ n, k = n + 1 ∧ Connected n l) :
    ∃ s' q, answer c s req r orc = (s', .ok (some q)) := by
  have hu : UsablePref k r := by
    unfold UsablePref
    split
    · exact harr _ ‹_›
    · exact hpairs _ ‹_›
    · trivial
  refine answer_total hS.inv hP.not_initial.1 hfit (hS.session.not_initial _ hr) hv ?_
  unfold Implemented
  split
  · rename_i hb
    rcases hback hb with h | ⟨h1, h2⟩
    · rw [h]; trivial
    · rw [h1]; exact ⟨h2, hu⟩
  · exact fun _ => hu

/-- C44, the first answer. -/
theorem C44_first_answered_partial {c : Cfg k m K} {s : St k m K} {r : Resp K} {orc : Oracle k m K}
    (h0 : s.step = 1) (hv : validate c (.initial (k := k) (m := m)) r = .ok ())
    (harr : ∀ l, r.info = some (.arr l) → l.length = k)
    (hpairs : ∀ l, r.info = some (.pairs l) → ∃ n, k = n + 1 ∧ Connected n l) :
    ∃ s' q, answer c s .initial r orc = (s', .ok (some q)) := by
  refine initial_total h0 hv ?_
  unfold UsablePref
  split
  · exact harr _ ‹_›
  · exact hpairs _ ‹_›
  · trivial

theorem ex_planned1 : Planned exCfg exS1 [exR1] := .first rfl ex_step1
theorem ex_planned2 : Planned exCfg exS2 [exR2, exR1] :=
  .next ex_planned1 List.mem_cons_self (fun v hv => by simp [keepResp] at hv) ex_step2

example : ∃ s' q, answer exCfg exS2 exR2 exRedo exOrc = (s', .ok (some q)) :=
  C44_answered_partial (ex_smooth2 (fun _ => True) trivial) ex_planned2 List.mem_cons_self
    (fun v hv => by simp [exRedo] at hv) (by decide +kernel)
    (fun _ => .inr ⟨rfl, rfl⟩) (fun l h => by simp [exRedo] at h; subst h; rfl)
    (fun l h => by simp [exRedo] at h)

example : ∃ s' q, answer exCfg4 St.init .initial
    { nIterations := some (.int 4), method := some 3, info := some (.pairs exPairs) } exOrc4 =
    (s', .ok (some q)) :=
  C44_first_answered_partial rfl (by decide +kernel) (fun l h => by simp at h)
    (fun l h => by simp at h; subst h; exact ⟨3, rfl, exPairs_connected⟩)

/-! ### C66: stopping -/

/-- C66, first part: every stop request shows a decision vector with its own objective vector. -/
theorem C66_stop_pair {c : Cfg k m K} {G : Oracle k m K → Prop} {s : St k m K}
    {iss : List (Req k m K)} (hS : Smooth c G s iss) {x f} (h : Req.stop x f ∈ iss) :
    ∃ x', x = some x' ∧ f = some (c.evaluate x') := by
  induction hS with
  | first h0 hG ha =>
    have hst := answer_ok (by omega) ha
    rw [List.mem_singleton] at h
    subst h
    generalize hq : some (Req.stop x f) = q at hst
    cases hst with
    | initial => simp [navReq] at hq
  | @next s iss req r orc s' o hs hr hG ha hok ih =>
    by_cases hv : validate c req r = .ok ()
    · obtain ⟨q, rfl⟩ := hok hv
      cases q with
      | none => exact ih h
      | some q =>
        rcases List.mem_cons.1 h with rfl | h
        · have hst := answer_ok hs.inv.pos ha
          obtain ⟨x0, hx0, hf0⟩ := hs.inv.sol
          obtain ⟨e1, e2, e3, e4⟩ := changeN_get (s := s) r.nIterations
          have hx' := e3 _ _ hx0
          have hf' := e4 _ _ hf0
          rw [← e1] at hx' hf'
          generalize hq : some (Req.stop x f) = q at hst
          cases hst with
          | ended => cases hq; exact ih hr
          | initial => simp [navReq] at hq
          | stop hv hs1 hl hx1 hf1 =>
            subst hs1
            rw [hx'] at hx1
            rw [hf'] at hf1
            cases hx1; cases hf1
            simp only [Option.some.injEq, Req.stop.injEq] at hq
            exact ⟨x0, hq.1, hq.2⟩
          | keep => simp [navReq] at hq
          | change => simp [navReq] at hq
          | short => simp [navReq] at hq
          | redo => simp [navReq] at hq
          | nothing => simp at hq
        · exact ih h
    · obtain ⟨rfl, e, rfl⟩ := answer_refused ha hv
      exact ih h

/-- C66, second part: an accepted response to an intermediate request is answered with the stop request
exactly when at most one iteration is left, after applying the change of the number of iterations. -/
theorem C66_stop_iff {c : Cfg k m K} {G : Oracle k m K → Prop} {s s' : St k m K}
    {iss : List (Req k m K)} {z lo up : Vec k K} {d : Fl K} {r : Resp K} {orc : Oracle k m K}
    {o : Option (Req k m K)} (hS : Smooth c G s iss)
    (ha : answer c s (.nav z lo up d) r orc = (s', .ok o)) :
    (∃ x f, o = some (.stop x f)) ↔
      (match r.nIterations with
        | none => s.left
        | some v => v.asInt) ≤ 1 := by
  have hst := answer_ok hS.inv.pos ha
  have hleft : (changeN s r.nIterations).left = (match r.nIterations with
        | none => s.left
        | some v => v.asInt) := by
    unfold changeN
    split <;> simp_all
  rw [← hleft]
  cases hst with
  | stop hv hs1 hl hx1 hf1 => subst hs1; exact ⟨fun _ => hl, fun _ => ⟨_, _, rfl⟩⟩
  | keep hv hs1 hl => subst hs1; simp [navReq, hl]
  | change hv hs1 hl => subst hs1; simp [navReq, hl]
  | short hv hs1 hl => subst hs1; simp [navReq, hl]
  | redo hv hs1 hl => subst hs1; simp [navReq, hl]
  | nothing hv hs1 hl => subst hs1; simp [hl]

/-- C66, third part, partial: when the last iteration is over (one left, counting the current one) and
the number of iterations is not changed, the stop request carries the objective vector that was shown as
the last iteration point. Missing: stopping by reducing the number of iterations (`C66_fails`). -/
theorem C66_stop_at_last_point_partial {c : Cfg k m K} {G : Oracle k m K → Prop} {s s' : St k m K}
    {iss : List (Req k m K)} {req : Req k m K} {r : Resp K} {orc : Oracle k m K} {x f}
    (hS : Smooth c G s iss) (hreq : ∀ x f, req ≠ .stop x f) (hr : req ∈ iss)
    (ha : answer c s req r orc = (s', .ok (some (.stop x f)))) (hl : s.left = 1)
    (hn : r.nIterations = none) :
    ∃ x' z, x = some x' ∧ f = some z ∧ z = c.evaluate x' ∧ lastPoint iss = some z := by
  have hst := answer_ok hS.inv.pos ha
  obtain ⟨x0, hx0, hf0⟩ := hS.inv.sol
  obtain ⟨z, hz, hlp⟩ := hS.inv.cur
  have hd := hS.inv.done hl
  have hcn : changeN s r.nIterations = s := by rw [hn]; rfl
  generalize hq : some (Req.stop x f) = q at hst
  cases hst with
  | ended => exact absurd rfl (hreq _ _)
  | initial => simp [navReq] at hq
  | stop hv hs1 hl hx1 hf1 =>
    rw [hcn] at hs1
    subst hs1
    rw [hx0] at hx1
    rw [hf0] at hf1
    rw [hz, hf0] at hd
    cases hx1; cases hf1
    simp only [Option.some.injEq, Req.stop.injEq] at hq hd
    exact ⟨x0, z, hq.1, by rw [hq.2, hd], hd, hlp⟩
  | keep => simp [navReq] at hq
  | change => simp [navReq] at hq
  | short => simp [navReq] at hq
  | redo => simp [navReq] at hq
  | nothing => simp at hq

/-- One iteration in all: the next answer stops at the point shown. -/
def exOne : Resp ℚ := { nIterations := some (.int 1), method := some 1, info := some (.arr [1, 2]) }
theorem exOne_step : answer exCfg St.init .initial exOne exOrc =
    ((answer exCfg St.init .initial exOne exOrc).1,
      .ok (some (getReq (answer exCfg St.init .initial exOne exOrc).2))) := eq_of_beq (by decide +kernel)

example := C66_stop_at_last_point_partial (r := keepResp) (orc := exOrc)
  (x := some ![3/8]) (f := some ![3/8, 5/8]) (.first (G := fun _ => True) rfl trivial exOne_step)
  (by
    have h : getReq (answer exCfg St.init .initial exOne exOrc).2 =
        .nav ![3/8, 5/8] ![3/8, 5/8] ![3/8, 5/8] (.num 100) := eq_of_beq (by decide +kernel)
    rw [h]; simp)
  List.mem_cons_self
  (s' := (answer exCfg (answer exCfg St.init .initial exOne exOrc).1
    (getReq (answer exCfg St.init .initial exOne exOrc).2) keepResp exOrc).1)
  (eq_of_beq (by decide +kernel)) (by decide +kernel) rfl

/-- C66 fails when the number of iterations is reduced: the method stops at once with a solution that is
not the point shown last (which was a quarter of the way). -/
theorem C66_fails :
    Smooth exCfg (fun _ => True) exS1 [exR1] ∧ lastPoint [exR1] = some ![21/32, 29/32] ∧
    (answer exCfg exS1 exR1 { nIterations := some (.int 1), stepBack := some false, usePrevious := some true }
      exOrc).2 = .ok (some (.stop (some ![3/8]) (some ![3/8, 5/8]))) := by
  refine ⟨ex_smooth1 _ trivial, ?_, eq_of_beq (by decide +kernel)⟩
  rw [exR1_eq]; rfl

/-! ### C67: changing the number of iterations -/

/-- If the decision maker always goes on with the same preferences from here, exactly `p` further points
are shown and then the method stops, whatever the solvers return. -/
def PointsToCome (c : Cfg k m K) (s : St k m K) (q : Req k m K) (p : Nat) : Prop :=
  ∀ os : List (Oracle k m K),
    (os.length ≤ p → ∃ s' z lo up d, keepRun c os s q = (s', .ok (some (.nav z lo up d)))) ∧
    (os.length = p + 1 → ∃ s' x f, keepRun c os s q = (s', .ok (some (.stop x f))))

theorem points_to_come {c : Cfg k m K} {s : St k m K} {iss : List (Req k m K)} {p : Nat}
    (hi : Inv c s iss) (hst : Store s) (hl : s.left = p + 1) {z lo up : Vec k K} {d : Fl K} :
    PointsToCome c s (.nav z lo up d) p := by
  intro os
  induction os generalizing s iss p z lo up d with
  | nil => exact ⟨fun _ => ⟨s, z, lo, up, d, rfl⟩, fun h => absurd h (by simp)⟩
  | cons o os ih =>
    obtain ⟨x, hx, hf⟩ := hi.sol
    obtain ⟨a, ha, _⟩ := hi.cur
    obtain ⟨k1, k2⟩ := keep_step (z := z) (lo := lo) (up := up) (d := d) (orc := o) hi hst hx ha
    cases p with
    | zero =>
      refine ⟨fun h => absurd h (by simp), fun h => ?_⟩
      obtain ⟨s', hs'⟩ := k1 (by omega)
      have : os = [] := by simpa using h
      subst this
      exact ⟨s', some x, some (c.evaluate x), by simp only [keepRun, hs']⟩
    | succ p =>
      obtain ⟨s', h, hl', -⟩ := k2 (by push_cast at hl; omega)
      have hi' := hi.step (by simp) h
      have hst' := (answer_store hst (fun v hv => by simp [keepResp] at hv) (by simp) h).1
      have := ih (p := p) hi' hst' (by push_cast at hl; omega)
        (z := iterationPoint (s.left - 1) a (c.evaluate x))
        (lo := bounds c o (iterationPoint (s.left - 1) a (c.evaluate x)))
        (up := iterationPoint (s.left - 1) a (c.evaluate x))
        (d := distance c (iterationPoint (s.left - 1) a (c.evaluate x)) (c.evaluate x))
      have hk : keepRun c (o :: os) s (.nav z lo up d) =
          keepRun c os s' (navReq c o (iterationPoint (s.left - 1) a (c.evaluate x)) (c.evaluate x)) := by
        simp only [keepRun, h]
      rw [hk, List.length_cons]
      exact ⟨fun h => this.1 (by omega), fun h => this.2 (by omega)⟩

/-- C67, what holds instead: an accepted response with `n_iterations = v ≥ 2` that goes on with the same
preferences is answered with a point (if the number fits the storage), after which `v - 2` further points
come: `v - 1` in all. Missing: the message asks for the number of remaining iterations, so `v` points
should come (`C67_fails`). -/
theorem C67_one_less_partial {c : Cfg k m K} {G : Oracle k m K → Prop} {s : St k m K}
    {iss : List (Req k m K)} {z lo up : Vec k K} {d : Fl K} {v : PyVal} {orc : Oracle k m K}
    (hS : Smooth c G s iss) (hP : Planned c s iss)
    (hint : v.isInstanceInt = true) (hv : 2 ≤ v.asInt)
    (hfit : s.step + v.asInt ≤ max s.n v.asInt + 1) :
    ∃ s' z' lo' up' d', answer c s (.nav z lo up d)
        { nIterations := some v, stepBack := some false, usePrevious := some true } orc =
        (s', .ok (some (.nav z' lo' up' d'))) ∧
      PointsToCome c s' (.nav z' lo' up' d') (v.asInt - 2).toNat := by
  generalize hresp : ({ nIterations := some v, stepBack := some false, usePrevious := some true } :
    Resp K) = r
  have hF : Fits s r.nIterations := by
    subst hresp; intro v' hv'; cases hv'; exact hfit
  have hval : validate c (.nav z lo up d) r = .ok () := by
    subst hresp
    simp only [validate, validateNav, validateN, hint]
    simp; omega
  obtain ⟨s', q, ha⟩ := answer_total (orc := orc) hS.inv hP.not_initial.1 hF (by simp) hval
    (by subst hresp; simp [Implemented])
  have hst := answer_ok hS.inv.pos ha
  have hi' := hS.inv.step (by simp) ha
  have hst' := (answer_store hP.not_initial.1 hF (by simp) ha).1
  have hcl : (changeN s r.nIterations).left = v.asInt := by subst hresp; rfl
  generalize hq : some q = q' at hst
  cases hst with
  | stop hv' hs1 hl => subst hs1; omega
  | keep hv' hs1 hl =>
    subst hs1
    cases hq
    refine ⟨_, _, _, _, _, ha, points_to_come hi' hst' ?_⟩
    dsimp only; omega
  | change hv' hs1 hl hb hp => subst hresp; simp at hp
  | short hv' hs1 hl hb => subst hresp; simp at hb
  | redo hv' hs1 hl hb => subst hresp; simp at hb
  | nothing => simp at hq

example := C67_one_less_partial (v := .int 3) (orc := exOrc) (ex_smooth2 (fun _ => True) trivial)
  ex_planned2 (z := ![9/16, 13/16]) (lo := ![3/16, 7/16]) (up := ![9/16, 13/16]) (d := .num 50) rfl (by decide) (by decide +kernel)

/-- The full property C67. -/
def RemainingIterations (c : Cfg k m K) : Prop :=
  ∀ s iss z lo up d v orc s' z' lo' up' d', Smooth c (fun _ => True) s iss → Planned c s iss →
    .nav z lo up d ∈ iss → answer c s (.nav z lo up d)
        { nIterations := some v, stepBack := some false, usePrevious := some true } orc =
        (s', .ok (some (.nav z' lo' up' d'))) → ∀ p, PointsToCome c s' (.nav z' lo' up' d') p →
      (p : Int) + 1 = v.asInt

/-- C67 fails: after two of four iterations two points are to come; the decision maker asks for three
remaining iterations; still only two points come. -/
theorem C67_fails : PointsToCome exCfg exS2 exR2 2 ∧
    (∃ s', answer exCfg exS2 exR2
      { nIterations := some (.int 3), stepBack := some false, usePrevious := some true } exOrc =
      (s', .ok (some (.nav ![15/32, 23/32] ![9/32, 17/32] ![15/32, 23/32] (.num 75)))) ∧
      PointsToCome exCfg s' (.nav ![15/32, 23/32] ![9/32, 17/32] ![15/32, 23/32] (.num 75)) 1) ∧
    ¬ RemainingIterations exCfg := by
  have h : answer exCfg exS2 exR2
      { nIterations := some (.int 3), stepBack := some false, usePrevious := some true } exOrc =
      ((answer exCfg exS2 exR2
      { nIterations := some (.int 3), stepBack := some false, usePrevious := some true } exOrc).1,
      .ok (some (.nav ![15/32, 23/32] ![9/32, 17/32] ![15/32, 23/32] (.num 75)))) :=
    eq_of_beq (by decide +kernel)
  have hp : PointsToCome exCfg _ (.nav ![15/32, 23/32] ![9/32, 17/32] ![15/32, 23/32] (.num 75)) 1 :=
    points_to_come (p := 1)
      (Smooth.next (ex_smooth2 (fun _ => True) trivial) List.mem_cons_self trivial h
        fun _ => ⟨_, rfl⟩).inv
      (answer_store ex_planned2.not_initial.1
        (by intro v hv; cases hv; decide +kernel) (by rw [exR2_eq]; simp) h).1
      (eq_of_beq (by decide +kernel))
  refine ⟨?_, ⟨_, h, hp⟩, ?_⟩
  · have := points_to_come (p := 2) (ex_smooth2 (fun _ => True) trivial).inv ex_planned2.not_initial.1
      (eq_of_beq (by decide +kernel))
      (z := ![9/16, 13/16]) (lo := ![3/16, 7/16]) (up := ![9/16, 13/16]) (d := .num 50)
    rwa [← exR2_eq] at this
  · intro hR
    rw [exR2_eq] at h hp
    have := hR _ _ _ _ _ _ _ _ _ _ _ _ _ (ex_smooth2 _ trivial) ex_planned2
      (by rw [exR2_eq]; exact List.mem_cons_self) h 1 hp
    simp [PyVal.asInt] at this

/-! ### C68: the lower bounds -/

/-- The epsilon constraint solvers are exact for the feasible set `F`: if some feasible solution is at
least as good as `z` in all objectives but the `i`-th, the solver for objective `i` returns a feasible one,
with the least `i`-th objective. -/
def ExactEps (c : Cfg k m K) (F : Vec m K → Prop) (orc : Oracle k m K) : Prop :=
  ∀ i z, (∃ x, F x ∧ ∀ j, j ≠ i → c.evaluate x j ≤ z j) →
    F (orc.eps i z) ∧ (∀ j, j ≠ i → c.evaluate (orc.eps i z) j ≤ z j) ∧
    ∀ x, F x → (∀ j, j ≠ i → c.evaluate x j ≤ z j) → c.evaluate (orc.eps i z) i ≤ c.evaluate x i

/-- `lo` is the vector of the least values each objective takes on the feasible solutions that are at least
as good as `z` in the other objectives. -/
def ReachableFrom (c : Cfg k m K) (F : Vec m K → Prop) (z lo : Vec k K) : Prop :=
  ∀ i, (∀ x, F x → (∀ j, j ≠ i → c.evaluate x j ≤ z j) → lo i ≤ c.evaluate x i) ∧
    ((∃ x, F x ∧ ∀ j, j ≠ i → c.evaluate x j ≤ z j) →
      ∃ x, F x ∧ (∀ j, j ≠ i → c.evaluate x j ≤ z j) ∧ c.evaluate x i = lo i)

theorem bounds_exact {c : Cfg k m K} {F : Vec m K → Prop} {orc : Oracle k m K}
    (h : ExactEps c F orc) (z : Vec k K) : ReachableFrom c F z (bounds c orc z) := by
  intro i
  refine ⟨fun x hx hz => (h i z ⟨x, hx, hz⟩).2.2 x hx hz, fun he => ?_⟩
  obtain ⟨h1, h2, h3⟩ := h i z he
  exact ⟨_, h1, h2, rfl⟩

/-- Every request showing a point, in every history with exact solvers, shows the exact bounds. -/
theorem Session.reachable {c : Cfg k m K} {F : Vec m K → Prop} {s : St k m K} {iss : List (Req k m K)}
    (hS : Session c (ExactEps c F) s iss) {z lo up : Vec k K} {d : Fl K} (hr : .nav z lo up d ∈ iss) :
    ReachableFrom c F z lo ∧ up = z := by
  have key : ∀ {s s' : St k m K} {req r orc o}, 1 ≤ s.step → ExactEps c F orc →
      answer c s req r orc = (s', .ok (some o)) → o = .nav z lo up d →
      ReachableFrom c F z lo ∧ up = z := by
    intro s s' req r orc o h1 hG ha ho
    subst ho
    have hst := answer_ok h1 ha
    have done : ∀ {z2 f2 : Vec k K}, some (Req.nav z lo up d) = some (navReq c orc z2 f2) →
        ReachableFrom c F z lo ∧ up = z := by
      intro z2 f2 hq
      simp only [navReq, Option.some.injEq, Req.nav.injEq] at hq
      obtain ⟨rfl, rfl, rfl, -⟩ := hq
      exact ⟨bounds_exact hG _, rfl⟩
    generalize hq : some (Req.nav z lo up d) = q at hst
    cases hst with
    | ended => simp at hq
    | initial => exact done hq
    | stop => simp at hq
    | keep => exact done hq
    | change => exact done hq
    | short => exact done hq
    | redo => exact done hq
    | nothing => simp at hq
  induction hS with
  | first h0 hG ha =>
    exact key (by omega) hG ha (List.mem_singleton.1 hr).symm
  | @next s iss req r orc s' o hs hr' hG ha ih =>
    unfold extend at hr
    split at hr
    · rcases List.mem_cons.1 hr with h | h
      · exact key hs.step_pos hG ha h.symm
      · exact ih h
    · exact ih hr

/-- C68, first part: with exact solvers, in every history, every shown lower bound vector is no larger in
any objective than any feasible solution at least as good as the shown point, and each bound is attained by
a feasible solution that is at least as good as the point in the other objectives (if there is one). -/
theorem C68_lower_bounds {c : Cfg k m K} {F : Vec m K → Prop} {s : St k m K} {iss : List (Req k m K)}
    (hS : Session c (ExactEps c F) s iss) {z lo up : Vec k K} {d : Fl K} (hr : .nav z lo up d ∈ iss) :
    (∀ x, F x → AtLeastAsGood (c.evaluate x) z → AtLeastAsGood lo (c.evaluate x)) ∧
    ∀ i, (∃ x, F x ∧ ∀ j, j ≠ i → c.evaluate x j ≤ z j) →
      ∃ x, F x ∧ (∀ j, j ≠ i → c.evaluate x j ≤ z j) ∧ c.evaluate x i = lo i := by
  obtain ⟨h, -⟩ := hS.reachable hr
  exact ⟨fun x hx hz i => (h i).1 x hx fun j _ => hz j, fun i => (h i).2⟩

/-- C68, second part: if one shown point is at least as good as another one and can still be reached, then
its lower bounds are at least as large. -/
theorem C68_monotone {c : Cfg k m K} {F : Vec m K → Prop} {s : St k m K} {iss : List (Req k m K)}
    (hS : Session c (ExactEps c F) s iss) {z1 lo1 up1 z2 lo2 up2 : Vec k K} {d1 d2 : Fl K}
    (h1 : .nav z1 lo1 up1 d1 ∈ iss) (h2 : .nav z2 lo2 up2 d2 ∈ iss) (hz : AtLeastAsGood z2 z1)
    (hx : ∃ x, F x ∧ AtLeastAsGood (c.evaluate x) z2) : AtLeastAsGood lo1 lo2 := by
  obtain ⟨r1, -⟩ := hS.reachable h1
  obtain ⟨r2, -⟩ := hS.reachable h2
  obtain ⟨x, hx, hxz⟩ := hx
  intro i
  obtain ⟨y, hy, hyz, hyi⟩ := (r2 i).2 ⟨x, hx, fun j _ => hxz j⟩
  rw [← hyi]
  exact (r1 i).1 y hy fun j hj => (hyz j hj).trans (hz j)

/-- C68, upper bounds: whatever the solvers return, every request showing a point shows this point as the
upper bounds, so that every solution at least as good as the point is within them. -/
theorem C68_upper_bounds {c : Cfg k m K} {G : Oracle k m K → Prop} {s : St k m K} {iss : List (Req k m K)}
    (hS : Session c G s iss) {z lo up : Vec k K} {d : Fl K} (hr : .nav z lo up d ∈ iss) : up = z := by
  have key : ∀ {s s' : St k m K} {req r orc o}, 1 ≤ s.step →
      answer c s req r orc = (s', .ok (some o)) → o = .nav z lo up d → up = z := by
    intro s s' req r orc o h1 ha ho
    subst ho
    have hst := answer_ok h1 ha
    have done : ∀ {z2 f2 : Vec k K}, some (Req.nav z lo up d) = some (navReq c orc z2 f2) → up = z := by
      intro z2 f2 hq
      simp only [navReq, Option.some.injEq, Req.nav.injEq] at hq
      obtain ⟨rfl, -, rfl, -⟩ := hq
      rfl
    generalize hq : some (Req.nav z lo up d) = q at hst
    cases hst with
    | ended => simp at hq
    | initial => exact done hq
    | stop => simp at hq
    | keep => exact done hq
    | change => exact done hq
    | short => exact done hq
    | redo => exact done hq
    | nothing => simp at hq
  induction hS with
  | first h0 hG ha => exact key (by omega) ha (List.mem_singleton.1 hr).symm
  | @next s iss req r orc s' o hs hr' hG ha ih =>
    unfold extend at hr
    split at hr
    · rcases List.mem_cons.1 hr with h | h
      · exact key hs.step_pos ha h.symm
      · exact ih h
    · exact ih hr

theorem ex_exactEps : ExactEps exCfg exFeasible exOrc := by
  intro i z
  rintro ⟨x, ⟨h0, h1⟩, hle⟩
  match i with
  | 0 =>
    have hx1 := hle 1 (by decide)
    simp only [exCfg, Matrix.cons_val_one, Matrix.cons_val_zero] at hx1
    have a0 : 1 - z 1 ≤ max 0 (1 - z 1) := le_max_right _ _
    have a1 : (0 : ℚ) ≤ max 0 (1 - z 1) := le_max_left _ _
    have a2 : max 0 (1 - z 1) ≤ x 0 := max_le h0 (by linarith)
    refine ⟨⟨?_, ?_⟩, ?_, ?_⟩
    · simp [exOrc]
    · simp only [exOrc, if_true, Matrix.cons_val_zero]; linarith
    · intro j hj
      match j with
      | 0 => exact absurd rfl hj
      | 1 => simp only [exOrc, exCfg, if_true, Matrix.cons_val_zero, Matrix.cons_val_one]; linarith
    · intro y hy hyz
      have hy1 := hyz 1 (by decide)
      simp only [exCfg, Matrix.cons_val_one, Matrix.cons_val_zero] at hy1
      have : max 0 (1 - z 1) ≤ y 0 := max_le hy.1 (by linarith)
      simpa [exOrc, exCfg] using this
  | 1 =>
    have hx1 := hle 0 (by decide)
    simp only [exCfg, Matrix.cons_val_zero] at hx1
    have a0 : min 1 (z 0) ≤ z 0 := min_le_right _ _
    have a1 : min 1 (z 0) ≤ 1 := min_le_left _ _
    have a2 : x 0 ≤ min 1 (z 0) := le_min h1 hx1
    have e : exOrc.eps 1 z = ![min 1 (z 0)] := rfl
    rw [e]
    refine ⟨⟨?_, ?_⟩, ?_, ?_⟩
    · simp only [Matrix.cons_val_zero]; linarith
    · simp only [Matrix.cons_val_zero]; linarith
    · intro j hj
      match j with
      | 0 => simp only [exCfg, Matrix.cons_val_zero]; linarith
      | 1 => exact absurd rfl hj
    · intro y hy hyz
      have hy1 := hyz 0 (by decide)
      simp only [exCfg, Matrix.cons_val_zero] at hy1
      have : y 0 ≤ min 1 (z 0) := le_min hy.2 hy1
      simp only [exCfg, Matrix.cons_val_zero, Matrix.cons_val_one]; linarith

example := C68_lower_bounds (ex_smooth2 _ ex_exactEps).session
  (z := ![9/16, 13/16]) (lo := ![3/16, 7/16]) (up := ![9/16, 13/16]) (d := .num 50)
  (by rw [exR2_eq]; exact List.mem_cons_self)

example := C68_upper_bounds (ex_smooth2 (fun _ => True) trivial).session
  (z := ![9/16, 13/16]) (lo := ![3/16, 7/16]) (up := ![9/16, 13/16]) (d := .num 50)
  (by rw [exR2_eq]; exact List.mem_cons_self)

example : AtLeastAsGood (![3/32, 11/32] : Vec 2 ℚ) ![3/16, 7/16] :=
  C68_monotone (ex_smooth2 _ ex_exactEps).session (z1 := ![21/32, 29/32]) (up1 := ![21/32, 29/32])
    (d1 := .num 25) (z2 := ![9/16, 13/16]) (up2 := ![9/16, 13/16]) (d2 := .num 50)
    (by rw [exR1_eq]; exact List.mem_cons_of_mem _ List.mem_cons_self)
    (by rw [exR2_eq]; exact List.mem_cons_self)
    (by decide +kernel) ⟨![1/2], ⟨by decide +kernel, by decide +kernel⟩, by decide +kernel⟩

/-! ### C69: the starting point -/

/-- The full property C69: an accepted starting point is nowhere worse than the nadir point. -/
def StartsInside (K : Type) [LinearOrder K] : Prop :=
  ∀ (l : Nat) (start nadir : Nat → K) (names minimize : Option Nat),
    construct l l l start nadir names minimize = .ok () → ∀ i < l, start i ≤ nadir i

/-- C69 fails: a starting point is refused only if it is worse than the nadir point in all objectives. -/
theorem C69_fails :
    construct 2 2 2 (fun i => if i = 0 then 5 else 0) (fun _ => (1 : ℚ)) none none = .ok () ∧
    ¬ StartsInside ℚ := by
  have h : construct 2 2 2 (fun i => if i = 0 then 5 else 0) (fun _ => (1 : ℚ)) none none = .ok () := by
    decide +kernel
  exact ⟨h, fun H => absurd (H _ _ _ _ _ h 0 (by decide)) (by decide +kernel)⟩

/-- C69, partial: the constructor accepts exactly the points of equal lengths with a starting point at
least as good as the nadir point in some objective, a list of names, if
given and not empty, of the number of objectives, and a list of directions, if given and not empty, only
with such a list of names. Missing: the other objectives (`C69_fails`). -/
theorem C69_accepts_iff_partial {li ln ls : Nat} {start nadir : Nat → K} {names minimize : Option Nat} :
    construct li ln ls start nadir names minimize = .ok () ↔
      li = ln ∧ li = ls ∧ (∃ i < li, start i ≤ nadir i) ∧
      (∀ l, names = some l → l ≠ 0 → l = li) ∧
      ((∃ l, minimize = some l ∧ l ≠ 0) → names = some li) := by
  unfold construct
  by_cases h1 : li = ln
  · by_cases h2 : li = ls
    · by_cases h3 : (List.range li).all fun i => decide (nadir i < start i)
      · rw [if_neg (by simpa using h1), if_neg (by simpa using h2), if_pos h3]
        simp only [List.all_eq_true, List.mem_range, decide_eq_true_eq] at h3
        constructor
        · intro h; simp at h
        · rintro ⟨-, -, ⟨i, hi, hle⟩, -⟩
          exact absurd (h3 i hi) (not_lt.2 hle)
      · rw [if_neg (by simpa using h1), if_neg (by simpa using h2), if_neg h3]
        simp only [List.all_eq_true, List.mem_range, decide_eq_true_eq, not_forall, not_lt] at h3
        obtain ⟨i, hi, hle⟩ := h3
        have h3' : ∃ i < li, start i ≤ nadir i := ⟨i, hi, hle⟩
        have hpos : li ≠ 0 := by omega
        cases names with
        | none =>
          cases minimize with
          | none => simp [Option.filter, ← h1, ← h2, h3']
          | some b =>
            by_cases hb : b = 0
            · simp [Option.filter, hb, ← h1, ← h2, h3']
            · simp [hb, Option.filter]
        | some a =>
          by_cases ha : a = 0
          · subst ha
            cases minimize with
            | none => simp [Option.filter, ← h1, ← h2, h3']
            | some b =>
              by_cases hb : b = 0
              · simp [Option.filter, hb, ← h1, ← h2, h3']
              · simp [Option.filter, hb, Ne.symm hpos]
          · by_cases hal : a = li
            · subst hal
              cases minimize with
              | none => simp [Option.filter, ha, ← h1, ← h2, h3']
              | some b => by_cases hb : b = 0 <;> simp [Option.filter, ha, hb, ← h1, ← h2, h3']
            · simp [Option.filter, ha, hal]
    · rw [if_neg (by simpa using h1), if_pos h2]
      simp [h2]
  · rw [if_pos h1]
    simp [h1]

example : construct 2 2 2 (fun _ => (1/2 : ℚ)) (fun _ => 1) (some 2) (some 2) = .ok () :=
  C69_accepts_iff_partial.2 ⟨rfl, rfl, ⟨0, by decide, by norm_num⟩, by simp, by simp⟩

end Verif.NautilusV2
