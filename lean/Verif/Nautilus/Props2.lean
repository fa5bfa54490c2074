import Verif.Nautilus.Props
import Verif.Asf

set_option linter.unusedSectionVars false

/-!
# Properties C35-C39 of NAUTILUS
-/

namespace Verif.Nautilus

variable {K : Type} [Field K] [LinearOrder K] [IsStrictOrderedRing K] {k m : Nat}

/-! ### C35: positive weights -/

/-- A finite positive number. -/
def FinitePos (w : Fl K) : Prop := ∃ x, w = .num x ∧ 0 < x

/-- The full property C35: every accepted preference yields finite positive weights. -/
def WeightsPositive (c : Cfg k m K) : Prop :=
  ∀ r meth info w, validatePreferences k r = .ok () → r.method = some meth → r.info = some info →
    factors c meth info r.isArray = .ok w → ∀ i, FinitePos (w i)

/-- C35 fails: the validator only looks at the largest rank and at the sum of the percentages, so a rank 0
(infinite weight), a negative rank (negative weight) and the percentages 0 and negative ones pass. -/
theorem C35_fails :
    (∃ r : Resp ℚ, r.info = some [2, 0] ∧ validatePreferences 2 r = .ok () ∧
      ∃ w, factors exCfg 1 [2, 0] true = .ok w ∧ w 1 = .pinf) ∧
    (∃ r : Resp ℚ, r.info = some [2, -1] ∧ validatePreferences 2 r = .ok () ∧
      ∃ w x, factors exCfg 1 [2, -1] true = .ok w ∧ w 1 = .num x ∧ x < 0) ∧
    (∃ r : Resp ℚ, r.info = some [100, 0] ∧ validatePreferences 2 r = .ok () ∧
      ∃ w, factors exCfg 2 [100, 0] true = .ok w ∧ w 1 = .pinf) ∧
    (∃ r : Resp ℚ, r.info = some [150, -50] ∧ validatePreferences 2 r = .ok () ∧
      ∃ w x, factors exCfg 2 [150, -50] true = .ok w ∧ w 1 = .num x ∧ x < 0) ∧
    ¬ WeightsPositive exCfg := by
  refine ⟨⟨{ method := some 1, info := some [2, 0] }, rfl, by decide +kernel, _, rfl,
      eq_of_beq (by decide +kernel)⟩,
    ⟨{ method := some 1, info := some [2, -1] }, rfl, by decide +kernel, _, -100/101, rfl,
      eq_of_beq (by decide +kernel), by norm_num⟩,
    ⟨{ method := some 2, info := some [100, 0] }, rfl, by decide +kernel, _, rfl,
      eq_of_beq (by decide +kernel)⟩,
    ⟨{ method := some 2, info := some [150, -50] }, rfl, by decide +kernel, _, -200/101, rfl,
      eq_of_beq (by decide +kernel), by norm_num⟩, ?_⟩
  intro h
  obtain ⟨x, hx, _⟩ := h { method := some 1, info := some [2, 0] } 1 [2, 0] _ (by decide +kernel) rfl rfl rfl 1
  have : rankFactor ((([2, 0] : List ℚ)[1]?).getD 0) (exCfg.nadir 1) (exCfg.utopian 1) = .pinf :=
    eq_of_beq (by decide +kernel)
  have h2 : (Fl.pinf : Fl ℚ) = .num x := this ▸ hx
  simp at h2

theorem rankFactor_pos {r n u : K} (hr : 0 < r) (hu : u < n) : FinitePos (rankFactor r n u) := by
  have h : 0 < r * (n - u) := mul_pos hr (by linarith)
  refine ⟨1 / (r * (n - u)), ?_, by positivity⟩
  simp [rankFactor, fdiv, h.ne']

/-- C35, partial: the weights are finite and positive if moreover every rank (every percentage) of an
objective is positive and the nadir is above the utopian point. Missing: the validator does not enforce
the positivity. -/
theorem C35_weights_positive_partial {c : Cfg k m K} {r : Resp K} {meth : Int} {info : List K}
    {w : Fin k → Fl K} (hv : validatePreferences k r = .ok ()) (hm : r.method = some meth)
    (hi : r.info = some info) (hw : factors c meth info r.isArray = .ok w)
    (hnu : ∀ i, c.utopian i < c.nadir i) (hpos : ∀ i < k, ∀ x, info[i]? = some x → 0 < x) :
    ∀ i, FinitePos (w i) := by
  intro i
  obtain ⟨meth', info', hm', hi', hlen, _⟩ := validatePreferences_ok hv
  rw [hm] at hm'
  rw [hi] at hi'
  cases hm'; cases hi'
  have hlt : i.val < info.length := by have := i.isLt; omega
  have hget : info[i.val]? = some info[i.val] := List.getElem?_eq_getElem hlt
  have hp := hpos i.val i.isLt _ hget
  unfold factors at hw
  split at hw
  · cases hw
    dsimp only
    rw [hget]
    exact rankFactor_pos hp (hnu i)
  · split at hw
    · cases hw
      dsimp only
      rw [hget]
      exact rankFactor_pos (by simpa using by positivity) (hnu i)
    · simp at hw

example : ∀ i, FinitePos ((fun i : Fin 2 =>
    rankFactor ((([1, 2] : List ℚ)[i.val]?).getD 0) (exCfg.nadir i) (exCfg.utopian i)) i) :=
  C35_weights_positive_partial (r := exFirst) (by decide +kernel) rfl rfl rfl (by decide +kernel)
    (by
      intro i hi x hx
      match i, hi with
      | 0, _ => simp at hx; rw [← hx]; norm_num
      | 1, _ => simp at hx; rw [← hx]; norm_num)

/-- C35, the documented weights: for a method constructed with `epsilon > 0` and an ideal point at least as
good as the nadir, the weight of every objective with a positive rank (percentage) is finite, positive, and
the reciprocal of the rank (of the share) times the range from nadir to utopian point. -/
theorem C35_weight_formula {c : Cfg k m K} {eps : K} {r : Resp K} {meth : Int} {info : List K}
    {w : Fin k → Fl K} (hu : c.utopian = utopianOf eps c.ideal) (heps : 0 < eps)
    (hin : AtLeastAsGood c.ideal c.nadir)
    (hv : validatePreferences k r = .ok ()) (hm : r.method = some meth)
    (hi : r.info = some info) (hw : factors c meth info r.isArray = .ok w)
    (i : Fin k) {a : K} (ha : info[i.val]? = some a) (hpos : 0 < a) :
    ∃ x, w i = .num x ∧ 0 < x ∧
      ((meth = 1 ∧ x * (a * (c.nadir i - (c.ideal i - eps))) = 1) ∨
       (meth = 2 ∧ x * (a * (c.nadir i - (c.ideal i - eps))) = 100)) := by
  obtain ⟨meth', info', hm', hi', hlen, h0⟩ := validatePreferences_ok hv
  rw [hm] at hm'
  rw [hi] at hi'
  cases hm'; cases hi'
  have h12 : meth = 1 ∨ meth = 2 := h0.imp (·.1) (·.1)
  have hd : 0 < c.nadir i - (c.ideal i - eps) := by have := hin i; linarith
  unfold factors at hw
  split at hw
  · rename_i h1
    cases hw
    dsimp only
    rw [ha, hu]
    simp only [Option.getD_some, utopianOf]
    have h : 0 < a * (c.nadir i - (c.ideal i - eps)) := mul_pos hpos hd
    refine ⟨1 / (a * (c.nadir i - (c.ideal i - eps))), ?_, by positivity, .inl ⟨h1, ?_⟩⟩
    · simp only [rankFactor, fdiv, h.ne', if_false]
    · field_simp
  · rename_i h1
    split at hw
    · cases hw
      dsimp only
      rw [ha, hu]
      simp only [Option.getD_some, utopianOf]
      have h : 0 < a / 100 * (c.nadir i - (c.ideal i - eps)) := mul_pos (by positivity) hd
      refine ⟨1 / (a / 100 * (c.nadir i - (c.ideal i - eps))), ?_, by positivity, .inr ⟨by omega, ?_⟩⟩
      · simp only [rankFactor, fdiv, h.ne', if_false]
      · field_simp
    · simp at hw

example := C35_weight_formula (c := exCfg) (r := exFirst) (eps := 1/100)
  (funext fun j => by match j with
    | 0 => exact eq_of_beq (by decide +kernel)
    | 1 => exact eq_of_beq (by decide +kernel)) (by norm_num) (by decide +kernel) (by decide +kernel) rfl rfl
  rfl 1 (a := 2) rfl (by norm_num)

/-- A larger rank (the objective is more important to improve) gives a smaller weight, and so does a
larger percentage. -/
theorem C35_more_important_smaller_weight {r r' n u x x' : K} (hr : 0 < r) (hrr : r < r') (hu : u < n)
    (h : rankFactor r n u = .num x) (h' : rankFactor r' n u = .num x') : x' < x := by
  have h1 : 0 < r * (n - u) := mul_pos hr (by linarith)
  have h2 : 0 < r' * (n - u) := mul_pos (hr.trans hrr) (by linarith)
  simp only [rankFactor, fdiv, h1.ne', if_false, Fl.num.injEq] at h
  simp only [rankFactor, fdiv, h2.ne', if_false, Fl.num.injEq] at h'
  rw [← h, ← h']
  exact one_div_lt_one_div_of_lt h1 (mul_lt_mul_of_pos_right hrr (by linarith))

example : (100 : ℚ) / 202 < 100 / 101 :=
  C35_more_important_smaller_weight (r := 1) (r' := 2) (n := 1) (u := -1/100) (by norm_num) (by norm_num)
    (by norm_num) (eq_of_beq (by decide +kernel)) (eq_of_beq (by decide +kernel))

/-! ### C36: accepted responses are answered -/

/-- C36 fails, in a state reached by one accepted answer: stepping back with the previous preference
returns `None`; stepping back without the key `short_step` raises `KeyError`; percentages given as a list
raise `TypeError`, for the initial request as well. Each of these responses passes validation. -/
theorem C36_fails :
    Smooth exCfg (fun _ => True) exS1 [exR1] ∧
    (∃ r, validate exCfg exR1 r = .ok () ∧ (answer exCfg exS1 exR1 r exOrc).2 = .ok none) ∧
    (∃ r, validate exCfg exR1 r = .ok () ∧ (answer exCfg exS1 exR1 r exOrc).2 = .error .keyError) ∧
    (∃ r, validate exCfg exR1 r = .ok () ∧ (answer exCfg exS1 exR1 r exOrc).2 = .error .typeError) ∧
    (∃ r, validate exCfg (.initial (k := 2) (m := 1)) r = .ok () ∧
      (answer exCfg St.init .initial r exOrc).2 = .error .typeError) := by
  refine ⟨ex_smooth1 _ trivial,
    ⟨{ stepBack := some true, shortStep := some false, usePrevious := some true }, by decide +kernel,
      eq_of_beq (by decide +kernel)⟩,
    ⟨{ stepBack := some true, usePrevious := some true }, by decide +kernel,
      eq_of_beq (by decide +kernel)⟩,
    ⟨{ stepBack := some false, usePrevious := some false, method := some 2, info := some [30, 70],
       isArray := false }, by decide +kernel, eq_of_beq (by decide +kernel)⟩,
    ⟨{ nIterations := some (.int 4), method := some 2, info := some [30, 70], isArray := false },
      by decide +kernel, eq_of_beq (by decide +kernel)⟩⟩

/-- The exception of a forward step leaves the object in a state from which the run cannot go on: the
iteration number has advanced, and every forward step and short step now raises `TypeError`. -/
theorem C36_fails_broken_state :
    let bad : Resp ℚ := { stepBack := some false, usePrevious := some false, method := some 2,
                          info := some [30, 70], isArray := false }
    let s := (answer exCfg exS1 exR1 bad exOrc).1
    s.step = 2 ∧ (answer exCfg s exR1 keepResp exOrc).2 = .error .typeError ∧
      (answer exCfg s exR1 exShort exOrc).2 = .error .typeError := by
  refine ⟨by decide +kernel, eq_of_beq (by decide +kernel), eq_of_beq (by decide +kernel)⟩

/-- C36, partial: in every run in which no accepted response has raised before, an accepted response is
answered with a request if it asks for something the code implements: when stepping back, the key
`short_step` is present and, unless it is true, new preferences are given; percentages are arrays.
Missing: the cases of `C36_fails`. -/
theorem C36_answered_partial {c : Cfg k m K} {G : Oracle k m K → Prop} {s : St k m K}
    {iss : List (Req k m K)} {req : Req k m K} {r : Resp K} {orc : Oracle k m K}
    (hS : Smooth c G s iss) (hr : req ∈ iss) (hv : validate c req r = .ok ())
    (hback : r.stepBack = some true → r.shortStep = some true ∨
      (r.shortStep = some false ∧ r.usePrevious = some false))
    (harr : r.method = some 2 → r.isArray = true) :
    ∃ s' q, answer c s req r orc = (s', .ok (some q)) := by
  refine answer_total hS.inv (hS.session.not_initial.2.2 _ hr) hv ?_
  unfold Implemented
  split
  · rename_i hb
    rcases hback hb with h | ⟨h1, h2⟩
    · rw [h]; trivial
    · rw [h1]; exact ⟨h2, harr⟩
  · exact fun _ => harr

/-- C36, the first answer. -/
theorem C36_first_answered_partial {c : Cfg k m K} {s : St k m K} {r : Resp K} {orc : Oracle k m K}
    (h0 : s.step = 1) (hv : validate c (.initial (k := k) (m := m)) r = .ok ())
    (harr : r.method = some 2 → r.isArray = true) :
    ∃ s' q, answer c s .initial r orc = (s', .ok (some q)) := initial_total h0 hv harr

example : ∃ s' q, answer exCfg exS5 exR5 exRedo exOrc = (s', .ok (some q)) :=
  C36_answered_partial (ex_smooth5 (fun _ => True) trivial) List.mem_cons_self (by decide +kernel)
    (fun _ => .inr ⟨rfl, rfl⟩) (fun _ => rfl)

example : ∃ s' q, answer exCfg St.init .initial exFirst exOrc = (s', .ok (some q)) :=
  C36_first_answered_partial rfl (by decide +kernel) (by decide)

/-! ### C37: stopping -/

/-- C37, first part: every stop request shows a decision vector with its own objective vector. -/
theorem C37_stop_pair {c : Cfg k m K} {G : Oracle k m K → Prop} {s : St k m K}
    {iss : List (Req k m K)} (hS : Smooth c G s iss) {x f} (h : Req.stop x f ∈ iss) :
    ∃ x', x = some x' ∧ f = some (c.evaluate x') := by
  induction hS with
  | first h0 hG ha =>
    have hst := answer_ok (by omega) ha
    rw [List.mem_singleton] at h
    subst h
    generalize hq : some (Req.stop x f) = q at hst
    cases hst with
    | initial => simp [navReq] at hq
  | @next s iss req r orc s' o hs hr hG ha hok ih =>
    by_cases hv : validate c req r = .ok ()
    · obtain ⟨q, rfl⟩ := hok hv
      cases q with
      | none => exact ih h
      | some q =>
        rcases List.mem_cons.1 h with rfl | h
        · have hst := answer_ok hs.inv.store.step ha
          obtain ⟨x0, hx0, hf0⟩ := hs.inv.sol
          obtain ⟨e1, e2, e3, e4⟩ := changeN_get (s := s) r.nIterations
          have hx' := e3 _ _ hx0
          have hf' := e4 _ _ hf0
          rw [← e1] at hx' hf'
          generalize hq : some (Req.stop x f) = q at hst
          cases hst with
          | ended => cases hq; exact ih hr
          | initial => simp [navReq] at hq
          | stop hv hs1 hl hx1 hf1 =>
            subst hs1
            rw [hx'] at hx1
            rw [hf'] at hf1
            cases hx1; cases hf1
            simp only [Option.some.injEq, Req.stop.injEq] at hq
            exact ⟨x0, hq.1, hq.2⟩
          | keep => simp [navReq] at hq
          | change => simp [navReq] at hq
          | short => simp [navReq] at hq
          | redo => simp [navReq] at hq
          | nothing => simp at hq
        · exact ih h
    · obtain ⟨rfl, e, rfl⟩ := answer_refused ha hv
      exact ih h

/-- C37, second part: an accepted response to an intermediate request is answered with the stop request
exactly when at most one iteration is left, after applying the change of the number of iterations. -/
theorem C37_stop_iff {c : Cfg k m K} {G : Oracle k m K → Prop} {s s' : St k m K}
    {iss : List (Req k m K)} {z lo up : Vec k K} {d : Fl K} {r : Resp K} {orc : Oracle k m K}
    {o : Option (Req k m K)} (hS : Smooth c G s iss)
    (ha : answer c s (.nav z lo up d) r orc = (s', .ok o)) :
    (∃ x f, o = some (.stop x f)) ↔
      (match r.nIterations with
        | none => s.left
        | some v => s.left + v.asInt - s.n) ≤ 1 := by
  have hst := answer_ok hS.inv.store.step ha
  have hleft : (changeN s r.nIterations).left = (match r.nIterations with
        | none => s.left
        | some v => s.left + v.asInt - s.n) := by
    unfold changeN
    split <;> simp_all
  rw [← hleft]
  cases hst with
  | stop hv hs1 hl hx1 hf1 => subst hs1; exact ⟨fun _ => hl, fun _ => ⟨_, _, rfl⟩⟩
  | keep hv hs1 hl => subst hs1; simp [navReq, hl]
  | change hv hs1 hl => subst hs1; simp [navReq, hl]
  | short hv hs1 hl => subst hs1; simp [navReq, hl]
  | redo hv hs1 hl => subst hs1; simp [navReq, hl]
  | nothing hv hs1 hl => subst hs1; simp [hl]

/-- C37, third part, partial: when the last iteration is over (one left, counting the current one) and
the number of iterations is not changed, the stop request carries the objective vector that was shown as
the last iteration point. Missing: stopping by reducing the number of iterations (`C37_fails`). -/
theorem C37_stop_at_last_point_partial {c : Cfg k m K} {G : Oracle k m K → Prop} {s s' : St k m K}
    {iss : List (Req k m K)} {req : Req k m K} {r : Resp K} {orc : Oracle k m K} {x f}
    (hS : Smooth c G s iss) (hreq : ∀ x f, req ≠ .stop x f) (hr : req ∈ iss)
    (ha : answer c s req r orc = (s', .ok (some (.stop x f)))) (hl : s.left = 1)
    (hn : r.nIterations = none) :
    ∃ x' z, x = some x' ∧ f = some z ∧ z = c.evaluate x' ∧ lastPoint iss = some z := by
  have hst := answer_ok hS.inv.store.step ha
  obtain ⟨x0, hx0, hf0⟩ := hS.inv.sol
  obtain ⟨z, hz, hlp⟩ := hS.inv.cur
  have hd := hS.inv.done hl
  have hcn : changeN s r.nIterations = s := by rw [hn]; rfl
  generalize hq : some (Req.stop x f) = q at hst
  cases hst with
  | ended => exact absurd rfl (hreq _ _)
  | initial => simp [navReq] at hq
  | stop hv hs1 hl hx1 hf1 =>
    rw [hcn] at hs1
    subst hs1
    rw [hx0] at hx1
    rw [hf0] at hf1
    rw [hz, hf0] at hd
    cases hx1; cases hf1
    simp only [Option.some.injEq, Req.stop.injEq] at hq hd
    exact ⟨x0, z, hq.1, by rw [hq.2, hd], hd, hlp⟩
  | keep => simp [navReq] at hq
  | change => simp [navReq] at hq
  | short => simp [navReq] at hq
  | redo => simp [navReq] at hq
  | nothing => simp at hq

/-- One iteration in all: the next answer stops at the point shown. -/
def exOne : Resp ℚ := { nIterations := some (.int 1), method := some 1, info := some [1, 2] }
theorem exOne_step : answer exCfg St.init .initial exOne exOrc =
    ((answer exCfg St.init .initial exOne exOrc).1,
      .ok (some (getReq (answer exCfg St.init .initial exOne exOrc).2))) := eq_of_beq (by decide +kernel)

example := C37_stop_at_last_point_partial (r := keepResp) (orc := exOrc)
  (x := some ![1/2]) (f := some ![1/2, 1/2]) (.first (G := fun _ => True) rfl trivial exOne_step)
  (by
    have h : getReq (answer exCfg St.init .initial exOne exOrc).2 =
        .nav ![1/2, 1/2] ![1/2, 1/2] ![1/2, 1/2] (.num 100) := eq_of_beq (by decide +kernel)
    rw [h]; simp)
  List.mem_cons_self
  (s' := (answer exCfg (answer exCfg St.init .initial exOne exOrc).1
    (getReq (answer exCfg St.init .initial exOne exOrc).2) keepResp exOrc).1)
  (eq_of_beq (by decide +kernel)) (by decide +kernel) rfl

/-- C37 fails when the number of iterations is reduced: the method stops at once with a solution that is
not the point shown last (which was a quarter of the way). -/
theorem C37_fails :
    Smooth exCfg (fun _ => True) exS1 [exR1] ∧ lastPoint [exR1] = some ![7/8, 7/8] ∧
    (answer exCfg exS1 exR1 { nIterations := some (.int 1), stepBack := some false, usePrevious := some true }
      exOrc).2 = .ok (some (.stop (some ![1/2]) (some ![1/2, 1/2]))) := by
  refine ⟨ex_smooth1 _ trivial, ?_, eq_of_beq (by decide +kernel)⟩
  rw [exR1_eq]; rfl

/-! ### C38: changing the number of iterations -/

/-- If the decision maker always goes on with the same preferences from here, exactly `p` further points
are shown and then the method stops, whatever the solvers return. -/
def PointsToCome (c : Cfg k m K) (s : St k m K) (q : Req k m K) (p : Nat) : Prop :=
  ∀ os : List (Oracle k m K),
    (os.length ≤ p → ∃ s' z lo up d, keepRun c os s q = (s', .ok (some (.nav z lo up d)))) ∧
    (os.length = p + 1 → ∃ s' x f, keepRun c os s q = (s', .ok (some (.stop x f))))

theorem points_to_come {c : Cfg k m K} {s : St k m K} {iss : List (Req k m K)} {p : Nat}
    (hi : Inv c s iss) (hl : s.left = p + 1) {z lo up : Vec k K} {d : Fl K} :
    PointsToCome c s (.nav z lo up d) p := by
  intro os
  induction os generalizing s iss p z lo up d with
  | nil => exact ⟨fun _ => ⟨s, z, lo, up, d, rfl⟩, fun h => absurd h (by simp)⟩
  | cons o os ih =>
    obtain ⟨x, hx, hf⟩ := hi.sol
    obtain ⟨a, ha, _⟩ := hi.cur
    obtain ⟨k1, k2⟩ := keep_step (z := z) (lo := lo) (up := up) (d := d) (orc := o) hi hx ha
    cases p with
    | zero =>
      refine ⟨fun h => absurd h (by simp), fun h => ?_⟩
      obtain ⟨s', hs'⟩ := k1 (by omega)
      have : os = [] := by simpa using h
      subst this
      exact ⟨s', some x, some (c.evaluate x), by simp only [keepRun, hs']⟩
    | succ p =>
      obtain ⟨s', h, hl', -⟩ := k2 (by push_cast at hl; omega)
      have hi' := hi.step (by simp) h
      have := ih (p := p) hi' (by push_cast at hl; omega)
        (z := iterationPoint (s.left - 1) a (c.evaluate x))
        (lo := bounds c o (iterationPoint (s.left - 1) a (c.evaluate x)))
        (up := iterationPoint (s.left - 1) a (c.evaluate x))
        (d := distance c (iterationPoint (s.left - 1) a (c.evaluate x)) (c.evaluate x))
      have hk : keepRun c (o :: os) s (.nav z lo up d) =
          keepRun c os s' (navReq c o (iterationPoint (s.left - 1) a (c.evaluate x)) (c.evaluate x)) := by
        simp only [keepRun, h]
      rw [hk, List.length_cons]
      exact ⟨fun h => this.1 (by omega), fun h => this.2 (by omega)⟩

/-- C38, what holds instead: `n_iterations` is the new total of a run. If `p` points were still to come
under the old total `n`, then after the answer with the new total `v`, going forward, the point shown and
those after it are `p + (v - n)`. The new total is then `v`. Missing: the supplied number is not the
number of *remaining* iterations (`C38_fails`), except before any forward step, where `p = n - 1`. -/
theorem C38_new_total_partial {c : Cfg k m K} {G : Oracle k m K → Prop} {s s' : St k m K}
    {iss : List (Req k m K)} {z lo up : Vec k K} {d : Fl K} {r : Resp K} {v : PyVal} {p : Nat}
    {orc : Oracle k m K} {z' lo' up' : Vec k K} {d' : Fl K} (hS : Smooth c G s iss)
    (hr : .nav z lo up d ∈ iss) (hn : r.nIterations = some v) (hb : r.stepBack = some false)
    (hp : s.left = p + 1)
    (hG : G orc)
    (ha : answer c s (.nav z lo up d) r orc = (s', .ok (some (.nav z' lo' up' d')))) :
    PointsToCome c s (.nav z lo up d) p ∧ s'.n = v.asInt ∧
    ∃ p' : Nat, PointsToCome c s' (.nav z' lo' up' d') p' ∧ ((p' : Int) + 1 = p + (v.asInt - s.n)) := by
  have hst := answer_ok hS.inv.store.step ha
  have hS' : Smooth c G s' _ := .next hS hr hG ha fun _ => ⟨_, rfl⟩
  have hcl : (changeN s r.nIterations).left = s.left + v.asInt - s.n := by rw [hn]; rfl
  have hcn : (changeN s r.nIterations).n = v.asInt := by rw [hn]; rfl
  have key : s'.left = s.left + v.asInt - s.n - 1 ∧ 1 ≤ s'.left ∧ s'.n = v.asInt := by
    generalize hq : some (Req.nav z' lo' up' d') = q at hst
    cases hst with
    | stop => simp at hq
    | keep hv hs1 hl => subst hs1; rw [hcl] at hl; exact ⟨by dsimp only; omega, by dsimp only; omega, hcn⟩
    | change hv hs1 hl => subst hs1; rw [hcl] at hl; exact ⟨by dsimp only; omega, by dsimp only; omega, hcn⟩
    | short hv hs1 hl hb' => rw [hb] at hb'; simp at hb'
    | redo hv hs1 hl hb' => rw [hb] at hb'; simp at hb'
    | nothing => simp at hq
  refine ⟨points_to_come hS.inv hp, key.2.2, (s'.left - 1).toNat, points_to_come hS'.inv ?_, ?_⟩
  · omega
  · omega

/-- Six iterations in all, asked after one of four. -/
def exSix : Resp ℚ := { nIterations := some (.int 6), stepBack := some false, usePrevious := some true }
def exS6 : St 2 1 ℚ := (answer exCfg exS1 exR1 exSix exOrc).1
theorem ex_step6 : answer exCfg exS1 exR1 exSix exOrc =
    (exS6, .ok (some (.nav ![4/5, 4/5] ![1/5, 1/5] ![4/5, 4/5] (.num 40)))) :=
  eq_of_beq (by decide +kernel)

example := C38_new_total_partial (p := 3) (ex_smooth1 (fun _ => True) trivial)
  (exR1_eq ▸ List.mem_cons_self) (v := .int 6) rfl rfl (eq_of_beq (by decide +kernel)) trivial
  (exR1_eq ▸ ex_step6)

/-- C38 fails: four iterations were asked for and two have been made, so two points are still to come
(the answer to the second request shows the third); the decision maker now supplies `n_iterations = 4`,
which the message calls the number of remaining iterations; still only two points come. -/
theorem C38_fails : ∃ s', Smooth exCfg (fun _ => True) exS2 [exR2, exR1] ∧
    answer exCfg exS2 exR2
      { nIterations := some (.int 4), stepBack := some false, usePrevious := some true } exOrc =
      (s', .ok (some (.nav ![5/8, 5/8] ![3/8, 3/8] ![5/8, 5/8] (.num 75)))) ∧
    PointsToCome exCfg exS2 exR2 2 ∧
    PointsToCome exCfg s' (.nav ![5/8, 5/8] ![3/8, 3/8] ![5/8, 5/8] (.num 75)) 1 := by
  have h : answer exCfg exS2 exR2
      { nIterations := some (.int 4), stepBack := some false, usePrevious := some true } exOrc =
      ((answer exCfg exS2 exR2
      { nIterations := some (.int 4), stepBack := some false, usePrevious := some true } exOrc).1,
      .ok (some (.nav ![5/8, 5/8] ![3/8, 3/8] ![5/8, 5/8] (.num 75)))) := eq_of_beq (by decide +kernel)
  refine ⟨_, ex_smooth2 _ trivial, h, ?_, ?_⟩
  · have := points_to_come (p := 2) (ex_smooth2 (fun _ => True) trivial).inv (eq_of_beq (by decide +kernel))
      (z := ![3/4, 3/4]) (lo := ![1/4, 1/4]) (up := ![3/4, 3/4]) (d := .num 50)
    rwa [← exR2_eq] at this
  · exact points_to_come (p := 1)
      (Smooth.next (ex_smooth2 (fun _ => True) trivial) List.mem_cons_self trivial h
        fun _ => ⟨_, rfl⟩).inv (eq_of_beq (by decide +kernel))

/-! ### C39: the lower bounds -/

/-- The epsilon constraint solvers are exact for the feasible set `F`: if some feasible solution is at
least as good as `z` in all objectives but the `i`-th, the solver for objective `i` returns a feasible one,
with the least `i`-th objective. -/
def ExactEps (c : Cfg k m K) (F : Vec m K → Prop) (orc : Oracle k m K) : Prop :=
  ∀ i z, (∃ x, F x ∧ ∀ j, j ≠ i → c.evaluate x j ≤ z j) →
    F (orc.eps i z) ∧ (∀ j, j ≠ i → c.evaluate (orc.eps i z) j ≤ z j) ∧
    ∀ x, F x → (∀ j, j ≠ i → c.evaluate x j ≤ z j) → c.evaluate (orc.eps i z) i ≤ c.evaluate x i

/-- `lo` is the vector of the least values each objective takes on the feasible solutions that are at least
as good as `z` in the other objectives. -/
def ReachableFrom (c : Cfg k m K) (F : Vec m K → Prop) (z lo : Vec k K) : Prop :=
  ∀ i, (∀ x, F x → (∀ j, j ≠ i → c.evaluate x j ≤ z j) → lo i ≤ c.evaluate x i) ∧
    ((∃ x, F x ∧ ∀ j, j ≠ i → c.evaluate x j ≤ z j) →
      ∃ x, F x ∧ (∀ j, j ≠ i → c.evaluate x j ≤ z j) ∧ c.evaluate x i = lo i)

theorem bounds_exact {c : Cfg k m K} {F : Vec m K → Prop} {orc : Oracle k m K}
    (h : ExactEps c F orc) (z : Vec k K) : ReachableFrom c F z (bounds c orc z) := by
  intro i
  refine ⟨fun x hx hz => (h i z ⟨x, hx, hz⟩).2.2 x hx hz, fun he => ?_⟩
  obtain ⟨h1, h2, h3⟩ := h i z he
  exact ⟨_, h1, h2, rfl⟩

/-- Every request showing a point, in every history with exact solvers, shows the exact bounds. -/
theorem Session.reachable {c : Cfg k m K} {F : Vec m K → Prop} {s : St k m K} {iss : List (Req k m K)}
    (hS : Session c (ExactEps c F) s iss) {z lo up : Vec k K} {d : Fl K} (hr : .nav z lo up d ∈ iss) :
    ReachableFrom c F z lo ∧ up = z := by
  have key : ∀ {s s' : St k m K} {req r orc o}, 1 ≤ s.step → ExactEps c F orc →
      answer c s req r orc = (s', .ok (some o)) → o = .nav z lo up d →
      ReachableFrom c F z lo ∧ up = z := by
    intro s s' req r orc o h1 hG ha ho
    subst ho
    have hst := answer_ok h1 ha
    have done : ∀ {z2 f2 : Vec k K}, some (Req.nav z lo up d) = some (navReq c orc z2 f2) →
        ReachableFrom c F z lo ∧ up = z := by
      intro z2 f2 hq
      simp only [navReq, Option.some.injEq, Req.nav.injEq] at hq
      obtain ⟨rfl, rfl, rfl, -⟩ := hq
      exact ⟨bounds_exact hG _, rfl⟩
    generalize hq : some (Req.nav z lo up d) = q at hst
    cases hst with
    | ended => simp at hq
    | initial => exact done hq
    | stop => simp at hq
    | keep => exact done hq
    | change => exact done hq
    | short => exact done hq
    | redo => exact done hq
    | nothing => simp at hq
  induction hS with
  | first h0 hG ha =>
    exact key (by omega) hG ha (List.mem_singleton.1 hr).symm
  | @next s iss req r orc s' o hs hr' hG ha ih =>
    unfold extend at hr
    split at hr
    · rcases List.mem_cons.1 hr with h | h
      · exact key hs.not_initial.1 hG ha h.symm
      · exact ih h
    · exact ih hr

/-- C39, first part: with exact solvers, in every history, every shown lower bound vector is no larger in
any objective than any feasible solution at least as good as the shown point, and each bound is attained by
a feasible solution that is at least as good as the point in the other objectives (if there is one). -/
theorem C39_lower_bounds {c : Cfg k m K} {F : Vec m K → Prop} {s : St k m K} {iss : List (Req k m K)}
    (hS : Session c (ExactEps c F) s iss) {z lo up : Vec k K} {d : Fl K} (hr : .nav z lo up d ∈ iss) :
    (∀ x, F x → AtLeastAsGood (c.evaluate x) z → AtLeastAsGood lo (c.evaluate x)) ∧
    ∀ i, (∃ x, F x ∧ ∀ j, j ≠ i → c.evaluate x j ≤ z j) →
      ∃ x, F x ∧ (∀ j, j ≠ i → c.evaluate x j ≤ z j) ∧ c.evaluate x i = lo i := by
  obtain ⟨h, -⟩ := hS.reachable hr
  exact ⟨fun x hx hz i => (h i).1 x hx fun j _ => hz j, fun i => (h i).2⟩

/-- C39, second part: if one shown point is at least as good as another one and can still be reached, then
its lower bounds are at least as large. -/
theorem C39_monotone {c : Cfg k m K} {F : Vec m K → Prop} {s : St k m K} {iss : List (Req k m K)}
    (hS : Session c (ExactEps c F) s iss) {z1 lo1 up1 z2 lo2 up2 : Vec k K} {d1 d2 : Fl K}
    (h1 : .nav z1 lo1 up1 d1 ∈ iss) (h2 : .nav z2 lo2 up2 d2 ∈ iss) (hz : AtLeastAsGood z2 z1)
    (hx : ∃ x, F x ∧ AtLeastAsGood (c.evaluate x) z2) : AtLeastAsGood lo1 lo2 := by
  obtain ⟨r1, -⟩ := hS.reachable h1
  obtain ⟨r2, -⟩ := hS.reachable h2
  obtain ⟨x, hx, hxz⟩ := hx
  intro i
  obtain ⟨y, hy, hyz, hyi⟩ := (r2 i).2 ⟨x, hx, fun j _ => hxz j⟩
  rw [← hyi]
  exact (r1 i).1 y hy fun j hj => (hyz j hj).trans (hz j)

/-- C39, upper bounds: whatever the solvers return, every request showing a point shows this point as the
upper bounds, so that every solution at least as good as the point is within them. -/
theorem C39_upper_bounds {c : Cfg k m K} {G : Oracle k m K → Prop} {s : St k m K} {iss : List (Req k m K)}
    (hS : Session c G s iss) {z lo up : Vec k K} {d : Fl K} (hr : .nav z lo up d ∈ iss) : up = z := by
  have key : ∀ {s s' : St k m K} {req r orc o}, 1 ≤ s.step →
      answer c s req r orc = (s', .ok (some o)) → o = .nav z lo up d → up = z := by
    intro s s' req r orc o h1 ha ho
    subst ho
    have hst := answer_ok h1 ha
    have done : ∀ {z2 f2 : Vec k K}, some (Req.nav z lo up d) = some (navReq c orc z2 f2) → up = z := by
      intro z2 f2 hq
      simp only [navReq, Option.some.injEq, Req.nav.injEq] at hq
      obtain ⟨rfl, -, rfl, -⟩ := hq
      rfl
    generalize hq : some (Req.nav z lo up d) = q at hst
    cases hst with
    | ended => simp at hq
    | initial => exact done hq
    | stop => simp at hq
    | keep => exact done hq
    | change => exact done hq
    | short => exact done hq
    | redo => exact done hq
    | nothing => simp at hq
  induction hS with
  | first h0 hG ha => exact key (by omega) ha (List.mem_singleton.1 hr).symm
  | @next s iss req r orc s' o hs hr' hG ha ih =>
    unfold extend at hr
    split at hr
    · rcases List.mem_cons.1 hr with h | h
      · exact key hs.not_initial.1 ha h.symm
      · exact ih h
    · exact ih hr

theorem ex_exactEps : ExactEps exCfg exFeasible exOrc := by
  intro i z
  rintro ⟨x, ⟨h0, h1⟩, hle⟩
  match i with
  | 0 =>
    have hx1 := hle 1 (by decide)
    simp only [exCfg, Matrix.cons_val_one, Matrix.cons_val_zero] at hx1
    have a0 : 1 - z 1 ≤ max 0 (1 - z 1) := le_max_right _ _
    have a1 : (0 : ℚ) ≤ max 0 (1 - z 1) := le_max_left _ _
    have a2 : max 0 (1 - z 1) ≤ x 0 := max_le h0 (by linarith)
    refine ⟨⟨?_, ?_⟩, ?_, ?_⟩
    · simp [exOrc]
    · simp only [exOrc, if_true, Matrix.cons_val_zero]; linarith
    · intro j hj
      match j with
      | 0 => exact absurd rfl hj
      | 1 => simp only [exOrc, exCfg, if_true, Matrix.cons_val_zero, Matrix.cons_val_one]; linarith
    · intro y hy hyz
      have hy1 := hyz 1 (by decide)
      simp only [exCfg, Matrix.cons_val_one, Matrix.cons_val_zero] at hy1
      have : max 0 (1 - z 1) ≤ y 0 := max_le hy.1 (by linarith)
      simpa [exOrc, exCfg] using this
  | 1 =>
    have hx1 := hle 0 (by decide)
    simp only [exCfg, Matrix.cons_val_zero] at hx1
    have a0 : min 1 (z 0) ≤ z 0 := min_le_right _ _
    have a1 : min 1 (z 0) ≤ 1 := min_le_left _ _
    have a2 : x 0 ≤ min 1 (z 0) := le_min h1 hx1
    have e : exOrc.eps 1 z = ![min 1 (z 0)] := rfl
    rw [e]
    refine ⟨⟨?_, ?_⟩, ?_, ?_⟩
    · simp only [Matrix.cons_val_zero]; linarith
    · simp only [Matrix.cons_val_zero]; linarith
    · intro j hj
      match j with
      | 0 => simp only [exCfg, Matrix.cons_val_zero]; linarith
      | 1 => exact absurd rfl hj
    · intro y hy hyz
      have hy1 := hyz 0 (by decide)
      simp only [exCfg, Matrix.cons_val_zero] at hy1
      have : y 0 ≤ min 1 (z 0) := le_min hy.2 hy1
      simp only [exCfg, Matrix.cons_val_zero, Matrix.cons_val_one]; linarith

example := C39_lower_bounds (ex_smooth2 _ ex_exactEps).session
  (z := ![3/4, 3/4]) (lo := ![1/4, 1/4]) (up := ![3/4, 3/4]) (d := .num 50)
  (by rw [exR2_eq]; exact List.mem_cons_self)

example := C39_upper_bounds (ex_smooth2 (fun _ => True) trivial).session
  (z := ![3/4, 3/4]) (lo := ![1/4, 1/4]) (up := ![3/4, 3/4]) (d := .num 50)
  (by rw [exR2_eq]; exact List.mem_cons_self)

example : AtLeastAsGood (![1/8, 1/8] : Vec 2 ℚ) ![1/4, 1/4] :=
  C39_monotone (ex_smooth2 _ ex_exactEps).session (z1 := ![7/8, 7/8]) (up1 := ![7/8, 7/8])
    (d1 := .num 25) (z2 := ![3/4, 3/4]) (up2 := ![3/4, 3/4]) (d2 := .num 50)
    (by rw [exR1_eq]; exact List.mem_cons_of_mem _ List.mem_cons_self)
    (by rw [exR2_eq]; exact List.mem_cons_self)
    (by decide +kernel) ⟨![1/2], ⟨by decide +kernel, by decide +kernel⟩, by decide +kernel⟩

end Verif.Nautilus
