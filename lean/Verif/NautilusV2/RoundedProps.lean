import Verif.NautilusV2.RoundedLemmas
import Mathlib.Tactic.FieldSimp
import Mathlib.Tactic.Positivity
import Mathlib.Tactic.GCongr

set_option linter.unusedSectionVars false

/-!
# Properties C131 and C132 of NAUTILUS 2 in floating-point arithmetic
-/

namespace Verif.NautilusV2.Rounded

variable {K : Type} [Field K] [LinearOrder K] [IsStrictOrderedRing K] {k m : Nat} {u : K}

/-! ### C131: the process ends exactly at the solution -/

/-- `z` is the point `((L - 1) a + f) / L` up to the errors of three roundings relative to the summands. -/
def NearConvexStep (u : K) (L : Int) (a f z : Vec k K) : Prop :=
  ∀ j, |(L : K) * z j - (((L : K) - 1) * a j + f j)| ≤ ((1 + u) ^ 3 - 1) * (((L : K) - 1) * |a j| + |f j|)

theorem iterationPoint_near {c : Cfg k m K} (hc : IsRounding u c.rnd) (hu : 0 ≤ u) {L : Int} (hL : 1 ≤ L)
    (a f : Vec k K) : NearConvexStep u L a f (iterationPoint c L a f) := by
  intro j
  have h1 : (1 : K) ≤ (L : K) := by exact_mod_cast hL
  have h0 : (0 : K) < (L : K) := by linarith
  have h := stepTo_close hc hu (L : K) (a j) (f j)
  rw [abs_mul, abs_mul, abs_of_nonneg (div_nonneg (by linarith : (0 : K) ≤ (L : K) - 1) h0.le),
    abs_of_nonneg (by positivity : (0 : K) ≤ 1 / (L : K))] at h
  have e1 : (L : K) * stepTo c.rnd (L : K) (a j) (f j) - (((L : K) - 1) * a j + f j) =
      (L : K) * (stepTo c.rnd (L : K) (a j) (f j) - (((L : K) - 1) / (L : K) * a j + 1 / (L : K) * f j)) := by
    field_simp
  have e2 : ((1 + u) ^ 3 - 1) * (((L : K) - 1) * |a j| + |f j|) =
      (L : K) * (((1 + u) ^ 3 - 1) * (((L : K) - 1) / (L : K) * |a j| + 1 / (L : K) * |f j|)) := by
    field_simp
  unfold iterationPoint
  rw [e1, e2, abs_mul, abs_of_pos h0]
  exact mul_le_mul_of_nonneg_left h h0.le

/-- `v` are the weights of the achievement function for the preference in the response `r`: the reciprocals of the
entries of the array given (methods 1 and 2), or of a direction of improvement that has the ratios of the pairs given
(method 3) up to rounding errors, with 1 for the first objective. -/
inductive WeightsFor (u : K) (rnd : K → K) (r : Resp K) (v : Vec k K) : Prop
  | direct {l : List K} : r.info = some (.arr l) → l.length = k →
      (∀ (i : Fin k) a, l[i.val]? = some a → v i = rnd (1 / a)) → WeightsFor u rnd r v
  | pairs {l : List (Pair K)} {d P : Vec k K} : r.info = some (.pairs l) →
      (∀ p ∈ l, ∀ i j : Fin k, p.fst.asInt = (i : Int) + 1 → p.snd.asInt = (j : Int) + 1 → P j = p.ratio * P i) →
      (∀ i : Fin k, i.val = 0 → P i = 1 ∧ d i = 1) → (∀ i, 0 < P i ∧ Within u (doiErrors k) (d i) (P i)) →
      (∀ i, v i = rnd (1 / d i)) → WeightsFor u rnd r v

theorem weights_for {c : Cfg k m K} {r : Resp K} {meth : Int} {info : Pref K} {w : Vec k K} (hR : IsRounding u c.rnd)
    (hu : 0 ≤ u) (hu1 : u < 1) (hp : validatePreferences k r = .ok ()) (hm : r.method = some meth)
    (hi : r.info = some info) (hw : factors c meth info = .ok w) : WeightsFor u c.rnd r (weights c w) := by
  obtain ⟨meth', info', hm', hi', h⟩ := validatePreferences_ok hp
  rw [hm] at hm'
  rw [hi] at hi'
  cases hm'; cases hi'
  rcases h with ⟨l, rfl, h⟩ | ⟨l, rfl, rfl, h⟩
  · unfold factors at hw
    dsimp only at hw
    split at hw
    · rename_i hlen
      cases hw
      refine .direct hi hlen fun i a ha => ?_
      unfold weights
      dsimp only
      rw [ha]
      rfl
    · simp at hw
  · obtain ⟨n, hn, -, -⟩ := validatePairs_ok h
    have hk : k = n + 1 := by omega
    subst hk
    simp only [factors, if_true] at hw
    obtain ⟨h1, h2, P, hP, h3⟩ := (C133_direction_rounded hR hu hu1 h).2.2 w hw
    refine .pairs (P := P) (d := w) hi (fun p hp i j a b => hP.ratio p hp i j ⟨a, b⟩) ?_
      (fun i => ⟨hP.pos i, h3 i⟩) fun i => rfl
    intro i h0
    have : i = 0 := Fin.ext (by rw [Fin.val_zero]; exact h0)
    subst this
    exact ⟨hP.first, h1⟩

theorem pref_ok {c : Cfg k m K} {z : Vec k K} {r : Resp K} (hv : validateNav c.toCfg z r = .ok ())
    (hp : r.usePrevious = some false) : validatePreferences k r = .ok () := by
  obtain ⟨back, prev, _, hp', _, hpref, _⟩ := validateNav_ok hv
  rw [hp] at hp'
  cases hp'
  exact hpref rfl

/-- The distance shown for the solution itself is exactly 100. -/
theorem distance_end {c : Cfg k m K} (hc : IsRounding u c.rnd) (hu : u < 1) (hn : Definite c.nrm)
    (h100 : Machine c.rnd 100) {f : Vec k K} (hf : f ≠ c.start) : distance c f f = .num 100 := by
  have h2 : c.nrm (fun j => c.rnd (f j - c.start j)) ≠ 0 := by
    intro h
    rw [hn.eq_zero] at h
    exact hf (funext fun j => sub_eq_zero.1 (hc.eq_zero hu (h j)))
  unfold distance
  simp only [fdiv, h2, if_false, flRound, div_self h2, hc.one, Fl.scalePos, one_mul]
  rw [h100]

/-- **C131**, the first iteration. The point shown is, up to the errors of three roundings, a convex step from the
starting point to a solution `x` the solver found; if only one iteration was asked for, it is exactly the objective vector
of `x` and the distance exactly 100. -/
theorem C131_first {c : Cfg k m K} {s s' : St k m K} {r : Resp K} {orc : Oracle k m K}
    {z lo up : Vec k K} {d : Fl K} (hc : c.Machined u) (hu : 0 ≤ u) (hu1 : u < 1) (hn : Definite c.nrm)
    (h100 : Machine c.rnd 100) (h0 : s.step = 1)
    (ha : answer c s .initial r orc = (s', .ok (some (.nav z lo up d)))) :
    ∃ N x v, WeightsFor u c.rnd r v ∧ r.nIterations = some N ∧ s'.left = N.asInt ∧ 1 ≤ N.asInt ∧ x = orc.asf v c.start ∧
      s'.xs[s'.step]? = some (some x) ∧ up = z ∧ NearConvexStep u N.asInt c.start (c.evaluate x) z ∧
      (N.asInt = 1 → z = c.evaluate x ∧ (z ≠ c.start → d = .num 100)) := by
  have h := answer_ok (by omega) ha
  generalize hq : some (Req.nav z lo up d) = q at h
  cases h with
  | @initial _ v w meth info cap x f z' hv hnn hm hi hw hcap hlt h1 hx hf hz =>
    simp only [navReq, Option.some.injEq, Req.nav.injEq] at hq
    obtain ⟨rfl, _, rfl, rfl⟩ := hq
    obtain ⟨v', hv', _, hv1, _, _, hpref⟩ := validateInitial_ok hv
    rw [hnn] at hv'
    cases hv'
    refine ⟨v, x, weights c w, weights_for hc.rounding hu hu1 hpref hm hi hw, hnn, rfl, hv1, hx,
      getElem?_set_same (by simp; omega), rfl, ?_, fun h => ?_⟩
    · rw [hz, hf]; exact iterationPoint_near hc.rounding hu hv1 _ _
    · have e : up = c.evaluate x := by rw [hz, h, hf, iterationPoint_one hc]
      refine ⟨e, fun hne => ?_⟩
      rw [hf, ← e]
      exact distance_end hc.rounding hu1 hn h100 hne

/-- **C131**, later iterations without stepping back, in every history in which no accepted response has raised an
exception: the point shown is the rounded step from the point shown last to the solution, that is a convex step up to
the errors of three roundings; when it is the last iteration (one left, the current one included), it is exactly the objective vector of the
solution, and the distance exactly 100. -/
theorem C131_forward {c : Cfg k m K} {G : Oracle k m K → Prop} {s s' : St k m K}
    {iss : List (Req k m K)} {req : Req k m K} {r : Resp K} {orc : Oracle k m K} {z lo up : Vec k K}
    {d : Fl K} (hc : c.Machined u) (hu : 0 ≤ u) (hu1 : u < 1) (hn : Definite c.nrm)
    (h100 : Machine c.rnd 100) (hS : Smooth c G s iss) (hr : req ∈ iss)
    (ha : answer c s req r orc = (s', .ok (some (.nav z lo up d)))) (hb : r.stepBack = some false) :
    ∃ a x, lastPoint iss = some a ∧ 1 ≤ s'.left ∧ s'.xs[s'.step]? = some (some x) ∧ up = z ∧
      (r.usePrevious = some true → s.xs[s.step]? = some (some x)) ∧
      (r.usePrevious = some false → ∃ v, WeightsFor u c.rnd r v ∧ x = orc.asf v a) ∧
      (∀ j, z j = stepTo c.rnd (s'.left : K) (a j) (c.evaluate x j)) ∧
      NearConvexStep u s'.left a (c.evaluate x) z ∧
      (s'.left = 1 → z = c.evaluate x ∧ (z ≠ c.start → d = .num 100)) := by
  have hi := hS.inv hc
  have h := answer_ok hi.pos ha
  obtain ⟨a, hz, hlp⟩ := hi.cur
  obtain ⟨x0, hx, hf⟩ := hi.sol
  obtain ⟨e1, e2, e3, e4⟩ := changeN_get (s := s) r.nIterations
  have hz' := e2 _ _ hz
  have hx' := e3 _ _ hx
  have hf' := e4 _ _ hf
  rw [← e1] at hz' hx' hf'
  generalize hq : some (Req.nav z lo up d) = q at h
  cases h with
  | ended => simp at hq
  | initial => exact absurd rfl (hS.session.not_initial _ hr)
  | stop => simp at hq
  | keep hv hs1 hl hb hp hzl hxl hfl hbl hx1 hf1 hz1 hz2 =>
    subst hs1
    rw [hx'] at hx1
    rw [hf'] at hf1
    rw [hz'] at hz1
    cases hx1; cases hf1; cases hz1
    simp only [navReq, Option.some.injEq, Req.nav.injEq] at hq
    obtain ⟨rfl, _, rfl, rfl⟩ := hq
    have hL : 1 ≤ (changeN s r.nIterations).left - 1 := by omega
    refine ⟨a, x0, hlp, hL, getElem?_set_same hxl, rfl, fun _ => hx, fun h => by simp [hp] at h, fun j => by rw [hz2]; rfl, ?_, fun h => ?_⟩
    · rw [hz2]; exact iterationPoint_near hc.rounding hu hL _ _
    · have e : up = c.evaluate x0 := by
        dsimp only at h
        rw [hz2, h, iterationPoint_one hc]
      refine ⟨e, fun hne => ?_⟩
      rw [← e]
      exact distance_end hc.rounding hu1 hn h100 hne
  | @change z0 lo0 up0 d0 _ s1 w meth info x1 f1 zp1 z1 hv hs1 hl hb hp hm hinf hw hzl hxl hfl hbl hz1 hx1 hf1 hz2 =>
    subst hs1
    rw [hz'] at hz1
    cases hz1
    simp only [navReq, Option.some.injEq, Req.nav.injEq] at hq
    obtain ⟨rfl, _, rfl, rfl⟩ := hq
    have hL : 1 ≤ (changeN s r.nIterations).left - 1 := by omega
    refine ⟨a, x1, hlp, hL, getElem?_set_same hxl, rfl, fun h => by simp [hp] at h, fun _ => ⟨weights c w,
        weights_for hc.rounding hu hu1 (pref_ok hv hp) hm hinf hw, hx1⟩,
      fun j => by rw [hz2, hf1]; rfl, ?_, fun h => ?_⟩
    · rw [hz2, hf1]; exact iterationPoint_near hc.rounding hu hL _ _
    · have e : up = c.evaluate x1 := by
        dsimp only at h
        rw [hz2, h, hf1, iterationPoint_one hc]
      refine ⟨e, fun hne => ?_⟩
      rw [hf1, ← e]
      exact distance_end hc.rounding hu1 hn h100 hne
  | short hv hs1 hl hb' => rw [hb] at hb'; simp at hb'
  | redo hv hs1 hl hb' => rw [hb] at hb'; simp at hb'
  | nothing => simp at hq

/-- **C131**: every stop request shows a decision vector with its own objective vector, to the last bit. -/
theorem C131_stop_pair {c : Cfg k m K} {G : Oracle k m K → Prop} {s : St k m K}
    {iss : List (Req k m K)} (hc : c.Machined u) (hS : Smooth c G s iss) {x f} (h : Req.stop x f ∈ iss) :
    ∃ x', x = some x' ∧ f = some (c.evaluate x') := by
  induction hS with
  | first h0 hG ha =>
    have hst := answer_ok (by omega) ha
    rw [List.mem_singleton] at h
    subst h
    generalize hq : some (Req.stop x f) = q at hst
    cases hst with
    | initial => simp [navReq] at hq
  | @next s iss req r orc s' o hs hr hG ha hok ih =>
    by_cases hv : validate c.toCfg req r = .ok ()
    · obtain ⟨q, rfl⟩ := hok hv
      cases q with
      | none => exact ih h
      | some q =>
        rcases List.mem_cons.1 h with rfl | h
        · have hst := answer_ok (hs.inv hc).pos ha
          obtain ⟨x0, hx0, hf0⟩ := (hs.inv hc).sol
          obtain ⟨e1, e2, e3, e4⟩ := changeN_get (s := s) r.nIterations
          have hx' := e3 _ _ hx0
          have hf' := e4 _ _ hf0
          rw [← e1] at hx' hf'
          generalize hq : some (Req.stop x f) = q at hst
          cases hst with
          | ended => cases hq; exact ih hr
          | initial => simp [navReq] at hq
          | stop hv hs1 hl hx1 hf1 =>
            subst hs1
            rw [hx'] at hx1
            rw [hf'] at hf1
            cases hx1; cases hf1
            simp only [Option.some.injEq, Req.stop.injEq] at hq
            exact ⟨x0, hq.1, hq.2⟩
          | keep => simp [navReq] at hq
          | change => simp [navReq] at hq
          | short => simp [navReq] at hq
          | redo => simp [navReq] at hq
          | nothing => simp at hq
        · exact ih h
    · obtain ⟨rfl, e, rfl⟩ := answer_refused ha hv
      exact ih h

/-- **C131**, stopping: when the last iteration is over (one left, counting the current one) and
the number of iterations is not changed, the stop request carries the objective vector that was shown as
the last iteration point. -/
theorem C131_stop_at_last_point {c : Cfg k m K} {G : Oracle k m K → Prop} {s s' : St k m K}
    {iss : List (Req k m K)} {req : Req k m K} {r : Resp K} {orc : Oracle k m K} {x f}
    (hc : c.Machined u) (hS : Smooth c G s iss) (hreq : ∀ x f, req ≠ .stop x f) (hr : req ∈ iss)
    (ha : answer c s req r orc = (s', .ok (some (.stop x f)))) (hl : s.left = 1)
    (hn : r.nIterations = none) :
    ∃ x' z, x = some x' ∧ f = some z ∧ z = c.evaluate x' ∧ lastPoint iss = some z := by
  have hst := answer_ok (hS.inv hc).pos ha
  obtain ⟨x0, hx0, hf0⟩ := (hS.inv hc).sol
  obtain ⟨z, hz, hlp⟩ := (hS.inv hc).cur
  have hd := (hS.inv hc).done hl
  have hcn : changeN s r.nIterations = s := by rw [hn]; rfl
  generalize hq : some (Req.stop x f) = q at hst
  cases hst with
  | ended => exact absurd rfl (hreq _ _)
  | initial => simp [navReq] at hq
  | stop hv hs1 hl hx1 hf1 =>
    rw [hcn] at hs1
    subst hs1
    rw [hx0] at hx1
    rw [hf0] at hf1
    rw [hz, hf0] at hd
    cases hx1; cases hf1
    simp only [Option.some.injEq, Req.stop.injEq] at hq hd
    exact ⟨x0, z, hq.1, by rw [hq.2, hd], hd, hlp⟩
  | keep => simp [navReq] at hq
  | change => simp [navReq] at hq
  | short => simp [navReq] at hq
  | redo => simp [navReq] at hq
  | nothing => simp at hq

/-- After `i` of `N` even steps from `a` to `f`, computed with relative rounding errors of at most `u`: the error is
that of `3 i` roundings relative to the larger of the two end points. -/
def NearEven (u : K) (N i : Nat) (a f z : Vec k K) : Prop :=
  ∀ j, |z j - (a j + ((i : K) / (N : K)) * (f j - a j))| ≤ ((1 + u) ^ (3 * i) - 1) * max |a j| |f j|

/-- The error of one more step. -/
theorem NearEven.succ {c : Cfg k m K} (hc : IsRounding u c.rnd) (hu : 0 ≤ u) {N i : Nat} (hN : i + 1 ≤ N)
    {a f z : Vec k K} (h : NearEven u N i a f z) :
    NearEven u N (i + 1) a f (iterationPoint c ((N : Int) - i) z f) := by
  intro j
  have hNi : (i : K) + 1 ≤ (N : K) := by exact_mod_cast hN
  have hi0 : (0 : K) ≤ (i : K) := Nat.cast_nonneg i
  set L : K := (N : K) - (i : K) with hLdef
  have hL1 : 1 ≤ L := by linarith
  have hL0 : 0 < L := by linarith
  have hN0 : (0 : K) < (N : K) := by linarith
  have eL : (((N : Int) - (i : Int) : Int) : K) = L := by push_cast; rfl
  have h1 := stepTo_close hc hu L (z j) (f j)
  have h2 := h j
  set E : K := a j + ((i : K) / (N : K)) * (f j - a j) with hE
  set M : K := max |a j| |f j| with hM
  set D : K := (1 + u) ^ 3 - 1 with hD
  have hD0 : 0 ≤ D := by
    have := one_le_pow₀ (n := 3) (by linarith : (1 : K) ≤ 1 + u)
    linarith
  have haM : |a j| ≤ M := le_max_left _ _
  have hfM : |f j| ≤ M := le_max_right _ _
  have hM0 : 0 ≤ M := (abs_nonneg _).trans haM
  -- the exact point is between the end points
  have hEM : |E| ≤ M := by
    have e : E = (1 - (i : K) / (N : K)) * a j + ((i : K) / (N : K)) * f j := by rw [hE]; ring
    have q0 : 0 ≤ (i : K) / (N : K) := div_nonneg hi0 hN0.le
    have q1 : (i : K) / (N : K) ≤ 1 := by rw [div_le_one hN0]; linarith
    rw [e]
    calc |(1 - (i : K) / (N : K)) * a j + ((i : K) / (N : K)) * f j|
        ≤ |(1 - (i : K) / (N : K)) * a j| + |((i : K) / (N : K)) * f j| := abs_add_le _ _
      _ = (1 - (i : K) / (N : K)) * |a j| + ((i : K) / (N : K)) * |f j| := by
          rw [abs_mul, abs_mul, abs_of_nonneg q0, abs_of_nonneg (by linarith : 0 ≤ 1 - (i : K) / (N : K))]
      _ ≤ (1 - (i : K) / (N : K)) * M + ((i : K) / (N : K)) * M := by
          have := mul_le_mul_of_nonneg_left haM (by linarith : 0 ≤ 1 - (i : K) / (N : K))
          have := mul_le_mul_of_nonneg_left hfM q0
          linarith
      _ = M := by ring
  have a0 : 0 ≤ (L - 1) / L := div_nonneg (by linarith) hL0.le
  have b0 : 0 ≤ 1 / L := by positivity
  have ab : (L - 1) / L + 1 / L = 1 := by field_simp; ring
  have hzM : |z j| ≤ M + |z j - E| := by
    have := abs_sub_abs_le_abs_sub (z j) E
    linarith
  have e3 : a j + (((i + 1 : Nat) : K) / (N : K)) * (f j - a j) = (L - 1) / L * E + 1 / L * f j := by
    rw [hE]
    have : (N : K) ≠ 0 := hN0.ne'
    have hL' : L ≠ 0 := hL0.ne'
    rw [eq_comm]
    field_simp
    rw [hLdef]
    push_cast
    ring
  rw [e3]
  unfold iterationPoint
  rw [eL]
  rw [abs_mul, abs_mul, abs_of_nonneg a0, abs_of_nonneg b0] at h1
  have h4 : |stepTo c.rnd L (z j) (f j) - ((L - 1) / L * E + 1 / L * f j)| ≤
      |stepTo c.rnd L (z j) (f j) - ((L - 1) / L * z j + 1 / L * f j)| + (L - 1) / L * |z j - E| := by
    have e : stepTo c.rnd L (z j) (f j) - ((L - 1) / L * E + 1 / L * f j) =
        (stepTo c.rnd L (z j) (f j) - ((L - 1) / L * z j + 1 / L * f j)) + (L - 1) / L * (z j - E) := by ring
    rw [e]
    refine (abs_add_le _ _).trans ?_
    rw [abs_mul, abs_of_nonneg a0]
  have e5 : (1 + u) ^ (3 * (i + 1)) = (1 + u) ^ (3 * i) * (1 + D) := by
    rw [hD]; ring
  rw [e5]
  have p1 : (1 : K) ≤ (1 + u) ^ (3 * i) := one_le_pow₀ (by linarith)
  set X : K := |z j - E| with hX
  have hX0 : 0 ≤ X := abs_nonneg _
  have ha1 : (L - 1) / L ≤ 1 := by linarith
  -- collect
  have h6 : D * ((L - 1) / L * |z j| + 1 / L * |f j|) ≤ D * (M + (L - 1) / L * X) := by
    refine mul_le_mul_of_nonneg_left ?_ hD0
    have t1 := mul_le_mul_of_nonneg_left hzM a0
    have t2 := mul_le_mul_of_nonneg_left hfM b0
    have t3 : (L - 1) / L * M + 1 / L * M = M := by rw [← add_mul, ab, one_mul]
    have t4 : (L - 1) / L * (M + X) = (L - 1) / L * M + (L - 1) / L * X := by ring
    linarith
  have h7 : (L - 1) / L * X ≤ X := by
    have := mul_le_mul_of_nonneg_right ha1 hX0
    linarith
  have h8 := mul_le_mul_of_nonneg_left h7 (by linarith : 0 ≤ 1 + D)
  have h9 := mul_le_mul_of_nonneg_left h2 (by linarith : 0 ≤ 1 + D)
  nlinarith

/-- **C131**. The decision maker asks for `N` iterations, the solver finds the solution `x` (with objectives `f`), and
then always goes on with the same preferences. After `h ≤ N` iterations the point shown, also as the upper bounds, is
`start + (h/N) (f - start)` up to rounding errors; after exactly `N` iterations it is exactly `f`, with the distance
exactly 100, and the next answer is the stop request with `x` and `f`. -/
theorem C131_even_steps {c : Cfg k m K} {s0 s1 : St k m K} {r : Resp K} {orc : Oracle k m K}
    {q1 : Req k m K} (hc : c.Machined u) (hu : 0 ≤ u) (hu1 : u < 1) (hn : Definite c.nrm)
    (h100 : Machine c.rnd 100) (h0 : s0.step = 1)
    (ha : answer c s0 .initial r orc = (s1, .ok (some q1))) :
    ∃ (N : Nat) (x : Vec m K), (∃ v, r.nIterations = some v ∧ v.asInt = N) ∧ 1 ≤ N ∧
      (∃ v, WeightsFor u c.rnd r v ∧ x = orc.asf v c.start) ∧
      ∀ os : List (Oracle k m K),
        (os.length + 1 ≤ N → ∃ s' z lo d, keepRun c os s1 q1 = (s', .ok (some (.nav z lo z d))) ∧
          NearEven u N (os.length + 1) c.start (c.evaluate x) z ∧
          (os.length + 1 = N → z = c.evaluate x ∧ (c.evaluate x ≠ c.start → d = .num 100))) ∧
        (os.length = N → ∃ s', keepRun c os s1 q1 =
          (s', .ok (some (.stop (some x) (some (c.evaluate x)))))) := by
  have hinv := Inv.initial hc h0 ha
  have h := answer_ok (by omega) ha
  generalize hqq : some q1 = qq at h
  cases h with
  | @initial _ v w meth info cap x f z hv hnn hm hi hw hcap hlt h1 hx hf hz =>
    obtain ⟨v', hv', _, hv1, _, _, hpref⟩ := validateInitial_ok hv
    rw [hnn] at hv'
    cases hv'
    cases hqq
    obtain ⟨N, hN⟩ : ∃ N : Nat, v.asInt = N := ⟨v.asInt.toNat, by omega⟩
    refine ⟨N, x, ⟨v, hnn, hN⟩, by omega,
      ⟨weights c w, weights_for hc.rounding hu hu1 hpref hm hi hw, hx⟩, ?_⟩
    rw [← hf]
    have hstart : NearEven u N 1 c.start f z := by
      have hz0 : NearEven u N 0 c.start f c.start := by intro j; simp
      have := hz0.succ hc.rounding hu (by omega : 0 + 1 ≤ N)
      rw [hz, hN]
      simpa using this
    have hend : ∀ y, N = 1 → iterationPoint c v.asInt y f = f := by
      intro y h
      rw [hN, h, hf]
      exact iterationPoint_one hc _ _
    have main : ∀ (os : List (Oracle k m K)) (h : Nat) (s : St k m K) (iss : List (Req k m K))
        (orc' : Oracle k m K) (p : Vec k K), 1 ≤ h → h ≤ N → Inv c s iss → Store s → s.left = (N : Int) - h + 1 →
        s.xs[s.step]? = some (some x) → s.zs[s.step]? = some (some p) →
        NearEven u N h c.start f p → (h = N → p = f) →
        (os.length + h ≤ N → ∃ s' z lo d,
          keepRun c os s (navReq c orc' p f) = (s', .ok (some (.nav z lo z d))) ∧
          NearEven u N (os.length + h) c.start f z ∧
          (os.length + h = N → z = f ∧ (f ≠ c.start → d = .num 100))) ∧
        (os.length + h = N + 1 → ∃ s',
          keepRun c os s (navReq c orc' p f) =
            (s', .ok (some (.stop (some x) (some f))))) := by
      intro os
      induction os with
      | nil =>
        intro h s iss orc' p h1 h2 hI hst hl hxx hzz hnear hlast
        refine ⟨fun _ => ⟨s, _, _, _, rfl, ?_, ?_⟩, fun h3 => by simp at h3; omega⟩
        · simpa using hnear
        · intro he
          simp only [List.length_nil, Nat.zero_add] at he
          rw [hlast he]
          exact ⟨rfl, fun hne => distance_end hc.rounding hu1 hn h100 hne⟩
      | cons o os ih =>
        intro h s iss orc' p h1 h2 hI hst hl hxx hzz hnear hlast
        obtain ⟨k1, k2⟩ := keep_step (z := p) (lo := bounds c orc' p) (up := p) (d := distance c p f) (orc := o)
          hc.rounding hu hu1 hI hst hxx hzz
        rw [← hf] at k1 k2
        by_cases hlt : h < N
        · obtain ⟨s', hs', hl', hx', hz'⟩ := k2 (by omega)
          have he : s.left - 1 = (N : Int) - h := by omega
          rw [he] at hs' hz'
          have hI' := hI.step hc (by simp) hs'
          have hst' := (answer_store hst (fun v hv => by simp [keepResp] at hv) (by simp) hs').1
          have hnear' := hnear.succ hc.rounding hu (by omega : h + 1 ≤ N)
          have hlast' : h + 1 = N → iterationPoint c ((N : Int) - h) p f = f := by
            intro e
            have : (N : Int) - h = 1 := by omega
            rw [this, hf]
            exact iterationPoint_one hc _ _
          obtain ⟨i1, i2⟩ := ih (h + 1) s' _ o _ (by omega) (by omega) hI' hst' (by omega) hx' hz' hnear' hlast'
          have hlen : (o :: os).length + h = os.length + (h + 1) := by simp only [List.length_cons]; omega
          rw [hlen]
          simp only [keepRun, navReq] at *
          rw [hs']
          exact ⟨i1, i2⟩
        · have hh : h = N := by omega
          subst hh
          obtain ⟨s', hs'⟩ := k1 (by omega)
          simp only [List.length_cons]
          refine ⟨fun h3 => by omega, fun h3 => ?_⟩
          have hos : os = [] := List.length_eq_zero_iff.1 (by omega)
          subst hos
          exact ⟨s', by simp only [keepRun, navReq, hs']⟩
    intro os
    have hlen : s0.step + 1 < cap := hlt
    obtain ⟨i1, i2⟩ := main os 1 _ _ orc z le_rfl (by omega) hinv (initial_store h0 ha).1 (by dsimp only; omega)
      (getElem?_set_same (by simp; omega)) (getElem?_set_same (by simp; omega)) hstart
      (fun e => by rw [hz]; exact hend _ e.symm)
    exact ⟨fun h => i1 (by omega), fun h => i2 (by omega)⟩

end Verif.NautilusV2.Rounded
