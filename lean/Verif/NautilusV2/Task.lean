import Verif.NautilusV2.Props2
import Verif.Task
import Mathlib.Tactic.LinearCombination

set_option linter.unusedSectionVars false

/-!
# NAUTILUS 2: what the minimizers are asked, C97 (Pareto optimality), C98 (giving up)
-/

namespace Verif.NautilusV2

variable {K : Type} [Field K] [LinearOrder K] [IsStrictOrderedRing K] {k m : Nat}

/-- NautilusV2.py:438. -/
def utopianOf (eps : K) (c : Cfg k m K) : Vec k K := fun j => c.ideal j - eps

/-- NautilusV2.py:950-964: the achievement problem for the weights `mu` and the reference point `q`, over the
bounds of the variables; `eps` is the argument `epsilon` of the constructor. The constraints of the problem are
not handed to the minimizer. -/
def asfTask (c : Cfg (k + 1) m K) (P : Side m K) (eps : K) (mu : Vec (k + 1) K) (q : Vec (k + 1) K) : Task m K where
  value := fun x => some (refPointASF mu c.nadir (utopianOf eps c) (1 / 100000) q (c.evaluate x))
  admits := P.inBounds

/-- NautilusV2.py:1018-1032: the `i`-th epsilon constraint problem, over the bounds and the constraints. -/
def epsTask (c : Cfg k m K) (P : Side m K) (i : Fin k) (z : Vec k K) : Task m K where
  value := fun x => some (c.evaluate x i)
  admits := fun x => P.inBounds x ∧ P.constraints x ∧ ∀ j, j ≠ i → c.evaluate x j ≤ z j

/-- The minimizers solve exactly what they are asked: the achievement problems with positive weights, and the
epsilon constraint problems that have a solution. -/
structure Exact (c : Cfg (k + 1) m K) (P : Side m K) (eps : K) (orc : Oracle (k + 1) m K) : Prop where
  asf : ∀ mu q, (∀ i, 0 < mu i) → Solves (orc.asf mu q) (asfTask c P eps mu q)
  eps : ∀ i z, (∃ x, (epsTask c P i z).admits x) → Solves (orc.eps i z) (epsTask c P i z)

/-- What an exact solution of the achievement problem is. -/
theorem Exact.best {c : Cfg (k + 1) m K} {P : Side m K} {eps : K} {orc : Oracle (k + 1) m K} (h : Exact c P eps orc)
    {mu : Vec (k + 1) K} (q : Vec (k + 1) K) (hpos : ∀ i, 0 < mu i) :
    P.inBounds (orc.asf mu q) ∧ ∀ y, P.inBounds y →
      refPointASF mu c.nadir (utopianOf eps c) (1 / 100000) q (c.evaluate (orc.asf mu q)) ≤
        refPointASF mu c.nadir (utopianOf eps c) (1 / 100000) q (c.evaluate y) := by
  obtain ⟨h1, h2⟩ := h.asf mu q hpos
  refine ⟨h1, fun y hy => ?_⟩
  obtain ⟨a, ha, hle⟩ := h2 y hy _ rfl
  cases ha
  exact hle

/-! ### C97 -/

/-- The solution found last is the best one within the bounds of the variables. -/
def Best (c : Cfg k m K) (P : Side m K) (x : Vec m K) : Prop :=
  P.inBounds x ∧ ∀ y, P.inBounds y → ¬ Dominates (c.evaluate y) (c.evaluate x)

theorem Exact.found {c : Cfg (k + 1) m K} {P : Side m K} {eps : K} {orc : Oracle (k + 1) m K} (h : Exact c P eps orc)
    (hnu : ∀ i, c.ideal i - eps < c.nadir i) {r : Resp K} {meth : Int} {info : Pref K} {w : Vec (k + 1) K}
    (hv : validatePreferences (k + 1) r = .ok ()) (hm : r.method = some meth) (hi : r.info = some info)
    (hw : factors (k + 1) meth info = .ok w) (q : Vec (k + 1) K) : Best c P (orc.asf (weights w) q) := by
  have hpos := fun i => (C43_factors_positive hv hm hi hw i).2.2
  obtain ⟨h3, h4⟩ := h.best q hpos
  exact ⟨h3, refPointASF_pareto (fun i => (hpos i).le) hnu (by norm_num) h4⟩

theorem Smooth.best {c : Cfg (k + 1) m K} {P : Side m K} {s : St (k + 1) m K} {iss : List (Req (k + 1) m K)}
    {eps : K} (hnu : ∀ i, c.ideal i - eps < c.nadir i) (hW : Smooth c (Exact c P eps) s iss) :
    (∃ x, s.xs[s.step]? = some (some x) ∧ Best c P x) ∧
      ∀ x f, Req.stop x f ∈ iss → ∃ x', x = some x' ∧ Best c P x' := by
  induction hW with
  | @first s0 r orc s' q h0 hG ha =>
    have hst := answer_ok (by omega) ha
    generalize hq : some q = q' at hst
    cases hst with
    | @initial _ v w meth info cap x f z hv hn hm hi hw hcap hlt h1 hx hf hz =>
      obtain ⟨_, _, _, _, _, _, hpref⟩ := validateInitial_ok hv
      refine ⟨⟨x, getElem?_set_same (by simp; omega), ?_⟩, fun x f hx => ?_⟩
      · rw [hx]; exact hG.found hnu hpref hm hi hw _
      · rw [List.mem_singleton] at hx
        subst hx
        simp [navReq] at hq
  | @next s iss req r orc s' o hs hr hG ha hok ih =>
    by_cases hv : validate c req r = .ok ()
    swap
    · obtain ⟨rfl, e, rfl⟩ := answer_refused ha hv
      exact ih
    obtain ⟨o, rfl⟩ := hok hv
    have hinv := hs.inv
    have hni := hs.session.not_initial _ hr
    have hst := answer_ok hinv.pos ha
    obtain ⟨⟨x, hx, hb⟩, hstops⟩ := ih
    have hstop : ∀ {z f} {x0 : Option (Vec m K)} {f0}, Req.stop x0 f0 ∈ extend (.ok (some (navReq c orc z f))) iss →
        ∃ x', x0 = some x' ∧ Best c P x' := by
      intro z f x0 f0 h
      rcases List.mem_cons.1 h with h | h
      · simp [navReq] at h
      · exact hstops _ _ h
    obtain ⟨e1, e2, e3, e4⟩ := changeN_get (s := s) r.nIterations
    have hx' := e3 _ _ hx
    rw [← e1] at hx'
    cases hst with
    | ended =>
      refine ⟨⟨x, hx, hb⟩, fun x f h => ?_⟩
      rcases List.mem_cons.1 h with h | h
      · exact hstops _ _ (h ▸ hr)
      · exact hstops _ _ h
    | initial => exact absurd rfl hni
    | stop hv1 hs1 hl hx1 hf1 =>
      subst hs1
      refine ⟨⟨x, hx', hb⟩, fun x2 f2 h => ?_⟩
      rcases List.mem_cons.1 h with h | h
      · simp only [Req.stop.injEq] at h
        obtain ⟨rfl, rfl⟩ := h
        rw [hx'] at hx1
        cases hx1
        exact ⟨x, rfl, hb⟩
      · exact hstops _ _ h
    | keep hv1 hs1 hl hb1 hp1 hzl hxl hfl hbl hx1 hf1 hz1 hz2 =>
      subst hs1
      rw [hx'] at hx1
      cases hx1
      exact ⟨⟨x, getElem?_set_same hxl, hb⟩, fun _ _ h => hstop h⟩
    | @change _ _ _ _ _ _ w meth info x1 f1 zp1 z1 hv1 hs1 hl hb1 hp1 hm hi hw hzl hxl hfl hbl hz1 hx1 hf1 hz2 =>
      subst hs1
      obtain ⟨back, prev, hb2, hp2, _, hpref, _⟩ := validateNav_ok hv1
      rw [hp1] at hp2
      cases hp2
      refine ⟨⟨x1, getElem?_set_same hxl, ?_⟩, fun _ _ h => hstop h⟩
      rw [hx1]
      exact hG.found hnu (hpref rfl) hm hi hw _
    | short hv1 hs1 hl hb1 hsh hz0 hzp hf1 hbl hz2 =>
      subst hs1
      exact ⟨⟨x, hx', hb⟩, fun _ _ h => hstop h⟩
    | @redo _ _ _ _ _ _ w meth info x1 f1 zp1 z1 hv1 hs1 hl hb1 hsh hp1 hm hi hw hzl hxl hfl hbl hz1 hx1 hf1 hz2 =>
      subst hs1
      obtain ⟨back, prev, hb2, hp2, _, hpref, _⟩ := validateNav_ok hv1
      rw [hp1] at hp2
      cases hp2
      refine ⟨⟨x1, getElem?_set_same hxl, ?_⟩, fun _ _ h => hstop h⟩
      rw [hx1]
      exact hG.found hnu (hpref rfl) hm hi hw _
    | nothing hv1 hs1 hl hb1 hsh hp1 =>
      subst hs1
      exact ⟨⟨x, hx', hb⟩, fun _ _ h => hstops _ _ h⟩

/-- The full claim: with exact minimizers, every run ends with a Pareto optimal solution and its objective
vector. -/
def EndsOptimal (c : Cfg (k + 1) m K) (P : Side m K) (eps : K) : Prop :=
  ∀ s iss x f, Smooth c (Exact c P eps) s iss → Req.stop x f ∈ iss →
    ∃ x', x = some x' ∧ f = some (c.evaluate x') ∧ ParetoOptimal P c.evaluate x'

/-- **C97** (NAUTILUS 2). With exact minimizers, in every run, the solution in the stop request comes with its own
objective vector, respects the bounds of the variables and is not dominated by any vector within the bounds; so
if it satisfies the constraints, it is Pareto optimal. Missing from the full claim: problems with constraints,
which the achievement problem ignores (`C97_fails_constraints`). -/
theorem C97_optimal_partial {c : Cfg (k + 1) m K} {P : Side m K} {s : St (k + 1) m K}
    {iss : List (Req (k + 1) m K)} {eps : K} (hnu : ∀ i, c.ideal i - eps < c.nadir i) (hW : Smooth c (Exact c P eps) s iss)
    {x f} (h : Req.stop x f ∈ iss) :
    ∃ x', x = some x' ∧ f = some (c.evaluate x') ∧ P.inBounds x' ∧
      (∀ y, P.inBounds y → ¬ Dominates (c.evaluate y) (c.evaluate x')) ∧
      (P.constraints x' → ParetoOptimal P c.evaluate x') := by
  obtain ⟨x', rfl, hb⟩ := (hW.best hnu).2 x f h
  obtain ⟨x2, h2, hf⟩ := C66_stop_pair hW h
  cases h2
  exact ⟨x', rfl, hf, hb.1, hb.2, fun hc => ⟨⟨hb.1, hc⟩, fun y hy => hb.2 y hy.1⟩⟩

/-- The exact solution of the achievement problem of the example, minimize `x` and `1 - x` for `0 ≤ x ≤ 1`. -/
def exBest (w q : Vec 2 ℚ) : Vec 1 ℚ := ![max 0 (min 1 ((w 0 * q 0 + w 1 * (1 - q 1)) / (w 0 + w 1)))]

def exExact (b : ℚ) : Oracle 2 1 ℚ where
  asf := exBest
  eps := fun i z => if i = 0 then ![max 0 (1 - z 1)] else ![min b (z 0)]

/-- The bounds `0 ≤ x ≤ 1` and the constraint `x ≤ b`. -/
def exSide (b : ℚ) : Side 1 ℚ where
  inBounds := exFeasible
  constraints := fun x => x 0 ≤ b

theorem exCfg_value (mu q : Vec 2 ℚ) (x : Vec 1 ℚ) :
    refPointASF mu exCfg.nadir (utopianOf (1/100) exCfg) (1 / 100000) q (exCfg.evaluate x) =
      max (mu 0 * (x 0 - q 0)) (mu 1 * (1 - x 0 - q 1)) + 1 / 100000 * ((1 - q 0 - q 1) / (101 / 100)) := by
  unfold refPointASF
  rw [vmax_two, Fin.sum_univ_two]
  simp [exCfg, utopianOf]
  ring

theorem exBest_min {a b q0 q1 t : ℚ} (ha : 0 < a) (hb : 0 < b) {y : ℚ} (h0 : 0 ≤ y) (h1 : y ≤ 1)
    (htt : t = max 0 (min 1 ((a * q0 + b * (1 - q1)) / (a + b)))) :
    max (a * (t - q0)) (b * (1 - t - q1)) ≤ max (a * (y - q0)) (b * (1 - y - q1)) := by
  have hab : 0 < a + b := by linarith
  generalize hu : (a * q0 + b * (1 - q1)) / (a + b) = u at htt
  have hu' : a * (u - q0) = b * (1 - u - q1) := by
    rw [div_eq_iff hab.ne'] at hu
    linarith
  rcases le_total u 0 with hu0 | hu0
  · have ht : t = 0 := by
      rw [htt, min_eq_right (by linarith), max_eq_left hu0]
    rw [ht]
    refine max_le ?_ ?_
    · exact (mul_le_mul_of_nonneg_left (by linarith) ha.le).trans (le_max_left _ _)
    · refine le_trans ?_ (le_max_left _ _)
      have h2 : a * (u - q0) ≤ a * (y - q0) := mul_le_mul_of_nonneg_left (by linarith) ha.le
      have h3 : b * (1 - 0 - q1) ≤ b * (1 - u - q1) := mul_le_mul_of_nonneg_left (by linarith) hb.le
      linarith
  · rcases le_total u 1 with hu1 | hu1
    · have ht : t = u := by
        rw [htt, min_eq_right hu1, max_eq_right hu0]
      rw [ht, hu', max_self]
      rcases le_total u y with h | h
      · refine le_trans ?_ (le_max_left _ _)
        rw [← hu']
        exact mul_le_mul_of_nonneg_left (by linarith) ha.le
      · exact (mul_le_mul_of_nonneg_left (by linarith) hb.le).trans (le_max_right _ _)
    · have ht : t = 1 := by
        rw [htt, min_eq_left hu1, max_eq_right zero_le_one]
      rw [ht]
      refine max_le ?_ ?_
      · refine le_trans ?_ (le_max_right _ _)
        have h2 : a * (1 - q0) ≤ a * (u - q0) := mul_le_mul_of_nonneg_left (by linarith) ha.le
        have h3 : b * (1 - u - q1) ≤ b * (1 - y - q1) := mul_le_mul_of_nonneg_left (by linarith) hb.le
        linarith
      · exact (mul_le_mul_of_nonneg_left (by linarith) hb.le).trans (le_max_right _ _)

theorem exExact_exact {b : ℚ} (hb0 : 0 ≤ b) (hb1 : b ≤ 1) : Exact exCfg (exSide b) (1/100) (exExact b) := by
  constructor
  · intro mu q hpos
    refine ⟨⟨le_max_left _ _, max_le zero_le_one (min_le_left _ _)⟩, fun y hy v hv => ?_⟩
    cases hv
    refine ⟨_, rfl, ?_⟩
    rw [exCfg_value, exCfg_value]
    exact add_le_add_left (exBest_min (hpos 0) (hpos 1) hy.1 hy.2 rfl) _
  · rintro i z ⟨x, hx0, hx1, hx2⟩
    obtain ⟨hx0, hx0'⟩ := hx0
    have hx1 : x 0 ≤ b := hx1
    match i with
    | 0 =>
      have hz : 1 - x 0 ≤ z 1 := hx2 1 (by decide)
      show Solves ![max 0 (1 - z 1)] _
      refine ⟨⟨⟨le_max_left _ _, max_le zero_le_one (by linarith)⟩, max_le hb0 (by linarith), ?_⟩,
        fun y hy v hv => ?_⟩
      · intro j hj
        match j, hj with
        | 0, h => exact absurd rfl h
        | 1, _ =>
          show 1 - max 0 (1 - z 1) ≤ z 1
          have := le_max_right 0 (1 - z 1)
          linarith
      · obtain ⟨hy0, hy1, hy2⟩ := hy
        have hz' : 1 - y 0 ≤ z 1 := hy2 1 (by decide)
        cases hv
        exact ⟨_, rfl, max_le hy0.1 (by show 1 - z 1 ≤ y 0; linarith)⟩
    | 1 =>
      have hz : x 0 ≤ z 0 := hx2 0 (by decide)
      show Solves ![min b (z 0)] _
      refine ⟨⟨⟨le_min hb0 (by linarith), (min_le_left _ _).trans hb1⟩, min_le_left _ _, ?_⟩,
        fun y hy v hv => ?_⟩
      · intro j hj
        match j, hj with
        | 0, _ => exact min_le_right _ _
        | 1, h => exact absurd rfl h
      · obtain ⟨hy0, hy1, hy2⟩ := hy
        have hz' : y 0 ≤ z 0 := hy2 0 (by decide)
        cases hv
        refine ⟨_, rfl, ?_⟩
        show 1 - min b (z 0) ≤ 1 - y 0
        have := le_min hy1 hz'
        linarith

/-- Two iterations with improvement ratios 1 and 2. -/
def exTwo : Resp ℚ := { nIterations := some (.int 2), method := some 1, info := some (.arr [1, 2]) }

/-- A run with the constraint `x ≤ b`: two iterations, the preferences are kept. -/
def exE1 (b : ℚ) : St 2 1 ℚ := (answer exCfg St.init .initial exTwo (exExact b)).1
def exP1 (b : ℚ) : Req 2 1 ℚ := getReq (answer exCfg St.init .initial exTwo (exExact b)).2
def exE2 (b : ℚ) : St 2 1 ℚ := (answer exCfg (exE1 b) (exP1 b) keepResp (exExact b)).1
def exP2 (b : ℚ) : Req 2 1 ℚ := getReq (answer exCfg (exE1 b) (exP1 b) keepResp (exExact b)).2
def exE3 (b : ℚ) : St 2 1 ℚ := (answer exCfg (exE2 b) (exP2 b) keepResp (exExact b)).1

/-- Without a constraint (`b = 1`). -/
theorem exE_smooth (G : Oracle 2 1 ℚ → Prop) (h : G (exExact 1)) :
    Smooth exCfg G (exE3 1) [.stop (some ![1/2]) (some ![1/2, 1/2]), exP2 1, exP1 1] :=
  .next (.next (.first (s0 := St.init) (r := exTwo) rfl h (s' := exE1 1) (q := exP1 1) (eq_of_beq (by decide +kernel)))
      List.mem_cons_self (r := keepResp) h (s' := exE2 1) (o := .ok (some (exP2 1))) (eq_of_beq (by decide +kernel))
      fun _ => ⟨_, rfl⟩)
    List.mem_cons_self (r := keepResp) h (s' := exE3 1) (o := .ok (some (.stop (some ![1/2]) (some ![1/2, 1/2]))))
    (eq_of_beq (by decide +kernel)) fun _ => ⟨_, rfl⟩

example := C97_optimal_partial (P := exSide 1) (eps := 1/100) (by decide +kernel)
  (exE_smooth _ (exExact_exact zero_le_one le_rfl)) List.mem_cons_self

/-- With the constraint `x ≤ 1/8`. -/
theorem exE_smooth' (G : Oracle 2 1 ℚ → Prop) (h : G (exExact (1/8))) :
    Smooth exCfg G (exE3 (1/8)) [.stop (some ![1/2]) (some ![1/2, 1/2]), exP2 (1/8), exP1 (1/8)] :=
  .next (.next (.first (s0 := St.init) (r := exTwo) rfl h (s' := exE1 (1/8)) (q := exP1 (1/8))
        (eq_of_beq (by decide +kernel)))
      List.mem_cons_self (r := keepResp) h (s' := exE2 (1/8)) (o := .ok (some (exP2 (1/8)))) (eq_of_beq (by decide +kernel))
      fun _ => ⟨_, rfl⟩)
    List.mem_cons_self (r := keepResp) h (s' := exE3 (1/8)) (o := .ok (some (.stop (some ![1/2]) (some ![1/2, 1/2]))))
    (eq_of_beq (by decide +kernel)) fun _ => ⟨_, rfl⟩

/-- C97 fails: minimize `x` and `1 - x` for `0 ≤ x ≤ 1` with the constraint `x ≤ 1/8`. With exact minimizers
and improvement ratios 1 and 2, NAUTILUS 2 ends with `x = 1/2`, which violates the constraint; there are Pareto optimal
solutions. -/
theorem C97_fails_constraints : ¬ EndsOptimal exCfg (exSide (1/8)) (1/100) ∧
    ParetoOptimal (exSide (1/8)) exCfg.evaluate ![1/8] := by
  constructor
  · intro h
    obtain ⟨x, hx, _, hp, _⟩ := h _ _ _ _
      (exE_smooth' _ (exExact_exact (by norm_num) (by norm_num))) List.mem_cons_self
    cases hx
    have : (1 / 2 : ℚ) ≤ 1 / 8 := hp.2
    norm_num at this
  · refine ⟨⟨⟨by decide +kernel, by decide +kernel⟩, le_rfl⟩, ?_⟩
    rintro y - ⟨h1, j, hj⟩
    have h2 : y 0 ≤ 1 / 8 := h1 0
    have h3 : 1 - y 0 ≤ 1 - 1 / 8 := h1 1
    match j with
    | 0 => have : y 0 < 1 / 8 := hj; linarith
    | 1 => have : 1 - y 0 < 1 - 1 / 8 := hj; linarith

theorem Session.weaken {c : Cfg k m K} {G H : Oracle k m K → Prop} (hGH : ∀ orc, G orc → H orc) {s iss}
    (h : Session c G s iss) : Session c H s iss := by
  induction h with
  | first h0 hG ha => exact .first h0 (hGH _ hG) ha
  | next _ hr hG ha ih => exact .next ih hr (hGH _ hG) ha

/-- The bounds are asked for over the feasible set. -/
theorem Exact.exactEps {c : Cfg (k + 1) m K} {P : Side m K} {eps : K} {orc : Oracle (k + 1) m K} (h : Exact c P eps orc) :
    ExactEps c P.feasible orc := by
  rintro i z ⟨x, hx, hz⟩
  obtain ⟨⟨h1, h2, h3⟩, h4⟩ := h.eps i z ⟨x, hx.1, hx.2, hz⟩
  refine ⟨⟨h1, h2⟩, h3, fun y hy hyz => ?_⟩
  obtain ⟨a, ha, hle⟩ := h4 y ⟨hy.1, hy.2, hyz⟩ _ rfl
  cases ha
  exact hle

/-- C68 in terms of what the minimizers are asked: with exact minimizers, in every history, every shown lower bound
vector is no larger than any feasible solution at least as good as the shown point. -/
theorem C68_exact_minimizers {c : Cfg (k + 1) m K} {P : Side m K} {eps : K} {s : St (k + 1) m K}
    {iss : List (Req (k + 1) m K)} (hS : Session c (Exact c P eps) s iss) {z lo up : Vec (k + 1) K} {d : Fl K}
    (hr : .nav z lo up d ∈ iss) {x : Vec m K} (hx : P.feasible x) (hz : AtLeastAsGood (c.evaluate x) z) :
    AtLeastAsGood lo (c.evaluate x) :=
  (C68_lower_bounds (hS.weaken fun _ h => h.exactEps) hr).1 x hx hz

def exGZ (q : Req 2 1 ℚ) : Vec 2 ℚ := match q with | .nav z _ _ _ => z | _ => ![0, 0]
def exGL (q : Req 2 1 ℚ) : Vec 2 ℚ := match q with | .nav _ l _ _ => l | _ => ![0, 0]
def exGD (q : Req 2 1 ℚ) : Fl ℚ := match q with | .nav _ _ _ d => d | _ => .num 0

/-- A consequence of ignoring the constraints: on the problem of `C97_fails_constraints`, a request shows a lower
bound above the upper bound, and the final solution is below this lower bound. -/
theorem C97_fails_bounds : ∃ s iss, Smooth exCfg (Exact exCfg (exSide (1/8)) (1/100)) s iss ∧
    (∃ z lo up d, Req.nav z lo up d ∈ iss ∧ up 1 < lo 1 ∧
      ∃ x f, Req.stop x (some f) ∈ iss ∧ f 1 < lo 1) :=
  ⟨_, _, exE_smooth' _ (exExact_exact (by norm_num) (by norm_num)), exGZ (exP1 (1/8)), exGL (exP1 (1/8)), exGZ (exP1 (1/8)),
    exGD (exP1 (1/8)), by
      have : exP1 (1/8) = .nav (exGZ (exP1 (1/8))) (exGL (exP1 (1/8))) (exGZ (exP1 (1/8))) (exGD (exP1 (1/8))) :=
        eq_of_beq (by decide +kernel)
      rw [← this]
      simp,
    by decide +kernel, some ![1/2], ![1/2, 1/2], List.mem_cons_self, by decide +kernel⟩

/-! ### C98 -/

/-- Moving from `a` to `z` with `L` iterations left gives up, in every objective, at most `(k + 1) / (10^5 L)` times
the preferential factor `w` of the objective (`k + 1` is the number of objectives). -/
def GivesUpLittle (w : Vec (k + 1) K) (L : Int) (a z : Vec (k + 1) K) : Prop :=
  ∀ i, (L : K) * (z i - a i) ≤ ((k : K) + 1) / 100000 * w i

theorem Exact.givesUp {c : Cfg (k + 1) m K} {P : Side m K} {eps : K} {orc : Oracle (k + 1) m K} (h : Exact c P eps orc)
    (heps : 0 < eps) (hin : AtLeastAsGood c.ideal c.nadir)
    (hid : ∀ x, P.inBounds x → AtLeastAsGood c.ideal (c.evaluate x))
    {r : Resp K} {meth : Int} {info : Pref K} {w : Vec (k + 1) K}
    (hv : validatePreferences (k + 1) r = .ok ()) (hm : r.method = some meth) (hi : r.info = some info)
    (hw : factors (k + 1) meth info = .ok w) {a z : Vec (k + 1) K}
    (han : AtLeastAsGood a c.nadir) (hex : ∃ y, P.inBounds y ∧ AtLeastAsGood (c.evaluate y) a) {L : Int}
    (hz : ConvexStep L a (c.evaluate (orc.asf (weights w) a)) z) : GivesUpLittle w L a z := by
  intro i
  have hnu : ∀ i, utopianOf eps c i < c.nadir i := fun i => by unfold utopianOf; have := hin i; linarith
  have hpos := C43_factors_positive hv hm hi hw
  obtain ⟨h3, h4⟩ := h.best a fun i => (hpos i).2.2
  have hx : AtLeastAsGood (utopianOf eps c) (c.evaluate (orc.asf (weights w) a)) := fun j => by
    unfold utopianOf; have := hid _ h3 j; linarith
  have h5 := refPointASF_near_range (fun i => (hpos i).2.2) hnu (by norm_num) h4 hex han hx i
  have hone : weights w i * w i = 1 := by
    rw [(hpos i).2.1]; exact one_div_mul_cancel (hpos i).1.ne'
  have h6 := mul_le_mul_of_nonneg_right h5 (hpos i).1.le
  have h7 := hz i
  have h8 : weights w i * (c.evaluate (orc.asf (weights w) a) i - a i) * w i = (L : K) * (z i - a i) := by
    linear_combination (c.evaluate (orc.asf (weights w) a) i - a i) * hone - h7
  rw [h8] at h6
  refine h6.trans (le_of_eq ?_)
  ring

/-- **C98** (NAUTILUS 2), the first iteration: with exact minimizers and a starting point that can be reached within
the bounds, the first point shown is worse than the starting point at most by a negligible amount. Missing from
the full claim (not worse at all): `C98_fails`. -/
theorem C98_first_partial {c : Cfg (k + 1) m K} {P : Side m K} {eps : K} {orc : Oracle (k + 1) m K}
    (h : Exact c P eps orc) (heps : 0 < eps) (hin : AtLeastAsGood c.ideal c.nadir)
    (hid : ∀ x, P.inBounds x → AtLeastAsGood c.ideal (c.evaluate x))
    {s s' : St (k + 1) m K} {r : Resp K} {z lo up : Vec (k + 1) K} {d : Fl K} (h0 : s.step = 1)
    (ha : answer c s .initial r orc = (s', .ok (some (.nav z lo up d)))) (hsn : AtLeastAsGood c.start c.nadir)
    (hex : ∃ y, P.inBounds y ∧ AtLeastAsGood (c.evaluate y) c.start) :
    ∃ meth info w, r.method = some meth ∧ r.info = some info ∧ factors (k + 1) meth info = .ok w ∧ 1 ≤ s'.left ∧
      GivesUpLittle w s'.left c.start z := by
  have hval : validateInitial (k + 1) r = .ok () := by
    by_contra hc
    obtain ⟨_, e, he⟩ := answer_refused ha (by simpa [validate] using hc)
    cases he
  obtain ⟨N, x, meth, info, w, h1, h2, h3, h4, h5, h6, h7, h8, h9, _⟩ := C64_first h0 ha
  obtain ⟨_, _, _, _, _, _, hpref⟩ := validateInitial_ok hval
  refine ⟨meth, info, w, h4, h5, h6, h2 ▸ h3, ?_⟩
  subst h7
  rw [h2]
  exact h.givesUp heps hin hid hpref h4 h5 h6 hsn hex h9

/-- **C98** (NAUTILUS 2), later iterations: moving on with new preferences, the point shown is worse than the one
shown last at most by a negligible amount, if that one can be reached within the bounds. -/
theorem C98_forward_partial {c : Cfg (k + 1) m K} {P : Side m K} {eps : K} {orc : Oracle (k + 1) m K}
    (h : Exact c P eps orc) (heps : 0 < eps) (hin : AtLeastAsGood c.ideal c.nadir)
    (hid : ∀ x, P.inBounds x → AtLeastAsGood c.ideal (c.evaluate x))
    {G : Oracle (k + 1) m K → Prop} {s s' : St (k + 1) m K} {iss : List (Req (k + 1) m K)} {req : Req (k + 1) m K}
    {r : Resp K} {a z lo up : Vec (k + 1) K} {d : Fl K} (hS : Smooth c G s iss) (hr : req ∈ iss)
    (ha : answer c s req r orc = (s', .ok (some (.nav z lo up d)))) (hb : r.stepBack = some false)
    (hp : r.usePrevious = some false) (hlast : lastPoint iss = some a)
    (han : AtLeastAsGood a c.nadir) (hex : ∃ y, P.inBounds y ∧ AtLeastAsGood (c.evaluate y) a) :
    ∃ meth info w, r.method = some meth ∧ r.info = some info ∧ factors (k + 1) meth info = .ok w ∧ 1 ≤ s'.left ∧
      GivesUpLittle w s'.left a z := by
  obtain ⟨a', x, h1, h2, h3, h4, h5, h6, _⟩ := C64_forward hS hr ha hb
  rw [hlast] at h1
  cases h1
  obtain ⟨meth, info, w, hm, hi, hw, hx⟩ := h5 hp
  refine ⟨meth, info, w, hm, hi, hw, h2, ?_⟩
  have hval : validate c req r = .ok () := by
    by_contra hc
    obtain ⟨_, e, he⟩ := answer_refused ha hc
    cases he
  have hpref : validatePreferences (k + 1) r = .ok () := by
    cases req with
    | initial => exact absurd rfl (hS.session.not_initial _ hr)
    | stop x0 f0 =>
      have ha' : (s, Except.ok (some (Req.stop x0 f0))) = (s', .ok (some (.nav z lo up d))) := ha
      simp at ha'
    | nav z0 lo0 up0 d0 =>
      obtain ⟨back, prev, _, hp2, _, hpref, _⟩ := validateNav_ok (by simpa [validate] using hval)
      rw [hp] at hp2
      cases hp2
      exact hpref rfl
  subst hx
  exact h.givesUp heps hin hid hpref hm hi hw han hex h6

/-- The full claim: with exact minimizers, no step forward ever makes the point shown worse. -/
def NeverGivesUp (c : Cfg (k + 1) m K) (P : Side m K) (eps : K) : Prop :=
  ∀ s iss req r orc s' a z lo up d, Smooth c (Exact c P eps) s iss → req ∈ iss → Exact c P eps orc →
    answer c s req r orc = (s', .ok (some (.nav z lo up d))) → r.stepBack = some false →
    lastPoint iss = some a → AtLeastAsGood z a

/-- The two outcomes of the counterexample. -/
def exC : Vec 2 ℚ := ![1 - 1/100000000, 3/5]
def exB : Vec 2 ℚ := ![1 - 1/1000000000, 0]

/-- Minimize two objectives for `0 ≤ x ≤ 1`; all outcomes are better than the nadir point. -/
def exCfgG : Cfg 2 1 ℚ := { exCfg with start := ![1, 1], evaluate := fun x => if x 0 ≤ 1/2 then exC else exB }

def exValue (a b : ℚ) (q f : Vec 2 ℚ) : ℚ :=
  max (a * (f 0 - q 0)) (b * (f 1 - q 1)) + 1 / 100000 * ((f 0 - q 0) / (101/100) + (f 1 - q 1) / (101/100))

def exBestG (w q : Vec 2 ℚ) : Vec 1 ℚ := if exValue (w 0) (w 1) q exC ≤ exValue (w 0) (w 1) q exB then ![0] else ![1]

def exExactG : Oracle 2 1 ℚ where
  asf := exBestG
  eps := fun i z =>
    if i = 0 then (if exC 1 ≤ z 1 then ![0] else ![1]) else (if exB 0 ≤ z 0 then ![1] else ![0])

theorem exCfgG_eval (x : Vec 1 ℚ) : exCfgG.evaluate x = exC ∨ exCfgG.evaluate x = exB := by
  show (if x 0 ≤ 1/2 then exC else exB) = exC ∨ (if x 0 ≤ 1/2 then exC else exB) = exB
  split
  · exact .inl rfl
  · exact .inr rfl

theorem exCfgG_zero : exCfgG.evaluate ![0] = exC := by decide +kernel
theorem exCfgG_one : exCfgG.evaluate ![1] = exB := by decide +kernel

theorem exCfgG_value (mu q : Vec 2 ℚ) (x : Vec 1 ℚ) :
    refPointASF mu exCfgG.nadir (utopianOf (1/100) exCfgG) (1 / 100000) q (exCfgG.evaluate x) =
      exValue (mu 0) (mu 1) q (exCfgG.evaluate x) := by
  have h0 : exCfgG.nadir 0 - utopianOf (1/100) exCfgG 0 = 101/100 := by decide +kernel
  have h1 : exCfgG.nadir 1 - utopianOf (1/100) exCfgG 1 = 101/100 := by decide +kernel
  unfold refPointASF
  rw [vmax_two, Fin.sum_univ_two, h0, h1]
  rfl

theorem exExactG_exact : Exact exCfgG (exSide 1) (1/100) exExactG := by
  have z0 : exFeasible ![0] := by unfold exFeasible; decide +kernel
  have z1 : exFeasible ![1] := by unfold exFeasible; decide +kernel
  constructor
  · intro mu q hpos
    have hasf : exExactG.asf mu q = if exValue (mu 0) (mu 1) q exC ≤ exValue (mu 0) (mu 1) q exB then ![0] else ![1] :=
      rfl
    rw [hasf]
    refine ⟨?_, fun y hy v hv => ?_⟩
    · show exFeasible _
      split
      · exact z0
      · exact z1
    · cases hv
      refine ⟨_, rfl, ?_⟩
      rw [exCfgG_value, exCfgG_value]
      split
      · rename_i h
        rw [exCfgG_zero]
        rcases exCfgG_eval y with h1 | h1 <;> rw [h1]
        exact h
      · rename_i h
        rw [exCfgG_one]
        rcases exCfgG_eval y with h1 | h1 <;> rw [h1]
        exact (lt_of_not_ge h).le
  · have hB : exCfgG.evaluate ![1] 0 = exB 0 := by decide +kernel
    rintro i z ⟨x, _, _, hx⟩
    match i with
    | 0 =>
      have hx1 : exCfgG.evaluate x 1 ≤ z 1 := hx 1 (by decide)
      show Solves (if exC 1 ≤ z 1 then ![0] else ![1]) _
      split
      · rename_i h
        refine ⟨⟨z0, z0.2, fun j hj => ?_⟩, fun y _ v hv => ?_⟩
        · match j, hj with
          | 0, h => exact absurd rfl h
          | 1, _ => rw [exCfgG_zero]; exact h
        · cases hv
          refine ⟨_, rfl, ?_⟩
          rw [exCfgG_zero]
          rcases exCfgG_eval y with h1 | h1 <;> rw [h1]
          decide +kernel
      · rename_i h
        have hz : exB 1 ≤ z 1 := by
          rcases exCfgG_eval x with h1 | h1 <;> rw [h1] at hx1
          · exact absurd hx1 h
          · exact hx1
        refine ⟨⟨z1, z1.2, fun j hj => ?_⟩, fun y hy v hv => ?_⟩
        · match j, hj with
          | 0, h => exact absurd rfl h
          | 1, _ => rw [exCfgG_one]; exact hz
        · cases hv
          refine ⟨_, rfl, ?_⟩
          have hy1 : exCfgG.evaluate y 1 ≤ z 1 := hy.2.2 1 (by decide)
          rw [exCfgG_one]
          rcases exCfgG_eval y with h1 | h1 <;> rw [h1] at hy1 ⊢
          exact absurd hy1 h
    | 1 =>
      have hx1 : exCfgG.evaluate x 0 ≤ z 0 := hx 0 (by decide)
      show Solves (if exB 0 ≤ z 0 then ![1] else ![0]) _
      split
      · rename_i h
        refine ⟨⟨z1, z1.2, fun j hj => ?_⟩, fun y _ v hv => ?_⟩
        · match j, hj with
          | 0, _ => rw [exCfgG_one]; exact h
          | 1, h => exact absurd rfl h
        · cases hv
          refine ⟨_, rfl, ?_⟩
          rw [exCfgG_one]
          rcases exCfgG_eval y with h1 | h1 <;> rw [h1]
          decide +kernel
      · rename_i h
        have hz : exC 0 ≤ z 0 := by
          rcases exCfgG_eval x with h1 | h1 <;> rw [h1] at hx1
          · exact hx1
          · exact absurd hx1 h
        refine ⟨⟨z0, z0.2, fun j hj => ?_⟩, fun y hy v hv => ?_⟩
        · match j, hj with
          | 0, _ => rw [exCfgG_zero]; exact hz
          | 1, h => exact absurd rfl h
        · cases hv
          refine ⟨_, rfl, ?_⟩
          have hy1 : exCfgG.evaluate y 0 ≤ z 0 := hy.2.2 0 (by decide)
          rw [exCfgG_zero]
          rcases exCfgG_eval y with h1 | h1 <;> rw [h1] at hy1 ⊢
          exact absurd hy1 h

/-- Two iterations, improvement ratios 1/1000 and 1; then 1 and 2. -/
def exG1 : Resp ℚ := { nIterations := some (.int 2), method := some 1, info := some (.arr [1/1000, 1]) }
def exG2 : Resp ℚ := { stepBack := some false, usePrevious := some false, method := some 1, info := some (.arr [1, 2]) }
def exGS1 : St 2 1 ℚ := (answer exCfgG St.init .initial exG1 exExactG).1
def exGQ1 : Req 2 1 ℚ := getReq (answer exCfgG St.init .initial exG1 exExactG).2
def exGS2 : St 2 1 ℚ := (answer exCfgG exGS1 exGQ1 exG2 exExactG).1
def exGQ2 : Req 2 1 ℚ := getReq (answer exCfgG exGS1 exGQ1 exG2 exExactG).2

theorem exG_first : answer exCfgG St.init .initial exG1 exExactG =
    (exGS1, .ok (some (.nav (exGZ exGQ1) (exGL exGQ1) (exGZ exGQ1) (exGD exGQ1)))) := eq_of_beq (by decide +kernel)

theorem exG_second : answer exCfgG exGS1 exGQ1 exG2 exExactG =
    (exGS2, .ok (some (.nav (exGZ exGQ2) (exGL exGQ2) (exGZ exGQ2) (exGD exGQ2)))) := eq_of_beq (by decide +kernel)

theorem exGQ1_eq : exGQ1 = .nav (exGZ exGQ1) (exGL exGQ1) (exGZ exGQ1) (exGD exGQ1) := eq_of_beq (by decide +kernel)

theorem exG_smooth (G : Oracle 2 1 ℚ → Prop) (h : G exExactG) : Smooth exCfgG G exGS1 [exGQ1] :=
  .first (s0 := St.init) (r := exG1) rfl h (s' := exGS1) (q := exGQ1) (exGQ1_eq ▸ exG_first)

theorem exG_ideal (x : Vec 1 ℚ) : AtLeastAsGood exCfgG.ideal (exCfgG.evaluate x) := by
  rcases exCfgG_eval x with h | h <;> rw [h] <;> unfold AtLeastAsGood <;> decide +kernel

theorem exG_nadir (x : Vec 1 ℚ) : AtLeastAsGood (exCfgG.evaluate x) exCfgG.nadir := by
  rcases exCfgG_eval x with h | h <;> rw [h] <;> unfold AtLeastAsGood <;> decide +kernel

example := C98_first_partial exExactG_exact (by norm_num)
  (by unfold AtLeastAsGood; decide +kernel) (fun x _ => exG_ideal x) (s := St.init) rfl exG_first
  (by unfold AtLeastAsGood; decide +kernel)
  ⟨![0], by show exFeasible _; unfold exFeasible; decide +kernel, by unfold AtLeastAsGood; decide +kernel⟩

example := C98_forward_partial exExactG_exact (by norm_num)
  (by unfold AtLeastAsGood; decide +kernel) (fun x _ => exG_ideal x)
  (exG_smooth _ trivial : Smooth exCfgG (fun _ => True) _ _) List.mem_cons_self exG_second rfl rfl
  (a := exGZ exGQ1) (by rw [exGQ1_eq]; rfl) (by unfold AtLeastAsGood; decide +kernel)
  ⟨![0], by show exFeasible _; unfold exFeasible; decide +kernel, by unfold AtLeastAsGood; decide +kernel⟩

/-- C98 fails exactly: a problem whose outcomes lie between the ideal and the nadir point, on which NAUTILUS 2 with
exact minimizers makes the point shown worse in the first objective: the
augmentation term of the achievement function outweighs it. -/
theorem C98_fails : (∀ x, AtLeastAsGood exCfgG.ideal (exCfgG.evaluate x)) ∧
    (∀ x, AtLeastAsGood (exCfgG.evaluate x) exCfgG.nadir) ∧ ¬ NeverGivesUp exCfgG (exSide 1) (1/100) := by
  refine ⟨exG_ideal, exG_nadir, fun h => ?_⟩
  have := h _ _ _ _ _ _ (exGZ exGQ1) _ _ _ _ (exG_smooth _ exExactG_exact) List.mem_cons_self exExactG_exact
    exG_second rfl (by rw [exGQ1_eq]; rfl) 0
  exact absurd this (by decide +kernel)

end Verif.NautilusV2
