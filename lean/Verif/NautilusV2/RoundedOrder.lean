import Verif.NautilusV2.RoundedProps
import Verif.Nautilus.RoundedOrder
import Verif.Norms

set_option linter.unusedSectionVars false

/-!
# Property C132: what rounding does to the order of the points NAUTILUS 2 shows
-/

namespace Verif.NautilusV2.Rounded

open Verif.Nautilus.Rounded (NotOver)

variable {K : Type} [Field K] [LinearOrder K] [IsStrictOrderedRing K] {k m : Nat} {u : K}

/-! ### An example in double precision -/

/-- Three objectives, the third always 3; objectives stored as doubles. -/
def dblCfg : Cfg 3 1 ℚ where
  start := ![1, 1, 3]
  ideal := ![0, 0, 3]
  nadir := ![1, 1, 3]
  evaluate := fun x => ![double (x 0), double (1 - x 0), 3]
  nrm := supNorm
  rnd := double

theorem dbl_machined : dblCfg.Machined ((1 / 2) ^ 53) where
  rounding := isRounding_double
  objectives := by
    intro x j
    match j with
    | 0 => exact double_idem _
    | 1 => exact double_idem _
    | 2 => exact machine_int 3 (by norm_num)

theorem dbl_definite : Definite dblCfg.nrm := ⟨supNorm_spec.nonneg, supNorm_spec.eq_zero⟩

/-- A minimizer that finds a third. -/
def dblOrc : Oracle 3 1 ℚ where
  asf := fun _ _ => ![1 / 3]
  eps := fun _ _ => ![1 / 3]

def getReq3 (o : Except Err (Option (Req 3 1 ℚ))) : Req 3 1 ℚ :=
  match o with
  | .ok (some r) => r
  | _ => .initial

/-- One unit of the second objective is worth three of the first, and a tenth of the third. -/
def dblPairs : List (Pair ℚ) := [⟨.int 2, .int 3, double (1 / 10)⟩, ⟨.int 1, .int 2, 3⟩]

theorem dblPairs_ok : validatePairs 3 dblPairs = .ok () := by decide +kernel
theorem dbl_doi : doi dblCfg dblPairs = .ok ![1, 3, double (3 * double (1 / 10))] := eq_of_beq (by decide +kernel)
example := C133_direction_rounded (c := dblCfg) isRounding_double (by norm_num) (by norm_num) dblPairs_ok
example := (C133_direction_rounded (c := dblCfg) isRounding_double (by norm_num) (by norm_num) dblPairs_ok).2.2 _ dbl_doi

/-- Two iterations. -/
def dblTwo : Resp ℚ := { nIterations := some (.int 2), method := some 3, info := some (.pairs dblPairs) }

def dblS1 : St 3 1 ℚ := (answer dblCfg St.init .initial dblTwo dblOrc).1
def dblR1 : Req 3 1 ℚ := getReq3 (answer dblCfg St.init .initial dblTwo dblOrc).2
theorem dbl_step1 : answer dblCfg St.init .initial dblTwo dblOrc = (dblS1, .ok (some dblR1)) :=
  eq_of_beq (by decide +kernel)
def dblS2 : St 3 1 ℚ := (answer dblCfg dblS1 dblR1 keepResp dblOrc).1
def dblR2 : Req 3 1 ℚ := getReq3 (answer dblCfg dblS1 dblR1 keepResp dblOrc).2
theorem dbl_step2 : answer dblCfg dblS1 dblR1 keepResp dblOrc = (dblS2, .ok (some dblR2)) :=
  eq_of_beq (by decide +kernel)
def dblZ1 : Vec 3 ℚ := ![double (1 / 2 + double (1 / 3) / 2), double (1 / 2 + double (2 / 3) / 2), 3]
def dblD1 : Fl ℚ := match dblR1 with
  | .nav _ _ _ d => d
  | _ => .nan
theorem dblR1_eq : dblR1 = .nav dblZ1 ![double (1 / 3), double (2 / 3), 3] dblZ1 dblD1 :=
  eq_of_beq (by decide +kernel)
theorem dblR2_eq : dblR2 = .nav ![double (1 / 3), double (2 / 3), 3] ![double (1 / 3), double (2 / 3), 3]
    ![double (1 / 3), double (2 / 3), 3] (.num 100) := eq_of_beq (by decide +kernel)
def dblS3 : St 3 1 ℚ := (answer dblCfg dblS2 dblR2 keepResp dblOrc).1
theorem dbl_step3 : answer dblCfg dblS2 dblR2 keepResp dblOrc =
    (dblS3, .ok (some (.stop (some ![1 / 3]) (some ![double (1 / 3), double (2 / 3), 3])))) :=
  eq_of_beq (by decide +kernel)

theorem dbl_smooth1 : Smooth dblCfg (fun _ => True) dblS1 [dblR1] := .first rfl trivial dbl_step1
theorem dbl_smooth2 : Smooth dblCfg (fun _ => True) dblS2 [dblR2, dblR1] :=
  .next dbl_smooth1 List.mem_cons_self trivial dbl_step2 fun _ => ⟨_, rfl⟩
theorem dbl_smooth3 : Smooth dblCfg (fun _ => True) dblS3
    [.stop (some ![1 / 3]) (some ![double (1 / 3), double (2 / 3), 3]), dblR2, dblR1] :=
  .next dbl_smooth2 List.mem_cons_self trivial dbl_step3 fun _ => ⟨_, rfl⟩

example := C131_first dbl_machined (by norm_num) (by norm_num) dbl_definite (machine_int 100 (by norm_num)) rfl
  (dblR1_eq ▸ dbl_step1)
example := C131_forward dbl_machined (by norm_num) (by norm_num) dbl_definite (machine_int 100 (by norm_num))
  dbl_smooth1 List.mem_cons_self (dblR2_eq ▸ dbl_step2) rfl
example := C131_stop_pair dbl_machined dbl_smooth3 List.mem_cons_self
example := C131_stop_at_last_point dbl_machined dbl_smooth2 (by rw [dblR2_eq]; simp) List.mem_cons_self dbl_step3
  (by decide +kernel) rfl
example := C131_even_steps dbl_machined (by norm_num) (by norm_num) dbl_definite (machine_int 100 (by norm_num)) rfl
  dbl_step1

/-! ### The points stored are machine numbers -/

/-- All points stored are machine numbers. -/
def Stored (c : Cfg k m K) (s : St k m K) : Prop := ∀ z, some z ∈ s.zs → MachineVec c.rnd z

theorem Stored.set {c : Cfg k m K} {l : List (Option (Vec k K))} (h : ∀ z, some z ∈ l → MachineVec c.rnd z) {i : Nat}
    {v : Vec k K} (hv : MachineVec c.rnd v) : ∀ z, some z ∈ l.set i (some v) → MachineVec c.rnd z := by
  intro z hz
  rcases List.mem_or_eq_of_mem_set hz with h1 | h1
  · exact h z h1
  · rw [Option.some.inj h1]; exact hv

theorem Stored.changeN {c : Cfg k m K} {s : St k m K} (h : Stored c s) (n : Option PyVal) :
    Stored c (changeN s n) := by
  intro z hz
  unfold NautilusV2.changeN at hz
  split at hz
  · exact h z hz
  · rcases List.mem_append.1 hz with h1 | h1
    · exact h z h1
    · simp [slots] at h1

theorem iterationPoint_machine {c : Cfg k m K} (hc : IsRounding u c.rnd) (L : Int) (a f : Vec k K) :
    MachineVec c.rnd (iterationPoint c L a f) := fun _ => stepTo_machine hc _ _ _

theorem Stored.step {c : Cfg k m K} {s s' : St k m K} {req : Req k m K} {r : Resp K} {orc : Oracle k m K} {o}
    (hc : IsRounding u c.rnd) (hN : MachineVec c.rnd c.start) (h : Stored c s) (hst : Step c orc s req r s' o) :
    Stored c s' := by
  cases hst with
  | ended => exact h
  | @initial _ v w meth info cap x f z hv hnn hm hi hw hcap hlt h1 hx hf hz =>
    refine Stored.set (Stored.set ?_ hN) ?_
    · intro z hz; simp [slots] at hz
    · rw [hz]; exact iterationPoint_machine hc _ _ _
  | stop hv hs1 hl hx1 hf1 => subst hs1; exact h.changeN _
  | keep hv hs1 hl hb hp hzl hxl hfl hbl hx1 hf1 hz1 hz2 =>
    subst hs1
    exact Stored.set (h.changeN _) (by rw [hz2]; exact iterationPoint_machine hc _ _ _)
  | change hv hs1 hl hb hp hm hinf hw hzl hxl hfl hbl hz1 hx1 hf1 hz2 =>
    subst hs1
    exact Stored.set (h.changeN _) (by rw [hz2]; exact iterationPoint_machine hc _ _ _)
  | short hv hs1 hl hb hsh hz0 hzp1 hf1 hbl hz2 =>
    subst hs1
    exact Stored.set (h.changeN _) (by rw [hz2]; exact fun _ => hc.idem _)
  | redo hv hs1 hl hb hsh hp hm hinf hw hzl hxl hfl hbl hz1 hx1 hf1 hz2 =>
    subst hs1
    exact Stored.set (h.changeN _) (by rw [hz2]; exact iterationPoint_machine hc _ _ _)
  | nothing hv hs1 hl hb hsh hp => subst hs1; exact h.changeN _

theorem Smooth.stored {c : Cfg k m K} {G} {s : St k m K} {iss} (hc : c.Machined u) (hN : MachineVec c.rnd c.start)
    (hS : Smooth c G s iss) : Stored c s := by
  induction hS with
  | @first s0 r orc s' q h0 hG ha =>
    have hst := answer_ok (by omega) ha
    generalize hq : some q = q' at hst
    cases hst with
    | @initial _ v w meth info cap x f z hv hnn hm hi hw hcap hlt h1 hx hf hz =>
      refine Stored.set (Stored.set ?_ hN) ?_
      · intro z hz; simp [slots] at hz
      · rw [hz]; exact iterationPoint_machine hc.rounding _ _ _
  | @next s iss req r orc s' o hs hr hG ha hok ih =>
    by_cases hv : validate c.toCfg req r = .ok ()
    · obtain ⟨q, rfl⟩ := hok hv
      exact ih.step hc.rounding hN (answer_ok (hs.inv hc).pos ha)
    · obtain ⟨rfl, e, rfl⟩ := answer_refused ha hv
      exact ih

/-! ### C132 -/

/-- **C132**, partial. A forward step from the point shown last (`a`) to a solution `x` that is at least as good shows a
point `z` that is, in every objective, neither worse than `a` nor better than the objective vector of `x`, except for an
error of three roundings; and without this exception where rounding does no harm: with at most two iterations left, or
if `x` is better than `a` by a margin of a few units in the last place (`NotOver`, `NotLost`). Missing: that it never is
(`C132_fails_worse`, `C132_fails_lost`). -/
theorem C132_forward_partial {c : Cfg k m K} {G : Oracle k m K → Prop} {s s' : St k m K}
    {iss : List (Req k m K)} {req : Req k m K} {r : Resp K} {orc : Oracle k m K} {z lo up : Vec k K}
    {d : Fl K} (hc : c.Machined u) (hu : 0 ≤ u) (hu1 : u < 1) (hn : Definite c.nrm)
    (h100 : Machine c.rnd 100) (hhalf : ∀ x, Machine c.rnd x → Machine c.rnd (1 / 2 * x))
    (hN : MachineVec c.rnd c.start) (hS : Smooth c G s iss) (hr : req ∈ iss)
    (ha : answer c s req r orc = (s', .ok (some (.nav z lo up d)))) (hb : r.stepBack = some false) :
    ∃ a x, lastPoint iss = some a ∧ s'.xs[s'.step]? = some (some x) ∧ 1 ≤ s'.left ∧
      ∀ j, c.evaluate x j ≤ a j →
        (s'.left : K) * (z j - a j) ≤ ((1 + u) ^ 3 - 1) * (((s'.left : K) - 1) * |a j| + |c.evaluate x j|) ∧
        (s'.left : K) * (c.evaluate x j - z j) ≤
          ((1 + u) ^ 3 - 1) * (((s'.left : K) - 1) * |a j| + |c.evaluate x j|) ∧
        (NotOver u c.rnd (s'.left : K) (a j) (c.evaluate x j) → z j ≤ a j) ∧
        (NotLost u c.rnd (s'.left : K) (a j) (c.evaluate x j) → c.evaluate x j ≤ z j) := by
  obtain ⟨a, x, h1, h2, h3, _, _, _, h4, h5, _⟩ := C131_forward hc hu hu1 hn h100 hS hr ha hb
  refine ⟨a, x, h1, h3, h2, fun j hj => ?_⟩
  have hL : (1 : K) ≤ (s'.left : K) := by exact_mod_cast h2
  obtain ⟨a', ha1, ha2⟩ := (hS.inv hc).cur
  rw [h1] at ha2
  cases ha2
  have hma : Machine c.rnd (a j) := hS.stored hc hN a (List.mem_of_getElem? ha1) j
  have hmf : Machine c.rnd (c.evaluate x j) := hc.objectives x j
  obtain ⟨l1, l2⟩ := abs_le.1 (h5 j)
  have t1 : 0 ≤ ((s'.left : K) - 1) * (a j - c.evaluate x j) := mul_nonneg (by linarith) (by linarith)
  refine ⟨by nlinarith, by nlinarith, fun h => ?_, fun h => ?_⟩
  · rw [h4 j]; exact h.le hc.rounding hu hhalf hL hma hmf hj
  · rw [h4 j]; exact h.le hc.rounding hu hhalf hL hmf hj

example := C132_forward_partial dbl_machined (by norm_num) (by norm_num) dbl_definite (machine_int 100 (by norm_num))
  (fun _ h => machine_half h)
  (fun j => by
    match j with
    | 0 => exact machine_int 1 (by norm_num)
    | 1 => exact machine_int 1 (by norm_num)
    | 2 => exact machine_int 3 (by norm_num))
  dbl_smooth1 List.mem_cons_self (dblR2_eq ▸ dbl_step2) rfl

/-- **C132**, stepping back with a short step: in spite of the rounding the new point lies between the point shown last
and the previous iteration point, in every objective. -/
theorem C132_short_step {c : Cfg k m K} {G : Oracle k m K → Prop} {s s' : St k m K}
    {iss : List (Req k m K)} {req : Req k m K} {r : Resp K} {orc : Oracle k m K} {z lo up : Vec k K}
    {d : Fl K} (hc : c.Machined u) (hhalf : ∀ x, Machine c.rnd x → Machine c.rnd (1 / 2 * x))
    (hN : MachineVec c.rnd c.start) (hS : Smooth c G s iss) (hr : req ∈ iss)
    (ha : answer c s req r orc = (s', .ok (some (.nav z lo up d)))) (hb : r.stepBack = some true)
    (hsh : r.shortStep = some true) :
    ∃ a zp, lastPoint iss = some a ∧ s.zs[s.step - 1]? = some (some zp) ∧ s'.xs[s'.step]? = s.xs[s.step]? ∧
      ∀ j, min (a j) (zp j) ≤ z j ∧ z j ≤ max (a j) (zp j) ∧ z j = c.rnd ((a j + zp j) / 2) := by
  have hi := hS.inv hc
  have h := answer_ok hi.pos ha
  obtain ⟨a, hz, hlp⟩ := hi.cur
  obtain ⟨zp, hzp⟩ := hi.prev
  obtain ⟨x, hx, hf⟩ := hi.sol
  obtain ⟨e1, e2, e3, e4⟩ := changeN_get (s := s) r.nIterations
  have hz' := e2 _ _ hz
  have hzp' := e2 _ _ hzp
  have hx' := e3 _ _ hx
  have hma := hS.stored hc hN a (List.mem_of_getElem? hz)
  have hmp := hS.stored hc hN zp (List.mem_of_getElem? hzp)
  rw [← e1] at hz' hzp' hx'
  generalize hq : some (Req.nav z lo up d) = q at h
  cases h with
  | ended => simp at hq
  | initial => exact absurd rfl (hS.session.not_initial _ hr)
  | stop => simp at hq
  | keep hv hs1 hl hb' => rw [hb] at hb'; simp at hb'
  | change hv hs1 hl hb' => rw [hb] at hb'; simp at hb'
  | @short _ _ _ _ _ s1 f0 z0 zp0 z1 hv hs1 hl hb hsh hz0 hzp1 hf1 hbl hz2 =>
    subst hs1
    rw [hz'] at hz0
    rw [hzp'] at hzp1
    cases hz0; cases hzp1
    simp only [navReq, Option.some.injEq, Req.nav.injEq] at hq
    obtain ⟨rfl, _⟩ := hq
    refine ⟨a, zp, hlp, hzp, hx'.trans hx.symm, fun j => ?_⟩
    have e : z j = c.rnd ((a j + zp j) / 2) := by
      rw [hz2]
      dsimp only
      rw [hhalf _ (hma j), hhalf _ (hmp j)]
      congr 1
      ring
    refine ⟨?_, ?_, e⟩
    · rw [e]
      rcases le_total (a j) (zp j) with h | h
      · rw [min_eq_left h, ← hma j]
        refine hc.rounding.mono _ _ ?_
        rw [hma j]; linarith
      · rw [min_eq_right h, ← hmp j]
        refine hc.rounding.mono _ _ ?_
        rw [hmp j]; linarith
    · rw [e]
      rcases le_total (a j) (zp j) with h | h
      · rw [max_eq_right h]
        nth_rewrite 2 [← hmp j]
        refine hc.rounding.mono _ _ ?_
        linarith
      · rw [max_eq_left h]
        nth_rewrite 2 [← hma j]
        refine hc.rounding.mono _ _ ?_
        linarith
  | redo hv hs1 hl hb' hsh' => rw [hsh] at hsh'; simp at hsh'
  | nothing => simp at hq

/-- Step back from the first point and take a short step. -/
def dblShort : Resp ℚ := { stepBack := some true, shortStep := some true, usePrevious := some true }
def dblZ2 : Vec 3 ℚ := fun j => double ((dblZ1 j + dblCfg.start j) / 2)
def dblD2 : Fl ℚ := match (answer dblCfg dblS1 dblR1 dblShort dblOrc).2 with
  | .ok (some (.nav _ _ _ d)) => d
  | _ => .nan
theorem dbl_short : answer dblCfg dblS1 dblR1 dblShort dblOrc =
    ((answer dblCfg dblS1 dblR1 dblShort dblOrc).1,
      .ok (some (.nav dblZ2 ![double (1 / 3), double (2 / 3), 3] dblZ2 dblD2))) := eq_of_beq (by decide +kernel)

example := C132_short_step dbl_machined (fun _ h => machine_half h)
  (fun j => by
    match j with
    | 0 => exact machine_int 1 (by norm_num)
    | 1 => exact machine_int 1 (by norm_num)
    | 2 => exact machine_int 3 (by norm_num))
  dbl_smooth1 List.mem_cons_self dbl_short rfl rfl

/-- `n` iterations. -/
def dblMany (n : Int) : Resp ℚ :=
  { nIterations := some (.int n), method := some 2, info := some (.arr [1 / 2, 1, 3]) }

/-- The first point of `n` iterations and its distance. -/
def dblZ (n : Int) : Vec 3 ℚ := fun j => stepTo double (n : ℚ) (dblCfg.start j) (dblCfg.evaluate ![1 / 3] j)
def dblD (n : Int) : Fl ℚ := match (answer dblCfg St.init .initial (dblMany n) dblOrc).2 with
  | .ok (some (.nav _ _ _ d)) => d
  | _ => .nan
theorem dbl_five : answer dblCfg St.init .initial (dblMany 5) dblOrc =
    ((answer dblCfg St.init .initial (dblMany 5) dblOrc).1,
      .ok (some (.nav (dblZ 5) ![double (1 / 3), double (2 / 3), 3] (dblZ 5) (dblD 5)))) :=
  eq_of_beq (by decide +kernel)
theorem dbl_seven : answer dblCfg St.init .initial (dblMany 7) dblOrc =
    ((answer dblCfg St.init .initial (dblMany 7) dblOrc).1,
      .ok (some (.nav (dblZ 7) ![double (1 / 3), double (2 / 3), 3] (dblZ 7) (dblD 7)))) :=
  eq_of_beq (by decide +kernel)

/-- C132 fails, first: the third objective is 3 for every decision vector and in the starting point, but of five iterations
the first shows the point (also as the upper bound) with a third objective that is worse, 3.0000000000000004. -/
theorem C132_fails_worse : ∃ s' z lo d,
    answer dblCfg St.init .initial (dblMany 5) dblOrc = (s', .ok (some (.nav z lo z d))) ∧
    (∀ x, dblCfg.evaluate x 2 = 3) ∧ dblCfg.start 2 = 3 ∧ z 2 = 3 + 2 ^ (-51 : ℤ) :=
  ⟨_, _, _, _, dbl_five, fun _ => rfl, rfl, by decide +kernel⟩

/-- C132 fails, second: of seven iterations the first shows a point with a third objective of 2.9999999999999996, so
that no decision vector at all is at least as good as the point shown. -/
theorem C132_fails_lost : ∃ s' z lo d,
    answer dblCfg St.init .initial (dblMany 7) dblOrc = (s', .ok (some (.nav z lo z d))) ∧
    AtLeastAsGood (dblCfg.evaluate ![1 / 3]) dblCfg.start ∧ ∀ x, ¬ AtLeastAsGood (dblCfg.evaluate x) z := by
  refine ⟨_, _, _, _, dbl_seven, by decide +kernel, fun x hx => ?_⟩
  have h2 : ¬ (3 : ℚ) ≤ dblZ 7 2 := by decide +kernel
  exact h2 (hx 2)

end Verif.NautilusV2.Rounded
