import Verif.Nautilus.Percent

set_option linter.unusedSectionVars false

/-!
# Property C119: what rounding does to the order of the points NAUTILUS shows
-/

namespace Verif.Nautilus.Rounded

variable {K : Type} [Field K] [LinearOrder K] [IsStrictOrderedRing K] {k m : Nat} {u : K}

/-- Conditions under which rounding does not carry a step from `p` to the better value `z` with `h` iterations left
beyond `p`: at most two iterations are left, or the rounded formula reproduces `p` itself, or `z` is better than `p` by a
margin of a few units in the last place. -/
def NotOver (u : K) (rnd : K → K) (h p z : K) : Prop :=
  h = 1 ∨ h = 2 ∨ stepTo rnd h p p ≤ p ∨ ((1 + u) ^ 3 - 1) * ((h - 1) * |p| + |z|) ≤ p - z

theorem NotOver.le {rnd : K → K} (hR : IsRounding u rnd) (hu : 0 ≤ u)
    (hhalf : ∀ x, Machine rnd x → Machine rnd (1 / 2 * x)) {h p z : K} (hh : 1 ≤ h) (hp : Machine rnd p)
    (hz : Machine rnd z) (hzp : z ≤ p) (hk : NotOver u rnd h p z) : stepTo rnd h p z ≤ p := by
  rcases hk with rfl | rfl | hk | hk
  · rw [stepTo_one hR _ _ hz]; exact hzp
  · refine (stepTo_mono hR (by norm_num) le_rfl hzp).trans ?_
    have h1 := hhalf 1 hR.one
    rw [mul_one] at h1
    have e : ((2 : K) - 1) / 2 = 1 / 2 := by norm_num
    unfold stepTo
    rw [e, h1, hhalf p hp]
    have : (1 / 2 : K) * p + 1 / 2 * p = p := by ring
    rw [this, hp]
  · exact (stepTo_mono hR hh le_rfl hzp).trans hk
  · have h0 : (0 : K) < h := lt_of_lt_of_le one_pos hh
    have hc := stepTo_close hR hu h p z
    rw [abs_mul, abs_mul, abs_of_nonneg (div_nonneg (by linarith : (0 : K) ≤ h - 1) h0.le),
      abs_of_nonneg (by positivity : (0 : K) ≤ 1 / h)] at hc
    have e : ((1 + u) ^ 3 - 1) * ((h - 1) / h * |p| + 1 / h * |z|) =
        ((1 + u) ^ 3 - 1) * ((h - 1) * |p| + |z|) / h := by field_simp
    rw [e] at hc
    have e2 : (h - 1) / h * p + 1 / h * z = p - (p - z) / h := by field_simp; ring
    rw [e2] at hc
    have h1 : ((1 + u) ^ 3 - 1) * ((h - 1) * |p| + |z|) / h ≤ (p - z) / h :=
      div_le_div_of_nonneg_right hk h0.le
    have := le_abs_self (stepTo rnd h p z - (p - (p - z) / h))
    linarith

/-! ### The points stored are machine numbers -/

/-- All points stored are machine numbers. -/
def Stored (c : Cfg k m K) (s : St k m K) : Prop := ∀ z, some z ∈ s.zs → MachineVec c.rnd z

theorem Stored.set {c : Cfg k m K} {l : List (Option (Vec k K))} (h : ∀ z, some z ∈ l → MachineVec c.rnd z) {i : Nat}
    {v : Vec k K} (hv : MachineVec c.rnd v) : ∀ z, some z ∈ l.set i (some v) → MachineVec c.rnd z := by
  intro z hz
  rcases List.mem_or_eq_of_mem_set hz with h1 | h1
  · exact h z h1
  · rw [Option.some.inj h1]; exact hv

theorem Stored.changeN {c : Cfg k m K} {s : St k m K} (h : Stored c s) (n : Option PyVal) :
    Stored c (changeN s n) := by
  intro z hz
  unfold Nautilus.changeN at hz
  split at hz
  · exact h z hz
  · rcases List.mem_append.1 hz with h1 | h1
    · exact h z h1
    · simp [slots] at h1

theorem iterationPoint_machine {c : Cfg k m K} (hc : IsRounding u c.rnd) (L : Int) (a f : Vec k K) :
    MachineVec c.rnd (iterationPoint c L a f) := fun _ => stepTo_machine hc _ _ _

theorem Stored.step {c : Cfg k m K} {s s' : St k m K} {req : Req k m K} {r : Resp K} {orc : Oracle k m K} {o}
    (hc : IsRounding u c.rnd) (hN : MachineVec c.rnd c.nadir) (h : Stored c s) (hst : Step c orc s req r s' o) :
    Stored c s' := by
  cases hst with
  | ended => exact h
  | @initial _ v w meth info cap x f z hv hnn hm hi hw hcap hlt h1 hx hf hz =>
    refine Stored.set (Stored.set ?_ hN) ?_
    · intro z hz; simp [slots] at hz
    · rw [hz]; exact iterationPoint_machine hc _ _ _
  | stop hv hs1 hl hx1 hf1 => subst hs1; exact h.changeN _
  | keep hv hs1 hl hb hp hzl hxl hfl hx1 hf1 hz1 hz2 =>
    subst hs1
    exact Stored.set (h.changeN _) (by rw [hz2]; exact iterationPoint_machine hc _ _ _)
  | change hv hs1 hl hb hp hm hinf hw hzl hxl hfl hz1 hx1 hf1 hz2 =>
    subst hs1
    exact Stored.set (h.changeN _) (by rw [hz2]; exact iterationPoint_machine hc _ _ _)
  | short hv hs1 hl hb hsh hz0 hzp1 hf1 hz2 =>
    subst hs1
    exact Stored.set (h.changeN _) (by rw [hz2]; exact fun _ => hc.idem _)
  | redo hv hs1 hl hb hsh hp hm hinf hw hzl hxl hfl hz1 hx1 hf1 hz2 =>
    subst hs1
    exact Stored.set (h.changeN _) (by rw [hz2]; exact iterationPoint_machine hc _ _ _)
  | nothing hv hs1 hl hb hsh hp => subst hs1; exact h.changeN _

theorem Smooth.stored {c : Cfg k m K} {G} {s : St k m K} {iss} (hc : c.Machined u) (hN : MachineVec c.rnd c.nadir)
    (hS : Smooth c G s iss) : Stored c s := by
  induction hS with
  | @first s0 r orc s' q h0 hG ha =>
    have hst := answer_ok (by omega) ha
    generalize hq : some q = q' at hst
    cases hst with
    | @initial _ v w meth info cap x f z hv hnn hm hi hw hcap hlt h1 hx hf hz =>
      refine Stored.set (Stored.set ?_ hN) ?_
      · intro z hz; simp [slots] at hz
      · rw [hz]; exact iterationPoint_machine hc.rounding _ _ _
  | @next s iss req r orc s' o hs hr hG ha hok ih =>
    by_cases hv : validate c req r = .ok ()
    · obtain ⟨q, rfl⟩ := hok hv
      exact ih.step hc.rounding hN (answer_ok (hs.inv hc).store.step ha)
    · obtain ⟨rfl, e, rfl⟩ := answer_refused ha hv
      exact ih

/-! ### C119 -/

/-- **C119**, partial. A forward step from the point shown last (`a`) to a solution `x` that is at least as good shows a
point `z` that is, in every objective, neither worse than `a` nor better than the objective vector of `x`, except for an
error of three roundings; and without this exception where rounding does no harm: with at most two iterations left, or
if `x` is better than `a` by a margin of a few units in the last place (`NotOver`, `NotLost`). Missing: that it never is
(`C119_fails_worse`, `C119_fails_lost`). -/
theorem C119_forward_partial {c : Cfg k m K} {G : Oracle k m K → Prop} {s s' : St k m K}
    {iss : List (Req k m K)} {req : Req k m K} {r : Resp K} {orc : Oracle k m K} {z lo up : Vec k K}
    {d : Fl K} (hc : c.Machined u) (hu : 0 ≤ u) (hu1 : u < 1) (hn : Definite c.nrm)
    (h100 : Machine c.rnd 100) (hhalf : ∀ x, Machine c.rnd x → Machine c.rnd (1 / 2 * x))
    (hN : MachineVec c.rnd c.nadir) (hS : Smooth c G s iss) (hr : req ∈ iss)
    (ha : answer c s req r orc = (s', .ok (some (.nav z lo up d)))) (hb : r.stepBack = some false) :
    ∃ a x, lastPoint iss = some a ∧ s'.xs[s'.step]? = some (some x) ∧ 1 ≤ s'.left ∧
      ∀ j, c.evaluate x j ≤ a j →
        (s'.left : K) * (z j - a j) ≤ ((1 + u) ^ 3 - 1) * (((s'.left : K) - 1) * |a j| + |c.evaluate x j|) ∧
        (s'.left : K) * (c.evaluate x j - z j) ≤
          ((1 + u) ^ 3 - 1) * (((s'.left : K) - 1) * |a j| + |c.evaluate x j|) ∧
        (NotOver u c.rnd (s'.left : K) (a j) (c.evaluate x j) → z j ≤ a j) ∧
        (NotLost u c.rnd (s'.left : K) (a j) (c.evaluate x j) → c.evaluate x j ≤ z j) := by
  obtain ⟨a, x, h1, h2, h3, _, _, _, h4, h5, _⟩ := C117_forward hc hu hu1 hn h100 hS hr ha hb
  refine ⟨a, x, h1, h3, h2, fun j hj => ?_⟩
  have hL : (1 : K) ≤ (s'.left : K) := by exact_mod_cast h2
  obtain ⟨a', ha1, ha2⟩ := (hS.inv hc).cur
  rw [h1] at ha2
  cases ha2
  have hma : Machine c.rnd (a j) := hS.stored hc hN a (List.mem_of_getElem? ha1) j
  have hmf : Machine c.rnd (c.evaluate x j) := hc.objectives x j
  obtain ⟨l1, l2⟩ := abs_le.1 (h5 j)
  have t1 : 0 ≤ ((s'.left : K) - 1) * (a j - c.evaluate x j) := mul_nonneg (by linarith) (by linarith)
  refine ⟨by nlinarith, by nlinarith, fun h => ?_, fun h => ?_⟩
  · rw [h4 j]; exact h.le hc.rounding hu hhalf hL hma hmf hj
  · rw [h4 j]; exact h.le hc.rounding hu hhalf hL hmf hj

example := C119_forward_partial dbl_machined (by norm_num) (by norm_num) dbl_definite (machine_int 100 (by norm_num))
  (fun _ h => machine_half h)
  (fun j => by
    match j with
    | 0 => exact machine_int 1 (by norm_num)
    | 1 => exact machine_int 1 (by norm_num)
    | 2 => exact machine_int 3 (by norm_num))
  dbl_smooth1 List.mem_cons_self (dblR2_eq ▸ dbl_step2) rfl

/-- **C119**, stepping back with a short step: in spite of the rounding the new point lies between the point shown last
and the previous iteration point, in every objective. -/
theorem C119_short_step {c : Cfg k m K} {G : Oracle k m K → Prop} {s s' : St k m K}
    {iss : List (Req k m K)} {req : Req k m K} {r : Resp K} {orc : Oracle k m K} {z lo up : Vec k K}
    {d : Fl K} (hc : c.Machined u) (hhalf : ∀ x, Machine c.rnd x → Machine c.rnd (1 / 2 * x))
    (hN : MachineVec c.rnd c.nadir) (hS : Smooth c G s iss) (hr : req ∈ iss)
    (ha : answer c s req r orc = (s', .ok (some (.nav z lo up d)))) (hb : r.stepBack = some true)
    (hsh : r.shortStep = some true) :
    ∃ a zp, lastPoint iss = some a ∧ s.zs[s.step - 1]? = some (some zp) ∧ s'.xs[s'.step]? = s.xs[s.step]? ∧
      ∀ j, min (a j) (zp j) ≤ z j ∧ z j ≤ max (a j) (zp j) ∧ z j = c.rnd ((a j + zp j) / 2) := by
  have hi := hS.inv hc
  have h := answer_ok hi.store.step ha
  obtain ⟨a, hz, hlp⟩ := hi.cur
  obtain ⟨zp, hzp⟩ := hi.prev
  obtain ⟨x, hx, hf⟩ := hi.sol
  obtain ⟨e1, e2, e3, e4⟩ := changeN_get (s := s) r.nIterations
  have hz' := e2 _ _ hz
  have hzp' := e2 _ _ hzp
  have hx' := e3 _ _ hx
  have hma := hS.stored hc hN a (List.mem_of_getElem? hz)
  have hmp := hS.stored hc hN zp (List.mem_of_getElem? hzp)
  rw [← e1] at hz' hzp' hx'
  generalize hq : some (Req.nav z lo up d) = q at h
  cases h with
  | ended => simp at hq
  | initial => exact absurd rfl (hS.session.not_initial.2.2 _ hr)
  | stop => simp at hq
  | keep hv hs1 hl hb' => rw [hb] at hb'; simp at hb'
  | change hv hs1 hl hb' => rw [hb] at hb'; simp at hb'
  | @short _ _ _ _ _ s1 f0 z0 zp0 z1 hv hs1 hl hb hsh hz0 hzp1 hf1 hz2 =>
    subst hs1
    rw [hz'] at hz0
    rw [hzp'] at hzp1
    cases hz0; cases hzp1
    simp only [navReq, Option.some.injEq, Req.nav.injEq] at hq
    obtain ⟨rfl, _⟩ := hq
    refine ⟨a, zp, hlp, hzp, hx'.trans hx.symm, fun j => ?_⟩
    have e : z j = c.rnd ((a j + zp j) / 2) := by
      rw [hz2]
      dsimp only
      rw [hhalf _ (hma j), hhalf _ (hmp j)]
      congr 1
      ring
    refine ⟨?_, ?_, e⟩
    · rw [e]
      rcases le_total (a j) (zp j) with h | h
      · rw [min_eq_left h, ← hma j]
        refine hc.rounding.mono _ _ ?_
        rw [hma j]; linarith
      · rw [min_eq_right h, ← hmp j]
        refine hc.rounding.mono _ _ ?_
        rw [hmp j]; linarith
    · rw [e]
      rcases le_total (a j) (zp j) with h | h
      · rw [max_eq_right h]
        nth_rewrite 2 [← hmp j]
        refine hc.rounding.mono _ _ ?_
        linarith
      · rw [max_eq_left h]
        nth_rewrite 2 [← hma j]
        refine hc.rounding.mono _ _ ?_
        linarith
  | redo hv hs1 hl hb' hsh' => rw [hsh] at hsh'; simp at hsh'
  | nothing => simp at hq

/-- Step back from the first point and take a short step. -/
def dblShort : Resp ℚ := { stepBack := some true, shortStep := some true, usePrevious := some true }
def dblZ2 : Vec 3 ℚ := fun j => double ((dblZ1 j + dblCfg.nadir j) / 2)
def dblD2 : Fl ℚ := match (answer dblCfg dblS1 dblR1 dblShort dblOrc).2 with
  | .ok (some (.nav _ _ _ d)) => d
  | _ => .nan
theorem dbl_short : answer dblCfg dblS1 dblR1 dblShort dblOrc =
    ((answer dblCfg dblS1 dblR1 dblShort dblOrc).1,
      .ok (some (.nav dblZ2 ![double (1 / 3), double (2 / 3), 3] dblZ2 dblD2))) := eq_of_beq (by decide +kernel)

example := C119_short_step dbl_machined (fun _ h => machine_half h)
  (fun j => by
    match j with
    | 0 => exact machine_int 1 (by norm_num)
    | 1 => exact machine_int 1 (by norm_num)
    | 2 => exact machine_int 3 (by norm_num))
  dbl_smooth1 List.mem_cons_self dbl_short rfl rfl

/-- `n` iterations. -/
def dblMany (n : Int) : Resp ℚ :=
  { nIterations := some (.int n), method := some 2, info := some [25 / 2, 50, 75 / 2] }

/-- The first point of `n` iterations and its distance. -/
def dblZ (n : Int) : Vec 3 ℚ := fun j => stepTo double (n : ℚ) (dblCfg.nadir j) (dblCfg.evaluate ![1 / 3] j)
def dblD (n : Int) : Fl ℚ := match (answer dblCfg St.init .initial (dblMany n) dblOrc).2 with
  | .ok (some (.nav _ _ _ d)) => d
  | _ => .nan
theorem dbl_five : answer dblCfg St.init .initial (dblMany 5) dblOrc =
    ((answer dblCfg St.init .initial (dblMany 5) dblOrc).1,
      .ok (some (.nav (dblZ 5) ![double (1 / 3), double (2 / 3), 3] (dblZ 5) (dblD 5)))) :=
  eq_of_beq (by decide +kernel)
theorem dbl_seven : answer dblCfg St.init .initial (dblMany 7) dblOrc =
    ((answer dblCfg St.init .initial (dblMany 7) dblOrc).1,
      .ok (some (.nav (dblZ 7) ![double (1 / 3), double (2 / 3), 3] (dblZ 7) (dblD 7)))) :=
  eq_of_beq (by decide +kernel)

/-- C119 fails, first: the third objective is 3 for every decision vector and in the nadir point, but of five iterations
the first shows the point (also as the upper bound) with a third objective that is worse, 3.0000000000000004. -/
theorem C119_fails_worse : ∃ s' z lo d,
    answer dblCfg St.init .initial (dblMany 5) dblOrc = (s', .ok (some (.nav z lo z d))) ∧
    (∀ x, dblCfg.evaluate x 2 = 3) ∧ dblCfg.nadir 2 = 3 ∧ z 2 = 3 + 2 ^ (-51 : ℤ) :=
  ⟨_, _, _, _, dbl_five, fun _ => rfl, rfl, by decide +kernel⟩

/-- C119 fails, second: of seven iterations the first shows a point with a third objective of 2.9999999999999996, so
that no decision vector at all is at least as good as the point shown. -/
theorem C119_fails_lost : ∃ s' z lo d,
    answer dblCfg St.init .initial (dblMany 7) dblOrc = (s', .ok (some (.nav z lo z d))) ∧
    AtLeastAsGood (dblCfg.evaluate ![1 / 3]) dblCfg.nadir ∧ ∀ x, ¬ AtLeastAsGood (dblCfg.evaluate x) z := by
  refine ⟨_, _, _, _, dbl_seven, by decide +kernel, fun x hx => ?_⟩
  have h2 : ¬ (3 : ℚ) ≤ dblZ 7 2 := by decide +kernel
  exact h2 (hx 2)

end Verif.Nautilus.Rounded
