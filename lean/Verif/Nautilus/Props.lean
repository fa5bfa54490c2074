import Verif.Nautilus.ExampleData

set_option linter.unusedSectionVars false

/-!
# Properties C31-C34 of NAUTILUS
-/

namespace Verif.Nautilus

variable {K : Type} [Field K] [LinearOrder K] [IsStrictOrderedRing K] {k m : Nat}

/-! ### C31: convex steps towards the found solution -/

/-- `z = ((L - 1) a + f) / L`, written without division. -/
def ConvexStep (L : Int) (a f z : Vec k K) : Prop := ∀ j, (L : K) * z j = ((L : K) - 1) * a j + f j

theorem iterationPoint_convex {L : Int} (hL : 1 ≤ L) (a f : Vec k K) :
    ConvexStep L a f (iterationPoint L a f) := by
  intro j
  have : (L : K) ≠ 0 := by
    have : (0 : K) < (L : K) := by exact_mod_cast (by omega : 0 < L)
    exact this.ne'
  unfold iterationPoint
  field_simp

/-- A convex step does not worsen the point if the solution is at least as good as it. -/
theorem ConvexStep.improves {L : Int} (hL : 1 ≤ L) {a f z : Vec k K} (h : ConvexStep L a f z) :
    (AtLeastAsGood f a → AtLeastAsGood f z ∧ AtLeastAsGood z a) ∧ (L = 1 → z = f) := by
  have hL' : (1 : K) ≤ (L : K) := by exact_mod_cast hL
  refine ⟨fun hf => ⟨fun j => ?_, fun j => ?_⟩, ?_⟩
  · have := h j
    have := hf j
    nlinarith
  · have := h j
    have := hf j
    nlinarith
  · rintro rfl
    funext j
    have := h j
    simpa using this

/-- C31, the first iteration: the point shown is a convex step from the nadir point to a solution `x` the
solver found for the nadir point as reference point. -/
theorem C31_first {c : Cfg k m K} {s s' : St k m K} {r : Resp K} {orc : Oracle k m K}
    {z lo up : Vec k K} {d : Fl K} (h0 : s.step = 1)
    (ha : answer c s .initial r orc = (s', .ok (some (.nav z lo up d)))) :
    ∃ N x meth info w, r.nIterations = some N ∧ s'.left = N.asInt ∧ 1 ≤ N.asInt ∧
      r.method = some meth ∧ r.info = some info ∧ factors c meth info r.isArray = .ok w ∧
      x = orc.asf w c.nadir ∧
      s'.xs[s'.step]? = some (some x) ∧ ConvexStep N.asInt c.nadir (c.evaluate x) z ∧
      (AtLeastAsGood (c.evaluate x) c.nadir →
        AtLeastAsGood (c.evaluate x) z ∧ AtLeastAsGood z c.nadir) ∧
      (N.asInt = 1 → z = c.evaluate x) := by
  have h := answer_ok (by omega) ha
  generalize hq : some (Req.nav z lo up d) = q at h
  cases h with
  | @initial _ v w meth info cap x f z' hv hn hm hi hw hcap hlt h1 hx hf hz =>
    simp only [navReq, Option.some.injEq, Req.nav.injEq] at hq
    obtain ⟨rfl, _⟩ := hq
    obtain ⟨v', hv', _, hv1, _⟩ := validateInitial_ok hv
    rw [hn] at hv'
    cases hv'
    have hc : ConvexStep v.asInt c.nadir (c.evaluate x) z := by
      rw [hz, hf]; exact iterationPoint_convex hv1 _ _
    exact ⟨v, x, meth, info, w, hn, rfl, hv1, hm, hi, hw, hx, getElem?_set_same (by simpa using hlt), hc,
      (hc.improves hv1).1, (hc.improves hv1).2⟩

example :=
  C31_first rfl (exR1_eq ▸ ex_step1)

/-- C31, later iterations without stepping back: with `L = s'.left` the number of iterations then left
(the current one included), the point shown is a convex step from the point shown last to the solution,
which is either the previous one or the one found for the point shown last as reference point. -/
theorem C31_forward {c : Cfg k m K} {G : Oracle k m K → Prop} {s s' : St k m K}
    {iss : List (Req k m K)} {req : Req k m K} {r : Resp K} {orc : Oracle k m K} {z lo up : Vec k K}
    {d : Fl K} (hS : Smooth c G s iss) (hr : req ∈ iss)
    (ha : answer c s req r orc = (s', .ok (some (.nav z lo up d)))) (hb : r.stepBack = some false) :
    ∃ a x, lastPoint iss = some a ∧ 1 ≤ s'.left ∧ s'.xs[s'.step]? = some (some x) ∧
      (r.usePrevious = some true → s.xs[s.step]? = some (some x)) ∧
      (r.usePrevious = some false → ∃ meth info w, r.method = some meth ∧ r.info = some info ∧
        factors c meth info r.isArray = .ok w ∧ x = orc.asf w a) ∧
      ConvexStep s'.left a (c.evaluate x) z ∧
      (AtLeastAsGood (c.evaluate x) a → AtLeastAsGood (c.evaluate x) z ∧ AtLeastAsGood z a) ∧
      (s'.left = 1 → z = c.evaluate x) := by
  have hi := hS.inv
  have h := answer_ok hi.store.step ha
  obtain ⟨a, hz, hlp⟩ := hi.cur
  obtain ⟨x0, hx, hf⟩ := hi.sol
  obtain ⟨e1, e2, e3, e4⟩ := changeN_get (s := s) r.nIterations
  have hz' := e2 _ _ hz
  have hx' := e3 _ _ hx
  have hf' := e4 _ _ hf
  rw [← e1] at hz' hx' hf'
  generalize hq : some (Req.nav z lo up d) = q at h
  cases h with
  | ended => simp at hq
  | initial => exact absurd rfl (hS.session.not_initial.2.2 _ hr)
  | stop => simp at hq
  | keep hv hs1 hl hb hp hzl hxl hfl hx1 hf1 hz1 hz2 =>
    subst hs1
    rw [hx'] at hx1
    rw [hf'] at hf1
    rw [hz'] at hz1
    cases hx1; cases hf1; cases hz1
    simp only [navReq, Option.some.injEq, Req.nav.injEq] at hq
    obtain ⟨rfl, _⟩ := hq
    have hL : 1 ≤ (changeN s r.nIterations).left - 1 := by omega
    have hc : ConvexStep ((changeN s r.nIterations).left - 1) a (c.evaluate x0) z := by
      rw [hz2]; exact iterationPoint_convex hL _ _
    exact ⟨a, x0, hlp, hL, getElem?_set_same hxl, fun _ => hx, fun h => by simp [hp] at h, hc,
      (hc.improves hL).1, (hc.improves hL).2⟩
  | @change z0 lo up d _ s1 w meth info x1 f1 zp1 z1 hv hs1 hl hb hp hm hinf hw hzl hxl hfl hz1 hx1 hf1 hz2 =>
    subst hs1
    rw [hz'] at hz1
    cases hz1
    simp only [navReq, Option.some.injEq, Req.nav.injEq] at hq
    obtain ⟨rfl, _⟩ := hq
    have hL : 1 ≤ (changeN s r.nIterations).left - 1 := by omega
    have hc : ConvexStep ((changeN s r.nIterations).left - 1) a (c.evaluate x1) z := by
      rw [hz2, hf1]; exact iterationPoint_convex hL _ _
    exact ⟨a, x1, hlp, hL, getElem?_set_same hxl, fun h => by simp [hp] at h, fun _ => ⟨meth, info, w, hm, hinf, hw, hx1⟩, hc,
      (hc.improves hL).1, (hc.improves hL).2⟩
  | short hv hs1 hl hb' => rw [hb] at hb'; simp at hb'
  | redo hv hs1 hl hb' => rw [hb] at hb'; simp at hb'
  | nothing => simp at hq

example :=
  C31_forward (ex_smooth1 (fun _ => True) trivial) List.mem_cons_self (exR2_eq ▸ ex_step2) rfl

/-- What a solver has to guarantee for points not to worsen: if some feasible solution is at least as
good as the reference point, the solution returned is feasible and at least as good. -/
def Improving (c : Cfg k m K) (F : Vec m K → Prop) (orc : Oracle k m K) : Prop :=
  ∀ w q, (∃ x, F x ∧ AtLeastAsGood (c.evaluate x) q) →
    F (orc.asf w q) ∧ AtLeastAsGood (c.evaluate (orc.asf w q)) q

/-- The previous point is no better than the current one, which is no better than the solution. -/
structure Ordered (c : Cfg k m K) (F : Vec m K → Prop) (s : St k m K) : Prop where
  all : ∃ zp z x, s.zs[s.step - 1]? = some (some zp) ∧ s.zs[s.step]? = some (some z) ∧
    s.xs[s.step]? = some (some x) ∧ F x ∧ AtLeastAsGood (c.evaluate x) z ∧ AtLeastAsGood z zp ∧
    AtLeastAsGood zp c.nadir

theorem iterationPoint_between {L : Int} (hL : 1 ≤ L) {a f : Vec k K} (h : AtLeastAsGood f a) :
    AtLeastAsGood f (iterationPoint L a f) ∧ AtLeastAsGood (iterationPoint L a f) a :=
  ((iterationPoint_convex hL a f).improves hL).1 h

theorem Ordered.step {c : Cfg k m K} {F : Vec m K → Prop} {s s' : St k m K} {iss : List (Req k m K)}
    {req r orc o} (hi : Inv c s iss) (ho : Ordered c F s) (hG : Improving c F orc)
    (hreq : req ≠ .initial) (ha : answer c s req r orc = (s', .ok o)) : Ordered c F s' := by
  have h := answer_ok hi.store.step ha
  obtain ⟨zp, z, x, hzp, hz, hx, hF, hxz, hzz, hzn⟩ := ho.all
  obtain ⟨x0, hx0, hf⟩ := hi.sol
  rw [hx] at hx0
  cases hx0
  obtain ⟨e1, e2, e3, e4⟩ := changeN_get (s := s) r.nIterations
  have hzp' := e2 _ _ hzp
  have hz' := e2 _ _ hz
  have hx' := e3 _ _ hx
  have hf' := e4 _ _ hf
  rw [← e1] at hzp' hz' hx' hf'
  have hne : (changeN s r.nIterations).step ≠ (changeN s r.nIterations).step - 1 := by
    have := hi.store.step; omega
  cases h with
  | ended => exact ho
  | initial => exact absurd rfl hreq
  | stop hv hs1 hl hx1 hf1 =>
    subst hs1
    exact ⟨zp, z, x, hzp', hz', hx', hF, hxz, hzz, hzn⟩
  | @keep _ _ _ _ _ s1 x1 f1 zp1 z1 hv hs1 hl hb hp hzl hxl hfl hx1 hf1 hz1 hz2 =>
    subst hs1
    rw [hx'] at hx1
    rw [hf'] at hf1
    rw [hz'] at hz1
    cases hx1; cases hf1; cases hz1
    have hb := iterationPoint_between (L := (changeN s r.nIterations).left - 1) (by omega) hxz
    rw [← hz2] at hb
    refine ⟨z, z1, x, ?_, getElem?_set_same hzl, getElem?_set_same hxl, hF, hb.1, hb.2,
      fun j => (hzz j).trans (hzn j)⟩
    dsimp only
    rw [Nat.add_sub_cancel, getElem?_set_other (by omega), hz']
  | @change z0 lo up d _ s1 w meth info x1 f1 zp1 z1 hv hs1 hl hb hp hm hinf hw hzl hxl hfl hz1 hx1 hf1 hz2 =>
    subst hs1
    rw [hz'] at hz1
    cases hz1
    obtain ⟨hF1, hle⟩ := hG w z ⟨x, hF, hxz⟩
    rw [← hx1] at hF1 hle
    have hb := iterationPoint_between (L := (changeN s r.nIterations).left - 1) (by omega) hle
    rw [← hf1, ← hz2] at hb
    refine ⟨z, z1, x1, ?_, getElem?_set_same hzl, getElem?_set_same hxl, hF1, hf1 ▸ hb.1, hb.2,
      fun j => (hzz j).trans (hzn j)⟩
    dsimp only
    rw [Nat.add_sub_cancel, getElem?_set_other (by omega), hz']
  | @short _ _ _ _ _ s1 f0 z0 zp0 z1 hv hs1 hl hb hsh hz0 hzp1 hf1 hz2 =>
    subst hs1
    have hlen := (List.getElem?_eq_some_iff.1 hz0).1
    rw [hz'] at hz0
    rw [hzp'] at hzp1
    cases hz0; cases hzp1
    refine ⟨zp, z1, x, ?_, getElem?_set_same hlen, hx', hF, fun j => ?_, fun j => ?_, hzn⟩
    · dsimp only
      rw [getElem?_set_other hne, hzp']
    · have := hxz j
      have := hzz j
      rw [hz2]; dsimp only; linarith
    · have := hzz j
      rw [hz2]; dsimp only; linarith
  | @redo z0 lo up d _ s1 w meth info x1 f1 zp1 z1 hv hs1 hl hb hsh hp hm hinf hw hzl hxl hfl hz1 hx1 hf1 hz2 =>
    subst hs1
    rw [hzp'] at hz1
    cases hz1
    obtain ⟨hF1, hle⟩ := hG w zp ⟨x, hF, fun j => (hxz j).trans (hzz j)⟩
    rw [← hx1] at hF1 hle
    have hb := iterationPoint_between (L := (changeN s r.nIterations).left) (by omega) hle
    rw [← hf1, ← hz2] at hb
    refine ⟨zp, z1, x1, ?_, getElem?_set_same hzl, getElem?_set_same hxl, hF1, hf1 ▸ hb.1, hb.2, hzn⟩
    dsimp only
    rw [getElem?_set_other hne, hzp']
  | nothing hv hs1 hl hb hsh hp =>
    subst hs1
    exact ⟨zp, z, x, hzp', hz', hx', hF, hxz, hzz, hzn⟩

theorem Ordered.initial {c : Cfg k m K} {F : Vec m K → Prop} {s0 s' : St k m K} {r orc q}
    (hF : ∃ x, F x ∧ AtLeastAsGood (c.evaluate x) c.nadir) (hG : Improving c F orc)
    (h0 : s0.step = 1) (ha : answer c s0 .initial r orc = (s', .ok (some q))) : Ordered c F s' := by
  have h := answer_ok (by omega) ha
  cases h with
  | @initial _ v w meth info cap x f z hv hn hm hi hw hcap hlt h1 hx hf hz =>
    obtain ⟨v', hv', _, hv1, _⟩ := validateInitial_ok hv
    rw [hn] at hv'
    cases hv'
    obtain ⟨hF1, hle⟩ := hG w c.nadir hF
    rw [← hx] at hF1 hle
    have hb := iterationPoint_between hv1 hle
    rw [← hf, ← hz] at hb
    refine ⟨c.nadir, z, x, ?_, getElem?_set_same (by simpa using hlt),
      getElem?_set_same (by simpa using hlt), hF1, hf ▸ hb.1, hb.2, fun j => le_rfl⟩
    dsimp only
    rw [getElem?_set_other (by omega), getElem?_set_same (by simp; omega)]

theorem Smooth.ordered {c : Cfg k m K} {F : Vec m K → Prop} {s iss}
    (hF : ∃ x, F x ∧ AtLeastAsGood (c.evaluate x) c.nadir) (h : Smooth c (Improving c F) s iss) :
    Ordered c F s := by
  induction h with
  | first h0 hG ha => exact Ordered.initial hF hG h0 ha
  | @next s iss req r orc s' o hs hr hG ha hok ih =>
    have hni := hs.session.not_initial.2.2 _ hr
    by_cases hv : validate c req r = .ok ()
    · obtain ⟨q, rfl⟩ := hok hv
      exact ih.step hs.inv hG hni ha
    · obtain ⟨rfl, e, rfl⟩ := answer_refused ha hv
      exact ih

/-- C31 over histories: if the solver returns solutions at least as good as reference points that can be
reached, then (for every history of forward steps, steps back, short steps, new preferences and changed
numbers of iterations) every forward step shows a point at least as good as the one shown last, and at
every moment there is a feasible solution at least as good as the point shown last. -/
theorem C31_never_worse {c : Cfg k m K} {F : Vec m K → Prop} {s s' : St k m K}
    {iss : List (Req k m K)} {req : Req k m K} {r : Resp K} {orc : Oracle k m K} {z lo up : Vec k K}
    {d : Fl K} (hF : ∃ x, F x ∧ AtLeastAsGood (c.evaluate x) c.nadir)
    (hS : Smooth c (Improving c F) s iss) (hr : req ∈ iss) (hG : Improving c F orc)
    (ha : answer c s req r orc = (s', .ok (some (.nav z lo up d)))) (hb : r.stepBack = some false) :
    ∃ a x, lastPoint iss = some a ∧ AtLeastAsGood z a ∧ F x ∧ AtLeastAsGood (c.evaluate x) z ∧
      AtLeastAsGood z c.nadir := by
  have hS' : Smooth c (Improving c F) s' (extend (.ok (some (.nav z lo up d))) iss) :=
    .next hS hr hG ha fun _ => ⟨_, rfl⟩
  obtain ⟨zp, z1, x, h1, h2, h3, h4, h5, h6, h7⟩ := (hS'.ordered hF).all
  obtain ⟨z2, h8, h9⟩ := hS'.inv.cur
  simp only [extend, lastPoint, Option.some.injEq] at h9
  subst h9
  rw [h2] at h8
  cases h8
  obtain ⟨a, x', ha1, _, hxx, _, _, hc, hi, _⟩ := C31_forward hS hr ha hb
  refine ⟨a, x, ha1, ?_, h4, h5, fun j => (h6 j).trans (h7 j)⟩
  have hstep : AtLeastAsGood (c.evaluate x') a ∨ AtLeastAsGood z a := by
    right
    have h := answer_ok hS.inv.store.step ha
    obtain ⟨a', hz, hlp⟩ := hS.inv.cur
    rw [ha1] at hlp
    cases hlp
    obtain ⟨e1, e2, e3, e4⟩ := changeN_get (s := s) r.nIterations
    have hz' := e2 _ _ hz
    rw [← e1] at hz'
    suffices hzp : zp = a by rw [← hzp]; exact h6
    generalize hq : some (Req.nav z lo up d) = q at h
    cases h with
    | ended => simp at hq
    | initial => exact absurd rfl (hS.session.not_initial.2.2 _ hr)
    | stop => simp at hq
    | keep hv hs1 hl hb hp hzl hxl hfl hx1 hf1 hz1 hz2 =>
      subst hs1
      dsimp only at h1
      rw [Nat.add_sub_cancel, getElem?_set_other (by omega), hz'] at h1
      cases h1; rfl
    | change hv hs1 hl hb hp hm hinf hw hzl hxl hfl hz1 hx1 hf1 hz2 =>
      subst hs1
      dsimp only at h1
      rw [Nat.add_sub_cancel, getElem?_set_other (by omega), hz'] at h1
      cases h1; rfl
    | short hv hs1 hl hb' => rw [hb] at hb'; simp at hb'
    | redo hv hs1 hl hb' => rw [hb] at hb'; simp at hb'
    | nothing => simp at hq
  rcases hstep with h | h
  · exact (hi h).2
  · exact h

theorem ex_improving : Improving exCfg exFeasible exOrc := by
  rintro w q ⟨x, ⟨h0, h1⟩, hle⟩
  have hx0 := hle 0
  have hx1 := hle 1
  simp only [exCfg, Matrix.cons_val_zero, Matrix.cons_val_one] at hx0 hx1
  have a1 : max 0 (1 - q 1) ≤ x 0 := max_le h0 (by linarith)
  have a2 : x 0 ≤ min 1 (q 0) := le_min h1 hx0
  have a3 : (0 : ℚ) ≤ max 0 (1 - q 1) := le_max_left _ _
  have a4 : 1 - q 1 ≤ max 0 (1 - q 1) := le_max_right _ _
  have a5 : min 1 (q 0) ≤ 1 := min_le_left _ _
  have a6 : min 1 (q 0) ≤ q 0 := min_le_right _ _
  refine ⟨⟨?_, ?_⟩, fun j => ?_⟩
  · simp only [exOrc, Matrix.cons_val_zero]; linarith
  · simp only [exOrc, Matrix.cons_val_zero]; linarith
  · match j with
    | 0 => simp only [exOrc, exCfg, Matrix.cons_val_zero]; linarith
    | 1 => simp only [exOrc, exCfg, Matrix.cons_val_zero, Matrix.cons_val_one]; linarith

theorem ex_feasible : ∃ x, exFeasible x ∧ AtLeastAsGood (exCfg.evaluate x) exCfg.nadir :=
  ⟨![1/2], by constructor <;> norm_num, by decide +kernel⟩

example : ∃ a x, lastPoint [exR1] = some a ∧ AtLeastAsGood ![3/4, 3/4] a ∧ exFeasible x ∧
    AtLeastAsGood (exCfg.evaluate x) ![3/4, 3/4] ∧ AtLeastAsGood ![3/4, 3/4] exCfg.nadir :=
  C31_never_worse ex_feasible (ex_smooth1 _ ex_improving) List.mem_cons_self ex_improving
    (exR2_eq ▸ ex_step2) rfl

/-! ### C32: N even steps -/

/-- Answering `keepResp` (go on with the same preferences) once per element of the list. -/
def keepRun (c : Cfg k m K) : List (Oracle k m K) → St k m K → Req k m K →
    St k m K × Except Err (Option (Req k m K))
  | [], s, q => (s, .ok (some q))
  | o :: os, s, q =>
    match answer c s q keepResp o with
    | (s', .ok (some q')) => keepRun c os s' q'
    | res => res

theorem keep_step {c : Cfg k m K} {s : St k m K} {iss : List (Req k m K)} {z lo up : Vec k K}
    {d : Fl K} {orc : Oracle k m K} {x : Vec m K} {a : Vec k K} (hi : Inv c s iss)
    (hx : s.xs[s.step]? = some (some x)) (ha : s.zs[s.step]? = some (some a)) :
    (s.left ≤ 1 → ∃ s', answer c s (.nav z lo up d) keepResp orc =
      (s', .ok (some (.stop (some x) (some (c.evaluate x)))))) ∧
    (1 < s.left → ∃ s', answer c s (.nav z lo up d) keepResp orc =
        (s', .ok (some (navReq c orc (iterationPoint (s.left - 1) a (c.evaluate x)) (c.evaluate x)))) ∧
      s'.left = s.left - 1 ∧ s'.xs[s'.step]? = some (some x) ∧
      s'.zs[s'.step]? = some (some (iterationPoint (s.left - 1) a (c.evaluate x)))) := by
  have hv : validate c (.nav z lo up d) (keepResp (K := K)) = .ok () := rfl
  obtain ⟨s', q, h⟩ := answer_total (orc := orc) hi (by simp) hv (by simp [Implemented, keepResp])
  have hst := answer_ok hi.store.step h
  obtain ⟨x0, hx0, hf⟩ := hi.sol
  rw [hx] at hx0
  cases hx0
  have hcn : changeN s (keepResp (K := K)).nIterations = s := rfl
  refine ⟨fun hl => ⟨s', ?_⟩, fun hl => ⟨s', ?_⟩⟩
  · generalize hq : some q = q' at hst
    cases hst with
    | stop hv hs1 hl1 hx1 hf1 =>
      rw [hcn] at hs1
      subst hs1
      rw [hx] at hx1
      rw [hf] at hf1
      cases hx1; cases hf1; cases hq
      exact h
    | keep hv hs1 hl1 => rw [hcn] at hs1; subst hs1; omega
    | change hv hs1 hl1 => rw [hcn] at hs1; subst hs1; omega
    | short hv hs1 hl1 => rw [hcn] at hs1; subst hs1; omega
    | redo hv hs1 hl1 => rw [hcn] at hs1; subst hs1; omega
    | nothing => simp at hq
  · generalize hq : some q = q' at hst
    cases hst with
    | stop hv hs1 hl1 hx1 hf1 => rw [hcn] at hs1; subst hs1; omega
    | keep hv hs1 hl1 hb hp hzl hxl hfl hx1 hf1 hz1 hz2 =>
      rw [hcn] at hs1
      subst hs1
      rw [hx] at hx1
      rw [hf] at hf1
      rw [ha] at hz1
      cases hx1; cases hf1; cases hz1
      subst hz2
      cases hq
      exact ⟨h, rfl, getElem?_set_same hxl, getElem?_set_same hzl⟩
    | change hv hs1 hl1 hb hp => simp [keepResp] at hp
    | short hv hs1 hl1 hb => simp [keepResp] at hb
    | redo hv hs1 hl1 hb => simp [keepResp] at hb
    | nothing => simp at hq

/-- The point after `h` of `N` even steps from `a` to `f`. -/
def evenPoint (N h : Nat) (a f : Vec k K) : Vec k K := fun j => a j + ((h : K) / (N : K)) * (f j - a j)

theorem evenPoint_succ {N h : Nat} (hN : h + 1 ≤ N) (a f : Vec k K) :
    iterationPoint ((N : Int) - h) (evenPoint N h a f) f = evenPoint N (h + 1) a f := by
  funext j
  unfold iterationPoint evenPoint
  have h1 : (N : K) ≠ 0 := by exact_mod_cast (by omega : N ≠ 0)
  have h2 : ((N : K) - (h : K)) ≠ 0 := by
    have : (h : K) + 1 ≤ (N : K) := by exact_mod_cast hN
    intro h3
    linarith
  push_cast
  field_simp
  ring

theorem distance_even {c : Cfg k m K} (hn : NormSpec c.nrm) {N h : Nat} {f : Vec k K}
    (hf : f ≠ c.nadir) :
    distance c (evenPoint N h c.nadir f) f = .num (100 * ((h : K) / (N : K))) := by
  have h1 : (fun j => evenPoint N h c.nadir f j - c.nadir j) =
      fun j => ((h : K) / (N : K)) * (f j - c.nadir j) := by
    funext j; unfold evenPoint; ring
  have h2 : c.nrm (fun j => f j - c.nadir j) ≠ 0 := by
    intro h
    rw [hn.eq_zero] at h
    exact hf (funext fun j => sub_eq_zero.1 (h j))
  have h3 : (0 : K) ≤ (h : K) / (N : K) := by positivity
  unfold distance
  rw [h1, hn.homog, abs_of_nonneg h3]
  simp only [fdiv, h2, if_false, Fl.scalePos]
  rw [mul_div_assoc, div_self h2, mul_one, mul_comm]

theorem distance_nowhere {c : Cfg k m K} (hn : NormSpec c.nrm) {N h : Nat} {f : Vec k K}
    (hf : f = c.nadir) :
    distance c (evenPoint N h c.nadir f) f = .nan := by
  have h1 : c.nrm (fun j => evenPoint N h c.nadir f j - c.nadir j) = 0 := by
    rw [hn.eq_zero]; intro j; rw [hf]; unfold evenPoint; ring
  have h2 : c.nrm (fun j => f j - c.nadir j) = 0 := by
    rw [hn.eq_zero]; intro j; rw [hf, sub_self]
  unfold distance
  rw [h1, h2]
  simp [fdiv, Fl.scalePos]

/-- C32. The decision maker asks for `N` iterations, the solver finds the solution `x` (with objectives
`f`), and then always goes on with the same preferences. After `h ≤ N` iterations the point shown is
`nadir + (h/N) (f - nadir)`, also as the upper bounds, and the distance `100 h/N` (`0/0`, not a
number, if `f` is the point of departure itself); after `N` iterations
the next answer is the stop request with `x` and `f`. -/
theorem C32_even_steps {c : Cfg k m K} {s0 s1 : St k m K} {r : Resp K} {orc : Oracle k m K}
    {q1 : Req k m K} (hn : NormSpec c.nrm) (h0 : s0.step = 1)
    (ha : answer c s0 .initial r orc = (s1, .ok (some q1))) :
    ∃ (N : Nat) (w : Fin k → Fl K), (∃ v, r.nIterations = some v ∧ v.asInt = N) ∧ 1 ≤ N ∧
      (∃ meth info, r.method = some meth ∧ r.info = some info ∧ factors c meth info r.isArray = .ok w) ∧
      ∀ os : List (Oracle k m K),
        (os.length + 1 ≤ N → ∃ s' z lo d, keepRun c os s1 q1 = (s', .ok (some (.nav z lo z d))) ∧
          z = evenPoint N (os.length + 1) c.nadir (c.evaluate (orc.asf w c.nadir)) ∧
          (c.evaluate (orc.asf w c.nadir) ≠ c.nadir →
            d = .num (100 * (((os.length + 1 : Nat) : K) / (N : K)))) ∧
          (c.evaluate (orc.asf w c.nadir) = c.nadir → d = .nan)) ∧
        (os.length = N → ∃ s', keepRun c os s1 q1 =
          (s', .ok (some (.stop (some (orc.asf w c.nadir))
            (some (c.evaluate (orc.asf w c.nadir))))))) := by
  have hinv := Inv.initial h0 ha
  have h := answer_ok (by omega) ha
  generalize hqq : some q1 = qq at h
  cases h with
  | @initial _ v w meth info cap x f z hv hnn hm hi hw hcap hlt h1 hx hf hz =>
    obtain ⟨v', hv', _, hv1, _⟩ := validateInitial_ok hv
    rw [hnn] at hv'
    cases hv'
    cases hqq
    obtain ⟨N, hN⟩ : ∃ N : Nat, v.asInt = N := ⟨v.asInt.toNat, by omega⟩
    refine ⟨N, w, ⟨v, hnn, hN⟩, by omega, ⟨meth, info, hm, hi, hw⟩, ?_⟩
    rw [← hx, ← hf]
    have hstart : z = evenPoint N 1 c.nadir f := by
      have := evenPoint_succ (N := N) (h := 0) (by omega) c.nadir f
      rw [hz, hN, ← this]
      have e : evenPoint N 0 c.nadir f = c.nadir := by funext j; simp [evenPoint]
      rw [e]
      simp
    have main : ∀ (os : List (Oracle k m K)) (h : Nat) (s : St k m K) (iss : List (Req k m K))
        (orc' : Oracle k m K), 1 ≤ h → h ≤ N → Inv c s iss → s.left = (N : Int) - h + 1 →
        s.xs[s.step]? = some (some x) → s.zs[s.step]? = some (some (evenPoint N h c.nadir f)) →
        (os.length + h ≤ N → ∃ s' z lo d,
          keepRun c os s (navReq c orc' (evenPoint N h c.nadir f) f) = (s', .ok (some (.nav z lo z d))) ∧
          z = evenPoint N (os.length + h) c.nadir f ∧
          (f ≠ c.nadir → d = .num (100 * (((os.length + h : Nat) : K) / (N : K)))) ∧
          (f = c.nadir → d = .nan)) ∧
        (os.length + h = N + 1 → ∃ s',
          keepRun c os s (navReq c orc' (evenPoint N h c.nadir f) f) =
            (s', .ok (some (.stop (some x) (some f))))) := by
      intro os
      induction os with
      | nil =>
        intro h s iss orc' h1 h2 hI hl hxx hzz
        refine ⟨fun _ => ⟨s, _, _, _, rfl, ?_, ?_, fun h0 => distance_nowhere hn h0⟩,
          fun h3 => by simp at h3; omega⟩
        · simp
        · intro hne
          simp only [List.length_nil, Nat.zero_add]
          exact distance_even hn hne
      | cons o os ih =>
        intro h s iss orc' h1 h2 hI hl hxx hzz
        obtain ⟨k1, k2⟩ := keep_step (z := evenPoint N h c.nadir f)
          (lo := bounds c orc' (evenPoint N h c.nadir f)) (up := evenPoint N h c.nadir f)
          (d := distance c (evenPoint N h c.nadir f) f) (orc := o) hI hxx hzz
        rw [← hf] at k1 k2
        by_cases hlt : h < N
        · obtain ⟨s', hs', hl', hx', hz'⟩ := k2 (by omega)
          have he : iterationPoint (s.left - 1) (evenPoint N h c.nadir f) f =
              evenPoint N (h + 1) c.nadir f := by
            rw [← evenPoint_succ (by omega), hl]
            congr 1
            omega
          rw [he] at hs' hz'
          have hI' := hI.step (by simp) hs'
          obtain ⟨i1, i2⟩ := ih (h + 1) s' _ o (by omega) (by omega) hI' (by omega) hx' hz'
          simp only [List.length_cons, navReq] at *
          simp only [keepRun, hs']
          constructor
          · intro h3
            obtain ⟨s'', z, lo, d, e1, e2, e3, e4⟩ := i1 (by omega)
            refine ⟨s'', z, lo, d, e1, ?_, ?_, e4⟩
            · rw [e2]; congr 1; omega
            · intro hne
              rw [e3 hne]
              have : os.length + (h + 1) = os.length + 1 + h := by omega
              rw [this]
          · intro h3
            exact i2 (by omega)
        · have hh : h = N := by omega
          subst hh
          obtain ⟨s', hs'⟩ := k1 (by omega)
          simp only [List.length_cons]
          refine ⟨fun h3 => by omega, fun h3 => ?_⟩
          have hos : os = [] := List.length_eq_zero_iff.1 (by omega)
          subst hos
          exact ⟨s', by simp only [keepRun, navReq, hs']⟩
    intro os
    have hlen : s0.step < cap := hlt
    obtain ⟨i1, i2⟩ := main os 1 _ _ orc le_rfl (by omega) hinv (by dsimp only; omega)
      (getElem?_set_same (by simpa using hlen))
      (by rw [hstart]; exact getElem?_set_same (by simpa using hlen))
    rw [← hstart] at i1 i2
    exact ⟨fun h => i1 (by omega), fun h => i2 (by omega)⟩

example := C32_even_steps (c := exCfg) supNorm_spec rfl ex_step1

/-! ### C33: storage -/

/-- C33. In every run - any responses in any order, also after exceptions - no answer raises
`IndexError`. -/
theorem C33_no_index_error {c : Cfg k m K} {G : Oracle k m K → Prop} {s s' : St k m K}
    {iss : List (Req k m K)} {req : Req k m K} {r : Resp K} {orc : Oracle k m K}
    {o : Except Err (Option (Req k m K))} (hS : Session c G s iss) (hr : req ∈ iss)
    (ha : answer c s req r orc = (s', o)) : o ≠ .error .indexError := by
  obtain ⟨_, h2, h3⟩ := hS.not_initial
  exact (answer_store h2 (h3 _ hr) ha).2

example : (answer exCfg exS5 exR5 keepResp exOrc).2 ≠ .error .indexError :=
  C33_no_index_error (ex_smooth5 (fun _ => True) trivial).session List.mem_cons_self rfl

/-- The exception to C33: a restart (answering the initial request a second time) allocates new
storage but keeps the iteration number, so asking for fewer iterations than done before fails. -/
theorem C33_fails_restart : ∃ (s : St 2 1 ℚ) (iss : List (Req 2 1 ℚ)), Reached exCfg s iss ∧
    Req.initial ∈ iss ∧ ∃ r, validate exCfg .initial r = .ok () ∧
      (answer exCfg s .initial r exOrc).2 = .error .indexError := by
  have h1 : Reached exCfg exS1 [exR1, .initial] := .next .init List.mem_cons_self ex_step1
  have h2 : Reached exCfg exS2 [exR2, exR1, .initial] := .next h1 List.mem_cons_self ex_step2
  have h3 : Reached exCfg (answer exCfg exS2 exR2 keepResp exOrc).1 _ :=
    .next h2 List.mem_cons_self (r := keepResp) (orc := exOrc)
      (o := (answer exCfg exS2 exR2 keepResp exOrc).2) rfl
  refine ⟨_, _, h3, ?_, { nIterations := some (.int 1), method := some 1, info := some [1, 2] },
    by decide +kernel, eq_of_beq (by decide +kernel)⟩
  exact mem_extend (by simp)

/-! ### C34: stepping back -/

/-- C34. A step-back response (that does not end the process and keeps the number of iterations) leaves
the iteration number, the iterations left and all other iterations untouched. With `short_step` the new
point is the middle between the point shown last and the previous iteration point, the solution is
kept; otherwise the solution is the one found for the previous iteration point as reference point with
the new preferences, and the point a convex step from the previous iteration point towards it. -/
theorem C34_step_back {c : Cfg k m K} {G : Oracle k m K → Prop} {s s' : St k m K}
    {iss : List (Req k m K)} {req : Req k m K} {r : Resp K} {orc : Oracle k m K} {z lo up : Vec k K}
    {d : Fl K} (hS : Smooth c G s iss) (hr : req ∈ iss)
    (ha : answer c s req r orc = (s', .ok (some (.nav z lo up d)))) (hb : r.stepBack = some true)
    (hn : r.nIterations = none) :
    s'.step = s.step ∧ s'.left = s.left ∧ s'.n = s.n ∧
    (∀ i, i ≠ s.step → s'.zs[i]? = s.zs[i]? ∧ s'.xs[i]? = s.xs[i]? ∧ s'.fs[i]? = s.fs[i]?) ∧
    s'.zs[s.step]? = some (some z) ∧
    ∃ a zp, lastPoint iss = some a ∧ s.zs[s.step - 1]? = some (some zp) ∧
      (r.shortStep = some true → (∀ j, z j = (a j + zp j) / 2) ∧ s'.xs = s.xs ∧ s'.fs = s.fs) ∧
      (r.shortStep = some false → ∃ meth info w, r.method = some meth ∧ r.info = some info ∧
        factors c meth info r.isArray = .ok w ∧
        s'.xs[s.step]? = some (some (orc.asf w zp)) ∧
        s'.fs[s.step]? = some (some (c.evaluate (orc.asf w zp))) ∧
        ConvexStep s.left zp (c.evaluate (orc.asf w zp)) z) := by
  have hi := hS.inv
  have h := answer_ok hi.store.step ha
  obtain ⟨a, hz, hlp⟩ := hi.cur
  have hcn : changeN s r.nIterations = s := by rw [hn]; rfl
  generalize hq : some (Req.nav z lo up d) = q at h
  cases h with
  | ended => simp at hq
  | initial => exact absurd rfl (hS.session.not_initial.2.2 _ hr)
  | stop => simp at hq
  | keep hv hs1 hl hb' => rw [hb] at hb'; simp at hb'
  | change hv hs1 hl hb' => rw [hb] at hb'; simp at hb'
  | @short _ _ _ _ _ s1 f0 z0 zp0 z1 hv hs1 hl hb hsh hz0 hzp1 hf1 hz2 =>
    rw [hcn] at hs1
    subst hs1
    have hlen := (List.getElem?_eq_some_iff.1 hz0).1
    rw [hz] at hz0
    cases hz0
    simp only [navReq, Option.some.injEq, Req.nav.injEq] at hq
    obtain ⟨rfl, _⟩ := hq
    refine ⟨rfl, rfl, rfl, fun i hne => ⟨getElem?_set_other (Ne.symm hne), rfl, rfl⟩,
      getElem?_set_same hlen, a, zp0, hlp, hzp1, fun _ => ⟨fun j => ?_, rfl, rfl⟩,
      fun h => by simp [hsh] at h⟩
    rw [hz2]; ring
  | @redo z0 lo up d _ s1 w meth info x1 f1 zp1 z1 hv hs1 hl hb hsh hp hm hinf hw hzl hxl hfl hz1 hx1 hf1 hz2 =>
    rw [hcn] at hs1
    subst hs1
    simp only [navReq, Option.some.injEq, Req.nav.injEq] at hq
    obtain ⟨rfl, _⟩ := hq
    refine ⟨rfl, rfl, rfl, fun i hne => ⟨getElem?_set_other (Ne.symm hne),
      getElem?_set_other (Ne.symm hne), getElem?_set_other (Ne.symm hne)⟩,
      getElem?_set_same hzl, a, zp1, hlp, hz1, fun h => by simp [hsh] at h, fun _ =>
      ⟨meth, info, w, hm, hinf, hw, ?_, ?_, ?_⟩⟩
    · rw [← hx1]; exact getElem?_set_same hxl
    · rw [← hx1, ← hf1]; exact getElem?_set_same hfl
    · rw [hz2, ← hx1, ← hf1]
      exact iterationPoint_convex (by omega) _ _
  | nothing => simp at hq

/-- C34, at the start: stepping back is refused, without any effect, when the point shown is the nadir. -/
theorem C34_no_step_back_from_nadir (c : Cfg k m K) (s : St k m K) {z lo up : Vec k K} {d : Fl K} {r : Resp K}
    (orc : Oracle k m K) (hz : ∀ j, z j = c.nadir j) (hb : r.stepBack = some true) :
    answer c s (.nav z lo up d) r orc = (s, .error .refused) := by
  have : validate c (.nav z lo up d) r = .error .refused := by
    simp only [validate, validateNav, hb]
    rw [if_pos ⟨trivial, hz⟩]
  unfold answer
  rw [this]

example := C34_no_step_back_from_nadir exCfg exS1 (z := exCfg.nadir) (lo := ![0, 0]) (up := exCfg.nadir)
  (d := .num 0) (r := { stepBack := some true, shortStep := some true }) exOrc (fun _ => rfl) rfl

example :=
  C34_step_back (ex_smooth2 (fun _ => True) trivial) List.mem_cons_self (exR3_eq ▸ ex_step3) rfl rfl

end Verif.Nautilus
