import Verif.ParetoNav.Props

set_option linter.unusedSectionVars false

/-!
# Properties C53 - C56 and C71 - C74 of Pareto Navigator
-/

namespace Verif.ParetoNav

variable {K : Type} [Field K] [LinearOrder K] [IsStrictOrderedRing K] {k : Nat} {X D : Type}

/-! ### C53: speed -/

/-- The number a speed stands for, in any ordered field. -/
def speedVal : PyVal → Option K
  | .int z => some (z : K)
  | .bool b => some (if b then 1 else 0)
  | .float q => some ((q.num : K) / (q.den : K))
  | _ => none

theorem calcSpeed_eq {v : PyVal} {a : K} (h : calcSpeed v = .ok a) : ∃ x : K, speedVal v = some x ∧ a = x / 50 := by
  cases v <;> simp only [calcSpeed, Except.ok.injEq, reduceCtorEq] at h <;> subst h
  · exact ⟨_, rfl, by ring⟩
  · exact ⟨_, rfl, by ring⟩
  · exact ⟨_, rfl, by ring⟩

theorem tdiv_bounds {q : ℚ} {z : Int} (hz : q.num.tdiv q.den = z) (h1 : 1 ≤ z) (h5 : z ≤ 5) :
    (1 : K) ≤ (q.num : K) / (q.den : K) ∧ (q.num : K) / (q.den : K) < 6 := by
  have hd : 0 < (q.den : Int) := by exact_mod_cast q.den_pos
  have hn : 0 ≤ q.num := by
    by_contra hc
    have : q.num.tdiv q.den ≤ 0 := by
      rw [show q.num = -(-q.num) by ring, Int.neg_tdiv]
      have : 0 ≤ (-q.num).tdiv q.den := Int.tdiv_nonneg (by omega) (by omega)
      omega
    omega
  rw [Int.tdiv_eq_ediv_of_nonneg hn] at hz
  have e1 : q.den * z ≤ q.num := by rw [← hz]; exact Int.mul_ediv_self_le (by omega)
  have e2 : q.num < q.den * z + q.den := by
    rw [← hz]
    have := Int.emod_lt_of_pos q.num hd
    have := Int.mul_ediv_add_emod q.num q.den
    omega
  have hdK : (0 : K) < (q.den : K) := by exact_mod_cast q.den_pos
  rw [le_div_iff₀ hdK, div_lt_iff₀ hdK]
  have f1 : (q.den : Int) ≤ q.num := by nlinarith
  have f2 : q.num < 6 * q.den := by nlinarith
  constructor
  · rw [one_mul]; exact_mod_cast f1
  · exact_mod_cast f2

theorem validateSpeed_ok {v : PyVal} (h : validateSpeed v = .ok ()) : ∃ z, intOf v = some z ∧ 1 ≤ z ∧ z ≤ 5 := by
  unfold validateSpeed at h
  split at h
  · simp at h
  · rename_i z hz
    split_ifs at h with h'
    exact ⟨z, hz, by omega, by omega⟩

/-- An accepted speed that is a number `x` leads to the step length `x / 50`, with `1 ≤ x < 6`. -/
theorem speed_range {v : PyVal} {a : K} (hv : validateSpeed v = .ok ()) (ha : calcSpeed v = .ok a) :
    ∃ x : K, speedVal v = some x ∧ a = x / 50 ∧ 1 ≤ x ∧ x < 6 ∧ (v.isInstanceInt = true → x ≤ 5) := by
  obtain ⟨x, hx, rfl⟩ := calcSpeed_eq ha
  obtain ⟨z, hz, h1, h5⟩ := validateSpeed_ok hv
  refine ⟨x, hx, rfl, ?_⟩
  cases v with
  | int y =>
    simp only [intOf, Option.some.injEq] at hz
    simp only [speedVal, Option.some.injEq] at hx
    subst hz hx
    refine ⟨by exact_mod_cast h1, ?_, fun _ => by exact_mod_cast h5⟩
    have : y < 6 := by omega
    exact_mod_cast this
  | bool b =>
    simp only [intOf, Option.some.injEq] at hz
    simp only [speedVal, Option.some.injEq] at hx
    subst hx
    cases b with
    | false => simp at hz; omega
    | true => norm_num
  | float q =>
    simp only [intOf, Option.some.injEq] at hz
    simp only [speedVal, Option.some.injEq] at hx
    subst hx
    obtain ⟨u, v⟩ := tdiv_bounds (K := K) hz h1 h5
    exact ⟨u, v, by simp [PyVal.isInstanceInt]⟩
  | str s => simp [speedVal] at hx
  | none => simp [speedVal] at hx

theorem validateNav_speed {nadir : Vec k K} {r : Resp K} {v : PyVal} (h : validateNav nadir r = .ok ())
    (hs : r.showSolution ≠ some true) (hv : r.speed = some v) : validateSpeed v = .ok () := by
  unfold validateNav at h
  rw [if_neg hs, hv] at h
  simp only at h
  split at h
  · simp at h
  · rename_i u hu; exact hu

theorem validateInitial_speed {nadir : Vec k K} {r : Resp K} {v : PyVal} (h : validateInitial nadir r = .ok ())
    (hv : r.speed = some v) : validateSpeed v = .ok () := by
  unfold validateInitial at h
  split_ifs at h
  split at h
  · simp at h
  · rw [hv] at h; exact h

/-- The full claim about answers that move (or start) the navigation: a given speed is 1 to 5 and becomes the
step length divided by 50, at most 0.1; without a speed the step length stays as it is. -/
def SpeedMapped (P : Prob k X D K) : Prop :=
  ∀ (s s' : St k X K) (req : Req k X K) (r : Resp K) (orc : Oracle k D K) c lo hi,
    (∀ c x f, req ≠ .solution c x f) → r.showSolution ≠ some true → validate req r = .ok () →
    answer P s req (some r) orc = (s', .ok (.nav c lo hi)) →
    (∀ v, r.speed = some v → ∃ x a : K, speedVal v = some x ∧ s'.speed = some a ∧ |a| = x / 50 ∧ 0 < |a| ∧
      |a| ≤ 1 / 10) ∧
    (r.speed = none → ∃ a0 a : K, s.speed = some a0 ∧ s'.speed = some a ∧ |a| = |a0|)

/-- C53 for speeds that are integers (Python booleans included); and for floats with the bound 0.12 instead
of 0.1. Missing: the bound 0.1 for floats, which is false (`C53_fails`). -/
theorem C53_speed_partial {P : Prob k X D K} {s s' : St k X K} {req : Req k X K} {r : Resp K}
    {orc : Oracle k D K} {c lo hi} (hreq : ∀ c x f, req ≠ .solution c x f)
    (ha : answer P s req (some r) orc = (s', .ok (.nav c lo hi))) :
    (∀ v, r.speed = some v → ∃ x a : K, speedVal v = some x ∧ s'.speed = some a ∧ |a| = x / 50 ∧ 0 < |a| ∧
      |a| < 12 / 100 ∧ (v.isInstanceInt = true → |a| ≤ 1 / 10)) ∧
    (r.speed = none → ∃ a0 a : K, s.speed = some a0 ∧ s'.speed = some a ∧ |a| = |a0|) := by
  have key : ∀ {v : PyVal} {a0 a : K}, validateSpeed v = .ok () → calcSpeed v = .ok a0 → |a| = |a0| →
      ∃ x : K, speedVal v = some x ∧ |a| = x / 50 ∧ 0 < |a| ∧ |a| < 12 / 100 ∧
        (v.isInstanceInt = true → |a| ≤ 1 / 10) := by
    intro v a0 a hv hc he
    obtain ⟨x, hx, rfl, h1, h6, h5⟩ := speed_range hv hc
    have hp : 0 < x / 50 := by linarith
    rw [abs_of_pos hp] at he
    refine ⟨x, hx, he, by rw [he]; exact hp, by rw [he]; linarith, fun h => ?_⟩
    rw [he]
    have := h5 h
    linarith
  have h := answer_step ha
  generalize hq : Except.ok (Req.nav c lo hi : Req k X K) = o at h
  generalize hr : some r = r' at h
  cases h with
  | refused => simp at hq
  | noAnswer => simp at hq
  | ended => simp at hq
  | startFails => simp at hq
  | started hv hs hc _ =>
    cases hr
    constructor
    · intro v hv'
      rw [hv'] at hs
      cases hs
      obtain ⟨x, h1, h2, h3, h4, h5⟩ := key (validateInitial_speed hv hv') hc rfl
      exact ⟨x, _, h1, rfl, h2, h3, h4, h5⟩
    · intro hn
      rw [hn] at hs
      simp at hs
  | showFails => simp at hq
  | showed => simp at hq
  | moveFails => simp at hq
  | @moved _ _ _ _ a0 a l m x hv hs hb hsg hn hm hx =>
    subst hr
    simp only [Option.getD_some] at hs hb hsg
    have he : |a| = |a0| := by
      rw [hsg]
      split
      · rw [mul_neg_one, abs_neg]
      · rw [abs_abs]
    unfold baseSpeed at hb
    constructor
    · intro v hv'
      rw [hv'] at hb
      obtain ⟨x, h1, h2, h3, h4, h5⟩ := key (validateNav_speed (hv _ rfl) hs hv') hb he
      exact ⟨x, a, h1, rfl, h2, h3, h4, h5⟩
    · intro hn'
      rw [hn'] at hb
      simp only at hb
      split at hb
      · rename_i a' ha'
        cases hb
        exact ⟨a0, a, ha', rfl, he⟩
      · simp at hb
  | satisfied => simp at hq
  | addNothing => simp at hq
  | addFails => simp at hq
  | added => exact absurd rfl (hreq _ _ _)

example := C53_speed_partial (P := exProb) (r := exFirst) (c := some (.vec [0, 1])) (lo := ![0, 0])
  (hi := ![1, 1]) (by simp [start])
  ((eq_of_beq (by decide +kernel)) : answer exProb exS0 (start exS0) (some exFirst) exOrc =
    (exS1, .ok (.nav (some (.vec [0, 1])) ![0, 0] ![1, 1])))

/-- C53 fails in full: the speed 5.9 is accepted and gives a step longer than 0.1. -/
theorem C53_fails : ¬ SpeedMapped exProb := by
  intro h
  have h1 := (h exS0 { exS1 with speed := some (59/500) } (start exS0)
    { preferred := some 0, speed := some (.float (59/10)) } exOrc (some (.vec [0, 1])) ![0, 0] ![1, 1]
    (by simp [start]) (by simp) (eq_of_beq (by decide +kernel)) (eq_of_beq (by decide +kernel))).1 _ rfl
  obtain ⟨x, a, _, h2, _, _, h3⟩ := h1
  simp only [Option.some.injEq] at h2
  subst h2
  revert h3
  decide +kernel

/-! ### C54: stepping back -/

/-- The full claim: when an answer with `step_back` moves the navigation, the reference point is moved by a
negative multiple of the direction from the current solution to the reference point in force. -/
def BackIsBack (P : Prob k X D K) (sup : Option (List (Vec k K))) : Prop :=
  ∀ (s s' : St k X K) (iss : List (Req k X K)) (req : Req k X K) (r : Resp K) (orc : Oracle k D K) c lo hi,
    Reached P sup Exact s iss → req ∈ iss → Exact orc → (∀ c x f, req ≠ .solution c x f) →
    (∀ a b c, req ≠ .initial a b c) → r.showSolution ≠ some true →
    r.stepBack = some true → answer P s req (some r) orc = (s', .ok (.nav c lo hi)) →
    ∃ a : K, s'.speed = some a ∧ a < 0

/-- C54: a step back moves against the direction if the response contains a speed, or if the step before it
was not one (its speed was positive). A step back after a step back, without a new speed, moves forward
with the same step length. Steps that are not step backs always move forward (or not at all). -/
theorem C54_step_back_partial {P : Prob k X D K} {s s' : St k X K} {c0 : Option (Cur K)}
    {lo0 hi0 : Vec k K} {r : Resp K} {orc : Oracle k D K} {c lo hi}
    (ha : answer P s (.nav c0 lo0 hi0) (some r) orc = (s', .ok (.nav c lo hi))) :
    ∃ a : K, s'.speed = some a ∧
      (r.stepBack = some true → (r.speed.isSome = true ∨ ∀ a0, s.speed = some a0 → 0 < a0) → a < 0) ∧
      (r.stepBack = some true → r.speed = none → s.speed = some (-a)) ∧
      (r.stepBack ≠ some true → 0 ≤ a) := by
  have h := answer_step ha
  generalize hq : Except.ok (Req.nav c lo hi : Req k X K) = o at h
  generalize hr : some r = r' at h
  cases h with
  | refused => simp at hq
  | showFails => simp at hq
  | showed => simp at hq
  | moveFails => simp at hq
  | @moved _ _ _ _ a0 a l m x hv hs hb hsg hn hm hx =>
    subst hr
    simp only [Option.getD_some] at hs hb hsg
    refine ⟨a, rfl, ?_, ?_, ?_⟩
    · intro hback hor
      rw [if_pos hback] at hsg
      have : 0 < a0 := by
        unfold baseSpeed at hb
        cases hsp : r.speed with
        | some v =>
          rw [hsp] at hb
          obtain ⟨x, _, rfl, h1, _⟩ := speed_range (validateNav_speed (hv _ rfl) hs hsp) hb
          linarith
        | none =>
          rw [hsp] at hb hor
          simp only [Option.isSome_none, Bool.false_eq_true, false_or] at hor
          simp only at hb
          split at hb
          · rename_i a' ha'
            cases hb
            exact hor _ ha'
          · simp at hb
      rw [hsg]; linarith
    · intro hback hnone
      rw [if_pos hback] at hsg
      unfold baseSpeed at hb
      rw [hnone] at hb
      simp only at hb
      split at hb
      · rename_i a' ha'
        cases hb
        rw [ha', hsg, mul_neg_one, neg_neg]
      · simp at hb
    · intro hback
      rw [if_neg hback] at hsg
      rw [hsg]
      exact abs_nonneg _

example := C54_step_back_partial (P := exProb) (r := exBack) (c0 := some (.vec [1/20, 19/20]))
  (lo0 := ![0, 0]) (hi0 := ![1, 1]) (c := exS3.cur) (lo := ![0, 0]) (hi := ![1, 1])
  ((eq_of_beq (by decide +kernel)) : answer exProb exS2 (.nav (some (.vec [1/20, 19/20])) ![0, 0] ![1, 1])
    (some exBack) exOrc = (exS3, .ok (.nav exS3.cur ![0, 0] ![1, 1])))

/-- C54 fails in full: the second of two step backs in a row moves forward. -/
theorem C54_fails : ¬ BackIsBack exProb (some exSols) := by
  intro h
  obtain ⟨a, h1, h2⟩ := h exS3 exS4 _ exR3 exBack exOrc exS4.cur ![0, 0] ![1, 1]
    (ex_reached3 exOrc_exact) List.mem_cons_self exOrc_exact
    (by rw [show exR3 = .nav exS3.cur ![0, 0] ![1, 1] from eq_of_beq (by decide +kernel)]; simp)
    (by rw [show exR3 = .nav exS3.cur ![0, 0] ![1, 1] from eq_of_beq (by decide +kernel)]; simp)
    (by simp [exBack]) rfl (eq_of_beq (by decide +kernel))
  have h3 : exS4.speed = some (1/10) := eq_of_beq (by decide +kernel)
  rw [h3] at h1
  cases h1
  norm_num at h2

/-! ### C55: classification -/

/-- One entry of the reference point that a classification stands for. -/
def ClassValue (lo hi cur : Vec k K) (cs : List String) (i : Fin k) (x : K) : Prop :=
  (cs[i.val]? = some "<" ∧ x = lo i) ∨ (cs[i.val]? = some ">" ∧ x = hi i) ∨ (cs[i.val]? = some "=" ∧ x = cur i)

theorem mapClasses_ok {lo hi : Vec k K} {cur : Option (Cur K)} {cs : List String} {n : Nat} {l : List K}
    (h : mapClasses lo hi cur n cs = .ok l) : l.length = cs.length ∧
      ∀ i (hi' : i < cs.length), ∃ x, l[i]? = some x ∧ mapClass lo hi cur (n + i) cs[i] = .ok x := by
  induction cs generalizing n l with
  | nil =>
    simp only [mapClasses, Except.ok.injEq] at h
    subst h
    simp
  | cons c cs ih =>
    unfold mapClasses at h
    split at h
    · simp at h
    · rename_i x hx
      split at h
      · simp at h
      · rename_i xs hxs
        simp only [Except.ok.injEq] at h
        subst h
        obtain ⟨h1, h2⟩ := ih hxs
        refine ⟨by simp [h1], fun i hi' => ?_⟩
        cases i with
        | zero => exact ⟨x, by simp, by simpa using hx⟩
        | succ i =>
          obtain ⟨y, h3, h4⟩ := h2 i (by simpa using hi')
          refine ⟨y, by simpa using h3, ?_⟩
          simpa [Nat.add_assoc, Nat.add_comm 1 i] using h4

/-- C55: a classification of all `k` objectives that is answered by a move is turned into the reference point
with the ideal value for `<`, the nadir value for `>` and the current value for `=`, which is then in force;
it lies in the box whenever the current solution does. -/
theorem C55_classification {P : Prob k X D K} {s s' : St k X K} {c0 : Option (Cur K)} {lo0 hi0 : Vec k K}
    {r : Resp K} {orc : Oracle k D K} {c lo hi} {cs : List String} {cur : Vec k K}
    (hcs : r.classes = some cs) (hlen : cs.length = k)
    (hcur : s.cur = some (.vec (List.ofFn cur)))
    (ha : answer P s (.nav c0 lo0 hi0) (some r) orc = (s', .ok (.nav c lo hi))) :
    ∃ ref : Vec k K, s'.ref = some (List.ofFn ref) ∧ (∀ i, ClassValue s.ideal s.nadir cur cs i (ref i)) ∧
      (AtLeastAsGood s.ideal s.nadir → InBox s.ideal s.nadir cur → InBox s.ideal s.nadir ref) := by
  have h := answer_step ha
  generalize hq : Except.ok (Req.nav c lo hi : Req k X K) = o at h
  generalize hr : some r = r' at h
  cases h with
  | refused => simp at hq
  | showFails => simp at hq
  | showed => simp at hq
  | moveFails => simp at hq
  | @moved _ _ _ _ a0 a l m x hv hs hb hsg hn hm hx =>
    subst hr
    simp only [Option.getD_some] at hs hn
    have hval := hv _ rfl
    have hnoref : r.ref = none ∧ cs.all validClass = true := by
      unfold validateNav at hval
      rw [if_neg hs] at hval
      have : validatePref hi0 r = .ok () := by
        split at hval
        · split at hval
          · simp at hval
          · exact hval
        · exact hval
      unfold validatePref at this
      rw [hcs] at this
      cases hr : r.ref with
      | some l => rw [hr] at this; simp at this
      | none =>
        rw [hr] at this
        simp only at this
        split_ifs at this with hall
        exact ⟨rfl, hall⟩
    unfold newRef at hn
    rw [hnoref.1, hcs] at hn
    simp only at hn
    split at hn
    · rename_i ref hmap
      cases hn
      obtain ⟨h1, h2⟩ := mapClasses_ok hmap
      have hrl : ref.length = k := by omega
      have hcv : ∀ i : Fin k, ClassValue s.ideal s.nadir cur cs i (toVec k ref i) := by
        intro i
        obtain ⟨y, h3, h4⟩ := h2 i.val (by omega)
        have hy : toVec k ref i = y := by simp [toVec, h3]
        have hmem : validClass cs[i.val] = true := List.all_eq_true.1 hnoref.2 _ (List.getElem_mem _)
        have hg : cs[i.val]? = some cs[i.val] := List.getElem?_eq_getElem (by omega)
        rw [hy]
        unfold ClassValue
        rw [hg]
        simp only [mapClass, Nat.zero_add, i.isLt, dif_pos, hcur] at h4
        split_ifs at h4 with c1 c2
        · cases h4; exact .inl ⟨by rw [c1], rfl⟩
        · cases h4; exact .inr (.inl ⟨by rw [c2], rfl⟩)
        · simp only [List.getElem?_ofFn, i.isLt, dif_pos, Except.ok.injEq] at h4
          subst h4
          refine .inr (.inr ⟨?_, rfl⟩)
          simp only [validClass, Bool.or_eq_true, decide_eq_true_eq] at hmem
          rcases hmem with (h | h) | h
          · exact absurd h c1
          · exact absurd h c2
          · rw [h]
      refine ⟨toVec k ref, ?_, hcv, ?_⟩
      · have : ref = List.ofFn (toVec k ref) := by
          apply List.ext_getElem
          · simp [hrl]
          · intro i h1 h2
            simp [toVec, h1]
        exact congrArg some this
      · intro hle hb j
        rcases hcv j with ⟨_, e⟩ | ⟨_, e⟩ | ⟨_, e⟩ <;> rw [e]
        · exact ⟨le_rfl, hle j⟩
        · exact ⟨hle j, le_rfl⟩
        · exact hb j
    · simp at hn

def exClasses : Resp ℚ := { classes := some [">", "<"] }

example := C55_classification (P := exProb) (r := exClasses) (cs := [">", "<"]) (cur := ![0, 1])
  (c := some (.vec [1/10, 9/10])) (lo := ![0, 0]) (hi := ![1, 1]) (orc := exOrc)
  (s' := (answer exProb exS1 (.nav none ![0, 0] ![1, 1]) (some exClasses) exOrc).1)
  (c0 := none) (lo0 := ![0, 0]) (hi0 := ![1, 1])
  rfl rfl (eq_of_beq (by decide +kernel))
  ((eq_of_beq (by decide +kernel)) : answer exProb exS1 (.nav none ![0, 0] ![1, 1]) (some exClasses) exOrc = _)

/-! ### C56: the first step -/

/-- The full claim: an accepted response to the first navigation request is answered without an exception
whenever the external code works, and after a start with a reference point the current solution is the
objective vector of the solution found. -/
def StartsFromAnything (P : Prob k X D K) (sup : Option (List (Vec k K))) : Prop :=
  ∀ (s s' : St k X K) (lo hi : Vec k K) (sols : List (Vec k K)) (r r2 : Resp K) (orc orc2 : Oracle k D K) c lo' hi',
    Reached P sup Exact s [.initial lo hi sols] → Exact orc →
    answer P s (.initial lo hi sols) (some r) orc = (s', .ok (.nav c lo' hi')) →
    (∀ l d, r.ref = some l → orc.asf l = .ok d → s'.cur = some (.vec (List.ofFn (P.obj d)))) ∧
    (validate (.nav c lo' hi' : Req k X K) r2 = .ok () → (∀ A b u v, ∃ x, orc2.lp A b u v = .ok x) →
      ∃ q, (answer P s' (.nav c lo' hi') (some r2) orc2).2 = .ok q)

/-- C56 when navigation starts from one of the solutions and the first response gives a direction as a
reference point: then the first step is made if the solver finds a solution, unless the speed is given as
a string. -/
theorem C56_first_step_partial {P : Prob k X D K} {s s' : St k X K}
    {lo hi : Vec k K} {sols : List (Vec k K)} {r r2 : Resp K} {orc orc2 : Oracle k D K} {c lo' hi'} {l : List K}
    (ha : answer P s (.initial lo hi sols) (some r) orc = (s', .ok (.nav c lo' hi'))) (hnr : r.ref = none)
    (hv : validate (.nav c lo' hi' : Req k X K) r2 = .ok ()) (hshow : r2.showSolution ≠ some true)
    (hl : r2.ref = some l) (hstr : ∀ t, r2.speed ≠ some (.str t))
    (hlp : ∀ m : Vec k K, ∃ x, orc2.lp s'.lppA (List.ofFn m ++ s'.b) s'.ideal s'.nadir = .ok x) :
    (∃ i z, r.preferred = some i ∧ pyGet s.sols i = .ok z ∧ s'.cur = some (.vec (List.ofFn z)) ∧
      InHull s.sols z) ∧
    ∃ s'' q, answer P s' (.nav c lo' hi') (some r2) orc2 = (s'', .ok q) ∧ s''.ref = some l := by
  have h := answer_step ha
  generalize hq : Except.ok (Req.nav c lo' hi' : Req k X K) = o at h
  generalize hr : some r = r' at h
  cases h with
  | refused => simp at hq
  | noAnswer => simp at hq
  | startFails => simp at hq
  | @started _ _ _ _ v a p l' hv1 hs hc hcase =>
    cases hr
    rcases hcase with ⟨r0, _, h1, _⟩ | ⟨i, z, _, hpre, hz, rfl, _⟩
    · rw [hnr] at h1; simp at h1
    · refine ⟨⟨i, z, hpre, hz, rfl, InHull.mem (pyGet_mem hz)⟩, ?_⟩
      have hvn : validateNav hi' r2 = .ok () := hv
      have hlen : l.length = k := by
        unfold validateNav at hvn
        rw [if_neg hshow] at hvn
        have : validatePref hi' r2 = .ok () := by
          split at hvn
          · split at hvn
            · simp at hvn
            · exact hvn
          · exact hvn
        unfold validatePref at this
        rw [hl] at this
        cases hcl : r2.classes with
        | some cs => rw [hcl] at this; simp at this
        | none =>
          rw [hcl] at this
          simp only [validateRef] at this
          split_ifs at this with h1
          exact not_not.1 h1
      have hspeed : ∃ t, setSpeed r2 (startedSt s l' (.vec (List.ofFn z)) a) =
          ({ startedSt s l' (.vec (List.ofFn z)) a with speed := some t }, .ok ()) := by
        unfold setSpeed
        cases hsp : r2.speed with
        | none => exact ⟨a, rfl⟩
        | some w =>
          have hvs := validateNav_speed hvn hshow hsp
          cases w with
          | int y => exact ⟨_, rfl⟩
          | bool y => exact ⟨_, rfl⟩
          | float y => exact ⟨_, rfl⟩
          | str y => exact absurd hsp (hstr y)
          | none => simp [validateSpeed, intOf] at hvs
      obtain ⟨t, ht⟩ := hspeed
      obtain ⟨x, hx⟩ := hlp (fun i => toVec k (List.ofFn z) i +
        (if r2.stepBack = some true then t * (-1) else |t|) * (toVec k l i - toVec k (List.ofFn z) i))
      have hans : answer P (startedSt s l' (.vec (List.ofFn z)) a) (.nav c lo' hi') (some r2) orc2 =
          handleNav P (some r2) orc2 (startedSt s l' (.vec (List.ofFn z)) a) := by
        unfold answer
        simp only [hv]
        rfl
      rw [hans]
      unfold handleNav
      simp only [Option.getD_some]
      rw [if_neg hshow]
      have hsign : setSign r2 { startedSt s l' (.vec (List.ofFn z)) a with speed := some t } =
          ({ startedSt s l' (.vec (List.ofFn z)) a with
              speed := some (if r2.stepBack = some true then t * (-1) else |t|) },
            .ok (if r2.stepBack = some true then t * (-1) else |t|)) := rfl
      have hset : ∀ σ : St k X K, setRef r2 σ = ({ σ with ref := some l }, .ok ()) := by
        intro σ
        unfold setRef
        rw [hl]
        rfl
      have hmove : ∀ b : K, moved k (some l) (some (.vec (List.ofFn z))) b =
          .ok fun i => toVec k (List.ofFn z) i + b * (toVec k l i - toVec k (List.ofFn z) i) := by
        intro b
        unfold moved
        simp only [List.length_ofFn, ne_eq, not_true_eq_false, if_false, hlen, if_true]
      refine ⟨_, _, Exec.bind_ok.2 ⟨_, _, ht, Exec.bind_ok.2 ⟨_, _, hsign, Exec.bind_ok.2 ⟨_, (), hset _,
        Exec.bind_ok.2 ⟨_, _, rfl, Exec.bind_ok.2 ⟨_, _, congrArg (Prod.mk _) (hmove _),
          Exec.bind_ok.2 ⟨_, _, congrArg (Prod.mk _) hx, rfl⟩⟩⟩⟩⟩⟩, rfl⟩

/-- External code whose linear solver always returns something. -/
def exOrcL : Oracle 2 ℚ ℚ := { exOrc with lp := fun _ _ _ _ => .ok ![0, 0, 0] }

example := C56_first_step_partial (P := exProb) (r := exFirst) (r2 := exRef) (l := [1/2, 1/2]) (orc := exOrc)
  (orc2 := exOrcL) (lo := exS0.ideal) (hi := exS0.nadir) (sols := exS0.sols) (c := some (.vec [0, 1]))
  (lo' := ![0, 0]) (hi' := ![1, 1])
  ((eq_of_beq (by decide +kernel)) : answer exProb exS0 (start exS0) (some exFirst) exOrc =
    (exS1, .ok (.nav (some (.vec [0, 1])) ![0, 0] ![1, 1])))
  rfl (eq_of_beq (by decide +kernel)) (by simp [exRef]) rfl (by simp [exRef]) (fun m => ⟨_, rfl⟩)

/-- C56 fails in full: a first response without a direction is accepted and raises `TypeError`. -/
theorem C56_fails : ¬ StartsFromAnything exProb (some exSols) := by
  intro h
  obtain ⟨_, h2⟩ := h exS0 exS1 exS0.ideal exS0.nadir exS0.sols exFirst {} exOrc exOrcL
    (some (.vec [0, 1])) ![0, 0] ![1, 1] (ex_reached0 exOrc_exact) exOrc_exact (eq_of_beq (by decide +kernel))
  obtain ⟨q, hq⟩ := h2 rfl (fun _ _ _ _ => ⟨_, rfl⟩)
  have : (answer exProb exS1 (.nav (some (.vec [0, 1])) ![0, 0] ![1, 1]) (some {}) exOrcL).2 =
    .error .typeError := eq_of_beq (by decide +kernel)
  rw [this] at hq
  simp at hq

/-- C56, the other failure: after a start with a reference point the current solution shown is the decision
vector of the solution found, and the next step raises. -/
theorem C56_fails_reference_start :
    let r : Resp ℚ := { ref := some [1/4, 1/4], speed := some (.int 1) }
    (answer exProb exS0 (start exS0) (some r) exOrc).2 = .ok (.nav (some (.vec [1/4])) ![0, 0] ![1, 1]) ∧
    (answer exProb (answer exProb exS0 (start exS0) (some r) exOrc).1
      (.nav (some (.vec [1/4])) ![0, 0] ![1, 1]) (some exRef) exOrcL).2 = .error .valueError :=
  ⟨eq_of_beq (by decide +kernel), eq_of_beq (by decide +kernel)⟩

/-- C56, the first answer: a reference point given is the one navigation is directed at later, and the
minimizer's result for it is shown; a preferred solution is shown itself. Nothing else is shown or changed. -/
theorem C56_started {P : Prob k X D K} {s s' : St k X K} {lo hi : Vec k K} {sols : List (Vec k K)} {r : Resp K}
    {orc : Oracle k D K} {c lo' hi'}
    (ha : answer P s (.initial lo hi sols) (some r) orc = (s', .ok (.nav c lo' hi'))) :
    s'.cur = c ∧ lo' = s.ideal ∧ hi' = s.nadir ∧ s'.ideal = s.ideal ∧ s'.nadir = s.nadir ∧ s'.sols = s.sols ∧
    (∀ l, r.ref = some l → s'.ref = some l ∧ ∃ d, orc.asf l = .ok d ∧ c = some (P.asCur d)) ∧
    (r.ref = none → s'.ref = s.ref ∧ ∃ i z, r.preferred = some i ∧ pyGet s.sols i = .ok z ∧
      c = some (.vec (List.ofFn z))) := by
  have h := answer_step ha
  generalize hq : Except.ok (Req.nav c lo' hi' : Req k X K) = o at h
  generalize hr : some r = r' at h
  cases h with
  | refused => simp at hq
  | noAnswer => simp at hr
  | startFails => simp at hq
  | @started _ _ _ r v a p l' _ _ _ hst =>
    cases hr
    simp only [navReq, startedSt, Except.ok.injEq, Req.nav.injEq] at hq
    obtain ⟨rfl, rfl, rfl⟩ := hq
    refine ⟨rfl, rfl, rfl, rfl, rfl, rfl, ?_, ?_⟩
    · intro l hl
      rcases hst with ⟨r0, d, h1, h2, rfl, rfl⟩ | ⟨i, z, h1, _⟩
      · rw [hl] at h1
        cases h1
        exact ⟨rfl, d, h2, rfl⟩
      · rw [hl] at h1; simp at h1
    · intro hl
      rcases hst with ⟨r0, d, h1, _⟩ | ⟨i, z, h1, h2, h3, rfl, rfl⟩
      · rw [hl] at h1; simp at h1
      · exact ⟨rfl, i, z, h2, h3, rfl⟩

example := C56_started (P := exProb) (s := exS0) (lo := exS0.ideal) (hi := exS0.nadir) (sols := exS0.sols)
  (r := { ref := some [1/4, 1/4], speed := some (.int 1) }) (orc := exOrc)
  (s' := (answer exProb exS0 (start exS0) (some { ref := some [1/4, 1/4], speed := some (.int 1) }) exOrc).1)
  (c := some (.vec [1/4])) (lo' := ![0, 0]) (hi' := ![1, 1]) (eq_of_beq (by decide +kernel))

/-! ### C71: the solution the decision maker is satisfied with -/

/-- The solution shown last. -/
def lastSolution : List (Req k X K) → Option (Option X × Option (Vec k K))
  | [] => none
  | .solution _ x f :: _ => some (x, f)
  | _ :: l => lastSolution l

theorem Reached.lastSolution {P : Prob k X D K} {sup G} {s : St k X K} {iss} (h : Reached P sup G s iss) :
    (lastSolution iss = none ∧ s.poX = none ∧ s.poF = none) ∨
    ∃ d, lastSolution iss = some (some (P.vars d), some (P.obj d)) ∧ s.poX = some (P.vars d) ∧
      s.poF = some (P.obj d) := by
  induction h with
  | init hG hc =>
    obtain ⟨sols, ideal, nadir, eqs, _, _, he, rfl⟩ := construct_ok hc
    exact .inl ⟨rfl, rfl, rfl⟩
  | start _ ih => exact ih
  | @next s iss req r orc s' o hR hr hG ha ih =>
    have hst := answer_step ha
    have fr : ∀ {t : St k X K}, Frame s t → ∀ {l}, ParetoNav.lastSolution l = ParetoNav.lastSolution iss →
        (ParetoNav.lastSolution l = none ∧ t.poX = none ∧ t.poF = none) ∨
        ∃ d, ParetoNav.lastSolution l = some (some (P.vars d), some (P.obj d)) ∧ t.poX = some (P.vars d) ∧
          t.poF = some (P.obj d) := by
      intro t hf l hl
      rw [hf.poX, hf.poF, hl]
      exact ih
    cases hst with
    | refused => exact ih
    | noAnswer => exact ih
    | ended => exact fr (Frame.refl _) rfl
    | startFails _ _ hf => exact fr hf rfl
    | started => exact fr ⟨rfl, rfl, rfl, rfl, rfl, rfl, rfl⟩ rfl
    | showFails => exact ih
    | @showed _ _ _ _ p d => exact .inr ⟨d, rfl, rfl, rfl⟩
    | moveFails _ _ hf => exact fr hf rfl
    | moved => exact fr ⟨rfl, rfl, rfl, rfl, rfl, rfl, rfl⟩ rfl
    | satisfied => exact fr (Frame.refl _) rfl
    | addNothing => exact ih
    | addFails => exact ih
    | added => exact ih

/-- The full claim: answering an issued solution request with "satisfied" ends with the decision vector and
the objective vector that this request shows. -/
def SatisfiedHonoured (P : Prob k X D K) (sup : Option (List (Vec k K))) : Prop :=
  ∀ (s s' : St k X K) (iss : List (Req k X K)) (c : Option (Cur K)) (x : Option X) (f : Option (Vec k K))
    (r : Resp K) (orc : Oracle k D K) (o : Except Err (Req k X K)),
    Reached P sup Exact s iss → .solution c x f ∈ iss → r.satisfied = some true →
    answer P s (.solution c x f) (some r) orc = (s', o) → o = .ok (.stop s.cur x f)

/-- C71 for the solution request issued last: the process stops with exactly the decision vector and the
objective vector shown, which belong to the same solution, and the state is unchanged. -/
theorem C71_satisfied_partial {P : Prob k X D K} {sup} {G : Oracle k D K → Prop} {s s' : St k X K}
    {iss : List (Req k X K)} {c : Option (Cur K)} {x : Option X} {f : Option (Vec k K)} {r : Resp K}
    {orc : Oracle k D K} {o : Except Err (Req k X K)} (hR : Reached P sup G s iss)
    (hl : lastSolution iss = some (x, f)) (hs : r.satisfied = some true)
    (ha : answer P s (.solution c x f) (some r) orc = (s', o)) :
    s' = s ∧ o = .ok (.stop s.cur x f) ∧ ∃ d, x = some (P.vars d) ∧ f = some (P.obj d) := by
  have h := answer_step ha
  rcases hR.lastSolution with ⟨h1, _⟩ | ⟨d, h1, h2, h3⟩
  · rw [hl] at h1; simp at h1
  · rw [hl] at h1
    simp only [Option.some.injEq, Prod.mk.injEq] at h1
    obtain ⟨rfl, rfl⟩ := h1
    generalize hr : some r = r' at h
    cases h with
    | refused he => cases hr; simp [validate] at he
    | satisfied h => rw [h2, h3]; exact ⟨rfl, rfl, d, rfl, rfl⟩
    | addNothing h => subst hr; exact absurd hs h
    | addFails h => subst hr; exact absurd hs h
    | added h => subst hr; exact absurd hs h

theorem exR5_eq : exR5 = .solution exS5.cur exS5.poX exS5.poF := eq_of_beq (by decide +kernel)

example := C71_satisfied_partial (r := { satisfied := some true }) (c := exS5.cur) (orc := exOrc)
  (ex_reached5 (G := Exact) exOrc_exact) (by rw [exR5_eq]; rfl) rfl
  (Prod.mk.eta (p := answer exProb exS5 (.solution exS5.cur exS5.poX exS5.poF) _ _)).symm

/-- Continue navigating from the end of the example, then look at another solution. -/
def exS7 : St 2 ℚ ℚ := (answer exProb exS6 exR6 (some exRef) exOrc).1
def exR7 : Req 2 ℚ ℚ := getReq (answer exProb exS6 exR6 (some exRef) exOrc).2
theorem ex_step7 : answer exProb exS6 exR6 (some exRef) exOrc = (exS7, .ok exR7) :=
  eq_of_beq (by decide +kernel)
def exS8 : St 2 ℚ ℚ := (answer exProb exS7 exR7 (some exShow) exOrc).1
def exR8 : Req 2 ℚ ℚ := getReq (answer exProb exS7 exR7 (some exShow) exOrc).2
theorem ex_step8 : answer exProb exS7 exR7 (some exShow) exOrc = (exS8, .ok exR8) :=
  eq_of_beq (by decide +kernel)

/-- C71 fails for older solution requests: they end with the solution shown last. -/
theorem C71_fails : ¬ SatisfiedHonoured exProb (some exSols) := by
  intro h
  have hR : Reached exProb (some exSols) Exact exS8
      [exR8, exR7, exR6, exR5, exR4, exR3, exR2, exR1, start exS0] :=
    .next (.next (ex_reached6 exOrc_exact) List.mem_cons_self exOrc_exact ex_step7) List.mem_cons_self
      exOrc_exact ex_step8
  have h1 := h exS8 exS8 _ exS5.cur exS5.poX exS5.poF { satisfied := some true } exOrc
    (.ok (.stop exS8.cur exS8.poX exS8.poF)) hR (by rw [exR5_eq]; simp) rfl (eq_of_beq (by decide +kernel))
  simp only [Except.ok.injEq, Req.stop.injEq] at h1
  have h2 : (exS8.poX == exS5.poX) = false := by decide +kernel
  rw [h1.2.1] at h2
  simp at h2

/-! ### C72: rejected solutions -/

/-- C72: when the solution shown last is rejected (or its request is answered with nothing), exactly its
objective vector is appended to the stored solutions, and if Qhull succeeds navigation goes on from the
unchanged current solution in an approximation that contains the rejected solution. -/
theorem C72_rejected {P : Prob k X D K} {sup} {G : Oracle k D K → Prop} {s s' : St k X K}
    {iss : List (Req k X K)} {c : Option (Cur K)} {x : Option X} {f : Option (Vec k K)} {r : Option (Resp K)}
    {orc : Oracle k D K} {o : Except Err (Req k X K)} (hR : Reached P sup G s iss)
    (hl : lastSolution iss = some (x, f)) (hs : (r.getD {}).satisfied ≠ some true)
    (ha : answer P s (.solution c x f) r orc = (s', o)) :
    ∃ g, f = some g ∧ s'.sols = s.sols ++ [g] ∧ s'.cur = s.cur ∧ s'.ref = s.ref ∧ s'.speed = s.speed ∧
      (∀ eqs, orc.hull (s.sols ++ [g]) = .ok eqs → o = .ok (.nav s.cur s'.ideal s'.nadir) ∧
        InHull s'.sols g ∧ InBox s'.ideal s'.nadir g ∧
        ((∀ i, s'.ideal i < s'.nadir i) → ∀ (m z : Vec k K) (t : K),
          Feasible s'.lppA (List.ofFn m ++ s'.b) s'.ideal s'.nadir (Fin.cons t z) ↔
            (∀ i, 1 / (s'.nadir i - s'.ideal i) * (z i - m i) ≤ t) ∧ (∀ e ∈ eqs, dot e.1 z + e.2 ≤ 0) ∧
            InBox s'.ideal s'.nadir z)) := by
  have h := answer_step ha
  rcases hR.lastSolution with ⟨h1, _⟩ | ⟨d, h1, h2, h3⟩
  · rw [hl] at h1; simp at h1
  · rw [hl] at h1
    simp only [Option.some.injEq, Prod.mk.injEq] at h1
    obtain ⟨rfl, rfl⟩ := h1
    cases h with
    | refused he => simp [validate] at he
    | satisfied h => exact absurd h hs
    | addNothing _ hn => rw [h3] at hn; simp at hn
    | addFails _ hf hh =>
      rw [h3] at hf
      cases hf
      refine ⟨P.obj d, rfl, rfl, rfl, rfl, rfl, ?_⟩
      intro eqs he
      rw [hh] at he
      simp at he
    | @added _ _ _ _ _ eqs' hi lo _ hf hh hex =>
      rw [h3] at hf
      cases hf
      refine ⟨P.obj d, rfl, rfl, rfl, rfl, rfl, ?_⟩
      intro eqs he
      rw [hh] at he
      cases he
      refine ⟨rfl, InHull.mem (by simp [addedSt]), fun j => ?_,
        fun hlt m z t => C50_constraints _ _ _ _ _ _ hlt⟩
      obtain ⟨u, v⟩ := extremes_box hex (P.obj d) (by simp) j
      exact ⟨(min_le_left _ _).trans u, v.trans (le_max_left _ _)⟩

example := C72_rejected (r := none) (c := exS5.cur) (orc := exOrc)
  (ex_reached5 (G := Exact) exOrc_exact) (by rw [exR5_eq]; rfl) (by simp)
  (exR5_eq ▸ ex_step6)

/-! ### C73: the solutions used -/

/-- The full claim: the solutions supplied to the constructor are the ones navigated. -/
def UsesSupplied (P : Prob k X D K) : Prop :=
  ∀ (sup : List (Vec k K)) (orc : Oracle k D K) (s : St k X K), construct P (some sup) orc = .ok s → s.sols = sup

/-- C73 for problems that are not tables. For a table the supplied solutions are ignored. Without any
solutions a problem that is not a table is refused. -/
theorem C73_supplied_partial (P : Prob k X D K) :
    (P.table = none → UsesSupplied P) ∧
    (P.table = none → ∀ orc, construct P none orc = .error .refused) ∧
    (∀ t sup orc s, P.table = some t → construct P sup orc = .ok s → s.sols = t) := by
  refine ⟨?_, ?_, ?_⟩
  · intro ht sup orc s h
    obtain ⟨sols, ideal, nadir, eqs, h1, _, _, rfl⟩ := construct_ok h
    rcases h1 with h1 | ⟨_, h1⟩
    · rw [ht] at h1; simp at h1
    · cases h1; rfl
  · intro ht orc
    unfold construct
    rw [ht]
  · intro t sup orc s ht h
    obtain ⟨sols, ideal, nadir, eqs, h1, _, _, rfl⟩ := construct_ok h
    rcases h1 with h1 | ⟨h1, _⟩
    · rw [ht] at h1; cases h1; rfl
    · rw [ht] at h1; simp at h1

example : construct exProb (some exSols) exOrc = .ok exS0 := ex_construct

theorem C73_fails : ¬ UsesSupplied { exProb with table := some exSols } := by
  intro h
  have h1 := h [![1, 1]] exOrc exS0 (eq_of_beq (by decide +kernel))
  have h2 : exS0.sols.length = 3 := by decide +kernel
  rw [h1] at h2
  simp at h2

end Verif.ParetoNav
