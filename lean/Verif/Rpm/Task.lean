import Verif.Rpm.Props
import Verif.Task

set_option linter.unusedSectionVars false

/-!
# The reference point method: what the minimizers are asked, C99 (Pareto optimality over a whole session)

For problems with variables (`MOProblem`), where the solver returns the decision vector itself.
-/

namespace Verif.Rpm

variable {K : Type} [Field K] [LinearOrder K] [IsStrictOrderedRing K] {k m : Nat}

/-- ReferencePointMethod.py:588-600: the achievement problem with finite weights `mu` and the reference point `q`,
over the bounds of the variables. The constraints of the problem (ReferencePointMethod.py:299) are not handed to
the minimizer. -/
def asfTask (c : Cfg (k + 1) (Vec m K) (Vec m K) K) (P : Side m K) (mu q : Vec (k + 1) K) : Task m K where
  value := fun x => some (refPointASF mu c.nadir c.utopian (1 / 10000) q (c.obj x))
  admits := P.inBounds

/-- The minimizers solve exactly what they are asked, if the weights are finite and not negative. -/
structure Solver (c : Cfg (k + 1) (Vec m K) (Vec m K) K) (P : Side m K) (orc : Oracle (k + 1) (Vec m K) K) :
    Prop where
  main : ∀ mu q, (∀ i, 0 ≤ mu i) → Solves (orc.main (fun i => .num (mu i)) q) (asfTask c P mu q)
  add : ∀ i mu q, (∀ i, 0 ≤ mu i) → Solves (orc.add i (fun i => .num (mu i)) q) (asfTask c P mu q)

/-- The reference point of a response, if there is one, has no positive component. -/
def NonposRef (r : Resp K) : Prop := ∀ l, r.ref = some l → ∀ x ∈ l, x ≤ 0

/-- The histories in which no reference point given has a positive component. -/
inductive Nonpos {k : Nat} {X D : Type} (c : Cfg k X D K) (G : Oracle k D K → Prop) :
    St k X K → List (Req k X K) → Prop
  | init : Nonpos c G St.init [.initial]
  | next {s iss req r orc s' o} : Nonpos c G s iss → req ∈ iss → G orc → NonposRef r →
      answer c s req r orc = (s', o) → Nonpos c G s' (extend o iss)

theorem Nonpos.reached {k : Nat} {X D : Type} {c : Cfg k X D K} {G} {s iss} (h : Nonpos c G s iss) :
    Reached c G s iss := by
  induction h with
  | init => exact .init
  | next _ hr hG _ ha ih => exact .next ih hr hG ha

/-- `x` respects the bounds of the variables and nothing within the bounds dominates it. -/
def BestInBounds (P : Side m K) (obj : Vec m K → Vec k K) (x : Vec m K) : Prop :=
  P.inBounds x ∧ ∀ y, P.inBounds y → ¬ Dominates (obj y) (obj x)

theorem solves_best {c : Cfg (k + 1) (Vec m K) (Vec m K) K} {P : Side m K} {mu q : Vec (k + 1) K} {x : Vec m K}
    (hmu : ∀ i, 0 ≤ mu i) (hlt : ∀ i, c.utopian i < c.nadir i) (h : Solves x (asfTask c P mu q)) :
    BestInBounds P c.obj x := by
  refine ⟨h.1, refPointASF_pareto (q := q) (rho := 1 / 10000) hmu hlt (by norm_num) fun y hy => ?_⟩
  obtain ⟨a, ha, hle⟩ := h.2 y hy _ rfl
  cases ha
  exact hle

theorem weights_nums {c : Cfg (k + 1) (Vec m K) (Vec m K) K} (hlt : ∀ i, c.utopian i < c.nadir i) {l : List K}
    (hl : ∀ x ∈ l, x ≤ 0) (hk : l.length = k + 1) :
    ∃ mu : Vec (k + 1) K, weights c (toVec (k + 1) l) = (fun i => .num (mu i)) ∧ ∀ i, 0 ≤ mu i := by
  refine ⟨fun i => toVec (k + 1) l i / (c.utopian i - c.nadir i), ?_, ?_⟩
  · funext i
    unfold weights fdiv
    rw [if_neg (sub_ne_zero.2 (hlt i).ne)]
  · intro i
    have hi : i.val < l.length := by omega
    refine div_nonneg_of_nonpos ?_ (by have := hlt i; linarith)
    simp only [toVec, List.getElem?_eq_getElem hi, Option.getD_some]
    exact hl _ (List.getElem_mem hi)

/-- What is kept at the current place of the storage. -/
def Kept (P : Side m K) (c : Cfg (k + 1) (Vec m K) (Vec m K) K) (s : St (k + 1) (Vec m K) K) : Prop :=
  ∃ (d : Vec m K) (e : Fin (k + 1) → Vec m K), s.xs[s.h]? = some (some d) ∧ s.fs[s.h]? = some (some (c.obj d)) ∧
    s.axs[s.h]? = some (some e) ∧ s.afs[s.h]? = some (some fun i => c.obj (e i)) ∧
    BestInBounds P c.obj d ∧ ∀ i, BestInBounds P c.obj (e i)

/-- What a request contains. -/
def Fine (P : Side m K) (c : Cfg (k + 1) (Vec m K) (Vec m K) K) : Req (k + 1) (Vec m K) K → Prop
  | .initial => True
  | .nav f a => (∃ d, f = c.obj d ∧ BestInBounds P c.obj d) ∧ ∀ i, ∃ d, a i = c.obj d ∧ BestInBounds P c.obj d
  | .stop x f => ∃ d, x = some d ∧ f = some (c.obj d) ∧ BestInBounds P c.obj d

theorem solved_kept {c : Cfg (k + 1) (Vec m K) (Vec m K) K} {P : Side m K} (hid : ∀ d, c.vars d = d)
    (hlt : ∀ i, c.utopian i < c.nadir i) {orc : Oracle (k + 1) (Vec m K) K} (hE : Solver c P orc) {l : List K}
    (hl : ∀ x ∈ l, x ≤ 0) (hk : l.length = k + 1) {s : St (k + 1) (Vec m K) K} (hs : Store s) :
    Kept P c (solved c orc (toVec (k + 1) l) s) ∧ Fine P c (shown c orc (toVec (k + 1) l)) := by
  obtain ⟨mu, hw, hmu⟩ := weights_nums hlt hl hk
  have h1 : BestInBounds P c.obj (orc.main (weights c (toVec (k + 1) l)) (toVec (k + 1) l)) := by
    rw [hw]
    exact solves_best hmu hlt (hE.main mu _ hmu)
  have h2 : ∀ i p, BestInBounds P c.obj (orc.add i (weights c (toVec (k + 1) l)) p) := by
    intro i p
    rw [hw]
    exact solves_best hmu hlt (hE.add i mu _ hmu)
  constructor
  · obtain ⟨a, b, d, e, f, g, h⟩ := hs
    refine ⟨orc.main (weights c (toVec (k + 1) l)) (toVec (k + 1) l), fun i => orc.add i (weights c (toVec (k + 1) l))
      (prp c (toVec (k + 1) l) (c.obj (orc.main (weights c (toVec (k + 1) l)) (toVec (k + 1) l))) i), ?_, ?_, ?_, ?_,
      h1, fun i => h2 i _⟩
    · rw [← hid (orc.main _ _)]
      exact set_get (by omega)
    · exact set_get (by omega)
    · have : (fun i => orc.add i (weights c (toVec (k + 1) l)) (prp c (toVec (k + 1) l)
          (c.obj (orc.main (weights c (toVec (k + 1) l)) (toVec (k + 1) l))) i)) =
          fun i => c.vars (orc.add i (weights c (toVec (k + 1) l)) (prp c (toVec (k + 1) l)
          (c.obj (orc.main (weights c (toVec (k + 1) l)) (toVec (k + 1) l))) i)) := by
        funext i
        exact (hid _).symm
      rw [this]
      exact set_get (by omega)
    · exact set_get (by omega)
  · exact ⟨⟨_, rfl, h1⟩, fun i => ⟨_, rfl, h2 i _⟩⟩

theorem Kept.choose {P : Side m K} {c : Cfg (k + 1) (Vec m K) (Vec m K) K} {s : St (k + 1) (Vec m K) K}
    (h : Kept P c s) {r : Resp K} (hv : validateNav c r = .ok ()) (hsat : r.satisfied = some true) {v : PyVal}
    (hi : r.index = some v) {q : Option (Req (k + 1) (Vec m K) K)} (hc : choose v s = (s, .ok q)) :
    ∃ y, q = some y ∧ Fine P c y := by
  obtain ⟨d, e, hx, hf, hax, haf, hd, he⟩ := h
  obtain ⟨v', hv', hcase⟩ := validateIndex_ok (validateNav_index hv hsat)
  rw [hi] at hv'
  cases hv'
  rcases hcase with h0 | ⟨h0, hint, j, hj⟩ | ⟨h0, hno, _⟩
  · rw [choose_zero h0 hx hf] at hc
    simp only [Prod.mk.injEq, Except.ok.injEq, true_and] at hc
    exact ⟨_, hc.symm, d, rfl, rfl, hd⟩
  · rw [choose_int h0 hint hj hax haf] at hc
    simp only [Prod.mk.injEq, Except.ok.injEq, true_and] at hc
    exact ⟨_, hc.symm, e j, rfl, rfl, he j⟩
  · rw [choose_other h0 hno hax] at hc
    simp at hc

theorem Nonpos.kept {c : Cfg (k + 1) (Vec m K) (Vec m K) K} {P : Side m K} (hid : ∀ d, c.vars d = d)
    (hlt : ∀ i, c.utopian i < c.nadir i) {s : St (k + 1) (Vec m K) K} {iss : List (Req (k + 1) (Vec m K) K)}
    (h : Nonpos c (Solver c P) s iss) :
    ((∀ q ∈ iss, q = .initial) ∨ Kept P c s) ∧ ∀ q ∈ iss, Fine P c q := by
  induction h with
  | init => exact ⟨.inl (by simp), by simp [Fine]⟩
  | @next s iss req r orc s' o hs hr hG hneg ha ih =>
    have hst := answer_step hs.reached.store ha
    have hx := hs.reached.store
    cases hst with
    | refused => exact ih
    | @ended x f =>
      refine ⟨.inr (ih.1.resolve_left fun hall => by simpa using hall _ hr), ?_⟩
      intro q hq
      rcases List.mem_cons.1 hq with rfl | hq
      · exact ih.2 _ hr
      · exact ih.2 _ hq
    | initial _ hl hk =>
      obtain ⟨h1, h2⟩ := solved_kept hid hlt hG (hneg _ hl) hk hx
      refine ⟨.inr h1, fun q hq => ?_⟩
      rcases List.mem_cons.1 hq with rfl | hq
      · exact h2
      · exact ih.2 _ hq
    | forward _ _ hl hk =>
      obtain ⟨h1, h2⟩ := solved_kept hid hlt hG (hneg _ hl) hk (expand_store hx)
      refine ⟨.inr h1, fun q hq => ?_⟩
      rcases List.mem_cons.1 hq with rfl | hq
      · exact h2
      · exact ih.2 _ hq
    | chosen hv hsat hi hc =>
      have hk : Kept P c s := ih.1.resolve_left fun hall => by simpa using hall _ hr
      rcases o with e | q
      · exact ⟨.inr hk, ih.2⟩
      · obtain ⟨y, rfl, hy⟩ := hk.choose hv hsat hi hc
        refine ⟨.inr hk, fun q hq => ?_⟩
        rcases List.mem_cons.1 hq with rfl | hq
        · exact hy
        · exact ih.2 _ hq

/-! ### C99 -/

/-- The full claim: with exact minimizers and no positive component in the reference points given, whatever the
order of the answers, every objective vector shown is that of a Pareto optimal solution, and every stop request
returns a Pareto optimal solution with its objective vector. -/
def SessionOptimal (c : Cfg (k + 1) (Vec m K) (Vec m K) K) (P : Side m K) : Prop :=
  ∀ s iss, Nonpos c (Solver c P) s iss →
    (∀ f a, Req.nav f a ∈ iss → (∃ d, f = c.obj d ∧ Verif.ParetoOptimal P c.obj d) ∧
      ∀ i, ∃ d, a i = c.obj d ∧ Verif.ParetoOptimal P c.obj d) ∧
    ∀ x f, Req.stop x f ∈ iss → ∃ d, x = some d ∧ f = some (c.obj d) ∧ Verif.ParetoOptimal P c.obj d

/-- C99 up to the constraints: with exact minimizers and no positive component in the reference points given, in
every history, every current and additional objective vector shown belongs to a solution that respects the bounds
of the variables and is not dominated by any vector within the bounds, and every stop request returns such a
solution with its own objective vector; a solution of this kind that satisfies the constraints is Pareto
optimal. Missing: the constraints, which the minimizers are not given (`C99_fails_constraints`); positive
components (`C48_fails`). -/
theorem C99_optimal_partial {c : Cfg (k + 1) (Vec m K) (Vec m K) K} {P : Side m K} (hid : ∀ d, c.vars d = d)
    (hlt : ∀ i, c.utopian i < c.nadir i) {s : St (k + 1) (Vec m K) K} {iss : List (Req (k + 1) (Vec m K) K)}
    (h : Nonpos c (Solver c P) s iss) :
    (∀ f a, Req.nav f a ∈ iss → (∃ d, f = c.obj d ∧ BestInBounds P c.obj d) ∧
      ∀ i, ∃ d, a i = c.obj d ∧ BestInBounds P c.obj d) ∧
    (∀ x f, Req.stop x f ∈ iss → ∃ d, x = some d ∧ f = some (c.obj d) ∧ BestInBounds P c.obj d) ∧
    ∀ d, BestInBounds P c.obj d → P.constraints d → Verif.ParetoOptimal P c.obj d :=
  ⟨fun _ _ hq => (h.kept hid hlt).2 _ hq, fun _ _ hq => (h.kept hid hlt).2 _ hq,
    fun _ hd hc => ⟨⟨hd.1, hc⟩, fun y hy => hd.2 y hy.1⟩⟩

/-- C99 for problems without constraints: all solutions shown and returned are Pareto optimal. -/
theorem C99_unconstrained {c : Cfg (k + 1) (Vec m K) (Vec m K) K} {P : Side m K} (hid : ∀ d, c.vars d = d)
    (hlt : ∀ i, c.utopian i < c.nadir i) (hP : ∀ x, P.inBounds x → P.constraints x) : SessionOptimal c P := by
  intro s iss h
  obtain ⟨h1, h2, h3⟩ := C99_optimal_partial hid hlt h
  refine ⟨fun f a hq => ⟨?_, fun i => ?_⟩, fun x f hq => ?_⟩
  · obtain ⟨d, hd, hb⟩ := (h1 f a hq).1
    exact ⟨d, hd, h3 d hb (hP d hb.1)⟩
  · obtain ⟨d, hd, hb⟩ := (h1 f a hq).2 i
    exact ⟨d, hd, h3 d hb (hP d hb.1)⟩
  · obtain ⟨d, hx, hd, hb⟩ := h2 x f hq
    exact ⟨d, hx, hd, h3 d hb (hP d hb.1)⟩

/-! An example: minimize `x - 1` and `-x` for `0 ≤ x ≤ 1`, with the constraint `x ≤ b`. -/

def seCfg : Cfg 2 (Vec 1 ℚ) (Vec 1 ℚ) ℚ where
  ideal := ![-1, -1]
  nadir := ![0, 0]
  utopian := ![-101/100, -101/100]
  vars := fun x => x
  obj := fun x => ![x 0 - 1, - x 0]
  nrm := supNorm

def seSide (b : ℚ) : Side 1 ℚ where
  inBounds := fun x => 0 ≤ x 0 ∧ x 0 ≤ 1
  constraints := fun x => x 0 ≤ b

/-- The exact solution of the achievement problem of the example. -/
def seBest (w : Fin 2 → Fl ℚ) (q : Vec 2 ℚ) : Vec 1 ℚ :=
  ![max 0 (min 1 ((finite (w 0) * (q 0 + 1) - finite (w 1) * q 1) / (finite (w 0) + finite (w 1))))]

def seOrc : Oracle 2 (Vec 1 ℚ) ℚ where
  main := seBest
  add := fun _ => seBest

theorem seCfg_value (mu q : Vec 2 ℚ) (x : Vec 1 ℚ) :
    refPointASF mu seCfg.nadir seCfg.utopian (1 / 10000) q (seCfg.obj x) =
      max (mu 0 * (x 0 - 1 - q 0)) (mu 1 * (- x 0 - q 1)) + 1 / 10000 * ((-1 - q 0 - q 1) / (101 / 100)) := by
  unfold refPointASF
  rw [vmax_two, Fin.sum_univ_two]
  simp [seCfg]
  ring

theorem seBest_min {a b q0 q1 t : ℚ} (ha : 0 ≤ a) (hb : 0 ≤ b) {y : ℚ} (h0 : 0 ≤ y) (h1 : y ≤ 1)
    (htt : t = max 0 (min 1 ((a * (q0 + 1) - b * q1) / (a + b)))) :
    max (a * (t - 1 - q0)) (b * (- t - q1)) ≤ max (a * (y - 1 - q0)) (b * (- y - q1)) := by
  rcases (add_nonneg ha hb).eq_or_lt with hz | hab
  · have h2 : a = 0 := by linarith
    have h3 : b = 0 := by linarith
    rw [h2, h3]
    simp
  generalize hu : (a * (q0 + 1) - b * q1) / (a + b) = u at htt
  have hu' : a * (u - 1 - q0) = b * (- u - q1) := by
    rw [div_eq_iff hab.ne'] at hu
    linarith
  rcases le_total u 0 with hu0 | hu0
  · have ht : t = 0 := by
      rw [htt, min_eq_right (by linarith), max_eq_left hu0]
    rw [ht]
    refine max_le ?_ ?_
    · exact (mul_le_mul_of_nonneg_left (by linarith) ha).trans (le_max_left _ _)
    · refine le_trans ?_ (le_max_left _ _)
      have h2 : a * (u - 1 - q0) ≤ a * (y - 1 - q0) := mul_le_mul_of_nonneg_left (by linarith) ha
      have h3 : b * (- 0 - q1) ≤ b * (- u - q1) := mul_le_mul_of_nonneg_left (by linarith) hb
      linarith
  · rcases le_total u 1 with hu1 | hu1
    · have ht : t = u := by
        rw [htt, min_eq_right hu1, max_eq_right hu0]
      rw [ht, hu', max_self]
      rcases le_total u y with h | h
      · refine le_trans ?_ (le_max_left _ _)
        rw [← hu']
        exact mul_le_mul_of_nonneg_left (by linarith) ha
      · exact (mul_le_mul_of_nonneg_left (by linarith) hb).trans (le_max_right _ _)
    · have ht : t = 1 := by
        rw [htt, min_eq_left hu1, max_eq_right zero_le_one]
      rw [ht]
      refine max_le ?_ ?_
      · refine le_trans ?_ (le_max_right _ _)
        have h2 : a * (1 - 1 - q0) ≤ a * (u - 1 - q0) := mul_le_mul_of_nonneg_left (by linarith) ha
        have h3 : b * (- u - q1) ≤ b * (- y - q1) := mul_le_mul_of_nonneg_left (by linarith) hb
        linarith
      · exact (mul_le_mul_of_nonneg_left (by linarith) hb).trans (le_max_right _ _)

theorem seBest_solves (b : ℚ) {mu : Vec 2 ℚ} (q : Vec 2 ℚ) (hmu : ∀ i, 0 ≤ mu i) :
    Solves (seBest (fun i => .num (mu i)) q) (asfTask seCfg (seSide b) mu q) := by
  refine ⟨⟨le_max_left _ _, max_le zero_le_one (min_le_left _ _)⟩, fun y hy v hv => ?_⟩
  simp only [asfTask, Option.some.injEq] at hv
  refine ⟨_, rfl, ?_⟩
  rw [← hv, seCfg_value, seCfg_value]
  exact add_le_add_left (seBest_min (hmu 0) (hmu 1) hy.1 hy.2 rfl) _

theorem seOrc_solver (b : ℚ) : Solver seCfg (seSide b) seOrc where
  main := fun _ q hmu => seBest_solves b q hmu
  add := fun _ _ q hmu => seBest_solves b q hmu

/-- First the reference point (-1/2, -1/4), then (-3/4, -1), then the second additional solution is chosen. -/
def seFirst : Resp ℚ := { ref := some [-1/2, -1/4] }
def seNext : Resp ℚ := { ref := some [-3/4, -1] }
def seS1 : St 2 (Vec 1 ℚ) ℚ := (answer seCfg St.init .initial seFirst seOrc).1
def seR1 : Req 2 (Vec 1 ℚ) ℚ := getReq (answer seCfg St.init .initial seFirst seOrc).2
theorem se_step1 : answer seCfg St.init .initial seFirst seOrc = (seS1, .ok (some seR1)) :=
  eq_of_beq (by decide +kernel)
def seS2 : St 2 (Vec 1 ℚ) ℚ := (answer seCfg seS1 seR1 seNext seOrc).1
def seR2 : Req 2 (Vec 1 ℚ) ℚ := getReq (answer seCfg seS1 seR1 seNext seOrc).2
theorem se_step2 : answer seCfg seS1 seR1 seNext seOrc = (seS2, .ok (some seR2)) :=
  eq_of_beq (by decide +kernel)
def seR3 : Req 2 (Vec 1 ℚ) ℚ := getReq (answer seCfg seS2 seR2 (exPick 2) seOrc).2
theorem se_step3 : answer seCfg seS2 seR2 (exPick 2) seOrc = (seS2, .ok (some seR3)) :=
  eq_of_beq (by decide +kernel)

theorem seR1_eq : seR1 = .nav ![-7/12, -5/12] ![![-17/36, -19/36], ![-23/36, -13/36]] :=
  eq_of_beq (by decide +kernel)
theorem seR2_eq : seR2 = .nav ![-9/28, -19/28] ![![-27/196, -169/196], ![-111/196, -85/196]] :=
  eq_of_beq (by decide +kernel)
theorem seR3_eq : seR3 = .stop (some ![85/196]) (some ![-111/196, -85/196]) := eq_of_beq (by decide +kernel)

theorem seFirst_nonpos : NonposRef seFirst := by
  intro l hl
  cases hl
  decide +kernel

theorem seNext_nonpos : NonposRef seNext := by
  intro l hl
  cases hl
  decide +kernel

theorem se_nonpos {G : Oracle 2 (Vec 1 ℚ) ℚ → Prop} (hG : G seOrc) :
    Nonpos seCfg G seS2 [seR3, seR2, seR1, .initial] :=
  .next (.next (.next .init List.mem_cons_self hG seFirst_nonpos se_step1) List.mem_cons_self hG seNext_nonpos se_step2)
    List.mem_cons_self hG (fun _ h => by cases h) se_step3

example := C99_optimal_partial (fun _ => rfl) (by decide +kernel) (se_nonpos (seOrc_solver (1/4)))

example := C99_unconstrained (c := seCfg) (P := seSide 1) (fun _ => rfl) (by decide +kernel) (fun _ h => h.2)
  _ _ (se_nonpos (seOrc_solver 1))

/-- C99 fails: on the example with the constraint `x ≤ 1/4` and exact minimizers, the first solution shown,
`x = 5/12`, and the solution returned at the end, `x = 85/196`, violate the constraint; there are Pareto optimal
solutions. -/
theorem C99_fails_constraints : ¬ SessionOptimal seCfg (seSide (1/4)) ∧
    (∃ s iss x f, Nonpos seCfg (Solver seCfg (seSide (1/4))) s iss ∧ Req.stop (some x) f ∈ iss ∧
      ¬ (seSide (1/4)).feasible x) ∧
    Verif.ParetoOptimal (seSide (1/4)) seCfg.obj ![1/4] := by
  have hstop : Req.stop (some ![85/196]) (some ![-111/196, -85/196]) ∈ [seR3, seR2, seR1, .initial] := by
    rw [← seR3_eq]
    exact List.mem_cons_self
  have hno : ¬ (seSide (1/4)).feasible ![85/196] := by
    rintro ⟨_, h⟩
    have : (85/196 : ℚ) ≤ 1/4 := h
    norm_num at this
  refine ⟨fun h => ?_, ⟨_, _, _, _, se_nonpos (seOrc_solver (1/4)), hstop, hno⟩, ?_⟩
  · obtain ⟨d, hd, _, hp⟩ := (h _ _ (se_nonpos (seOrc_solver (1/4)))).2 _ _ hstop
    cases hd
    exact hno hp.1
  · refine ⟨⟨⟨by decide +kernel, by decide +kernel⟩, le_rfl⟩, ?_⟩
    rintro y - ⟨h1, j, hj⟩
    have h2 : y 0 - 1 ≤ 1 / 4 - 1 := h1 0
    have h3 : - y 0 ≤ - (1 / 4) := h1 1
    match j with
    | 0 => have : y 0 - 1 < 1 / 4 - 1 := hj; linarith
    | 1 => have : - y 0 < - (1 / 4) := hj; linarith

end Verif.Rpm
