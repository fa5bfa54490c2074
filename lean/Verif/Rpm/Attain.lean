import Verif.Rpm.Task

set_option linter.unusedSectionVars false

/-!
# The reference point method: attainable reference points, C102
-/

namespace Verif.Rpm

variable {K : Type} [Field K] [LinearOrder K] [IsStrictOrderedRing K] {k m : Nat}

/-- An exact minimizer of the achievement function with nonnegative weights misses an attainable reference point at
most by the augmentation term. -/
theorem asf_near {c : Cfg (k + 1) (Vec m K) (Vec m K) K} {P : Side m K} {mu q : Vec (k + 1) K} {x : Vec m K}
    (hmu : ∀ i, 0 ≤ mu i) (hlt : ∀ i, c.utopian i < c.nadir i) (h : Solves x (asfTask c P mu q))
    (hatt : ∃ y, P.inBounds y ∧ AtLeastAsGood (c.obj y) q) (i : Fin (k + 1)) :
    mu i * (c.obj x i - q i) ≤ 1 / 10000 * ∑ j, (q j - c.obj x j) / (c.nadir j - c.utopian j) := by
  obtain ⟨y, hy, hle⟩ := hatt
  obtain ⟨a, ha, h⟩ := h.2 y hy _ rfl
  cases ha
  unfold refPointASF at h
  have h0 : vmax (fun i => mu i * (c.obj y i - q i)) ≤ 0 := by
    rw [vmax_le_iff]
    intro i
    have := hle i
    have := hmu i
    nlinarith
  have h1 : ∑ j, (c.obj y j - q j) / (c.nadir j - c.utopian j) ≤ 0 := by
    apply Finset.sum_nonpos
    intro j _
    exact div_nonpos_of_nonpos_of_nonneg (by have := hle j; linarith) (by have := hlt j; linarith)
  have h3 := le_vmax (fun i => mu i * (c.obj x i - q i)) i
  have h4 : ∑ j, (q j - c.obj x j) / (c.nadir j - c.utopian j) =
      - ∑ j, (c.obj x j - q j) / (c.nadir j - c.utopian j) := by
    rw [← Finset.sum_neg_distrib]
    exact Finset.sum_congr rfl fun j _ => by rw [← neg_div, neg_sub]
  rw [h4, mul_neg]
  linarith

/-! ### C102 -/

/-- The full claim: with exact minimizers, the answer to a reference point without positive components that is
attainable within the bounds of the variables is a solution that reaches all reference values, and additional
solutions of which the `i`-th reaches all reference values but perhaps the `i`-th. -/
def ReachesAttainable (c : Cfg (k + 1) (Vec m K) (Vec m K) K) (P : Side m K) : Prop :=
  ∀ s iss req r orc s' f a q, Reached c (Solver c P) s iss → req ∈ iss → Solver c P orc →
    r.ref = some (List.ofFn q) → (∀ i, q i ≤ 0) → AtLeastAsGood q c.nadir →
    (∃ y, P.inBounds y ∧ AtLeastAsGood (c.obj y) q) → answer c s req r orc = (s', .ok (some (.nav f a))) →
    AtLeastAsGood f q ∧ ∀ i j, j ≠ i → a i j ≤ q j

/-- C102 up to the augmentation term: in every history, the answer to an attainable reference point without positive
components misses each reference value by at most 1e-4 times the number of objectives times the range of the
objective over its share `|q i| / range`; the additional solutions likewise, but for the perturbed component, with the
distance of the solution from the reference point added to the bound. The utopian point is meant to be a lower
bound of the objectives. Missing: exactness (`C102_fails`); positive components (`C48_fails`). -/
theorem C102_reaches_partial {c : Cfg (k + 1) (Vec m K) (Vec m K) K} {P : Side m K}
    (hnrm : NormSpec c.nrm) (hlt : ∀ i, c.utopian i < c.nadir i)
    (hut : ∀ x, P.inBounds x → AtLeastAsGood c.utopian (c.obj x))
    {s : St (k + 1) (Vec m K) K} {iss : List (Req (k + 1) (Vec m K) K)} {req : Req (k + 1) (Vec m K) K} {r : Resp K}
    {orc : Oracle (k + 1) (Vec m K) K} {s' : St (k + 1) (Vec m K) K} {f : Vec (k + 1) K}
    {a : Fin (k + 1) → Vec (k + 1) K} {q : Vec (k + 1) K} (h : Reached c (Solver c P) s iss)
    (hE : Solver c P orc) (hq : r.ref = some (List.ofFn q)) (hneg : ∀ i, q i ≤ 0) (hqn : AtLeastAsGood q c.nadir)
    (hatt : ∃ y, P.inBounds y ∧ AtLeastAsGood (c.obj y) q)
    (ha : answer c s req r orc = (s', .ok (some (.nav f a)))) :
    (∀ i, |q i| * (f i - q i) ≤ 1 / 10000 * (k + 1) * (c.nadir i - c.utopian i)) ∧
    ∀ i j, j ≠ i → |q j| * (a i j - q j) ≤
      1 / 10000 * (k + 1 + c.nrm (fun j => q j - f j) / (c.nadir i - c.utopian i)) * (c.nadir j - c.utopian j) := by
  have hsh : Req.nav f a = shown c orc q := by
    have hst := answer_step h.store ha
    generalize ho : Except.ok (some (Req.nav f a)) = o at hst
    have hv : ∀ l, r.ref = some l → toVec (k + 1) l = q := by
      intro l hl
      rw [hq] at hl
      cases hl
      funext i
      simp [toVec, -List.ofFn_succ, Nat.lt_succ_iff.1 i.isLt]
    cases hst with
    | refused => cases ho
    | ended => cases ho
    | initial _ hl _ =>
      simp only [Except.ok.injEq, Option.some.injEq] at ho
      rw [ho, hv _ hl]
    | forward _ _ hl _ =>
      simp only [Except.ok.injEq, Option.some.injEq] at ho
      rw [ho, hv _ hl]
    | chosen _ _ _ hc =>
      rw [← ho] at hc
      obtain ⟨x, f', hx⟩ := choose_result hc
      cases hx
  have hmu : ∀ i, 0 ≤ q i / (c.utopian i - c.nadir i) := fun i =>
    div_nonneg_of_nonpos (hneg i) (by have := hlt i; linarith)
  have hw : weights c q = fun i => .num (q i / (c.utopian i - c.nadir i)) := by
    funext i
    unfold weights fdiv
    rw [if_neg (sub_ne_zero.2 (hlt i).ne)]
  have hpos : ∀ i, 0 < c.nadir i - c.utopian i := fun i => by have := hlt i; linarith
  -- from the weights to the absolute values
  have conv : ∀ i (d b : K), q i / (c.utopian i - c.nadir i) * d ≤ b → |q i| * d ≤ b * (c.nadir i - c.utopian i) := by
    intro i d b hb
    have h1 : q i / (c.utopian i - c.nadir i) = |q i| / (c.nadir i - c.utopian i) := by
      rw [abs_of_nonpos (hneg i), ← neg_sub (c.nadir i), div_neg, neg_div]
    rw [h1, div_mul_eq_mul_div, div_le_iff₀ (hpos i)] at hb
    exact hb
  simp only [shown, hw] at hsh
  injection hsh with hf hadd
  have hm := hE.main _ q hmu
  have hfx := hut _ hm.1
  rw [← hf] at hfx
  have e1 : ∀ (p : Vec (k + 1) K), AtLeastAsGood c.utopian p →
      ∑ j, (q j - p j) / (c.nadir j - c.utopian j) ≤ k + 1 := by
    intro p hp
    calc ∑ j, (q j - p j) / (c.nadir j - c.utopian j) ≤ ∑ _j : Fin (k + 1), (1 : K) := by
          apply Finset.sum_le_sum
          intro j _
          rw [div_le_one (hpos j)]
          have := hqn j
          have := hp j
          linarith
      _ = k + 1 := by simp
  constructor
  · intro i
    apply conv
    have h1 := asf_near hmu hlt hm hatt i
    rw [← hf] at h1
    exact h1.trans (mul_le_mul_of_nonneg_left (e1 f hfx) (by norm_num))
  · intro i j hji
    apply conv
    have hA := hE.add i _ (prp c q f i) hmu
    have hd : 0 ≤ c.nrm (fun j => q j - f j) := hnrm.nonneg _
    have hatt' : ∃ y, P.inBounds y ∧ AtLeastAsGood (c.obj y) (prp c q f i) := by
      obtain ⟨y, hy, hle⟩ := hatt
      refine ⟨y, hy, fun l => (hle l).trans ?_⟩
      unfold prp Rpm.unit
      split_ifs <;> linarith
    have h1 := asf_near hmu hlt hA hatt' j
    have hai : c.obj (orc.add i (fun i => .num (q i / (c.utopian i - c.nadir i))) (prp c q f i)) = a i := by
      rw [hadd, ← hf]
    have hax := hut _ hA.1
    rw [hai] at h1 hax
    have hp : prp c q f i j = q j := by
      unfold prp Rpm.unit
      rw [if_neg hji]
      ring
    rw [hp] at h1
    refine h1.trans (mul_le_mul_of_nonneg_left ?_ (by norm_num))
    have e2 : ∑ l, (prp c q f i l - a i l) / (c.nadir l - c.utopian l) =
        ∑ l, (q l - a i l) / (c.nadir l - c.utopian l) +
          c.nrm (fun j => q j - f j) / (c.nadir i - c.utopian i) := by
      have : ∀ l, (prp c q f i l - a i l) / (c.nadir l - c.utopian l) = (q l - a i l) / (c.nadir l - c.utopian l) +
          if l = i then c.nrm (fun j => q j - f j) / (c.nadir i - c.utopian i) else 0 := by
        intro l
        unfold prp Rpm.unit
        split_ifs with hl
        · subst hl
          ring
        · ring
      rw [Finset.sum_congr rfl fun l _ => this l, Finset.sum_add_distrib, Finset.sum_ite_eq' Finset.univ i]
      simp
    rw [e2]
    have := e1 (a i) hax
    linarith

example := C102_reaches_partial (c := seCfg) (P := seSide 1) (f := ![-7/12, -5/12]) (q := ![-1/2, -1/4])
  supNorm_spec (by decide +kernel)
  (by
    rintro x ⟨h0, h1⟩ i
    match i with
    | 0 => show (-101/100 : ℚ) ≤ x 0 - 1; linarith
    | 1 => show (-101/100 : ℚ) ≤ - x 0; linarith)
  (.init : Reached seCfg (Solver seCfg (seSide 1)) St.init [.initial]) (seOrc_solver 1) (r := seFirst) rfl
  (by decide +kernel) (by unfold AtLeastAsGood; decide +kernel)
  ⟨![3/8], by unfold seSide; decide +kernel, by unfold AtLeastAsGood; decide +kernel⟩ (seR1_eq ▸ se_step1)

/-! The counterexample: two solutions, the second of which loses 1e-6 in the first objective and gains 1/4 in the
second. -/

def tiCfg : Cfg 2 (Vec 1 ℚ) (Vec 1 ℚ) ℚ where
  ideal := ![-1, -1]
  nadir := ![0, 0]
  utopian := ![-101/100, -101/100]
  vars := fun x => x
  obj := fun x => if x 0 < 1/2 then ![-1/2, -1/2] else ![-499999/1000000, -3/4]
  nrm := supNorm

def tiSide : Side 1 ℚ where
  inBounds := fun x => 0 ≤ x 0 ∧ x 0 ≤ 1
  constraints := fun _ => True

/-- The exact solution. -/
def tiBest (w : Fin 2 → Fl ℚ) (q : Vec 2 ℚ) : Vec 1 ℚ :=
  if refPointASF (fun i => finite (w i)) tiCfg.nadir tiCfg.utopian (1 / 10000) q (tiCfg.obj ![0]) ≤
    refPointASF (fun i => finite (w i)) tiCfg.nadir tiCfg.utopian (1 / 10000) q (tiCfg.obj ![1]) then ![0] else ![1]

def tiOrc : Oracle 2 (Vec 1 ℚ) ℚ where
  main := tiBest
  add := fun _ => tiBest

theorem tiBest_solves (mu q : Vec 2 ℚ) : Solves (tiBest (fun i => .num (mu i)) q) (asfTask tiCfg tiSide mu q) := by
  have e : ∀ y : Vec 1 ℚ, tiCfg.obj y = tiCfg.obj ![0] ∨ tiCfg.obj y = tiCfg.obj ![1] := by
    intro y
    by_cases hy : y 0 < 1/2
    · left; simp only [tiCfg, hy, if_true]; norm_num
    · right; simp only [tiCfg, hy, if_false]; norm_num
  have e2 : tiBest (fun i => .num (mu i)) q =
      if refPointASF mu tiCfg.nadir tiCfg.utopian (1 / 10000) q (tiCfg.obj ![0]) ≤
        refPointASF mu tiCfg.nadir tiCfg.utopian (1 / 10000) q (tiCfg.obj ![1]) then ![0] else ![1] := rfl
  rw [e2]
  refine ⟨?_, fun y _ b hb => ⟨_, rfl, ?_⟩⟩
  · split_ifs <;> exact ⟨by decide +kernel, by decide +kernel⟩
  · simp only [asfTask, Option.some.injEq] at hb
    subst hb
    split_ifs with hc
    · rcases e y with h | h <;> rw [h]
      exact hc
    · rcases e y with h | h <;> rw [h]
      exact (not_le.1 hc).le

theorem tiOrc_solver : Solver tiCfg tiSide tiOrc where
  main := fun mu q _ => tiBest_solves mu q
  add := fun _ mu q _ => tiBest_solves mu q

def tiResp : Resp ℚ := { ref := some [-1/2, -1/2] }
def tiReq : Req 2 (Vec 1 ℚ) ℚ := .nav ![-499999/1000000, -3/4] ![![-499999/1000000, -3/4], ![-499999/1000000, -3/4]]
theorem ti_step : answer tiCfg St.init .initial tiResp tiOrc =
    ((answer tiCfg St.init .initial tiResp tiOrc).1, .ok (some tiReq)) := eq_of_beq (by decide +kernel)

/-- C102 fails: the attainable reference point (-1/2, -1/2) is answered with a solution whose first objective is
-0.499999. -/
theorem C102_fails : ¬ ReachesAttainable tiCfg tiSide := by
  intro h
  have := (h St.init [.initial] .initial tiResp tiOrc _ _ _ ![-1/2, -1/2] .init List.mem_cons_self tiOrc_solver rfl
    (by decide +kernel) (by unfold AtLeastAsGood; decide +kernel)
    ⟨![0], by unfold tiSide; decide +kernel, by unfold AtLeastAsGood; decide +kernel⟩ ti_step).1 0
  revert this
  decide +kernel

end Verif.Rpm
