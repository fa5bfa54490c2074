import Verif.Rpm.Attain
import Mathlib.Tactic.LinearCombination

set_option linter.unusedSectionVars false

/-!
# The reference point method: asking for more of one objective, C151
-/

namespace Verif.Rpm

variable {K : Type} [Field K] [LinearOrder K] [IsStrictOrderedRing K] {k m : Nat}

/-- Specification: the reference point `q'` asks for a better value of objective `j` than `q` and for the same
values of the others. -/
def AsksMore (q q' : Vec k K) (j : Fin k) : Prop := q' j < q j ∧ ∀ i, i ≠ j → q' i = q i

/-- The solution shown for a reference point without positive components is an exact solution of the achievement
problem with the weights `q / (utopian - nadir)`. -/
theorem shown_solves {c : Cfg (k + 1) (Vec m K) (Vec m K) K} {P : Side m K}
    (hlt : ∀ i, c.utopian i < c.nadir i)
    {s : St (k + 1) (Vec m K) K} {iss : List (Req (k + 1) (Vec m K) K)} {req : Req (k + 1) (Vec m K) K} {r : Resp K}
    {orc : Oracle (k + 1) (Vec m K) K} {s' : St (k + 1) (Vec m K) K} {f : Vec (k + 1) K}
    {a : Fin (k + 1) → Vec (k + 1) K} {q : Vec (k + 1) K} (h : Reached c (Solver c P) s iss)
    (hE : Solver c P orc) (hq : r.ref = some (List.ofFn q)) (hneg : ∀ i, q i ≤ 0)
    (ha : answer c s req r orc = (s', .ok (some (.nav f a)))) :
    ∃ x, f = c.obj x ∧ Solves x (asfTask c P (fun i => q i / (c.utopian i - c.nadir i)) q) := by
  obtain ⟨l, q', w, p, hl, hlen, hli, hw, hf, -⟩ := C47_perturbed h ha
  have hqq : q' = q := by
    funext i
    have := hli i
    rw [hq] at hl
    cases hl
    simpa [-List.ofFn_succ, Nat.lt_succ_iff.1 i.isLt] using this.symm
  subst hqq
  have hw' : w = fun i => .num (q' i / (c.utopian i - c.nadir i)) := funext fun i => hw i (hlt i).ne
  rw [hw'] at hf
  exact ⟨_, hf, hE.main _ q' fun i => div_nonneg_of_nonpos (hneg i) (by have := hlt i; linarith)⟩

/-- Two weighted maxima that differ in one component only, which is larger in the second: if `x` is best for the
first and `y` for the second, then `y` exceeds `x` in that component at most by the difference of the additional
terms, or both are best for both. -/
theorem raised_component {v v' w w' : Vec (k + 1) K} {j : Fin (k + 1)} {e : K}
    (hv : ∀ i, i ≠ j → w i = v i) (hv' : ∀ i, i ≠ j → w' i = v' i) (hj' : v' j ≤ w' j)
    (h1 : vmax v + e ≤ vmax v') (h2 : vmax w' ≤ vmax w + e) :
    w' j ≤ w j + e ∨ (vmax v + e = vmax v' ∧ vmax w' = vmax w + e) := by
  by_cases hc : vmax w ≤ w j
  · left
    have := le_vmax w' j
    linarith
  · right
    push Not at hc
    have h3 : vmax w ≤ vmax v := by
      obtain ⟨i, -, hi⟩ := Finset.exists_mem_eq_sup' Finset.univ_nonempty w
      change vmax w = w i at hi
      rcases eq_or_ne i j with rfl | hij
      · rw [hi] at hc
        exact absurd hc (lt_irrefl _)
      · rw [hi, hv i hij]
        exact le_vmax v i
    have h4 : vmax v' ≤ vmax w' := by
      rw [vmax_le_iff]
      intro i
      rcases eq_or_ne i j with rfl | hij
      · exact hj'.trans (le_vmax w' i)
      · rw [← hv' i hij]
        exact le_vmax w' i
    constructor <;> linarith

theorem augmentation_le {c : Cfg (k + 1) (Vec m K) (Vec m K) K} (hlt : ∀ i, c.utopian i < c.nadir i)
    {f g : Vec (k + 1) K} (hf : AtLeastAsGood f c.nadir) (hg : AtLeastAsGood c.utopian g) :
    ∑ i, (f i - g i) / (c.nadir i - c.utopian i) ≤ k + 1 := by
  calc ∑ i, (f i - g i) / (c.nadir i - c.utopian i) ≤ ∑ _i : Fin (k + 1), (1 : K) := by
        apply Finset.sum_le_sum
        intro i _
        rw [div_le_one (by have := hlt i; linarith)]
        have := hf i
        have := hg i
        linarith
    _ = k + 1 := by simp

/-! ### C151 -/

/-- The full claim: with exact minimizers, whatever the history, of two answers to the same request with
reference points without positive components, of which the second asks for a better value of objective `j` and for
the same values of the others, the second does not lead to a solution with a worse value of `j`. -/
def MoreForAsking (c : Cfg (k + 1) (Vec m K) (Vec m K) K) (P : Side m K) : Prop :=
  ∀ s iss req r r' orc s₁ s₂ f f' a a' q q' j, Reached c (Solver c P) s iss → req ∈ iss → Solver c P orc →
    r.ref = some (List.ofFn q) → r'.ref = some (List.ofFn q') → (∀ i, q i ≤ 0) → AsksMore q q' j →
    answer c s req r orc = (s₁, .ok (some (.nav f a))) → answer c s req r' orc = (s₂, .ok (some (.nav f' a'))) →
    f' j ≤ f j

/-- Specification: `x` minimizes the achievement function of the reference point `q` within the bounds: the largest
of `|q i| / range i * (f i - q i)` plus 1e-4 times the sum of `(f i - q i) / range i`, where
`range = nadir - utopian`. -/
def BestFor (c : Cfg (k + 1) (Vec m K) (Vec m K) K) (P : Side m K) (q : Vec (k + 1) K) (x : Vec m K) : Prop :=
  P.inBounds x ∧ ∀ y, P.inBounds y →
    Finset.univ.sup' Finset.univ_nonempty (fun i => |q i| / (c.nadir i - c.utopian i) * (c.obj x i - q i)) +
        1 / 10000 * ∑ i, (c.obj x i - q i) / (c.nadir i - c.utopian i) ≤
      Finset.univ.sup' Finset.univ_nonempty (fun i => |q i| / (c.nadir i - c.utopian i) * (c.obj y i - q i)) +
        1 / 10000 * ∑ i, (c.obj y i - q i) / (c.nadir i - c.utopian i)

theorem abs_weight {c : Cfg (k + 1) (Vec m K) (Vec m K) K} {q : Vec (k + 1) K} (hneg : ∀ i, q i ≤ 0)
    (i : Fin (k + 1)) : q i / (c.utopian i - c.nadir i) = |q i| / (c.nadir i - c.utopian i) := by
  rw [abs_of_nonpos (hneg i), ← neg_sub (c.nadir i), div_neg, neg_div]

theorem answers_iff {c : Cfg (k + 1) (Vec m K) (Vec m K) K} {P : Side m K} {q : Vec (k + 1) K}
    (hneg : ∀ i, q i ≤ 0) {x : Vec m K} :
    Solves x (asfTask c P (fun i => q i / (c.utopian i - c.nadir i)) q) ↔ BestFor c P q x := by
  have e : (fun i => q i / (c.utopian i - c.nadir i)) = fun i => |q i| / (c.nadir i - c.utopian i) :=
    funext fun i => abs_weight hneg i
  rw [e]
  constructor
  · rintro ⟨h1, h2⟩
    refine ⟨h1, fun y hy => ?_⟩
    obtain ⟨b, hb, hle⟩ := h2 y hy _ rfl
    cases hb
    exact hle
  · rintro ⟨h1, h2⟩
    refine ⟨h1, fun y hy b hb => ⟨_, rfl, ?_⟩⟩
    cases hb
    exact h2 y hy

/-- C151 up to the augmentation, for objectives that do not fall below the sum of the two reference values: in every
history, the solution for the reference point that asks for more of objective `j` is not worse in `j` than the
one for the other reference point, apart from 1e-4 times the number of objectives times the range over its share
`|q' j| / range`; or both solutions are best for both reference points, so that the minimizer might as well have
returned them the other way round. The utopian and nadir points are meant to enclose the Pareto optimal
solutions. Missing: objectives below the sum of the reference values (`C151_fails`). -/
theorem C151_asking_more_partial {c : Cfg (k + 1) (Vec m K) (Vec m K) K} {P : Side m K}
    (hlt : ∀ i, c.utopian i < c.nadir i)
    (hbox : ∀ x, BestInBounds P c.obj x → AtLeastAsGood c.utopian (c.obj x) ∧ AtLeastAsGood (c.obj x) c.nadir)
    {s s₁ s₂ : St (k + 1) (Vec m K) K} {iss : List (Req (k + 1) (Vec m K) K)} {req : Req (k + 1) (Vec m K) K}
    {r r' : Resp K} {orc : Oracle (k + 1) (Vec m K) K} {f f' : Vec (k + 1) K}
    {a a' : Fin (k + 1) → Vec (k + 1) K} {q q' : Vec (k + 1) K} {j : Fin (k + 1)}
    (h : Reached c (Solver c P) s iss) (hE : Solver c P orc) (hq : r.ref = some (List.ofFn q))
    (hq' : r'.ref = some (List.ofFn q')) (hneg : ∀ i, q i ≤ 0) (hm : AsksMore q q' j)
    (hbelow : ∀ x, P.inBounds x → q j + q' j ≤ c.obj x j)
    (ha : answer c s req r orc = (s₁, .ok (some (.nav f a))))
    (ha' : answer c s req r' orc = (s₂, .ok (some (.nav f' a')))) :
    |q' j| * (f' j - f j) ≤ 1 / 10000 * (k + 1) * (c.nadir j - c.utopian j) ∨
    ∃ x y, f = c.obj x ∧ f' = c.obj y ∧ (BestFor c P q x ∧ BestFor c P q y) ∧
      BestFor c P q' x ∧ BestFor c P q' y := by
  have hneg' : ∀ i, q' i ≤ 0 := by
    intro i
    rcases eq_or_ne i j with rfl | hij
    · exact hm.1.le.trans (hneg i)
    · rw [hm.2 i hij]
      exact hneg i
  have hpos : ∀ i, 0 < c.nadir i - c.utopian i := fun i => by have := hlt i; linarith
  obtain ⟨x, rfl, hx⟩ := shown_solves hlt h hE hq hneg ha
  obtain ⟨y, rfl, hy⟩ := shown_solves hlt h hE hq' hneg' ha'
  have bx := solves_best (fun i => div_nonneg_of_nonpos (hneg i) (by have := hlt i; linarith)) hlt hx
  have byy := solves_best (fun i => div_nonneg_of_nonpos (hneg' i) (by have := hlt i; linarith)) hlt hy
  have sx := (answers_iff hneg).1 hx
  have sy := (answers_iff hneg').1 hy
  have h1 := sx.2 y byy.1
  have h2 := sy.2 x bx.1
  have hsum : ∀ p : Vec (k + 1) K,
      (∑ i, (c.obj x i - p i) / (c.nadir i - c.utopian i)) - ∑ i, (c.obj y i - p i) / (c.nadir i - c.utopian i) =
      ∑ i, (c.obj x i - c.obj y i) / (c.nadir i - c.utopian i) := by
    intro p
    rw [← Finset.sum_sub_distrib]
    exact Finset.sum_congr rfl fun i _ => by rw [← sub_div]; congr 1; ring
  have he := augmentation_le hlt (hbox x bx).2 (hbox y byy).1
  have e1 := hsum q
  have e2 := hsum q'
  generalize hS : ∑ i, (c.obj x i - c.obj y i) / (c.nadir i - c.utopian i) = S at he e1 e2
  have key := raised_component (j := j) (e := 1 / 10000 * S)
    (v := fun i => |q i| / (c.nadir i - c.utopian i) * (c.obj x i - q i))
    (v' := fun i => |q i| / (c.nadir i - c.utopian i) * (c.obj y i - q i))
    (w := fun i => |q' i| / (c.nadir i - c.utopian i) * (c.obj x i - q' i))
    (w' := fun i => |q' i| / (c.nadir i - c.utopian i) * (c.obj y i - q' i))
    (fun i hi => by simp only [hm.2 i hi]) (fun i hi => by simp only [hm.2 i hi]) (by
      show |q j| / _ * _ ≤ |q' j| / _ * _
      rw [abs_of_nonpos (hneg j), abs_of_nonpos (hneg' j), div_mul_eq_mul_div, div_mul_eq_mul_div,
        div_le_div_iff_of_pos_right (hpos j)]
      have := hbelow y byy.1
      have := hm.1
      nlinarith) (by
      unfold vmax
      linear_combination h1 - 1 / 10000 * e1) (by
      unfold vmax
      linear_combination h2 + 1 / 10000 * e2)
  rcases key with hk | ⟨t1, t2⟩
  · left
    have h3 : |q' j| / (c.nadir j - c.utopian j) * (c.obj y j - c.obj x j) ≤ 1 / 10000 * (k + 1) := by
      have : 1 / 10000 * S ≤ 1 / 10000 * (k + 1) := mul_le_mul_of_nonneg_left he (by norm_num)
      linear_combination hk + this
    rw [div_mul_eq_mul_div, div_le_iff₀ (hpos j)] at h3
    exact h3
  · right
    unfold vmax at t1 t2
    refine ⟨x, y, rfl, rfl, ⟨sx, byy.1, fun z hz => ?_⟩, ⟨bx.1, fun z hz => ?_⟩, sy⟩
    · refine le_trans (le_of_eq ?_) (sx.2 z hz)
      linear_combination -t1 - 1 / 10000 * e1
    · refine le_trans (le_of_eq ?_) (sy.2 z hz)
      linear_combination -t2 + 1 / 10000 * e2

/-- On the example of `Task.lean`, first (-1/2, -1/4), then (-3/4, -1/4) instead. -/
def moreResp : Resp ℚ := { ref := some [-3/4, -1/4] }
def moreReq : Req 2 (Vec 1 ℚ) ℚ := getReq (answer seCfg St.init .initial moreResp seOrc).2
theorem more_step : answer seCfg St.init .initial moreResp seOrc =
    ((answer seCfg St.init .initial moreResp seOrc).1, .ok (some moreReq)) := eq_of_beq (by decide +kernel)
theorem moreReq_eq : moreReq = .nav ![-3/4, -1/4] ![![-3/4, -1/4], ![-3/4, -1/4]] :=
  eq_of_beq (by decide +kernel)

example := C151_asking_more_partial (c := seCfg) (P := seSide 1) (q := ![-1/2, -1/4]) (q' := ![-3/4, -1/4]) (j := 0)
  (by decide +kernel)
  (by
    rintro x ⟨⟨h0, h1⟩, -⟩
    constructor
    · intro i
      match i with
      | 0 => show (-101/100 : ℚ) ≤ x 0 - 1; linarith
      | 1 => show (-101/100 : ℚ) ≤ - x 0; linarith
    · intro i
      match i with
      | 0 => show x 0 - 1 ≤ (0 : ℚ); linarith
      | 1 => show - x 0 ≤ (0 : ℚ); linarith)
  (.init : Reached seCfg (Solver seCfg (seSide 1)) St.init [.initial]) (seOrc_solver 1) (r := seFirst)
  (r' := moreResp) rfl rfl (by decide +kernel) (by unfold AsksMore; decide +kernel)
  (by
    rintro x ⟨h0, h1⟩
    show (-1/2 : ℚ) + -3/4 ≤ x 0 - 1
    linarith)
  (seR1_eq ▸ se_step1) (moreReq_eq ▸ more_step)

/-! The counterexample: two solutions, both better than the reference point. -/

def swCfg : Cfg 2 (Vec 1 ℚ) (Vec 1 ℚ) ℚ where
  ideal := ![-1, -1]
  nadir := ![0, 0]
  utopian := ![-101/100, -101/100]
  vars := fun x => x
  obj := fun x => if x 0 < 1/2 then ![-1, -3/5] else ![-1/2, -13/20]
  nrm := supNorm

/-- The exact solution. -/
def swBest (w : Fin 2 → Fl ℚ) (q : Vec 2 ℚ) : Vec 1 ℚ :=
  if refPointASF (fun i => finite (w i)) swCfg.nadir swCfg.utopian (1 / 10000) q (swCfg.obj ![0]) ≤
    refPointASF (fun i => finite (w i)) swCfg.nadir swCfg.utopian (1 / 10000) q (swCfg.obj ![1]) then ![0] else ![1]

def swOrc : Oracle 2 (Vec 1 ℚ) ℚ where
  main := swBest
  add := fun _ => swBest

theorem swBest_solves (mu q : Vec 2 ℚ) : Solves (swBest (fun i => .num (mu i)) q) (asfTask swCfg tiSide mu q) := by
  have e : ∀ y : Vec 1 ℚ, swCfg.obj y = swCfg.obj ![0] ∨ swCfg.obj y = swCfg.obj ![1] := by
    intro y
    by_cases hy : y 0 < 1/2
    · left; simp only [swCfg, hy, if_true]; norm_num
    · right; simp only [swCfg, hy, if_false]; norm_num
  have e2 : swBest (fun i => .num (mu i)) q =
      if refPointASF mu swCfg.nadir swCfg.utopian (1 / 10000) q (swCfg.obj ![0]) ≤
        refPointASF mu swCfg.nadir swCfg.utopian (1 / 10000) q (swCfg.obj ![1]) then ![0] else ![1] := rfl
  rw [e2]
  refine ⟨?_, fun y _ b hb => ⟨_, rfl, ?_⟩⟩
  · split_ifs <;> exact ⟨by decide +kernel, by decide +kernel⟩
  · simp only [asfTask, Option.some.injEq] at hb
    subst hb
    split_ifs with hc
    · rcases e y with h | h <;> rw [h]
      exact hc
    · rcases e y with h | h <;> rw [h]
      exact (not_le.1 hc).le

theorem swOrc_solver : Solver swCfg tiSide swOrc where
  main := fun mu q _ => swBest_solves mu q
  add := fun _ mu q _ => swBest_solves mu q

def swResp : Resp ℚ := { ref := some [-1/10, -1/2] }
def swResp' : Resp ℚ := { ref := some [-1/5, -1/2] }
def swReq : Req 2 (Vec 1 ℚ) ℚ := .nav ![-1, -3/5] ![![-1/2, -13/20], ![-1, -3/5]]
def swReq' : Req 2 (Vec 1 ℚ) ℚ := .nav ![-1/2, -13/20] ![![-1/2, -13/20], ![-1, -3/5]]
theorem sw_step : answer swCfg St.init .initial swResp swOrc =
    ((answer swCfg St.init .initial swResp swOrc).1, .ok (some swReq)) := eq_of_beq (by decide +kernel)
theorem sw_step' : answer swCfg St.init .initial swResp' swOrc =
    ((answer swCfg St.init .initial swResp' swOrc).1, .ok (some swReq')) := eq_of_beq (by decide +kernel)

/-- C151 fails: of the solutions (-1, -3/5) and (-1/2, -13/20), both better than either reference point, the
reference point (-1/10, -1/2) is answered with the first, and (-1/5, -1/2), which asks for a better first
objective, with the second, whose first objective is far worse. -/
theorem C151_fails : ¬ MoreForAsking swCfg tiSide := by
  intro h
  have := h St.init [.initial] .initial swResp swResp' swOrc _ _ _ _ _ _ ![-1/10, -1/2] ![-1/5, -1/2] 0 .init
    List.mem_cons_self swOrc_solver rfl rfl (by decide +kernel) (by unfold AsksMore; decide +kernel) sw_step sw_step'
  revert this
  decide +kernel

end Verif.Rpm
