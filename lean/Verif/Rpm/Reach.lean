import Verif.Rpm.Attain
import Verif.Rpm.Finish

/-!
# The reference point method: every solution can be reached (C179)
-/

set_option linter.unusedSectionVars false

namespace Verif.Rpm

variable {K : Type} [Field K] [LinearOrder K] [IsStrictOrderedRing K] {k m : Nat}

/-- Specification: against every other attainable vector `g`, `f` is better in some objective by more, weighted with
the absolute value of `f`, than `rho` times the sum of what it is worse in altogether, in units of `range`: nothing that
gives up little gains very much. -/
def Balanced (rho : K) (range : Vec k K) (attainable : Vec k K → Prop) (f : Vec k K) : Prop :=
  ∀ g, attainable g → g ≠ f → ∃ j, f j < g j ∧
    rho * ∑ i, (f i - g i) / range i < |f j| * ((g j - f j) / range j)

/-- With the objective vector aimed at as reference point, nothing else is best. -/
theorem own_best {c : Cfg (k + 1) (Vec m K) (Vec m K) K} {P : Side m K}
    {x y : Vec m K} (hx : P.inBounds x) (hneg : ∀ i, c.obj x i ≤ 0)
    (hb : Balanced (1 / 10000) (fun i => c.nadir i - c.utopian i) (fun g => ∃ y, P.inBounds y ∧ c.obj y = g) (c.obj x))
    (h : Solves y (asfTask c P (fun i => c.obj x i / (c.utopian i - c.nadir i)) (c.obj x))) : c.obj y = c.obj x := by
  by_contra hc
  obtain ⟨j, hj, hl⟩ := hb _ ⟨y, h.1, rfl⟩ hc
  obtain ⟨a, ha, hle⟩ := h.2 x hx _ rfl
  cases ha
  unfold refPointASF at hle
  have h0 : vmax (fun i => c.obj x i / (c.utopian i - c.nadir i) * (c.obj x i - c.obj x i)) ≤ 0 := by
    rw [vmax_le_iff]
    intro i
    rw [sub_self, mul_zero]
  have h1 : ∑ j, (c.obj x j - c.obj x j) / (c.nadir j - c.utopian j) = 0 :=
    Finset.sum_eq_zero fun i _ => by rw [sub_self, zero_div]
  have h3 := le_vmax (fun i => c.obj x i / (c.utopian i - c.nadir i) * (c.obj y i - c.obj x i)) j
  have h4 : ∑ j, (c.obj x j - c.obj y j) / (c.nadir j - c.utopian j) =
      - ∑ j, (c.obj y j - c.obj x j) / (c.nadir j - c.utopian j) := by
    rw [← Finset.sum_neg_distrib]
    exact Finset.sum_congr rfl fun j _ => by rw [← neg_div, neg_sub]
  have h5 : c.obj x j / (c.utopian j - c.nadir j) * (c.obj y j - c.obj x j) =
      |c.obj x j| * ((c.obj y j - c.obj x j) / (c.nadir j - c.utopian j)) := by
    rw [abs_of_nonpos (hneg j), ← neg_sub (c.nadir j), div_neg]
    ring
  rw [h4] at hl
  simp only [h5] at h3
  rw [h1] at hle
  linarith

/-! ### C179 -/

/-- **C179** (reference point method). In every history with exact minimizers, whatever request has been issued and
whatever solution `x` within the bounds the decision maker has in mind, if its objective values are not positive and it
is balanced among the solutions within the bounds: its objective vector, given as reference point, is accepted, the
current solution and all additional solutions shown in answer have exactly this objective vector, and if the decision
maker is satisfied with the current solution, the method stops with a solution with this objective vector. -/
theorem C179_rpm {c : Cfg (k + 1) (Vec m K) (Vec m K) K} {P : Side m K} (hnrm : NormSpec c.nrm)
    (hlt : ∀ i, c.utopian i < c.nadir i)
    {s : St (k + 1) (Vec m K) K} {iss : List (Req (k + 1) (Vec m K) K)} (hR : Reached c (Solver c P) s iss)
    {req : Req (k + 1) (Vec m K) K} (hr : req ∈ iss) (hns : ∀ x f, req ≠ .stop x f)
    {x : Vec m K} (hx : P.inBounds x) (hneg : ∀ i, c.obj x i ≤ 0) (hnad : ∃ i, c.obj x i ≤ c.nadir i)
    (hb : Balanced (1 / 10000) (fun i => c.nadir i - c.utopian i) (fun g => ∃ y, P.inBounds y ∧ c.obj y = g) (c.obj x))
    {orc : Oracle (k + 1) (Vec m K) K} (hE : Solver c P orc) :
    ∃ s', answer c s req { ref := some (List.ofFn (c.obj x)) } orc = (s', .ok (some (.nav (c.obj x) fun _ => c.obj x))) ∧
      ∃ y, P.inBounds y ∧ c.obj y = c.obj x ∧ ∀ orc', ∃ s'',
        answer c s' (.nav (c.obj x) fun _ => c.obj x) { satisfied := some true, index := some (.int 0) } orc' =
          (s'', .ok (some (.stop (some (c.vars y)) (some (c.obj x))))) := by
  have hvec : toVec (k + 1) (List.ofFn (c.obj x)) = c.obj x := by
    funext i
    simp [toVec, -List.ofFn_succ, Nat.lt_succ_iff.1 i.isLt]
  have href : validateRef c (List.ofFn (c.obj x)) = .ok () := by
    unfold validateRef
    rw [if_neg (by rw [List.length_ofFn]; simp), if_neg]
    rw [hvec]
    intro h
    obtain ⟨i, hi⟩ := hnad
    exact absurd (h i) (not_lt.2 hi)
  have hv : validate c req { ref := some (List.ofFn (c.obj x)) } = .ok () := by
    cases req with
    | initial => exact href
    | nav f a => exact href
    | stop x f => rfl
  have hw : weights c (c.obj x) = fun i => .num (c.obj x i / (c.utopian i - c.nadir i)) := by
    funext i
    unfold weights fdiv
    rw [if_neg (sub_ne_zero.2 (hlt i).ne)]
  have hmu : ∀ i, 0 ≤ c.obj x i / (c.utopian i - c.nadir i) := fun i =>
    div_nonneg_of_nonpos (hneg i) (by have := hlt i; linarith)
  have hm := own_best hx hneg hb (hE.main _ (c.obj x) hmu)
  have hself : ∀ i, prp c (c.obj x) (c.obj x) i = c.obj x := by
    intro i
    funext j
    have h0 : c.nrm (fun j => c.obj x j - c.obj x j) = 0 := by
      rw [hnrm.eq_zero]
      intro j
      exact sub_self _
    unfold prp
    rw [h0, zero_mul, add_zero]
  have hsh : shown c orc (c.obj x) = .nav (c.obj x) fun _ => c.obj x := by
    unfold shown
    rw [hw, hm]
    congr 1
    funext i
    rw [hself]
    exact own_best hx hneg hb (hE.add i _ (c.obj x) hmu)
  obtain ⟨s', o, ha⟩ : ∃ s' o, answer c s req { ref := some (List.ofFn (c.obj x)) } orc = (s', o) := ⟨_, _, rfl⟩
  obtain ⟨ho, t, hs', ht⟩ : o = .ok (some (shown c orc (c.obj x))) ∧
      ∃ t, s' = solved c orc (c.obj x) t ∧ Store t := by
    have hst := answer_step hR.store ha
    cases hst with
    | refused he => rw [hv] at he; cases he
    | ended => exact absurd rfl (hns _ _)
    | initial _ hl _ => cases hl; rw [hvec]; exact ⟨rfl, _, rfl, hR.store⟩
    | forward _ _ hl _ => cases hl; rw [hvec]; exact ⟨rfl, _, rfl, expand_store hR.store⟩
    | chosen _ hsat => cases hsat
  rw [hsh] at ho
  subst ho
  refine ⟨s', ha, orc.main (weights c (c.obj x)) (c.obj x), hw ▸ (hE.main _ (c.obj x) hmu).1, hw ▸ hm, fun orc' => ?_⟩
  have hv0 : validate c (.nav (c.obj x) fun _ => c.obj x) { satisfied := some true, index := some (.int 0) } = .ok () := by
    simp [validate, validateNav, validateIndex, numVal]
    positivity
  refine ⟨s', ?_⟩
  unfold answer
  rw [hv0]
  have e1 := ht.x
  have e2 := ht.f
  have e3 := ht.room
  have hx1 : s'.xs[s'.h]? = some (some (c.vars (orc.main (weights c (c.obj x)) (c.obj x)))) := by
    rw [hs']
    exact set_get (by omega)
  have hf1 : s'.fs[s'.h]? = some (some (c.obj x)) := by
    have := set_get (l := t.fs) (i := t.h) (v := some (c.obj (orc.main (weights c (c.obj x)) (c.obj x)))) (by omega)
    rw [hs']
    refine this.trans ?_
    rw [hw, hm]
  exact choose_zero (v := .int 0) rfl hx1 hf1

/-- In the example, the solution `1/2` is balanced. -/
theorem seCfg_balanced : Balanced (1 / 10000) (fun i => seCfg.nadir i - seCfg.utopian i)
    (fun g => ∃ y, (seSide 1).inBounds y ∧ seCfg.obj y = g) (seCfg.obj ![1 / 2]) := by
  rintro g ⟨y, _, rfl⟩ hne
  rw [Fin.sum_univ_two]
  simp only [seCfg] at hne ⊢
  rcases lt_trichotomy (1 / 2) (y 0) with h | h | h
  · refine ⟨0, ?_, ?_⟩
    · norm_num
      linarith
    · norm_num [abs_of_nonpos]
      linarith
  · exact absurd (by rw [← h]; rfl) hne
  · refine ⟨1, ?_, ?_⟩
    · norm_num
      linarith
    · norm_num [abs_of_nonpos]
      linarith

example := C179_rpm (c := seCfg) (P := seSide 1) (x := ![1 / 2]) (req := .initial) supNorm_spec (by decide +kernel)
  (.init : Reached seCfg (Solver seCfg (seSide 1)) St.init [.initial]) (by simp) (by simp)
  (by unfold seSide; decide +kernel) (by decide +kernel) ⟨0, by decide +kernel⟩ seCfg_balanced (seOrc_solver 1)

end Verif.Rpm
