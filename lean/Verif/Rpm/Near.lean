import Verif.Rpm.Reach

/-!
# The reference point method: a solution near any wanted one (C188)
-/

set_option linter.unusedSectionVars false

namespace Verif.Rpm

variable {K : Type} [Field K] [LinearOrder K] [IsStrictOrderedRing K] {k m : Nat}

/-- With the objective vector aimed at as reference point, what is best is hardly worse. -/
theorem own_near {c : Cfg (k + 1) (Vec m K) (Vec m K) K} {P : Side m K} (hlt : ∀ i, c.utopian i < c.nadir i)
    {x y : Vec m K} (hx : P.inBounds x) (hneg : ∀ i, c.obj x i ≤ 0)
    (hspan : ∀ i, c.obj x i - c.obj y i ≤ c.nadir i - c.utopian i)
    (h : Solves y (asfTask c P (fun i => c.obj x i / (c.utopian i - c.nadir i)) (c.obj x))) (j : Fin (k + 1)) :
    |c.obj x j| * (c.obj y j - c.obj x j) ≤ 1 / 10000 * (k + 1 : Nat) * (c.nadir j - c.utopian j) := by
  have hpos : ∀ i, 0 < c.nadir i - c.utopian i := fun i => sub_pos.2 (hlt i)
  obtain ⟨a, ha, hle⟩ := h.2 x hx _ rfl
  cases ha
  unfold refPointASF at hle
  have h0 : vmax (fun i => c.obj x i / (c.utopian i - c.nadir i) * (c.obj x i - c.obj x i)) ≤ 0 := by
    rw [vmax_le_iff]
    intro i
    rw [sub_self, mul_zero]
  have h1 : ∑ j, (c.obj x j - c.obj x j) / (c.nadir j - c.utopian j) = 0 :=
    Finset.sum_eq_zero fun i _ => by rw [sub_self, zero_div]
  have h3 := le_vmax (fun i => c.obj x i / (c.utopian i - c.nadir i) * (c.obj y i - c.obj x i)) j
  have h4 : ∑ j, (c.obj x j - c.obj y j) / (c.nadir j - c.utopian j) =
      - ∑ j, (c.obj y j - c.obj x j) / (c.nadir j - c.utopian j) := by
    rw [← Finset.sum_neg_distrib]
    exact Finset.sum_congr rfl fun j _ => by rw [← neg_div, neg_sub]
  have h5 : c.obj x j / (c.utopian j - c.nadir j) * (c.obj y j - c.obj x j) =
      |c.obj x j| * (c.obj y j - c.obj x j) / (c.nadir j - c.utopian j) := by
    rw [abs_of_nonpos (hneg j), ← neg_sub (c.nadir j), div_neg]
    ring
  have h6 : ∑ j, (c.obj x j - c.obj y j) / (c.nadir j - c.utopian j) ≤ (k + 1 : Nat) := by
    refine (Finset.sum_le_sum fun i _ => (div_le_one (hpos i)).2 (hspan i)).trans ?_
    simp
  simp only [h5] at h3
  rw [h1] at hle
  rw [← div_le_iff₀ (hpos j)]
  linarith

/-- **C188** (reference point method). In every history with exact minimizers, whatever request has been issued and
whatever solution `x` within the bounds, not worse than the nadir and without positive objective values, the decision
maker has in mind: its objective vector, given as reference point, is accepted, the current solution `y` shown is in no
objective worse than `x` by more than a ten-thousandth of the range times the number of objectives, divided by the
absolute value of the objective, nothing within the bounds dominates it, and if the decision maker is satisfied, the
method stops with `y`. -/
theorem C188_rpm {c : Cfg (k + 1) (Vec m K) (Vec m K) K} {P : Side m K} (hlt : ∀ i, c.utopian i < c.nadir i)
    (hut : ∀ y, P.inBounds y → AtLeastAsGood c.utopian (c.obj y))
    {s : St (k + 1) (Vec m K) K} {iss : List (Req (k + 1) (Vec m K) K)} (hR : Reached c (Solver c P) s iss)
    {req : Req (k + 1) (Vec m K) K} (hr : req ∈ iss) (hns : ∀ x f, req ≠ .stop x f)
    {x : Vec m K} (hx : P.inBounds x) (hneg : ∀ i, c.obj x i ≤ 0) (hnad : AtLeastAsGood (c.obj x) c.nadir)
    {orc : Oracle (k + 1) (Vec m K) K} (hE : Solver c P orc) :
    ∃ s' y ad, answer c s req { ref := some (List.ofFn (c.obj x)) } orc = (s', .ok (some (.nav (c.obj y) ad))) ∧
      P.inBounds y ∧ (∀ z, P.inBounds z → ¬ Dominates (c.obj z) (c.obj y)) ∧
      (∀ j, |c.obj x j| * (c.obj y j - c.obj x j) ≤ 1 / 10000 * (k + 1 : Nat) * (c.nadir j - c.utopian j)) ∧
      ∀ orc', ∃ s'', answer c s' (.nav (c.obj y) ad) { satisfied := some true, index := some (.int 0) } orc' =
        (s'', .ok (some (.stop (some (c.vars y)) (some (c.obj y))))) := by
  have hvec : toVec (k + 1) (List.ofFn (c.obj x)) = c.obj x := by
    funext i
    simp [toVec, -List.ofFn_succ, Nat.lt_succ_iff.1 i.isLt]
  have href : validateRef c (List.ofFn (c.obj x)) = .ok () := by
    unfold validateRef
    rw [if_neg (by rw [List.length_ofFn]; simp), if_neg]
    rw [hvec]
    exact fun h => absurd (h 0) (not_lt.2 (hnad 0))
  have hv : validate c req { ref := some (List.ofFn (c.obj x)) } = .ok () := by
    cases req with
    | initial => exact href
    | nav f a => exact href
    | stop x f => rfl
  have hw : weights c (c.obj x) = fun i => .num (c.obj x i / (c.utopian i - c.nadir i)) := by
    funext i
    unfold weights fdiv
    rw [if_neg (sub_ne_zero.2 (hlt i).ne)]
  have hmu : ∀ i, 0 ≤ c.obj x i / (c.utopian i - c.nadir i) := fun i =>
    div_nonneg_of_nonpos (hneg i) (by have := hlt i; linarith)
  have hs := hE.main _ (c.obj x) hmu
  have hbest := solves_best hmu hlt hs
  have hm := own_near hlt hx hneg (fun i => sub_le_sub (hnad i) (hut _ hs.1 i)) hs
  rw [← hw] at hs hm hbest
  obtain ⟨s', o, ha⟩ : ∃ s' o, answer c s req { ref := some (List.ofFn (c.obj x)) } orc = (s', o) := ⟨_, _, rfl⟩
  obtain ⟨ho, t, hs', ht⟩ : o = .ok (some (shown c orc (c.obj x))) ∧
      ∃ t, s' = solved c orc (c.obj x) t ∧ Store t := by
    have hst := answer_step hR.store ha
    cases hst with
    | refused he => rw [hv] at he; cases he
    | ended => exact absurd rfl (hns _ _)
    | initial _ hl _ => cases hl; rw [hvec]; exact ⟨rfl, _, rfl, hR.store⟩
    | forward _ _ hl _ => cases hl; rw [hvec]; exact ⟨rfl, _, rfl, expand_store hR.store⟩
    | chosen _ hsat => cases hsat
  subst ho
  refine ⟨s', orc.main (weights c (c.obj x)) (c.obj x), _, ha, hs.1, hbest.2, hm, fun orc' => ⟨s', ?_⟩⟩
  have hv0 : validate c (.nav (c.obj (orc.main (weights c (c.obj x)) (c.obj x))) fun i =>
      c.obj (orc.add i (weights c (c.obj x)) (prp c (c.obj x) (c.obj (orc.main (weights c (c.obj x)) (c.obj x))) i)))
      { satisfied := some true, index := some (.int 0) } = .ok () := by
    simp [validate, validateNav, validateIndex, numVal]
    positivity
  unfold answer
  rw [hv0]
  have e3 := ht.room
  have hx1 : s'.xs[s'.h]? = some (some (c.vars (orc.main (weights c (c.obj x)) (c.obj x)))) := by
    rw [hs']
    have e1 := ht.x
    exact set_get (by omega)
  have hf1 : s'.fs[s'.h]? = some (some (c.obj (orc.main (weights c (c.obj x)) (c.obj x)))) := by
    rw [hs']
    have e2 := ht.f
    exact set_get (by omega)
  exact choose_zero (v := .int 0) rfl hx1 hf1

example := C188_rpm (c := seCfg) (P := seSide 1) (x := ![1 / 3]) (req := .initial) (by decide +kernel)
  (fun y hy i => by
    obtain ⟨h1, h2⟩ := hy
    match i with
    | 0 =>
      show (-101 / 100 : ℚ) ≤ y 0 - 1
      linarith
    | 1 =>
      show (-101 / 100 : ℚ) ≤ - y 0
      linarith)
  (.init : Reached seCfg (Solver seCfg (seSide 1)) St.init [.initial]) (by simp) (by simp)
  (by unfold seSide; decide +kernel) (by decide +kernel) (by unfold AtLeastAsGood; decide +kernel) (seOrc_solver 1)

end Verif.Rpm
