import Verif.Nautilus.Reach

/-!
# NAUTILUS: a solution near any wanted one can be reached (C189)
-/

set_option linter.unusedSectionVars false

namespace Verif.Nautilus

variable {K : Type} [Field K] [LinearOrder K] [IsStrictOrderedRing K] {k m : Nat}

/-- With the shares of `x` as percentages, what is best is hardly worse than `x`. -/
theorem shares_near {c : Cfg (k + 1) m K} {P : Side m K} (hnu : ∀ i, c.utopian i < c.nadir i)
    {x y : Vec m K} (hx : P.inBounds x) (hf : ∀ i, c.evaluate x i < c.nadir i)
    (hut : ∀ z, P.inBounds z → AtLeastAsGood c.utopian (c.evaluate z))
    (h : BestFrom c P (fun i => shares c.nadir (fun i => c.nadir i - c.utopian i) (c.evaluate x) i / 100) c.nadir y)
    (j : Fin (k + 1)) :
    c.evaluate y j ≤ c.evaluate x j + 1 / 1000000 * (k + 1 : Nat) * (c.nadir j - c.utopian j) := by
  by_cases hj : c.evaluate y j ≤ c.evaluate x j
  · have h1 : 0 < c.nadir j - c.utopian j := sub_pos.2 (hnu j)
    have h2 : (0 : K) ≤ 1 / 1000000 * (k + 1 : Nat) * (c.nadir j - c.utopian j) := by positivity
    linarith
  push Not at hj
  have hspan : ∑ i, (c.evaluate x i - c.evaluate y i) / (c.nadir i - c.utopian i) ≤ (k + 1 : Nat) := by
    refine (Finset.sum_le_sum fun i _ => (div_le_one (sub_pos.2 (hnu i))).2
      (sub_le_sub (hf i).le (hut y h.1 i))).trans ?_
    simp
  have hr : ∀ i, 0 < c.nadir i - c.utopian i := fun i => by have := hnu i; linarith
  generalize hrr : (fun i => c.nadir i - c.utopian i) = range at *
  have hr' : ∀ i, 0 < range i := by rw [← hrr]; exact hr
  have hri : ∀ i, c.nadir i - c.utopian i = range i := fun i => congrFun hrr i
  have hg := gain_pos hr' hf
  have hT := total_pos hr' hf
  generalize hTT : ∑ j, gain c.nadir range (c.evaluate x) j = T at *
  have hs : ∀ i, shares c.nadir range (c.evaluate x) i / 100 = gain c.nadir range (c.evaluate x) i / T := by
    intro i
    unfold shares
    rw [hTT]
    ring
  have key := h.2 x hx
  simp only [hri, hs] at key
  simp only [hri] at hspan ⊢
  -- the target makes all terms equal
  have e1 : ∀ i, (c.evaluate x i - c.nadir i) / (gain c.nadir range (c.evaluate x) i / T * range i) = -T := by
    intro i
    have h1 := hr' i
    have h2 : c.nadir i - c.evaluate x i ≠ 0 := by have := hf i; intro h; linarith
    unfold gain
    have h3 : (c.evaluate x i - c.nadir i) = -(c.nadir i - c.evaluate x i) := by ring
    rw [h3]
    field_simp
  simp only [e1] at key
  rw [Finset.sup'_const] at key
  -- the other one is worse in `j`
  have e2 : (c.evaluate y j - c.nadir j) / (gain c.nadir range (c.evaluate x) j / T * range j) ≤
      Finset.univ.sup' Finset.univ_nonempty
        (fun i => (c.evaluate y i - c.nadir i) / (gain c.nadir range (c.evaluate x) i / T * range i)) :=
    Finset.le_sup' (f := fun i => (c.evaluate y i - c.nadir i) / (gain c.nadir range (c.evaluate x) i / T * range i))
      (Finset.mem_univ j)
  have e3 : (c.evaluate y j - c.nadir j) / (gain c.nadir range (c.evaluate x) j / T * range j) =
      -T + (c.evaluate y j - c.evaluate x j) / (gain c.nadir range (c.evaluate x) j / T * range j) := by
    rw [← e1 j, ← add_div]
    congr 1
    ring
  have e4 : (c.evaluate y j - c.evaluate x j) / range j ≤
      (c.evaluate y j - c.evaluate x j) / (gain c.nadir range (c.evaluate x) j / T * range j) := by
    apply div_le_div_of_nonneg_left (by linarith) (mul_pos (div_pos (hg j) hT) (hr' j))
    have h1 : gain c.nadir range (c.evaluate x) j / T ≤ 1 := by
      rw [div_le_one hT, ← hTT]
      exact Finset.single_le_sum (f := gain c.nadir range (c.evaluate x)) (fun i _ => (hg i).le) (Finset.mem_univ j)
    have := hr' j
    nlinarith
  have e5 : ∑ i, (c.evaluate x i - c.evaluate y i) / range i =
      (∑ i, (c.evaluate x i - c.nadir i) / range i) - ∑ i, (c.evaluate y i - c.nadir i) / range i := by
    rw [← Finset.sum_sub_distrib]
    exact Finset.sum_congr rfl fun i _ => by rw [← sub_div]; congr 1; ring
  have e6 : (c.evaluate y j - c.evaluate x j) / range j ≤ 1 / 1000000 * (k + 1 : Nat) := by
    have := mul_le_mul_of_nonneg_left hspan (by norm_num : (0 : K) ≤ 1 / 1000000)
    rw [e5] at this
    linarith
  rw [div_le_iff₀ (hr' j)] at e6
  linarith

/-- What is best is not dominated by anything within the bounds. -/
theorem BestFrom.undominated {c : Cfg (k + 1) m K} {P : Side m K} (hnu : ∀ i, c.utopian i < c.nadir i)
    {a q : Vec (k + 1) K} (ha : ∀ i, 0 < a i) {y : Vec m K} (h : BestFrom c P a q y) {z : Vec m K} (hz : P.inBounds z) :
    ¬ Dominates (c.evaluate z) (c.evaluate y) := by
  rintro ⟨h1, j, hj⟩
  have key := h.2 z hz
  have hs : ∑ i, (c.evaluate z i - q i) / (c.nadir i - c.utopian i) < ∑ i, (c.evaluate y i - q i) / (c.nadir i - c.utopian i) :=
    Finset.sum_lt_sum (fun i _ => div_le_div_of_nonneg_right (sub_le_sub_right (h1 i) _) (sub_pos.2 (hnu i)).le)
      ⟨j, Finset.mem_univ _, div_lt_div_of_pos_right (sub_lt_sub_right hj _) (sub_pos.2 (hnu j))⟩
  have hm : Finset.univ.sup' Finset.univ_nonempty (fun i => (c.evaluate z i - q i) / (a i * (c.nadir i - c.utopian i))) ≤
      Finset.univ.sup' Finset.univ_nonempty (fun i => (c.evaluate y i - q i) / (a i * (c.nadir i - c.utopian i))) :=
    Finset.sup'_le _ _ fun i _ => (div_le_div_of_nonneg_right (sub_le_sub_right (h1 i) _) (mul_nonneg (ha i).le (sub_pos.2 (hnu i)).le)).trans
      (Finset.le_sup' (f := fun i => (c.evaluate y i - q i) / (a i * (c.nadir i - c.utopian i))) (Finset.mem_univ i))
  linarith

/-- **C189** (NAUTILUS). With exact minimizers and any solution `x` within the bounds that is better than the nadir in
every objective, there are positive percentages with the sum 100 such that, whatever the number `N` of iterations asked
for, they are accepted, and going on with the same preferences shows points that move evenly from the nadir to the
objective vector of a solution `y` within the bounds that no other dominates and that is in no objective worse than `x` by more than a millionth of
the range times the number of objectives; after `N` answers the stop request shows `y` and its objective vector. -/
theorem C189_nautilus {c : Cfg (k + 1) m K} {P : Side m K} {orc : Oracle (k + 1) m K} (hn : NormSpec c.nrm)
    (h : Exact c P orc) (hnu : ∀ i, c.utopian i < c.nadir i)
    {x : Vec m K} (hx : P.inBounds x) (hf : ∀ i, c.evaluate x i < c.nadir i)
    (hut : ∀ z, P.inBounds z → AtLeastAsGood c.utopian (c.evaluate z)) :
    ∃ p : Vec (k + 1) K, (∀ i, 0 < p i) ∧ ∑ i, p i = 100 ∧
      ∀ (s : St (k + 1) m K) (N : Nat), s.step = 1 → 1 ≤ N → ∃ s1 q1 y,
        answer c s .initial { nIterations := some (.int N), method := some 2, info := some (List.ofFn p) } orc =
          (s1, .ok (some q1)) ∧ P.inBounds y ∧
        (∀ z, P.inBounds z → ¬ Dominates (c.evaluate z) (c.evaluate y)) ∧
        (∀ j, c.evaluate y j ≤ c.evaluate x j + 1 / 1000000 * (k + 1 : Nat) * (c.nadir j - c.utopian j)) ∧
        ∀ os : List (Oracle (k + 1) m K),
          (os.length + 1 ≤ N → ∃ s' z lo d, keepRun c os s1 q1 = (s', .ok (some (.nav z lo z d))) ∧
            ∀ i, z i = c.nadir i + ((os.length + 1 : Nat) : K) / (N : K) * (c.evaluate y i - c.nadir i)) ∧
          (os.length = N → ∃ s', keepRun c os s1 q1 = (s', .ok (some (.stop (some y) (some (c.evaluate y)))))) := by
  have hr : ∀ i, 0 < c.nadir i - c.utopian i := fun i => by have := hnu i; linarith
  refine ⟨shares c.nadir (fun i => c.nadir i - c.utopian i) (c.evaluate x), shares_pos hr hf, shares_sum hr hf,
    fun s N h0 hN => ?_⟩
  generalize hrr : ({ nIterations := some (.int N), method := some 2, info := some (List.ofFn
    (shares c.nadir (fun i => c.nadir i - c.utopian i) (c.evaluate x))) } : Resp K) = r
  have hv : validateInitial (k + 1) r = .ok () := by
    have hsum : (List.ofFn (shares c.nadir (fun i => c.nadir i - c.utopian i) (c.evaluate x))).sum = 100 := by
      rw [List.sum_ofFn]
      exact shares_sum hr hf
    have hp : validatePreferences (k + 1) r = .ok () := by
      subst hrr
      simp only [validatePreferences]
      rw [if_neg (by decide), if_neg (by decide), if_neg (by rw [List.length_ofFn]; omega), if_neg (by rw [hsum]; simp)]
    unfold validateInitial
    rw [hp]
    subst hrr
    simp only [Option.isNone_some, Option.isSome_none, Bool.false_eq_true, if_false, validateN]
    exact if_pos ⟨rfl, by simp only [PyVal.asInt]; omega⟩
  obtain ⟨s1, q1, ha⟩ : ∃ s1 q1, answer c s .initial r orc = (s1, .ok (some q1)) :=
    initial_total h0 hv (by subst hrr; exact fun _ => rfl)
  obtain ⟨N', w, ⟨v, hv1, hv2⟩, _, ⟨meth, info, hm, hi, hw⟩, hrun⟩ := C32_even_steps hn h0 ha
  subst hrr
  cases hv1; cases hm; cases hi
  have hNN : N' = N := by simp only [PyVal.asInt] at hv2; omega
  subst hNN
  have hbest := h.bestFromPercent hnu (shares_pos hr hf) hw c.nadir
  refine ⟨s1, q1, orc.asf w c.nadir, ha, hbest.1, fun z hz =>
    hbest.undominated hnu (fun i => div_pos (shares_pos hr hf i) (by norm_num)) hz, shares_near hnu hx hf hut hbest, fun os => ?_⟩
  obtain ⟨h1, h2⟩ := hrun os
  refine ⟨fun hl => ?_, h2⟩
  obtain ⟨s', z, lo, d, e1, e2, _⟩ := h1 hl
  exact ⟨s', z, lo, d, e1, fun i => by rw [e2]; rfl⟩

/-- Three iterations end near the solution `1/4`. -/
example := C189_nautilus (c := exCfg) (P := exSide 1) (x := ![1 / 4]) supNorm_spec
  (exExact_exact zero_le_one le_rfl) (by decide +kernel) ⟨by decide +kernel, by decide +kernel⟩ (by decide +kernel)
  (fun z hz i => by
    obtain ⟨h1, h2⟩ := hz
    match i with
    | 0 =>
      show (-1 / 100 : ℚ) ≤ z 0
      linarith
    | 1 =>
      show (-1 / 100 : ℚ) ≤ 1 - z 0
      linarith)

end Verif.Nautilus
