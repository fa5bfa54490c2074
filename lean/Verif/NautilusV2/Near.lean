import Verif.NautilusV2.Reach

/-!
# NAUTILUS 2: a solution near any wanted one can be reached (C190)
-/

set_option linter.unusedSectionVars false

namespace Verif.NautilusV2

variable {K : Type} [Field K] [LinearOrder K] [IsStrictOrderedRing K] {k m : Nat}

/-- With the degrees of improvement towards `x`, what is best is hardly worse than `x`. -/
theorem degrees_near {c : Cfg (k + 1) m K} {P : Side m K} {eps : K} (hnu : ∀ i, c.ideal i - eps < c.nadir i)
    {x y : Vec m K} (hx : P.inBounds x) (hf : ∀ i, c.evaluate x i < c.start i)
    (hnad : AtLeastAsGood (c.evaluate x) c.nadir)
    (hut : ∀ z, P.inBounds z → ∀ i, c.ideal i - eps ≤ c.evaluate z i)
    (h : BestFrom c P eps (degrees c.start (fun i => c.nadir i - (c.ideal i - eps)) (c.evaluate x)) c.start y)
    (j : Fin (k + 1)) :
    c.evaluate y j ≤ c.evaluate x j + 1 / 100000 * (k + 1 : Nat) * (c.nadir j - (c.ideal j - eps)) := by
  by_cases hj : c.evaluate y j ≤ c.evaluate x j
  · have h1 : 0 < c.nadir j - (c.ideal j - eps) := sub_pos.2 (hnu j)
    have h2 : (0 : K) ≤ 1 / 100000 * (k + 1 : Nat) * (c.nadir j - (c.ideal j - eps)) := by positivity
    linarith
  push Not at hj
  have hspan : ∑ i, (c.evaluate x i - c.evaluate y i) / (c.nadir i - (c.ideal i - eps)) ≤ (k + 1 : Nat) := by
    refine (Finset.sum_le_sum fun i _ => (div_le_one (sub_pos.2 (hnu i))).2
      (sub_le_sub (hnad i) (hut y h.1 i))).trans ?_
    simp
  have hr : ∀ i, 0 < c.nadir i - (c.ideal i - eps) := fun i => by have := hnu i; linarith
  generalize hrr : (fun i => c.nadir i - (c.ideal i - eps)) = range at *
  have hr' : ∀ i, 0 < range i := by rw [← hrr]; exact hr
  have hri : ∀ i, c.nadir i - (c.ideal i - eps) = range i := fun i => congrFun hrr i
  have hg := gain_pos hr' hf
  have hT := total_pos hr' hf
  have key := h.2 x hx
  simp only [hri, degrees] at key
  simp only [hri] at hspan ⊢
  generalize hTT : ∑ j, gain c.start range (c.evaluate x) j = T at *
  -- the target makes all terms equal
  have e1 : ∀ i, (c.evaluate x i - c.start i) / (gain c.start range (c.evaluate x) i / T * range i) = -T := by
    intro i
    have h1 := hr' i
    have h2 : c.start i - c.evaluate x i ≠ 0 := by have := hf i; intro h; linarith
    unfold gain
    have h3 : (c.evaluate x i - c.start i) = -(c.start i - c.evaluate x i) := by ring
    rw [h3]
    field_simp
  simp only [e1] at key
  rw [Finset.sup'_const] at key
  -- the other one is worse in `j`
  have e2 : (c.evaluate y j - c.start j) / (gain c.start range (c.evaluate x) j / T * range j) ≤
      Finset.univ.sup' Finset.univ_nonempty
        (fun i => (c.evaluate y i - c.start i) / (gain c.start range (c.evaluate x) i / T * range i)) :=
    Finset.le_sup' (f := fun i => (c.evaluate y i - c.start i) / (gain c.start range (c.evaluate x) i / T * range i))
      (Finset.mem_univ j)
  have e3 : (c.evaluate y j - c.start j) / (gain c.start range (c.evaluate x) j / T * range j) =
      -T + (c.evaluate y j - c.evaluate x j) / (gain c.start range (c.evaluate x) j / T * range j) := by
    rw [← e1 j, ← add_div]
    congr 1
    ring
  have e4 : (c.evaluate y j - c.evaluate x j) / range j ≤
      (c.evaluate y j - c.evaluate x j) / (gain c.start range (c.evaluate x) j / T * range j) := by
    apply div_le_div_of_nonneg_left (by linarith) (mul_pos (div_pos (hg j) hT) (hr' j))
    have h1 : gain c.start range (c.evaluate x) j / T ≤ 1 := by
      rw [div_le_one hT, ← hTT]
      exact Finset.single_le_sum (f := gain c.start range (c.evaluate x)) (fun i _ => (hg i).le) (Finset.mem_univ j)
    have := hr' j
    nlinarith
  have e5 : ∑ i, (c.evaluate x i - c.evaluate y i) / range i =
      (∑ i, (c.evaluate x i - c.start i) / range i) - ∑ i, (c.evaluate y i - c.start i) / range i := by
    rw [← Finset.sum_sub_distrib]
    exact Finset.sum_congr rfl fun i _ => by rw [← sub_div]; congr 1; ring
  have e6 : (c.evaluate y j - c.evaluate x j) / range j ≤ 1 / 100000 * (k + 1 : Nat) := by
    have := mul_le_mul_of_nonneg_left hspan (by norm_num : (0 : K) ≤ 1 / 100000)
    rw [e5] at this
    linarith
  rw [div_le_iff₀ (hr' j)] at e6
  linarith

/-- What is best is not dominated by anything within the bounds. -/
theorem BestFrom.undominated {c : Cfg (k + 1) m K} {P : Side m K} {eps : K} (hnu : ∀ i, c.ideal i - eps < c.nadir i)
    {a q : Vec (k + 1) K} (ha : ∀ i, 0 < a i) {y : Vec m K} (h : BestFrom c P eps a q y) {z : Vec m K} (hz : P.inBounds z) :
    ¬ Dominates (c.evaluate z) (c.evaluate y) := by
  rintro ⟨h1, j, hj⟩
  have key := h.2 z hz
  have hs : ∑ i, (c.evaluate z i - q i) / (c.nadir i - (c.ideal i - eps)) < ∑ i, (c.evaluate y i - q i) / (c.nadir i - (c.ideal i - eps)) :=
    Finset.sum_lt_sum (fun i _ => div_le_div_of_nonneg_right (sub_le_sub_right (h1 i) _) (sub_pos.2 (hnu i)).le)
      ⟨j, Finset.mem_univ _, div_lt_div_of_pos_right (sub_lt_sub_right hj _) (sub_pos.2 (hnu j))⟩
  have hm : Finset.univ.sup' Finset.univ_nonempty (fun i => (c.evaluate z i - q i) / a i) ≤
      Finset.univ.sup' Finset.univ_nonempty (fun i => (c.evaluate y i - q i) / a i) :=
    Finset.sup'_le _ _ fun i _ => (div_le_div_of_nonneg_right (sub_le_sub_right (h1 i) _) ((ha i).le)).trans
      (Finset.le_sup' (f := fun i => (c.evaluate y i - q i) / a i) (Finset.mem_univ i))
  linarith

/-- **C190** (NAUTILUS 2). With exact minimizers and any solution `x` within the bounds that is better than the starting
point and not worse than the nadir in every objective, there are positive degrees of improvement, in the proportions of
the improvements wanted, such that, whatever the number `N` of iterations asked for, they are accepted, and going on with
the same preferences shows points that move evenly from the starting point to the objective vector of a solution `y`
within the bounds that no other dominates and that is in no objective worse than `x` by more than a hundred-thousandth of the range times the number
of objectives; after `N` answers the stop request shows `y` and its objective vector. -/
theorem C190_nautilus2 {c : Cfg (k + 1) m K} {P : Side m K} {eps : K} {orc : Oracle (k + 1) m K}
    (hn : NormSpec c.nrm) (h : Exact c P eps orc) (hnu : ∀ i, c.ideal i - eps < c.nadir i)
    {x : Vec m K} (hx : P.inBounds x) (hf : ∀ i, c.evaluate x i < c.start i)
    (hnad : AtLeastAsGood (c.evaluate x) c.nadir)
    (hut : ∀ z, P.inBounds z → ∀ i, c.ideal i - eps ≤ c.evaluate z i) :
    ∃ a : Vec (k + 1) K, (∀ i, 0 < a i) ∧
      (∀ i j, a i * (c.start j - c.evaluate x j) = a j * (c.start i - c.evaluate x i)) ∧
      ∀ (s : St (k + 1) m K) (N : Nat), s.step = 1 → 1 ≤ N → ∃ s1 q1 y,
        answer c s .initial { nIterations := some (.int N), method := some 1, info := some (.arr (List.ofFn a)) } orc =
          (s1, .ok (some q1)) ∧ P.inBounds y ∧
        (∀ z, P.inBounds z → ¬ Dominates (c.evaluate z) (c.evaluate y)) ∧
        (∀ j, c.evaluate y j ≤ c.evaluate x j + 1 / 100000 * (k + 1 : Nat) * (c.nadir j - (c.ideal j - eps))) ∧
        ∀ os : List (Oracle (k + 1) m K),
          (os.length + 1 ≤ N → ∃ s' z lo d, keepRun c os s1 q1 = (s', .ok (some (.nav z lo z d))) ∧
            ∀ i, z i = c.start i + ((os.length + 1 : Nat) : K) / (N : K) * (c.evaluate y i - c.start i)) ∧
          (os.length = N → ∃ s', keepRun c os s1 q1 = (s', .ok (some (.stop (some y) (some (c.evaluate y)))))) := by
  have hr : ∀ i, 0 < c.nadir i - (c.ideal i - eps) := fun i => by have := hnu i; linarith
  refine ⟨degrees c.start (fun i => c.nadir i - (c.ideal i - eps)) (c.evaluate x), degrees_pos hr hf, fun i j => ?_,
    fun s N h0 hN => ?_⟩
  · have h1 := (hr i).ne'
    have h2 := (hr j).ne'
    unfold degrees
    generalize ∑ j, gain c.start (fun i => c.nadir i - (c.ideal i - eps)) (c.evaluate x) j = T
    simp only [gain]
    rw [div_right_comm, div_mul_cancel₀ _ h1, div_right_comm, div_mul_cancel₀ _ h2]
    ring
  generalize haa : degrees c.start (fun i => c.nadir i - (c.ideal i - eps)) (c.evaluate x) = a
  have hapos : ∀ i, 0 < a i := haa ▸ degrees_pos hr hf
  generalize hrr : ({ nIterations := some (.int N), method := some 1, info := some (.arr (List.ofFn a)) } : Resp K) = r
  have hv : validateInitial (k + 1) r = .ok () := by
    have hall : ((List.ofFn a).any fun x => decide (x ≤ 0)) = false := by
      rw [List.any_eq_false]
      intro x hx
      obtain ⟨i, rfl⟩ := List.mem_ofFn.1 hx
      simpa using hapos i
    have hp : validatePreferences (k + 1) r = .ok () := by
      subst hrr
      simp only [validatePreferences]
      rw [if_neg (by decide), if_neg (by decide), hall, if_neg (by decide), if_neg (by rw [List.length_ofFn]; omega),
        if_neg (by rintro ⟨h, _⟩; exact absurd h (by decide))]
    unfold validateInitial
    rw [hp]
    subst hrr
    simp only [Option.isNone_some, Option.isSome_none, Bool.false_eq_true, if_false, validateN]
    exact if_pos ⟨rfl, by simp only [PyVal.asInt]; omega⟩
  obtain ⟨s1, q1, ha⟩ : ∃ s1 q1, answer c s .initial r orc = (s1, .ok (some q1)) :=
    initial_total h0 hv (by subst hrr; simp only [UsablePref, List.length_ofFn])
  obtain ⟨N', w, ⟨v, hv1, hv2⟩, _, ⟨meth, info, hm, hi, hw⟩, hrun⟩ := C42_even_steps hn h0 ha
  subst hrr
  cases hv1; cases hm; cases hi
  have hNN : N' = N := by simp only [PyVal.asInt] at hv2; omega
  subst hNN
  obtain rfl := factors_arr hw
  have hbest := h.bestFrom hapos c.start
  rw [← haa] at hbest
  have hb := hbest.1
  have hund := fun z (hz : P.inBounds z) => hbest.undominated hnu (degrees_pos hr hf) hz
  have he := degrees_near hnu hx hf hnad hut hbest
  rw [haa] at hb he hund
  refine ⟨s1, q1, orc.asf (weights w) c.start, ha, hb, hund, he, fun os => ?_⟩
  obtain ⟨h1, h2⟩ := hrun os
  refine ⟨fun hl => ?_, h2⟩
  obtain ⟨s', z, lo, d, e1, e2, _⟩ := h1 hl
  exact ⟨s', z, lo, d, e1, fun i => by rw [e2]; rfl⟩

/-- Iterations that end near the solution `1/4`. -/
example := C190_nautilus2 (c := exCfg) (P := exSide 1) (x := ![1 / 4]) supNorm_spec
  (exExact_exact zero_le_one le_rfl) (by decide +kernel) ⟨by decide +kernel, by decide +kernel⟩ (by decide +kernel)
  (by decide +kernel) (fun z hz i => by
    obtain ⟨h1, h2⟩ := hz
    match i with
    | 0 =>
      show (0 : ℚ) - 1 / 100 ≤ z 0
      linarith
    | 1 =>
      show (0 : ℚ) - 1 / 100 ≤ 1 - z 0
      linarith)

end Verif.NautilusV2
