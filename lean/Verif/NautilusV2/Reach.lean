import Verif.NautilusV2.Monotone
import Verif.NautilusV2.Total

/-!
# NAUTILUS 2: every solution can be reached (C178)
-/

set_option linter.unusedSectionVars false

namespace Verif.NautilusV2

variable {K : Type} [Field K] [LinearOrder K] [IsStrictOrderedRing K] {k m : Nat}

/-- Specification: against every other attainable vector `g`, `f` is better in some objective by more than `rho` times
the sum of what it is worse in altogether, in units of `range`: nothing that gives up little gains very much. -/
def Balanced (rho : K) (range : Vec k K) (attainable : Vec k K → Prop) (f : Vec k K) : Prop :=
  ∀ g, attainable g → g ≠ f → ∃ j, f j < g j ∧ rho * ∑ i, (f i - g i) / range i < (g j - f j) / range j

/-- The improvement from `start` to `f`, in units of `range`. -/
def gain (start range f : Vec k K) : Vec k K := fun i => (start i - f i) / range i

/-- The degrees of improvement: what is gained in each objective, divided by the total improvement. -/
def degrees (start range f : Vec k K) : Vec k K := fun i =>
  gain start range f i / (∑ j, gain start range f j) * range i

section
variable {start range f : Vec (k + 1) K}

theorem gain_pos (hr : ∀ i, 0 < range i) (hf : ∀ i, f i < start i) (i : Fin (k + 1)) : 0 < gain start range f i :=
  div_pos (by have := hf i; linarith) (hr i)

theorem total_pos (hr : ∀ i, 0 < range i) (hf : ∀ i, f i < start i) : 0 < ∑ j, gain start range f j :=
  Finset.sum_pos (fun i _ => gain_pos hr hf i) Finset.univ_nonempty

theorem degrees_pos (hr : ∀ i, 0 < range i) (hf : ∀ i, f i < start i) (i : Fin (k + 1)) :
    0 < degrees start range f i :=
  mul_pos (div_pos (gain_pos hr hf i) (total_pos hr hf)) (hr i)

end

/-- With these degrees of improvement, nothing but the solution aimed at is best. -/
theorem degrees_best {c : Cfg (k + 1) m K} {P : Side m K} {eps : K} (hnu : ∀ i, c.ideal i - eps < c.nadir i)
    {x y : Vec m K} (hx : P.inBounds x) (hf : ∀ i, c.evaluate x i < c.start i)
    (hb : Balanced (1 / 100000) (fun i => c.nadir i - (c.ideal i - eps))
      (fun g => ∃ y, P.inBounds y ∧ c.evaluate y = g) (c.evaluate x))
    (h : BestFrom c P eps (degrees c.start (fun i => c.nadir i - (c.ideal i - eps)) (c.evaluate x)) c.start y) :
    c.evaluate y = c.evaluate x := by
  by_contra hc
  obtain ⟨j, hj, hlt⟩ := hb _ ⟨y, h.1, rfl⟩ hc
  have hr : ∀ i, 0 < c.nadir i - (c.ideal i - eps) := fun i => by have := hnu i; linarith
  generalize hrr : (fun i => c.nadir i - (c.ideal i - eps)) = range at *
  have hr' : ∀ i, 0 < range i := by rw [← hrr]; exact hr
  have hri : ∀ i, c.nadir i - (c.ideal i - eps) = range i := fun i => congrFun hrr i
  have hg := gain_pos hr' hf
  have hT := total_pos hr' hf
  have key := h.2 x hx
  simp only [hri, degrees] at key
  generalize hTT : ∑ j, gain c.start range (c.evaluate x) j = T at *
  -- the target makes all terms equal
  have e1 : ∀ i, (c.evaluate x i - c.start i) / (gain c.start range (c.evaluate x) i / T * range i) = -T := by
    intro i
    have h1 := hr' i
    have h2 : c.start i - c.evaluate x i ≠ 0 := by have := hf i; intro h; linarith
    unfold gain
    have h3 : (c.evaluate x i - c.start i) = -(c.start i - c.evaluate x i) := by ring
    rw [h3]
    field_simp
  simp only [e1] at key
  rw [Finset.sup'_const] at key
  -- the other one is worse in `j`
  have e2 : (c.evaluate y j - c.start j) / (gain c.start range (c.evaluate x) j / T * range j) ≤
      Finset.univ.sup' Finset.univ_nonempty
        (fun i => (c.evaluate y i - c.start i) / (gain c.start range (c.evaluate x) i / T * range i)) :=
    Finset.le_sup' (f := fun i => (c.evaluate y i - c.start i) / (gain c.start range (c.evaluate x) i / T * range i))
      (Finset.mem_univ j)
  have e3 : (c.evaluate y j - c.start j) / (gain c.start range (c.evaluate x) j / T * range j) =
      -T + (c.evaluate y j - c.evaluate x j) / (gain c.start range (c.evaluate x) j / T * range j) := by
    rw [← e1 j, ← add_div]
    congr 1
    ring
  have e4 : (c.evaluate y j - c.evaluate x j) / range j ≤
      (c.evaluate y j - c.evaluate x j) / (gain c.start range (c.evaluate x) j / T * range j) := by
    apply div_le_div_of_nonneg_left (by linarith) (mul_pos (div_pos (hg j) hT) (hr' j))
    have h1 : gain c.start range (c.evaluate x) j / T ≤ 1 := by
      rw [div_le_one hT, ← hTT]
      exact Finset.single_le_sum (f := gain c.start range (c.evaluate x)) (fun i _ => (hg i).le) (Finset.mem_univ j)
    have := hr' j
    nlinarith
  have e5 : ∑ i, (c.evaluate x i - c.evaluate y i) / range i =
      (∑ i, (c.evaluate x i - c.start i) / range i) - ∑ i, (c.evaluate y i - c.start i) / range i := by
    rw [← Finset.sum_sub_distrib]
    exact Finset.sum_congr rfl fun i _ => by rw [← sub_div]; congr 1; ring
  rw [e5] at hlt
  linarith

/-! ### C178 -/

/-- **C178** (NAUTILUS 2). With exact minimizers and any solution `x` within the bounds that is better than the starting
point in every objective and balanced among the solutions within the bounds, there are positive degrees of improvement,
in the proportions of the improvements wanted, such that, whatever the number `N` of iterations asked for, they are
accepted, and going on with the same preferences shows points that move evenly from the starting point to the objective
vector of `x`; after `N` answers the stop request shows a solution with exactly this objective vector. -/
theorem C178_nautilus2 {c : Cfg (k + 1) m K} {P : Side m K} {eps : K} {orc : Oracle (k + 1) m K}
    (hn : NormSpec c.nrm) (h : Exact c P eps orc) (hnu : ∀ i, c.ideal i - eps < c.nadir i)
    {x : Vec m K} (hx : P.inBounds x) (hf : ∀ i, c.evaluate x i < c.start i)
    (hb : Balanced (1 / 100000) (fun i => c.nadir i - (c.ideal i - eps))
      (fun g => ∃ y, P.inBounds y ∧ c.evaluate y = g) (c.evaluate x)) :
    ∃ a : Vec (k + 1) K, (∀ i, 0 < a i) ∧
      (∀ i j, a i * (c.start j - c.evaluate x j) = a j * (c.start i - c.evaluate x i)) ∧
      ∀ (s : St (k + 1) m K) (N : Nat), s.step = 1 → 1 ≤ N → ∃ s1 q1 y,
        answer c s .initial { nIterations := some (.int N), method := some 1, info := some (.arr (List.ofFn a)) } orc =
          (s1, .ok (some q1)) ∧ c.evaluate y = c.evaluate x ∧
        ∀ os : List (Oracle (k + 1) m K),
          (os.length + 1 ≤ N → ∃ s' z lo d, keepRun c os s1 q1 = (s', .ok (some (.nav z lo z d))) ∧
            ∀ i, z i = c.start i + ((os.length + 1 : Nat) : K) / (N : K) * (c.evaluate x i - c.start i)) ∧
          (os.length = N → ∃ s', keepRun c os s1 q1 = (s', .ok (some (.stop (some y) (some (c.evaluate x)))))) := by
  have hr : ∀ i, 0 < c.nadir i - (c.ideal i - eps) := fun i => by have := hnu i; linarith
  refine ⟨degrees c.start (fun i => c.nadir i - (c.ideal i - eps)) (c.evaluate x), degrees_pos hr hf, fun i j => ?_,
    fun s N h0 hN => ?_⟩
  · have h1 := (hr i).ne'
    have h2 := (hr j).ne'
    unfold degrees
    generalize ∑ j, gain c.start (fun i => c.nadir i - (c.ideal i - eps)) (c.evaluate x) j = T
    simp only [gain]
    rw [div_right_comm, div_mul_cancel₀ _ h1, div_right_comm, div_mul_cancel₀ _ h2]
    ring
  generalize haa : degrees c.start (fun i => c.nadir i - (c.ideal i - eps)) (c.evaluate x) = a
  have hapos : ∀ i, 0 < a i := haa ▸ degrees_pos hr hf
  generalize hrr : ({ nIterations := some (.int N), method := some 1, info := some (.arr (List.ofFn a)) } : Resp K) = r
  have hv : validateInitial (k + 1) r = .ok () := by
    have hall : ((List.ofFn a).any fun x => decide (x ≤ 0)) = false := by
      rw [List.any_eq_false]
      intro x hx
      obtain ⟨i, rfl⟩ := List.mem_ofFn.1 hx
      simpa using hapos i
    have hp : validatePreferences (k + 1) r = .ok () := by
      subst hrr
      simp only [validatePreferences]
      rw [if_neg (by decide), if_neg (by decide), hall, if_neg (by decide), if_neg (by rw [List.length_ofFn]; omega),
        if_neg (by rintro ⟨h, _⟩; exact absurd h (by decide))]
    unfold validateInitial
    rw [hp]
    subst hrr
    simp only [Option.isNone_some, Option.isSome_none, Bool.false_eq_true, if_false, validateN]
    exact if_pos ⟨rfl, by simp only [PyVal.asInt]; omega⟩
  obtain ⟨s1, q1, ha⟩ : ∃ s1 q1, answer c s .initial r orc = (s1, .ok (some q1)) :=
    initial_total h0 hv (by subst hrr; simp only [UsablePref, List.length_ofFn])
  obtain ⟨N', w, ⟨v, hv1, hv2⟩, _, ⟨meth, info, hm, hi, hw⟩, hrun⟩ := C42_even_steps hn h0 ha
  subst hrr
  cases hv1; cases hm; cases hi
  have hNN : N' = N := by simp only [PyVal.asInt] at hv2; omega
  subst hNN
  obtain rfl := factors_arr hw
  have hbest := h.bestFrom hapos c.start
  rw [← haa] at hbest
  have he := degrees_best hnu hx hf hb hbest
  rw [haa] at he
  refine ⟨s1, q1, orc.asf (weights w) c.start, ha, he, fun os => ?_⟩
  obtain ⟨h1, h2⟩ := hrun os
  rw [he] at h1 h2
  refine ⟨fun hl => ?_, h2⟩
  obtain ⟨s', z, lo, d, e1, e2, _⟩ := h1 hl
  exact ⟨s', z, lo, d, e1, fun i => by rw [e2]; rfl⟩

/-- In the example, all solutions are balanced. -/
theorem exCfg_balanced (x : Vec 1 ℚ) :
    Balanced (1 / 100000) (fun i => exCfg.nadir i - (exCfg.ideal i - 1 / 100))
      (fun g => ∃ y, (exSide 1).inBounds y ∧ exCfg.evaluate y = g) (exCfg.evaluate x) := by
  rintro g ⟨y, _, rfl⟩ hne
  rw [Fin.sum_univ_two]
  simp only [exCfg] at hne ⊢
  rcases lt_trichotomy (x 0) (y 0) with h | h | h
  · refine ⟨0, h, ?_⟩
    norm_num
    linarith
  · exact absurd (by rw [h]) hne
  · refine ⟨1, ?_, ?_⟩
    · norm_num
      linarith
    · norm_num
      linarith

/-- From the starting point, iterations that end at the solution `1/4`. -/
example := C178_nautilus2 (c := exCfg) (P := exSide 1) (x := ![1 / 4]) supNorm_spec
  (exExact_exact zero_le_one le_rfl) (by decide +kernel) ⟨by decide +kernel, by decide +kernel⟩ (by decide +kernel)
  (exCfg_balanced _)

end Verif.NautilusV2
