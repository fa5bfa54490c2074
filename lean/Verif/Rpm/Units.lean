import Verif.Rpm.Recast
import Verif.Rpm.ExampleData
import Verif.Navigator.Units

/-!
# The reference point method: order, origins and units of the objectives (C123, C124, C125)
-/

set_option linter.unusedSectionVars false

namespace Verif.Rpm

open Verif.Navigator (Recast reorder shift rescale)
open Verif.Nautilus (refPointASF_recast)

variable {K : Type} [Field K] [LinearOrder K] [IsStrictOrderedRing K] {k : Nat} {X D : Type}

/-- ReferencePointMethod.py:266. -/
def utopianOf (eps : K) (ideal : Vec k K) : Vec k K := fun j => ideal j - eps

/-- Specification: the same problem presented anew, for the method constructed with `epsilon = e`. -/
def dataOf (u : Recast k K) (e : K) (c : Cfg k X D K) : Cfg k X D K :=
  cfgOf u (utopianOf e (u.conv c.ideal)) c.nrm c

/-- Specification: the same response to the same request, in the two presentations, with the same
minimizer. -/
def SameSolver (u : Recast (k + 1) K) (c c' : Cfg (k + 1) X D K)
    (p p' : Nat × Resp K × Oracle (k + 1) D K) : Prop :=
  p'.1 = p.1 ∧ p'.2.1 = respOf u p.2.1 ∧ ∃ solver, Uses c solver p.2.2 ∧ Uses c' solver p'.2.2

/-- Specification: the whole uses in the two presentations correspond whenever the responses and the
minimizers are the same. -/
def Corresponds (u : Recast (k + 1) K) (c c' : Cfg (k + 1) X D K) : Prop :=
  ∀ steps steps' : List (Nat × Resp K × Oracle (k + 1) D K),
    List.Forall₂ (SameSolver u c c') steps steps' → use c' steps' = (use c steps).map (resultOf u)

/-! ### Order -/

theorem weights_finite {c : Cfg k X D K} (hR : ∀ j, c.utopian j ≠ c.nadir j) (q : Vec k K) :
    weights c q = fun i => .num (q i / (c.utopian i - c.nadir i)) := by
  funext i
  unfold weights fdiv
  exact if_neg (sub_ne_zero.2 (hR i))

/-- **C123.** List the objectives in another order (in the problem, the ideal and nadir points and the
reference points): whatever is answered, in whatever order and to whichever request, every request, stop
result and exception is the same, with the objectives, and the additional solutions, listed in that
order. -/
theorem C123_order {c : Cfg (k + 1) X D K} {e : K} (hu : c.utopian = utopianOf e c.ideal)
    (hR : ∀ j, c.utopian j ≠ c.nadir j) (σ : Equiv.Perm (Fin (k + 1)))
    (hn : ∀ v, c.nrm (fun j => v (σ j)) = c.nrm v) :
    Corresponds (reorder σ) c (dataOf (reorder σ) e c) := by
  intro steps steps' h
  have e1 : ∀ v : Vec (k + 1) K, (reorder σ).conv v = fun j => v (σ j) := by
    intro v; funext j; simp [Recast.conv, reorder]
  have hut : utopianOf e ((reorder σ).conv c.ideal) = (reorder σ).conv c.utopian := by
    rw [hu, e1, e1]; rfl
  unfold dataOf at h ⊢
  rw [hut] at h ⊢
  refine use_recast (fun v i => ?_) (h.imp ?_)
  · simp only [reorder, one_mul]; exact hn v
  · rintro p p' ⟨h1, h2, solver, h3, h4⟩
    have hR' : ∀ j, (cfgOf (reorder σ) ((reorder σ).conv c.utopian) c.nrm c).utopian j ≠
        (cfgOf (reorder σ) ((reorder σ).conv c.utopian) c.nrm c).nadir j := by
      intro j
      simp only [cfgOf, e1]
      exact hR _
    have key : ∀ q f p : Vec (k + 1) K, refPointASF
        (fun j => (reorder σ).conv q j / ((reorder σ).conv c.utopian j - (reorder σ).conv c.nadir j))
        ((reorder σ).conv c.nadir) ((reorder σ).conv c.utopian) (1 / 10000) ((reorder σ).conv p)
        ((reorder σ).conv f) =
        refPointASF (fun j => q j / (c.utopian j - c.nadir j)) c.nadir c.utopian (1 / 10000) p f := by
      intro q f p
      rw [← refPointASF_recast (reorder σ) (fun j => q j / (c.utopian j - c.nadir j))]
      congr 1
      funext j
      simp only [e1]
      simp [reorder]
    refine ⟨h1, h2, ⟨fun q => ?_, fun i q p => ?_⟩⟩
    · rw [weights_finite hR, weights_finite hR', h3.main, h4.main]
      congr 1
      funext d
      exact key q (c.obj d) q
    · rw [weights_finite hR, weights_finite hR', h3.add, h4.add]
      congr 1
      funext d
      exact key q (c.obj d) p

/-! ### Origins and units -/

/-- **C124**, partial. Measure the objectives from other origins: if the minimizers find the same solutions,
everything that is shown, returned or raised is the same, in the new origins. Missing: the weights depend on
the origins, so the same minimizer finds other solutions, see `C124_fails`. -/
theorem C124_origins_partial {c : Cfg k X D K} (e : K) (o : Vec k K)
    {steps steps' : List (Nat × Resp K × Oracle k D K)}
    (h : List.Forall₂ (SameStep (shift o) c (dataOf (shift o) e c)) steps steps') :
    use (dataOf (shift o) e c) steps' = (use c steps).map (resultOf (shift o)) :=
  use_recast (fun v i => by simp [shift]) h

/-- **C125**, partial. Measure the objectives in another common unit: if the minimizers find the same
solutions, everything that is shown, returned or raised is the same, in the new unit. Missing: the same
minimizer finds other solutions, see `C125_fails`; and with different factors for different objectives the
perturbed reference points do not correspond. -/
theorem C125_units_partial {c : Cfg k X D K} (hn : NormSpec c.nrm) (e a : K) (ha : 0 < a)
    {steps steps' : List (Nat × Resp K × Oracle k D K)}
    (h : List.Forall₂ (SameStep (rescale (fun _ => a) fun _ => ha) c
      (dataOf (rescale (fun _ => a) fun _ => ha) e c)) steps steps') :
    use (dataOf (rescale (fun _ => a) fun _ => ha) e c) steps' =
      (use c steps).map (resultOf (rescale (fun _ => a) fun _ => ha)) :=
  use_recast (fun v i => by
    have := hn.homog a v
    rw [abs_of_pos ha] at this
    simpa [rescale] using this) h

/-! ### Examples -/

/-- The first row with the smallest value of the achievement function. -/
def bestOrc (c : Cfg 2 ℚ (Fin 5) ℚ) : Oracle 2 (Fin 5) ℚ where
  main := fun w q => exBest fun d =>
    refPointASF (fun i => finite (w i)) c.nadir c.utopian (1 / 10000) q (c.obj d)
  add := fun _ w q => exBest fun d =>
    refPointASF (fun i => finite (w i)) c.nadir c.utopian (1 / 10000) q (c.obj d)

theorem bestOrc_uses (c : Cfg 2 ℚ (Fin 5) ℚ) : Uses c exBest (bestOrc c) :=
  ⟨fun _ _ => rfl, fun _ _ _ => rfl⟩

theorem exBest_foldl {n : Nat} (v : Fin (n + 1) → ℚ) (l : List (Fin (n + 1))) (b : Fin (n + 1)) :
    v (l.foldl (fun b i => if v i < v b then i else b) b) ≤ v b ∧
      ∀ i ∈ l, v (l.foldl (fun b i => if v i < v b then i else b) b) ≤ v i := by
  induction l generalizing b with
  | nil => simp
  | cons a l ih =>
    simp only [List.foldl_cons]
    by_cases h : v a < v b
    · rw [if_pos h]
      obtain ⟨h1, h2⟩ := ih a
      refine ⟨h1.trans h.le, fun i hi => ?_⟩
      rcases List.mem_cons.1 hi with rfl | hi
      · exact h1
      · exact h2 i hi
    · rw [if_neg h]
      obtain ⟨h1, h2⟩ := ih b
      refine ⟨h1, fun i hi => ?_⟩
      rcases List.mem_cons.1 hi with rfl | hi
      · exact h1.trans (not_lt.1 h)
      · exact h2 i hi

/-- It is exact. -/
theorem exBest_least {n : Nat} (v : Fin (n + 1) → ℚ) (d : Fin (n + 1)) : v (exBest v) ≤ v d :=
  (exBest_foldl v (List.finRange (n + 1)) 0).2 d (List.mem_finRange d)

/-- The table of the examples with the default `epsilon = 1e-6`. -/
def tabCfg : Cfg 2 ℚ (Fin 5) ℚ := { exCfg with utopian := utopianOf (1 / 1000000) ![-4, -4] }

/-- Two reference points, then the second additional solution is chosen; finally a refused choice. -/
def tabResps : List (Nat × Resp ℚ) :=
  [(0, { ref := some [-1, -7/2] }), (0, { ref := some [-3, -1/2] }), (0, exPick 2), (1, exPick 5)]

/-- The responses with the exact minimizer. -/
def tabSteps (l : List (Nat × Resp ℚ)) : List (Nat × Resp ℚ × Oracle 2 (Fin 5) ℚ) :=
  l.map fun p => (p.1, p.2, bestOrc tabCfg)

/-- The responses presented anew with the exact minimizer. -/
def tabSteps' (u : Recast 2 ℚ) (c' : Cfg 2 ℚ (Fin 5) ℚ) (l : List (Nat × Resp ℚ)) :
    List (Nat × Resp ℚ × Oracle 2 (Fin 5) ℚ) :=
  l.map fun p => (p.1, respOf u p.2, bestOrc c')

theorem tab_same (u : Recast 2 ℚ) (c' : Cfg 2 ℚ (Fin 5) ℚ) (l : List (Nat × Resp ℚ)) :
    List.Forall₂ (SameSolver u tabCfg c') (tabSteps l) (tabSteps' u c' l) := by
  unfold tabSteps tabSteps'
  induction l with
  | nil => exact .nil
  | cons p l ih => exact .cons ⟨rfl, rfl, exBest, bestOrc_uses _, bestOrc_uses _⟩ ih

/-- The two objectives exchanged. -/
def tabSwapped : Cfg 2 ℚ (Fin 5) ℚ := dataOf (reorder (Equiv.swap 0 1)) (1 / 1000000) tabCfg

theorem supNorm_swap (v : Vec 2 ℚ) : supNorm (fun j => v (Equiv.swap 0 1 j)) = supNorm v := by
  unfold supNorm
  simp [max_comm]

example : use tabSwapped (tabSteps' (reorder (Equiv.swap 0 1)) tabSwapped tabResps) =
    (use tabCfg (tabSteps tabResps)).map (resultOf (reorder (Equiv.swap 0 1))) :=
  C123_order rfl (by decide +kernel) (Equiv.swap 0 1) supNorm_swap _ _ (tab_same _ _ _)

/-- In the swapped presentation the first additional solution is chosen. -/
example : (tabSteps' (reorder (Equiv.swap 0 1)) tabSwapped tabResps).map (fun p => (p.2.1.ref, p.2.1.index)) =
    [(some [-7/2, -1], none), (some [-1/2, -3], none), (none, some (.int 1)), (none, some (.int 5))] := by
  decide +kernel

/-- Values measured from 10. -/
def tabShift : Vec 2 ℚ := ![-10, -10]

/-- The table measured from 10. -/
def tabShifted : Cfg 2 ℚ (Fin 5) ℚ := dataOf (shift tabShift) (1 / 1000000) tabCfg

/-- **C124 fails.** Subtract 10 from all values: the same (converted) reference point leads to another
solution, with an exact minimizer. -/
theorem C124_fails : tabCfg.utopian = utopianOf (1 / 1000000) tabCfg.ideal ∧
    (∀ j, tabCfg.ideal j < tabCfg.nadir j) ∧
    ¬ Corresponds (shift tabShift) tabCfg tabShifted := by
  refine ⟨rfl, by decide +kernel, fun h => ?_⟩
  have h1 := h _ _ (tab_same (shift tabShift) tabShifted tabResps)
  have h2 : use tabShifted (tabSteps' (shift tabShift) tabShifted tabResps) ≠
      (use tabCfg (tabSteps tabResps)).map (resultOf (shift tabShift)) := ne_of_beq_false (by decide +kernel)
  exact h2 h1

/-- The first objective in a unit that is ten times as small. -/
def tabScale : Vec 2 ℚ := ![10, 1]

theorem tabScale_pos : ∀ j, 0 < tabScale j := by decide +kernel

/-- The table in the other unit. -/
def tabRescaled : Cfg 2 ℚ (Fin 5) ℚ := dataOf (rescale tabScale tabScale_pos) (1 / 1000000) tabCfg

/-- A reference point and the choice of the current solution. -/
def tabResps2 : List (Nat × Resp ℚ) := [(0, { ref := some [-1, -1] }), (0, exPick 0)]

/-- **C125 fails.** Measure the first objective in a unit that is ten times as small: the same (converted)
reference point leads to another solution, with an exact minimizer. -/
theorem C125_fails : tabCfg.utopian = utopianOf (1 / 1000000) tabCfg.ideal ∧
    (∀ j, tabCfg.ideal j < tabCfg.nadir j) ∧
    ¬ Corresponds (rescale tabScale tabScale_pos) tabCfg tabRescaled := by
  refine ⟨rfl, by decide +kernel, fun h => ?_⟩
  have h1 := h _ _ (tab_same (rescale tabScale tabScale_pos) tabRescaled tabResps2)
  have h2 : use tabRescaled (tabSteps' (rescale tabScale tabScale_pos) tabRescaled tabResps2) ≠
      (use tabCfg (tabSteps tabResps2)).map (resultOf (rescale tabScale tabScale_pos)) :=
    ne_of_beq_false (by decide +kernel)
  exact h2 h1

/-- A minimizer that finds certain rows whatever the weights are. -/
def fixedOrc : Oracle 2 (Fin 5) ℚ := ⟨fun _ _ => 1, fun _ _ _ => 2⟩

/-- The responses with this minimizer. -/
def fixedSteps (u : Recast 2 ℚ) : List (Nat × Resp ℚ × Oracle 2 (Fin 5) ℚ) :=
  tabResps.map fun p => (p.1, respOf u p.2, fixedOrc)

theorem fixed_same {u : Recast 2 ℚ} {c c' : Cfg 2 ℚ (Fin 5) ℚ} (l : List (Nat × Resp ℚ)) :
    List.Forall₂ (SameStep u c c') (l.map fun p => (p.1, p.2, fixedOrc))
      (l.map fun p => (p.1, respOf u p.2, fixedOrc)) := by
  induction l with
  | nil => exact .nil
  | cons p l ih => exact .cons ⟨rfl, rfl, ⟨fun _ => rfl, fun _ _ _ => rfl⟩⟩ ih

example : use tabShifted (fixedSteps (shift tabShift)) =
    (use tabCfg (tabResps.map fun p => (p.1, p.2, fixedOrc))).map (resultOf (shift tabShift)) :=
  C124_origins_partial _ tabShift (fixed_same tabResps)

example : use (dataOf (rescale (fun _ => 10) fun _ => by norm_num) (1 / 1000000) tabCfg)
      (fixedSteps (rescale (fun _ => 10) fun _ => by norm_num)) =
    (use tabCfg (tabResps.map fun p => (p.1, p.2, fixedOrc))).map
      (resultOf (rescale (fun _ => 10) fun _ => by norm_num)) :=
  C125_units_partial supNorm_spec _ 10 (by norm_num) (fixed_same tabResps)

end Verif.Rpm
