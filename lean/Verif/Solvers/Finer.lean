import Verif.Solvers.Recast

set_option linter.unusedSectionVars false

/-!
# A finer front representation, C170
-/

namespace Verif.Solvers

open Navigator (pointAsf)

variable {K : Type} [Field K] [LinearOrder K] [IsStrictOrderedRing K] [FloorRing K] {k : Nat} {X : Type}

/-- `fine` divides the step of every objective by a whole number (not necessarily the same one). -/
def Divides (k : Nat) (coarse fine : StepArg K) : Prop :=
  ∀ j : Fin (k + 1), ∃ m : Nat, stepFor coarse j.val = m * stepFor fine j.val

/-- The reference points of a coarse grid are reference points of a finer one. -/
theorem referencePoints_finer {lo hi : Vec (k + 1) K} {coarse fine : StepArg K} {eps eps' : K}
    (hc : ¬ BadStep k coarse) (hf : ¬ BadStep k fine) (hpc : ∀ j : Fin (k + 1), 0 < stepFor coarse j.val)
    (hpf : ∀ j : Fin (k + 1), 0 < stepFor fine j.val)
    (hd : Divides k coarse fine) (h0 : 0 ≤ eps) (he : eps ≤ eps') :
    ∃ zs zs', referencePoints lo hi eps coarse = .ok zs ∧ referencePoints lo hi eps' fine = .ok zs' ∧ zs ⊆ zs' := by
  obtain ⟨zs, h1, _, m1, _⟩ := (C63_grid (fun _ : Unit => lo) coarse eps lo hi none (fun _ _ _ => ((), true))
    (fun _ _ _ => ((), true))).2 hc hpc h0
  obtain ⟨zs', h2, _, m2, _⟩ := (C63_grid (fun _ : Unit => lo) fine eps' lo hi none (fun _ _ _ => ((), true))
    (fun _ _ _ => ((), true))).2 hf hpf (h0.trans he)
  refine ⟨zs, zs', h1, h2, fun z hz => ?_⟩
  rw [m2]
  intro j
  obtain ⟨n, e, hlt⟩ := (m1 z).1 hz j
  obtain ⟨m, hm⟩ := hd j
  refine ⟨n * m, ?_, by linarith⟩
  rw [e, hm]
  push_cast
  ring

/-- **C170.** Ask for a front representation with the step of every objective divided by a whole number, or with a larger
`eps`: every solution of the coarse representation, with its objective vector, is in the fine one. The minimizer is repeatable
and its successes are global minima; it may fail. Ideal and nadir may be given or computed. -/
theorem C170_finer {obj : X → Vec (k + 1) K} {cons : Option (X → List K)} {table front : Solver X K}
    (hn : Repeatable front) (ht : Trusty front) {coarse fine : StepArg K} {eps eps' : K}
    (hc : ¬ BadStep k coarse) (hf : ¬ BadStep k fine) (hpc : ∀ j : Fin (k + 1), 0 < stepFor coarse j.val)
    (hpf : ∀ j : Fin (k + 1), 0 < stepFor fine j.val)
    (hd : Divides k coarse fine) (h0 : 0 ≤ eps) (he : eps ≤ eps') {ideal nadir : Bound (k + 1) K} (ho : Ordered ideal nadir)
    {xs : List X} {fs : List (Vec (k + 1) K)}
    (h : frontGeneral obj coarse eps ideal nadir cons table front = .ok (xs, fs)) :
    ∃ xs' fs', frontGeneral obj fine eps' ideal nadir cons table front = .ok (xs', fs') ∧
      (∀ x ∈ xs, x ∈ xs') ∧ (∀ f ∈ fs, f ∈ fs') := by
  obtain ⟨lo, hi, zs0, h1, h2, h3⟩ := frontGeneral_ok h
  have hl := resolve_ordered ho h1
  obtain ⟨zs, zs', g1, g2, hsub⟩ := referencePoints_finer (lo := lo) (hi := hi) hc hf hpc hpf hd h0 he
  rw [h2] at g1
  cases g1
  obtain ⟨r, hF⟩ : ∃ r, frontGeneral obj fine eps' ideal nadir cons table front = .ok r := by
    unfold frontGeneral
    rw [h1]
    simp only [g2]
    exact ⟨_, rfl⟩
  obtain ⟨xs', fs'⟩ := r
  refine ⟨xs', fs', hF, ?_⟩
  suffices hx : ∀ x ∈ xs, x ∈ xs' by
    refine ⟨hx, fun f hfm => ?_⟩
    rw [(C62_aligned_partial h).1, List.mem_map] at hfm
    obtain ⟨x, hxm, rfl⟩ := hfm
    rw [(C62_aligned_partial hF).1]
    exact List.mem_map.2 ⟨x, hx x hxm, rfl⟩
  have hG : frontGeneral obj coarse eps (.given lo) (.given hi) cons table front = .ok (xs, fs) := by
    rw [← h]; unfold frontGeneral; rw [h1]; rfl
  have hG' : frontGeneral obj fine eps' (.given lo) (.given hi) cons table front = .ok (xs', fs') := by
    rw [← hF]; unfold frontGeneral; rw [h1]; rfl
  cases zs0 with
  | nil =>
    have e1 : xs = [] := (Prod.mk.inj h3).1
    rw [e1]
    simp
  | cons z zs =>
    cases zs' with
    | nil => exact absurd (hsub List.mem_cons_self) (by simp)
    | cons z' zs' =>
      have hz := referencePoints_head h2
      have hz' := referencePoints_head g2
      have c1 := C79_successes_partial h2 hG
      have c2 := C79_successes_partial g2 hG'
      have hzz : z' = z := by rw [hz, hz']
      subst hzz
      by_cases hs : (front 0 none fun x => pointAsf lo hi z' (obj x)).2 = true
      · rw [c1.1 hl ht hs, c2.1 hl ht hs, allSuccesses_eq hn, allSuccesses_eq hn]
        intro x hx
        rw [List.mem_filterMap] at hx ⊢
        obtain ⟨a, ha, e⟩ := hx
        exact ⟨a, hsub ha, e⟩
      · rw [(c1.2 (by simpa using hs)).1]
        simp

/-! ### Non-vacuity -/

/-- Halve the steps: nine instead of four reference points, and the second solution is found only now. -/
example : ∃ (solver : Solver (Fin 4) ℚ) (xs : List (Fin 4)) (fs : List (Vec 2 ℚ)), Repeatable solver ∧ Trusty solver ∧
    frontGeneral (![![0, 2], ![1, 1], ![2, 0], ![2, 2]] : Fin 4 → Vec 2 ℚ) (.float 2) (1 / 10 ^ 6) (.given ![0, 0])
      (.given ![2, 2]) none solver solver = .ok (xs, fs) ∧
    ∃ xs' fs', frontGeneral (![![0, 2], ![1, 1], ![2, 0], ![2, 2]] : Fin 4 → Vec 2 ℚ) (.array [1, 2 / 3]) (1 / 10 ^ 6)
      (.given ![0, 0]) (.given ![2, 2]) none solver solver = .ok (xs', fs') ∧ (∀ x ∈ xs, x ∈ xs') ∧ (∀ f ∈ fs, f ∈ fs') := by
  obtain ⟨pick, hp⟩ : ∃ pick : (Fin 4 → ℚ) → Fin 4, ∀ (g : Fin 4 → ℚ) (y : Fin 4), g (pick g) ≤ g y := by
    choose f hf using fun g : Fin 4 → ℚ => Finite.exists_min g
    exact ⟨f, hf⟩
  have hn : Repeatable (K := ℚ) (X := Fin 4) fun _ _ g => (pick g, true) := fun _ _ _ _ => rfl
  have ht : Trusty (K := ℚ) (X := Fin 4) fun _ _ g => (pick g, true) := fun _ g _ y => hp g y
  obtain ⟨_, _, _, _, ⟨xs, fs⟩, hr⟩ := (C63_grid (![![0, 2], ![1, 1], ![2, 0], ![2, 2]] : Fin 4 → Vec 2 ℚ) (.float 2)
    (1 / 10 ^ 6) ![0, 0] ![2, 2] none (fun _ _ g => (pick g, true)) (fun _ _ g => (pick g, true))).2
    (by simp [BadStep]) (by decide +kernel) (by norm_num)
  refine ⟨_, xs, fs, hn, ht, hr, ?_⟩
  refine C170_finer hn ht (by simp [BadStep]) (by simp [BadStep]) (by decide +kernel) (by decide +kernel) ?_ (by norm_num)
    le_rfl ?_ hr
  · intro j
    fin_cases j
    · exact ⟨2, by norm_num [stepFor]⟩
    · exact ⟨3, by norm_num [stepFor]⟩
  · rintro _ _ ⟨⟩ ⟨⟩ j
    fin_cases j <;> norm_num

end Verif.Solvers
