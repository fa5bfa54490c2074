import Verif.Pipeline
import Verif.Navigator.Reach
import Verif.ENautilus.Reach

set_option linter.unusedSectionVars false

/-!
# From the problem to a solution nearby, C183 and C184

Every Pareto optimal solution of the problem - in the representation or not - is represented by a solution that can be
reached with NAUTILUS Navigator and, for two objectives, with E-NAUTILUS.
-/

namespace Verif.Pipeline

open Solvers (Problem Solver ParetoSolution Admissible StandsFor)

variable {K : Type} [Field K] [LinearOrder K] [IsStrictOrderedRing K] [FloorRing K] {k n : Nat} {X : Type}

variable {P : Problem k X K} {lo hi : Vec (k + 1) K} {d : K} {xs : List X} {fs : List (Vec (k + 1) K)}

/-- No row dominates another one. -/
theorem Prepared.nondominated (h : Prepared P lo hi d xs fs) {front : Fin n → Vec (k + 1) K}
    (hrow : ∀ i : Fin n, fs[i.val]? = some (front i)) : MutuallyNondominated front := by
  intro i j hd
  obtain ⟨h1, h2⟩ := h.aligned
  have hj := hrow j
  have hi' := hrow i
  rw [h1, List.getElem?_map] at hj hi'
  obtain ⟨xj, hxj, ej⟩ := Option.map_eq_some_iff.1 hj
  obtain ⟨xi, hxi, ei⟩ := Option.map_eq_some_iff.1 hi'
  rw [← ej, ← ei] at hd
  exact (h2 xj (List.mem_of_getElem? hxj)).2 xi (fun h0 => absurd h0 (by have := h.free; omega)) hd

/-- The row that stands for a Pareto optimal solution. -/
theorem Prepared.covering (h : Prepared P lo hi d xs fs) {y : X} (hy : ParetoSolution P y) :
    ∃ (i : Nat) (x : X), xs[i]? = some x ∧ fs[i]? = some (P.obj x) ∧ ParetoSolution P x ∧
      StandsFor P.obj lo hi (d + (k + 1) / 10 ^ 6) x y := by
  obtain ⟨step, eps, table, solver, hb, hpos, heps, hd, ht, hs, hf⟩ := h.result
  obtain ⟨x, hx, hst⟩ := Solvers.C113_covers h.ordered h.ideal hb hpos heps hd ht hs hf (h.nadir y hy)
  obtain ⟨i, hi'⟩ := List.mem_iff_getElem?.1 hx
  obtain ⟨h1, h2⟩ := h.aligned
  exact ⟨i, x, hi', by rw [h1, List.getElem?_map, hi']; rfl, h2 x hx, hst⟩

/-- A step forward does not stop. -/
theorem advance_nav (c : Navigator.Cfg n (k + 1) K X) (s : Navigator.St n (k + 1) K) (ul : Vec (k + 1) (Option K))
    (idx : List (Fin n)) (objs : List (Vec (k + 1) K)) (v : Option (List X)) :
    (Navigator.advance c s ul).2 ≠ .ok (.stop idx objs v) := by
  intro h
  unfold Navigator.advance at h
  repeat' (first | (cases h) | split at h)

/-- A stop request consists of the reachable rows. -/
theorem stop_shape {c : Navigator.Cfg n (k + 1) K X} {s : Navigator.St n (k + 1) K} {ct : Navigator.Content n (k + 1) K}
    {r : Navigator.Resp K} {idx objs v} (h : (Navigator.answer c s ct r).2 = .ok (.stop idx objs v)) :
    objs = idx.map c.front := by
  unfold Navigator.answer at h
  split at h
  · cases h
  · unfold Navigator.handle at h
    split at h
    · split at h
      · unfold Navigator.stopRequest at h
        cases h
        rfl
      · split at h
        · cases h
        · split at h
          · cases h
          · unfold Navigator.forward at h
            repeat' (first | (cases h) | exact absurd h (advance_nav _ _ _ _ _ _) | split at h)
    · cases h

/-- **C183.** For every Pareto optimal solution `y` of the problem there are a Pareto optimal solution `x` of the problem
that is in no objective worse than `y` by more than one step and some millionths of the range, and responses, all of them
usable, that lead NAUTILUS Navigator to the objective vector of `x`; stopping there returns `x` and only solutions with the
same objective values, all of them Pareto optimal. -/
theorem C183_navigator (h : Prepared P lo hi d xs fs) {c : Navigator.Cfg n (k + 1) K X} (hc : NavigatorOn c lo hi xs fs)
    {y : X} (hy : ParetoSolution P y) :
    ∃ x ∈ xs, ParetoSolution P x ∧ StandsFor P.obj lo hi (d + (k + 1) / 10 ^ 6) x y ∧
      ∃ (rs : List (Navigator.Resp K)) (s : Navigator.St n (k + 1) K) (ct : Navigator.Content n (k + 1) K),
        (∀ r ∈ rs, Navigator.Usable c r) ∧
        Navigator.run c (Navigator.initSt c) (Navigator.start (Navigator.initSt c)) rs = .ok (s, ct) ∧ ct.nav = P.obj x ∧
        ∃ r, Navigator.Usable c r ∧ ∃ idx ds, (Navigator.answer c s ct r).2 = .ok (.stop idx (ds.map P.obj) (some ds)) ∧
          x ∈ ds ∧ ∀ x' ∈ ds, P.obj x' = P.obj x ∧ ParetoSolution P x' := by
  obtain ⟨dec, h1, h2⟩ := hc.decisions
  have hrow : ∀ i, ParetoSolution P (dec i) ∧ c.front i = P.obj (dec i) ∧ InBox lo hi (c.front i) :=
    fun i => h.row (hc.rows i) (h2 i)
  obtain ⟨i, x, e1, e2, e3, e4⟩ := h.covering hy
  have hlt : i < n := by
    rw [hc.count]
    exact (List.getElem?_eq_some_iff.1 e2).1
  have hdx : dec ⟨i, hlt⟩ = x := by
    have := h2 ⟨i, hlt⟩
    rw [e1] at this
    exact (Option.some.inj this).symm
  obtain ⟨rs, s, ct, a1, a2, a3, a4, a5, r, a6, idx, objs, a7, a8, a9⟩ := Navigator.C174_navigator (c := c)
    (fun i => by rw [hc.ideal, hc.nadir]; exact (hrow i).2.2) (h.nondominated hc.rows) ⟨i, hlt⟩
  have hfx : c.front ⟨i, hlt⟩ = P.obj x := by rw [(hrow _).2.1, hdx]
  have hobjs := stop_shape a7
  rw [h1] at a7
  simp only [Option.map_some] at a7
  have hmap : (idx.map dec).map P.obj = objs := by
    rw [hobjs, List.map_map]
    exact List.map_congr_left fun p _ => (hrow p).2.1.symm
  refine ⟨x, List.mem_of_getElem? e1, e3, e4, rs, s, ct, a1, a2, a3.trans hfx, r, a6, idx, idx.map dec, ?_, ?_, ?_⟩
  · rw [a7, hmap]
  · rw [← hdx]
    exact List.mem_map_of_mem a8
  · intro x' hx'
    refine ⟨(a9 _ (by rw [← hmap]; exact List.mem_map_of_mem hx')).trans hfx, ?_⟩
    obtain ⟨p, _, rfl⟩ := List.mem_map.1 hx'
    exact (hrow p).1

/-- **C184.** For two objectives: for every Pareto optimal solution `y` of the problem there is a Pareto optimal solution `x`
of the problem that is in no objective worse than `y` by more than one step and some millionths of the range, such that
E-NAUTILUS, asked to show at least as many points as the representation has rows, can be led to it in any number `N` of
iterations, whatever the clustering: it ends with the objective vector of `x` and a Pareto optimal solution with these
objective values. -/
theorem C184_enautilus {P : Problem 1 X K} {lo hi : Vec 2 K} {fs : List (Vec 2 K)} (h : Prepared P lo hi d xs fs)
    {c : ENautilus.Cfg n 2 K X} (hc : ENautilusOn c lo hi xs fs) (hn : NormSpec c.nrm) {y : X} (hy : ParetoSolution P y) :
    ∃ x ∈ xs, ParetoSolution P x ∧ StandsFor P.obj lo hi (d + 2 / 10 ^ 6) x y ∧
      ∀ (N : Nat) (nP : Int) (km : ENautilus.KMeans 2 K) (kms : List (ENautilus.KMeans 2 K)), 1 ≤ N → (n : Int) ≤ nP →
        ENautilus.KMeansOk km → kms.length = N → (∀ km ∈ kms, ENautilus.KMeansOk km) →
        ∃ s ct, ENautilus.begin c (ENautilus.initSt c) ⟨some (.int N), some (.int nP)⟩ km = (s, .ok (.points ct)) ∧
          ∃ picks : List Nat, picks.length = N ∧ ∃ s' x',
            ENautilus.session c s (.points ct) (List.zipWith (fun m km => (ENautilus.chooseResp (m : Nat), km)) picks kms) =
              .ok (s', .stop (P.obj x) (some x')) ∧ P.obj x' = P.obj x ∧ ParetoSolution P x' := by
  obtain ⟨i, x, e1, e2, e3, e4⟩ := h.covering hy
  have hlt : i < n := by
    rw [hc.count]
    exact (List.getElem?_eq_some_iff.1 e2).1
  have hlen : xs.length = n := by
    rw [hc.count, h.aligned.1, List.length_map]
  have hfx : c.front ⟨i, hlt⟩ = P.obj x := by
    have := hc.rows ⟨i, hlt⟩
    rw [e2] at this
    exact (Option.some.inj this).symm
  refine ⟨x, List.mem_of_getElem? e1, e3, ?_, fun N nP km kms hN hnP hkm hl hkms => ?_⟩
  · have e : (2 : K) = ((1 : Nat) : K) + 1 := by norm_num
    rw [e]
    exact e4
  · obtain ⟨s, ct, a1, picks, a2, s', sol, a3, a4, _⟩ := ENautilus.C175_two_objectives_partial (c := c) hn
      (h.nondominated hc.rows) (fun p => by
        have hp := hc.rows p
        have hx : p.val < xs.length := by rw [hlen]; exact p.isLt
        rw [hc.nadir]
        exact fun j => ((h.row hp (List.getElem?_eq_getElem hx)).2.2 j).2) (fun vs hvs => by
        rw [hc.decisions] at hvs
        cases hvs
        exact hlen) ⟨i, hlt⟩ hN hnP hkm hl hkms
    obtain ⟨p, b1, b2, b3⟩ := a4 xs hc.decisions
    obtain ⟨x', hx'⟩ := Option.isSome_iff_exists.1 b3
    rw [hx'] at b2
    obtain ⟨c1, c2, _⟩ := h.row (hc.rows p) b2.symm
    refine ⟨s, ct, a1, picks, a2, s', x', ?_, ?_, c1⟩
    · rw [a3, hx', hfx]
    · rw [← c2, b1, hfx]

/-! ### Non-vacuity -/

theorem p_pareto : ParetoSolution Solvers.covProblem 2 := by
  unfold ParetoSolution Admissible Dominates AtLeastAsGood
  decide +kernel

example := C183_navigator p_prepared p_nav p_pareto
example := C184_enautilus p_prepared p_en supNorm_spec p_pareto

/-- E-NAUTILUS in three iterations, with some clustering. -/
example := (C184_enautilus p_prepared p_en supNorm_spec p_pareto).choose_spec.2.2.2 3 9 _
  (List.replicate 3 fun _ m => List.range m.toNat) (by norm_num) (by norm_num) ENautilus.rangeKm rfl
  (fun km hk => by rw [List.eq_of_mem_replicate hk]; exact ENautilus.rangeKm)

end Verif.Pipeline
