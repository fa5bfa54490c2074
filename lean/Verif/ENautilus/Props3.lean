import Verif.ENautilus.Props2

/-! Properties of E-NAUTILUS: changing the number of remaining iterations. -/

namespace Verif.ENautilus

open Verif

variable {n k : Nat} {K V : Type} [Field K] [LinearOrder K] [IsStrictOrderedRing K]

/-- The response choosing point `i` and asking for `M` more iterations. -/
def changeResp (i M : Int) : Resp k K :=
  { preferredIndex := some i, stepBack := some false, changeRemaining := some true,
    iterationsLeft := some M, prevSolutions := none, prevLower := none, prevUpper := none,
    prevDistances := none }

/-- The running example: the first point is chosen and three more iterations are asked for. -/
def exChg : St 3 2 ℚ × Except Err (Out 2 ℚ String) := answer exCfg exS0 exCt0 (changeResp 1 3) noKm

/-- **C04** (changing the number of iterations). If the decision maker chooses a point and asks to
change the number of remaining iterations to `M ≥ 1`, and the answer is another request, then that
request reports `M` iterations left; after `m < M` further choices a request with `M - m` iterations
left is shown, and from the `M`-th further choice on the method has stopped. -/
theorem C04_changed_iterations {c : Cfg n k K V} {s s1 s' : St n k K} {ct ct1 : Content k K}
    {i : Int} {M : Nat} {km : KMeans k K} {o' : Out k K V} (hM : 1 ≤ M)
    (h : answer c s ct (changeResp i M) km = (s1, .ok (.points ct1)))
    (picks : List (Int × KMeans k K))
    (hs : session c s1 (.points ct1) (picks.map fun p => (chooseResp p.1, p.2)) = .ok (s', o')) :
    ct1.left = M ∧
    (picks.length < M → ∃ ct', o' = .points ct' ∧ ct'.left = (M : Int) - picks.length) ∧
    (M ≤ picks.length → ∃ z sol, o' = .stop z sol) := by
  obtain ⟨_, z, left, _, _, _, _, h1 | h1⟩ := answer_choice_ok h rfl
  · obtain ⟨_, sol, _, h2, _⟩ := h1
    simp at h2
  · obtain ⟨_, lo, hi, ch, left', nP, ct2, _, _, hch, hl, _, hc, ho, _, rfl⟩ := h1
    simp only [changeResp, Option.some.injEq] at hch
    subst hch
    simp only [changeResp, if_true, Option.some.injEq] at hl
    subst hl
    simp only [Out.points.injEq] at ho
    subst ho
    have e : ct1.left = M := (compute_ok hc).2.1
    exact ⟨e, session_choices picks M (Or.inl ⟨ct1, rfl, hM, rfl, e⟩) hs⟩

/-- The hypotheses of `C04_changed_iterations` are met by the running example with `M = 3`. -/
example := C04_changed_iterations (M := 3) (by decide)
  (show answer exCfg exS0 exCt0 (changeResp 1 (3 : Nat)) noKm = (exChg.1, .ok (.points (ctOf exChg))) from
    eq_of_isPts (by decide +kernel))
  [((0 : Int), noKm)]
  (show session exCfg exChg.1 (.points (ctOf exChg)) ([((0 : Int), noKm)].map fun p => (chooseResp p.1, p.2)) =
      .ok ((answer exCfg exChg.1 (ctOf exChg) (chooseResp 0) noKm).1,
        .points (ctOf (answer exCfg exChg.1 (ctOf exChg) (chooseResp 0) noKm))) by
    have := eq_of_isPts (x := answer exCfg exChg.1 (ctOf exChg) (chooseResp 0) noKm) (by decide +kernel)
    simp only [List.map_cons, List.map_nil, session, next]
    rw [this]
    rfl)

/-- **C04** (a change asked for on the last iteration is ignored). If one iteration is left, an
accepted choice stops the method, even when it asks for `M` more iterations. -/
theorem C04_change_ignored_on_last_iteration {c : Cfg n k K V} {s s1 : St n k K} {ct : Content k K}
    {i M : Int} {km : KMeans k K} {o : Out k K V} (hl : s.left = some 1)
    (h : answer c s ct (changeResp i M) km = (s1, .ok o)) : ∃ z sol, o = .stop z sol := by
  obtain ⟨_, z, left, _, _, _, hl', h1 | h1⟩ := answer_choice_ok h rfl
  · obtain ⟨_, sol, _, h2, _⟩ := h1
    exact ⟨z, sol, h2⟩
  · obtain ⟨hlt, _⟩ := h1
    rw [hl] at hl'
    simp only [Option.some.injEq] at hl'
    omega

/-- It is met in the last request of the running example. -/
example := C04_change_ignored_on_last_iteration (c := exCfg) (s := exS1) (ct := exCt1) rfl
  (show answer exCfg exS1 exCt1 (changeResp 0 7) noKm =
    ({ exS1 with preferred := some ![1, 1], left := some 0 }, .ok (.stop ![1, 1] (some "b"))) from
    eq_of_beq (by decide +kernel))

end Verif.ENautilus
