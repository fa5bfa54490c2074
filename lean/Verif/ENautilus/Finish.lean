import Verif.ENautilus.Props2
import Verif.Finish

set_option linter.unusedSectionVars false

/-!
# The decision maker can finish E-NAUTILUS: property C162
-/

namespace Verif.ENautilus

variable {K V : Type} [Field K] [LinearOrder K] [IsStrictOrderedRing K] {n k : Nat}

/-- Specification: the response to the request is accepted and answered with `q'`. -/
def Next (c : Cfg n k K V) (s : St n k K) (q : Out k K V) (r : Resp k K) (km : KMeans k K) (s' : St n k K)
    (q' : Out k K V) : Prop :=
  ∃ ct, q = .points ct ∧ validate ct r = .ok () ∧ answer c s ct r km = (s', .ok q')

/-- Specification: a stop request with an objective vector of the front. -/
def IsFrontRow (c : Cfg n k K V) (q : Out k K V) : Prop := ∃ i sol, q = .stop (c.front i) sol

/-- The response that finishes: the first point, with one iteration left. -/
def lastResp : Resp k K :=
  { (chooseResp 0 : Resp k K) with changeRemaining := some true, iterationsLeft := some 1 }

theorem answer_validated {c : Cfg n k K V} {s s' : St n k K} {ct : Content k K} {r : Resp k K} {km : KMeans k K}
    {o : Out k K V} (h : answer c s ct r km = (s', .ok o)) : validate ct r = .ok () := by
  unfold answer at h
  cases hv : validate ct r with
  | ok u => rfl
  | error e => rw [hv] at h; cases h

/-- C162 for E-NAUTILUS with two objectives: in every history, each request that shows a point can be answered such that
a stop request with an objective vector of the front comes after at most two answers, whatever k-means returns. Missing
from the full claim: more than two objectives, where requests without any point are issued
(`C06_dead_end_three_objectives`). -/
theorem C162_enautilus_partial {c : Cfg n 2 K V} (hn : NormSpec c.nrm) (hnd : MutuallyNondominated c.front)
    (hnad : ∀ i, AtLeastAsGood (c.front i) c.nadir) (hvars : ∀ vs, c.vars = some vs → vs.length = n)
    {s : St n 2 K} {ct : Content 2 K} {hist : List (Content 2 K)} (h : Reached c s (.points ct) hist)
    (hne : ct.points ≠ []) : Finishes (Next c) KMeansOk (IsFrontRow c) s (.points ct) 2 := by
  have hpos : PositiveChange (lastResp : Resp 2 K) := by
    intro _ m hm
    cases hm
    exact le_rfl
  have hstop : ∀ {s : St n 2 K} {ct : Content 2 K} {hist} {km : KMeans 2 K} {s' z sol},
      Reached c s (.points ct) hist → answer c s ct lastResp km = (s', .ok (.stop z sol)) →
      Next c s (.points ct) lastResp km s' (.stop z sol) ∧ IsFrontRow c (.stop z sol) := by
    intro s ct hist km s' z sol h ha
    obtain ⟨i, hi⟩ := (C05_stop_solution_matches hn (.finish h rfl ha)).1
    exact ⟨⟨ct, rfl, answer_validated ha, ha⟩, i, sol, by rw [hi]⟩
  have hone : ∀ {s : St n 2 K} {ct : Content 2 K} {hist}, Reached c s (.points ct) hist → ct.points ≠ [] →
      ct.left ≤ 1 → Finishes (Next c) KMeansOk (IsFrontRow c) s (.points ct) 1 := by
    intro s ct hist h hne hl
    refine .of_step lastResp fun km hkm => ?_
    obtain ⟨s', o, ha, hcase⟩ := C06_never_fails_two_objectives_partial hnd hnad hvars h hkm (r := lastResp) rfl hpos
      (ch := true) rfl (fun _ => rfl) (i := 0) rfl (List.length_pos_iff.2 hne)
    obtain ⟨i, z, left, _, _, _, hleft, ⟨_, sol, _, ho, _⟩ | ⟨hlt, _⟩⟩ := answer_choice_ok ha rfl
    · subst ho
      exact ⟨s', _, (hstop h ha).1, .done (hstop h ha).2⟩
    · have := (h.invariant.2 ct rfl).2
      rw [hleft] at this
      cases this
      omega
  refine .of_step lastResp fun km hkm => ?_
  obtain ⟨s', o, ha, hcase⟩ := C06_never_fails_two_objectives_partial hnd hnad hvars h hkm (r := lastResp) rfl hpos
    (ch := true) rfl (fun _ => rfl) (i := 0) rfl (List.length_pos_iff.2 hne)
  rcases hcase with ⟨z, sol, rfl⟩ | ⟨ct', rfl, hne'⟩
  · exact ⟨s', _, (hstop h ha).1, .done (hstop h ha).2⟩
  · have hR : Reached c s' (.points ct') (ct' :: hist) := .choose h rfl hpos ha
    refine ⟨s', _, ⟨ct, rfl, answer_validated ha, ha⟩, hone hR hne' ?_⟩
    obtain ⟨i, z, left, _, _, _, _, ⟨_, sol, _, ho, _⟩ | ⟨_, lo, hi', ch, left', nP, ct2, _, _, hch, hl', _, hc, ho, _⟩⟩ :=
      answer_choice_ok ha rfl
    · cases ho
    · cases ho
      have hcc : ch = true := by
        have : (some true : Option Bool) = some ch := hch
        cases this
        rfl
      subst hcc
      have : (some 1 : Option Int) = some left' := by simpa [lastResp] using hl'
      cases this
      exact le_of_eq (compute_ok hc).2.1

theorem findSolution_exists {c : Cfg n k K V} (hvars : ∀ vs, c.vars = some vs → vs.length = n) (i : Fin n) (z : Vec k K) :
    ∃ sol, findSolution c z = .ok sol := by
  unfold findSolution
  cases hv : c.vars with
  | none => exact ⟨none, rfl⟩
  | some vs =>
    dsimp only
    have hn0 : 0 < n := Nat.lt_of_le_of_lt (Nat.zero_le _) i.isLt
    obtain ⟨idx, hidx⟩ := npArgmin_exists
      (l := (List.finRange n).map fun i => c.nrm fun j => |c.front i j - z j|) (by
        intro hc
        have := congrArg List.length hc
        simp at this
        omega)
    rw [hidx]
    obtain ⟨m, h1, _, _⟩ := npArgmin_ok hidx
    have hlt' : idx < n := by
      have := (List.getElem?_eq_some_iff.1 h1).1
      simpa using this
    have : idx < vs.length := by rw [hvars vs hv]; exact hlt'
    dsimp only
    rw [List.getElem?_eq_getElem this]
    exact ⟨_, rfl⟩

/-- C162 for E-NAUTILUS, from the start, for any front of at least two objectives: the initial request can be answered
(one iteration, as many points as the front has rows) such that any row `i` of the front can then be picked with one
answer, and is what the stop request shows. -/
theorem C162_enautilus_start {c : Cfg n k K V} (hk : 2 ≤ k) (hvars : ∀ vs, c.vars = some vs → vs.length = n)
    (i : Fin n) : ∃ r, ∀ km, ∃ s ct, begin c (initSt c) r km = (s, .ok (.points ct)) ∧
      Finishes (Next c) (fun _ => True) (fun q => ∃ sol, q = .stop (c.front i) sol) s (.points ct) 1 := by
  refine ⟨⟨some (.int 1), some (.int n)⟩, fun km => ?_⟩
  have hn0 : 0 < n := Nat.lt_of_le_of_lt (Nat.zero_le _) i.isLt
  have hv : validateInitial ⟨some (.int 1), some (.int n)⟩ = .ok () := by
    have h1 : ¬ ((n : Int) < 1) := by omega
    simp [validateInitial, PyVal.isInstanceInt, PyVal.asInt, h1]
  have hrep : representative c.front (List.finRange n) n km = .ok ((List.finRange n).map c.front) := by
    unfold representative
    rw [if_neg (by simp)]
  have hint : intermediate c.nadir ((List.finRange n).map c.front) 1 = .ok ((List.finRange n).map c.front) := by
    unfold intermediate
    rw [if_neg (by decide)]
    simp only [intermediatePoint_one, List.map_id']
  obtain ⟨bs, hbs⟩ : ∃ bs, mapE (boundsAt c.front) ((List.finRange n).map c.front) = .ok bs := by
    apply mapE_exists
    intro z hz
    obtain ⟨row, _, rfl⟩ := List.mem_map.1 hz
    cases hb : boundsAt c.front (c.front row) with
    | ok b => exact ⟨b, rfl⟩
    | error e =>
      obtain ⟨_, r, hr⟩ := boundsAt_error hb
      exact absurd (fun j _ => le_rfl) (hr row)
  have hmx : ∃ m, maxIndex ((List.finRange n).map c.front) = .ok m ∧ i.val ≤ m := by
    unfold maxIndex
    by_cases h1 : ((List.finRange n).map c.front).length = 1
    · rw [if_pos h1, if_neg (by omega)]
      simp at h1
      exact ⟨k, rfl, by omega⟩
    · rw [if_neg h1]
      exact ⟨_, rfl, by simp⟩
  obtain ⟨mx, hmx, himx⟩ := hmx
  refine ⟨{ (initSt c) with left := some 1, nPoints := some n, preferred := some c.nadir },
    ⟨(List.finRange n).map c.front, bs.map Prod.fst, bs.map Prod.snd, 1,
    distances c.nrm ((List.finRange n).map c.front) ((List.finRange n).map c.front) c.nadir⟩, ?_, ?_⟩
  · unfold begin
    rw [hv]
    simp only [handleInitial, compute, initSt, PyVal.asInt, hrep, hint, bounds, hbs, mkRequest, hmx]
  · refine .of_step (chooseResp i) fun km' _ => ?_
    obtain ⟨sol, hsol⟩ := findSolution_exists hvars i (c.front i)
    have hval : ∀ lo hi ds, validate (⟨(List.finRange n).map c.front, lo, hi, 1, ds⟩ : Content k K) (chooseResp i) = .ok () := by
      intro lo hi ds
      simp only [validate, chooseResp, hmx]
      simp
      omega
    refine ⟨{ (initSt c) with left := some 0, nPoints := some n, preferred := some (c.front i) }, .stop (c.front i) sol,
      ⟨_, rfl, hval _ _ _, ?_⟩, .done ⟨sol, rfl⟩⟩
    unfold answer
    rw [hval]
    have hget : pyGet ((List.finRange n).map c.front) (i.val : Int) = .ok (c.front i) := by
      rw [pyGet_nat]
      simp
    simp only [handle, chooseResp, handleChoice, hget, initSt]
    rw [if_pos (by decide)]
    simp only [handleStop, hsol]

example := C162_enautilus_partial (c := exCfg) supNorm_spec (by decide +kernel) (by decide +kernel)
  (fun vs hv => by cases hv; rfl) ex_reached1 (by decide +kernel)
example := C162_enautilus_start (c := exCfg) (by decide) (fun vs hv => by cases hv; rfl) 2

end Verif.ENautilus
