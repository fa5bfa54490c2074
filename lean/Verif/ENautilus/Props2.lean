import Verif.ENautilus.Props
import Mathlib.Tactic.FinCases

/-! # E-NAUTILUS: properties C06 - C10 -/

set_option linter.unusedSectionVars false

namespace Verif.ENautilus

variable {K V : Type} [Field K] [LinearOrder K] [IsStrictOrderedRing K] {n k : Nat}

/-! ## C06 -/

/-- Every row inside the bounds of a point is at least as good as the point. -/
def TightBoxes (front : Fin n → Vec k K) : Prop :=
  ∀ z lo hi, ExactBounds front z lo hi → ∀ i, InBox lo hi (front i) → AtLeastAsGood (front i) z

/-- With two objectives and mutually nondominated rows, boxes are tight. -/
theorem tight_two {front : Fin n → Vec 2 K} (h : MutuallyNondominated front) : TightBoxes front := by
  intro z lo hi hex i hbox
  have key : ∀ r r' : Fin 2, r ≠ r' → front i r ≤ z r := by
    intro r r' hne
    by_contra hc
    obtain ⟨q, hq, hq'⟩ := (hex r').1.1
    have h1 : front q r ≤ z r := hq r hne
    refine h q i ⟨fun j => ?_, r, lt_of_le_of_lt h1 (not_le.1 hc)⟩
    by_cases hj : j = r
    · subst hj; exact le_trans h1 (not_le.1 hc).le
    · have : j = r' := by omega
      subst this
      dsimp only at hq'
      rw [hq']
      exact (hbox j).1
  intro j
  fin_cases j
  · exact key 0 1 (by decide)
  · exact key 1 0 (by decide)

/-- What k-means provides: `m` row numbers of the points it was given. -/
def KMeansOk (km : KMeans k K) : Prop :=
  ∀ pts (m : Int), 1 ≤ m → m < (pts.length : Int) →
    ((km pts m).length : Int) = m ∧ ∀ a ∈ km pts m, a < pts.length

theorem intermediatePoint_le {pref zb : Vec k K} {left : Int} (hl : 1 ≤ left)
    (h : AtLeastAsGood zb pref) :
    AtLeastAsGood (intermediatePoint pref zb left) pref ∧
    AtLeastAsGood zb (intermediatePoint pref zb left) := by
  have hb := intermediatePoint_between pref zb hl
  refine ⟨fun j => ?_, fun j => ?_⟩
  · have := (hb j).2
    rwa [max_eq_left (h j)] at this
  · have := (hb j).1
    rwa [min_eq_right (h j)] at this

/-- The part of the invariant that needs tight boxes. -/
structure Kept (c : Cfg n k K V) (ct : Content k K) : Prop where
  row : ∀ z ∈ ct.points, ∃ i, AtLeastAsGood (c.front i) z
  nadir : ∀ z ∈ ct.points, AtLeastAsGood z c.nadir

theorem Reached.kept {c : Cfg n k K V} (ht : TightBoxes c.front)
    (hnad : ∀ i, AtLeastAsGood (c.front i) c.nadir)
    {s : St n k K} {o : Out k K V} {hist : List (Content k K)} (h : Reached c s o hist) :
    (∀ ct ∈ hist, Kept c ct) ∧ ∃ nP, s.nPoints = some nP ∧ 1 ≤ nP := by
  induction h with
  | start h =>
    rename_i r km s ct
    obtain ⟨nIt, nP, ct', _, _, h1, hp, h2, h3, h4, h5⟩ := begin_ok h
    simp only [Out.points.injEq] at h2
    subst h2
    refine ⟨?_, nP.asInt, by rw [h5], hp⟩
    intro x hx
    simp only [List.mem_singleton] at hx
    subst hx
    obtain ⟨_, _, _, zbars, h6, h7, _⟩ := compute_ok h4
    have key : ∀ z ∈ x.points, (∃ i, AtLeastAsGood (c.front i) z) ∧ AtLeastAsGood z c.nadir := by
      intro z hz
      rw [h7] at hz
      obtain ⟨zb, hzb, rfl⟩ := List.mem_map.1 hz
      obtain ⟨i, _, rfl⟩ := representative_mem h6 zb hzb
      have := intermediatePoint_le h1 (hnad i)
      exact ⟨⟨i, this.2⟩, this.1⟩
    exact ⟨fun z hz => (key z hz).1, fun z hz => (key z hz).2⟩
  | choose hr hsb hpos h ih =>
    rename_i s s' ct ct' hist r km
    obtain ⟨i, z, left, _, _, hz, hl, h1 | h1⟩ := answer_choice_ok h hsb
    · obtain ⟨_, sol, _, h2, _⟩ := h1
      simp at h2
    · obtain ⟨hlt, lo, hi, ch, left', nP, ct'', hlo, hhi, hch, hl', hp, hc, ho, hm, hs⟩ := h1
      simp only [Out.points.injEq] at ho
      subst ho
      obtain ⟨ih1, nP', ih2, ih3⟩ := ih
      refine ⟨?_, nP', by rw [hs]; exact ih2, ih3⟩
      intro x hx
      rcases List.mem_cons.1 hx with rfl | hx
      · obtain ⟨_, _, _, zbars, h6, h7, _⟩ := compute_ok hc
        obtain ⟨inv1, inv2⟩ := hr.invariant
        have hmem := (inv2 ct rfl).1
        have hex := (inv1 ct hmem).good.2.2 _ z lo hi hz hlo hhi
        have hzn := (ih1 ct hmem).nadir z (List.mem_of_getElem? hz)
        have key : ∀ z' ∈ x.points, (∃ i, AtLeastAsGood (c.front i) z') ∧ AtLeastAsGood z' c.nadir := by
          intro z' hz'
          rw [h7] at hz'
          obtain ⟨zb, hzb, rfl⟩ := List.mem_map.1 hz'
          obtain ⟨i', hi', rfl⟩ := representative_mem h6 zb hzb
          have hle := ht z lo hi hex i' ((mem_reachable _ _ _ _).1 hi')
          have := intermediatePoint_le (choice_left_pos hpos hch hlt hl') hle
          exact ⟨⟨i', this.2⟩, fun j => le_trans (this.1 j) (hzn j)⟩
        exact ⟨fun z hz => (key z hz).1, fun z hz => (key z hz).2⟩
      · exact ih1 x hx
  | finish hr hsb h ih =>
    obtain ⟨i, z, left, _, _, hz, hl, h1 | h1⟩ := answer_choice_ok h hsb
    · obtain ⟨_, sol, _, h2, h3⟩ := h1
      obtain ⟨ih1, nP', ih2, ih3⟩ := ih
      exact ⟨ih1, nP', by rw [h3]; exact ih2, ih3⟩
    · obtain ⟨_, _, _, _, _, _, _, _, _, _, _, _, _, ho, _⟩ := h1
      simp at ho
  | back hr hmem hb h ih =>
    obtain ⟨_, _, _, _, _, _, _, _, h8⟩ := answer_back_ok h hb.1
    obtain ⟨ih1, nP', ih2, ih3⟩ := ih
    exact ⟨ih1, nP', by rw [h8]; exact ih2, ih3⟩

/-- **C06**, proved for two objectives (missing: three or more objectives, where it is false, see
`C06_worsens_three_objectives`). In every history, every point shown after choosing `z` is at least
as good as `z` in both objectives. -/
theorem C06_never_worsens_two_objectives_partial {c : Cfg n 2 K V} (hnd : MutuallyNondominated c.front)
    {s s' : St n 2 K} {ct ct' : Content 2 K} {hist : List (Content 2 K)}
    (h : Reached c s (.points ct) hist) {r : Resp 2 K} {km : KMeans 2 K}
    (hsb : r.stepBack = some false) (hpos : PositiveChange r)
    (ha : answer c s ct r km = (s', .ok (.points ct')))
    {i : Nat} {z : Vec 2 K} (hi : r.preferredIndex = some (i : Int)) (hz : ct.points[i]? = some z) :
    ∀ z' ∈ ct'.points, AtLeastAsGood z' z := by
  obtain ⟨i', z2, left, h1, hi0, hz2, hl, h2 | h2⟩ := answer_choice_ok ha hsb
  · obtain ⟨_, sol, _, h3, _⟩ := h2
    simp at h3
  · obtain ⟨hlt, lo, hi', ch, left', nP, ct'', hlo, hhi, hch, hl', hp, hc, ho, hm, hs⟩ := h2
    simp only [Out.points.injEq] at ho
    subst ho
    rw [hi] at h1
    simp only [Option.some.injEq] at h1
    subst h1
    simp only [Int.toNat_natCast] at hlo hhi hz2
    rw [hz] at hz2
    simp only [Option.some.injEq] at hz2
    subst hz2
    obtain ⟨inv1, inv2⟩ := h.invariant
    have hex := (inv1 ct (inv2 ct rfl).1).good.2.2 _ z lo hi' hz hlo hhi
    obtain ⟨_, _, _, zbars, h6, h7, _⟩ := compute_ok hc
    intro z' hz'
    rw [h7] at hz'
    obtain ⟨zb, hzb, rfl⟩ := List.mem_map.1 hz'
    obtain ⟨row, hrow, rfl⟩ := representative_mem h6 zb hzb
    exact (intermediatePoint_le (choice_left_pos hpos hch hlt hl')
      (tight_two hnd z lo hi' hex row ((mem_reachable _ _ _ _).1 hrow))).1

theorem representative_exists {front : Fin n → Vec k K} {subset : List (Fin n)} {nPts : Int}
    {km : KMeans k K} (hkm : KMeansOk km) (hn : 1 ≤ nPts) (hne : subset ≠ []) :
    ∃ zbars, representative front subset nPts km = .ok zbars ∧ zbars ≠ [] := by
  unfold representative
  dsimp only
  split
  · rename_i hgt
    obtain ⟨h1, h2⟩ := hkm (subset.map front) nPts hn (by simpa using hgt)
    obtain ⟨zb, hzb⟩ := mapE_exists (f := fun (c : Nat) => pyGet (subset.map front) c)
      (l := km (subset.map front) nPts) (fun a ha => by
        have := h2 a ha
        exact pyGet_exists (by omega) (by omega))
    refine ⟨zb, hzb, ?_⟩
    have := mapE_length hzb
    intro hc
    rw [hc] at this
    simp at this
    omega
  · exact ⟨_, rfl, by simpa using hne⟩

theorem compute_exists {c : Cfg n k K V} {reach : List (Fin n)} {pref : Vec k K} {nP left : Int}
    {km : KMeans k K} (hkm : KMeansOk km) (hnp : 1 ≤ nP) (hl : 1 ≤ left) (hne : reach ≠ [])
    (hle : ∀ i ∈ reach, AtLeastAsGood (c.front i) pref) :
    ∃ ct, compute c reach pref nP left km = .ok ct ∧ ct.points ≠ [] := by
  obtain ⟨zbars, h1, h2⟩ := representative_exists (front := c.front) hkm hnp hne
  have hb : ∃ p, bounds c.front (zbars.map fun zb => intermediatePoint pref zb left) = .ok p := by
    cases hbb : bounds c.front (zbars.map fun zb => intermediatePoint pref zb left) with
    | ok p => exact ⟨p, rfl⟩
    | error e =>
      obtain ⟨_, z, hz, r, hr⟩ := (C02_bounds_fail_iff _ _ _).1 hbb
      obtain ⟨zb, hzb, rfl⟩ := List.mem_map.1 hz
      obtain ⟨i, hi, rfl⟩ := representative_mem h1 zb hzb
      exact absurd (fun j _ => (intermediatePoint_le hl (hle i hi)).2 j) (hr i)
  obtain ⟨⟨lo, hi⟩, hb⟩ := hb
  refine ⟨_, by
    unfold compute
    rw [h1]
    simp only [intermediate, show left ≠ 0 by omega, if_false]
    rw [hb], ?_⟩
  simpa using h2

/-- **C06** (progress), proved for two objectives. In every history, choosing any shown point (with
or without a positive change of the remaining iterations) raises nothing: it leads to a request that
shows at least one point, or to the stop request. -/
theorem C06_never_fails_two_objectives_partial {c : Cfg n 2 K V} (hnd : MutuallyNondominated c.front)
    (hnad : ∀ i, AtLeastAsGood (c.front i) c.nadir) (hvars : ∀ vs, c.vars = some vs → vs.length = n)
    {s : St n 2 K} {ct : Content 2 K} {hist : List (Content 2 K)}
    (h : Reached c s (.points ct) hist) {r : Resp 2 K} {km : KMeans 2 K} (hkm : KMeansOk km)
    (hsb : r.stepBack = some false) (hpos : PositiveChange r)
    {ch : Bool} (hch : r.changeRemaining = some ch) (hit : ch = true → r.iterationsLeft.isSome)
    {i : Nat} (hi : r.preferredIndex = some (i : Int)) (hlt : i < ct.points.length) :
    ∃ s' o, answer c s ct r km = (s', .ok o) ∧
      ((∃ z sol, o = .stop z sol) ∨ ∃ ct', o = .points ct' ∧ ct'.points ≠ []) := by
  obtain ⟨inv1, inv2⟩ := h.invariant
  obtain ⟨hmem, hleft⟩ := inv2 ct rfl
  obtain ⟨kept1, nP, hnP, hnP1⟩ := h.kept (tight_two hnd) hnad
  have hp := inv1 ct hmem
  have hmx : ∃ m, maxIndex ct.points = .ok m ∧ i ≤ m := by
    unfold maxIndex
    by_cases h1 : ct.points.length = 1
    · exact ⟨2, by simp [h1], by omega⟩
    · exact ⟨ct.points.length, by simp [h1], by omega⟩
  obtain ⟨mx, hmx, hmxi⟩ := hmx
  have hval : validate ct r = .ok () := by
    unfold validate
    rw [hi, hsb, hch]
    simp only [Bool.not_false, if_true, hmx]
    rw [if_neg (by omega)]
    cases ch with
    | false => simp
    | true =>
      have := hit rfl
      simp [Option.isSome_iff_ne_none.1 this, Option.isNone_iff_eq_none]
  obtain ⟨z, hz⟩ : ∃ z, ct.points[i]? = some z := ⟨_, List.getElem?_eq_getElem hlt⟩
  obtain ⟨e1, e2, e3⟩ := hp.good
  obtain ⟨lo, hlo⟩ : ∃ z, ct.lowers[i]? = some z := ⟨_, List.getElem?_eq_getElem (by omega)⟩
  obtain ⟨hi', hhi⟩ : ∃ z, ct.uppers[i]? = some z := ⟨_, List.getElem?_eq_getElem (by omega)⟩
  have hex := e3 i z lo hi' hz hlo hhi
  unfold answer
  rw [hval]
  simp only [handle, hsb, handleChoice, hi, pyGet_nat.2 hz, hleft]
  by_cases hle : ct.left ≤ 1
  · simp only [hle, if_true, handleStop]
    have hf : ∃ sol, findSolution c z = .ok sol := by
      unfold findSolution
      cases hv : c.vars with
      | none => exact ⟨none, rfl⟩
      | some vs =>
        dsimp only
        obtain ⟨row, hrow⟩ := (kept1 ct hmem).row z (List.mem_of_getElem? hz)
        have hn0 : 0 < n := Nat.lt_of_le_of_lt (Nat.zero_le _) row.isLt
        obtain ⟨idx, hidx⟩ := npArgmin_exists
          (l := (List.finRange n).map fun i => c.nrm fun j => |c.front i j - z j|) (by
            intro hc
            have := congrArg List.length hc
            simp at this
            omega)
        rw [hidx]
        obtain ⟨m, h1, _, _⟩ := npArgmin_ok hidx
        have hlt' : idx < n := by
          have := (List.getElem?_eq_some_iff.1 h1).1
          simpa using this
        have : idx < vs.length := by rw [hvars vs hv]; exact hlt'
        dsimp only
        rw [List.getElem?_eq_getElem this]
        exact ⟨_, rfl⟩
    obtain ⟨sol, hsol⟩ := hf
    rw [hsol]
    exact ⟨_, _, rfl, Or.inl ⟨z, sol, rfl⟩⟩
  · simp only [hle, if_false, pyGet_nat.2 hlo, pyGet_nat.2 hhi, hch]
    obtain ⟨left', hl', hl1⟩ : ∃ left', (if ch = true then r.iterationsLeft else some (ct.left - 1)) =
        some left' ∧ 1 ≤ left' := by
      cases ch with
      | false => exact ⟨ct.left - 1, by simp, by omega⟩
      | true =>
        obtain ⟨m, hm⟩ := Option.isSome_iff_exists.1 (hit rfl)
        exact ⟨m, by simp [hm], hpos hch m hm⟩
    obtain ⟨ct', hc, hne⟩ := compute_exists (c := c) (reach := reachable c.front lo hi') (pref := z)
      hkm hnP1 hl1 (by
        obtain ⟨row, hrow⟩ := (kept1 ct hmem).row z (List.mem_of_getElem? hz)
        have : row ∈ reachable c.front lo hi' := by
          refine (mem_reachable _ _ _ _).2 fun j => ⟨?_, ?_⟩
          · exact (hex j).1.2 row (fun j' _ => hrow j')
          · exact (hex j).2.2 row (fun j' _ => hrow j')
        exact List.ne_nil_of_mem this) (fun row hrow =>
          tight_two hnd z lo hi' hex row ((mem_reachable _ _ _ _).1 hrow))
    simp only [hl', hnP, hc]
    rw [mkRequest_of (by
      unfold maxIndex
      by_cases h1 : ct'.points.length = 1
      · exact ⟨2, by simp [h1]⟩
      · exact ⟨ct'.points.length, by simp [h1]⟩)]
    exact ⟨_, _, rfl, Or.inr ⟨ct', rfl, hne⟩⟩

/-- The hypotheses of C06 are met by the running example. -/
example : MutuallyNondominated exCfg.front ∧ (∀ i, AtLeastAsGood (exCfg.front i) exCfg.nadir) ∧
    (∀ vs, exCfg.vars = some vs → vs.length = 3) ∧ Reached exCfg exS0 (.points exCt0) [exCt0] ∧
    PositiveChange (chooseResp 1 : Resp 2 ℚ) ∧ 1 < exCt0.points.length ∧
    KMeansOk (fun (_ : List (Vec 2 ℚ)) (m : Int) => List.range m.toNat) := by
  refine ⟨by decide +kernel, by decide +kernel, ?_, ex_reached0, by simp [PositiveChange, chooseResp],
    by decide, ?_⟩
  · intro vs h
    simp only [exCfg, Option.some.injEq] at h
    rw [← h]; rfl
  · intro pts m h1 h2
    refine ⟨by simp; omega, ?_⟩
    intro a ha
    simp at ha
    omega

theorem ex3_reached_a : Reached exCfg3 ex3a.1 (.points (ctOf ex3a)) [ctOf ex3a] :=
  .start (eq_of_isPts (x := ex3a) (by decide +kernel))

theorem ex3_reached_b : Reached exCfg3 ex3b.1 (.points (ctOf ex3b)) [ctOf ex3b, ctOf ex3a] :=
  .choose ex3_reached_a rfl (by simp [PositiveChange, chooseResp])
    (eq_of_isPts (x := ex3b) (by decide +kernel))

theorem ex3_reached_c : Reached exCfg3 ex3c.1 (.points (ctOf ex3c)) [ctOf ex3c, ctOf ex3b, ctOf ex3a] :=
  .choose ex3_reached_b rfl (by simp [PositiveChange, chooseResp])
    (eq_of_isPts (x := ex3c) (by decide +kernel))

/-- **C06** (violated for three objectives). There is a front of mutually nondominated rows bounded
by the nadir and a history in which, after choosing a point, a point that is worse in some objective
is shown. -/
theorem C06_worsens_three_objectives : ∃ (c : Cfg 4 3 ℚ String) (s s' : St 4 3 ℚ) (ct ct' : Content 3 ℚ)
    (hist : List (Content 3 ℚ)) (i : Nat) (z z' : Vec 3 ℚ),
    MutuallyNondominated c.front ∧ (∀ i, AtLeastAsGood (c.front i) c.nadir) ∧
    Reached c s (.points ct) hist ∧ ct.points[i]? = some z ∧
    answer c s ct (chooseResp i) noKm = (s', .ok (.points ct')) ∧ z' ∈ ct'.points ∧ ∃ j, z j < z' j := by
  refine ⟨exCfg3, ex3a.1, ex3b.1, ctOf ex3a, ctOf ex3b, [ctOf ex3a], 2, ![2, 3, 2/3], ![3/2, 5/2, 5/6],
    by decide +kernel, by decide +kernel, ex3_reached_a, eq_of_beq (by decide +kernel),
    eq_of_isPts (x := ex3b) (by decide +kernel), ?_, 2, by decide +kernel⟩
  exact List.mem_of_getElem? (i := 0) (eq_of_beq (by decide +kernel))

/-- **C06** (violated for three objectives: dead end). There is a front of mutually nondominated rows
bounded by the nadir and a history of two ordinary choices (three iterations were asked for) after
which a request with one iteration left is issued that shows no point at all. -/
theorem C06_dead_end_three_objectives : ∃ (c : Cfg 4 3 ℚ String) (s : St 4 3 ℚ) (ct : Content 3 ℚ)
    (hist : List (Content 3 ℚ)), MutuallyNondominated c.front ∧
    (∀ i, AtLeastAsGood (c.front i) c.nadir) ∧ Reached c s (.points ct) hist ∧
    ct.left = 1 ∧ ct.points = [] ∧ s.reach = [] :=
  ⟨exCfg3, ex3c.1, ctOf ex3c, _, by decide +kernel, by decide +kernel, ex3_reached_c,
    by decide +kernel, eq_of_beq (by decide +kernel), by decide +kernel⟩

/-! ## C07 -/

/-- Two states that agree on what later answers read. -/
def SameFuture (s t : St n k K) : Prop := s.left = t.left ∧ s.nPoints = t.nPoints

theorem answer_sameFuture {c : Cfg n k K V} {s t : St n k K} (hst : SameFuture s t) (ct : Content k K)
    (r : Resp k K) (km : KMeans k K) :
    (answer c s ct r km).2 = (answer c t ct r km).2 ∧
    SameFuture (answer c s ct r km).1 (answer c t ct r km).1 := by
  obtain ⟨h1, h2⟩ := hst
  unfold answer
  cases validate ct r with
  | error e => exact ⟨rfl, h1, h2⟩
  | ok u =>
    dsimp only
    unfold handle
    cases r.stepBack with
    | none => exact ⟨rfl, h1, h2⟩
    | some b =>
      cases b with
      | true =>
        dsimp only
        unfold handleBack
        cases r.prevSolutions <;> cases r.prevLower <;> cases r.prevUpper <;>
          cases r.iterationsLeft <;> cases r.prevDistances <;>
          simp [SameFuture, h1, h2]
      | false =>
        dsimp only
        unfold handleChoice
        cases r.preferredIndex with
        | none => exact ⟨rfl, h1, h2⟩
        | some i =>
        dsimp only
        cases pyGet ct.points i with
        | error e => exact ⟨rfl, h1, h2⟩
        | ok z =>
        dsimp only
        rw [h1]
        cases t.left with
        | none => exact ⟨rfl, by simp, h2⟩
        | some left =>
        dsimp only
        by_cases hle : left ≤ 1
        · simp only [hle, if_true, handleStop]
          cases findSolution c z <;> exact ⟨rfl, rfl, h2⟩
        · simp only [hle, if_false]
          cases pyGet ct.lowers i with
          | error e => exact ⟨rfl, by simp, h2⟩
          | ok lo =>
          dsimp only
          cases pyGet ct.uppers i with
          | error e => exact ⟨rfl, by simp, h2⟩
          | ok hi =>
          dsimp only
          cases r.changeRemaining with
          | none => exact ⟨rfl, by simp, h2⟩
          | some ch =>
          dsimp only
          cases (if ch = true then r.iterationsLeft else some (left - 1)) with
          | none => exact ⟨rfl, by simp, h2⟩
          | some left' =>
          dsimp only
          rw [h2]
          cases t.nPoints with
          | none => exact ⟨rfl, rfl, by simp⟩
          | some nP =>
          dsimp only
          cases compute c (reachable c.front lo hi) z nP left' km <;> exact ⟨rfl, rfl, rfl⟩

theorem session_sameFuture {c : Cfg n k K V} {s t : St n k K} (hst : SameFuture s t) (o : Out k K V)
    (rest : List (Resp k K × KMeans k K)) :
    (session c s o rest).map Prod.snd = (session c t o rest).map Prod.snd := by
  induction rest generalizing s t o with
  | nil => rfl
  | cons p ps ih =>
    obtain ⟨r, km⟩ := p
    simp only [session]
    cases o with
    | stop z sol => exact ih hst (.stop z sol)
    | points ct =>
      obtain ⟨e1, e2⟩ := answer_sameFuture (c := c) hst ct r km
      simp only [next]
      rw [show answer c s ct r km = ((answer c s ct r km).1, (answer c s ct r km).2) from rfl,
        show answer c t ct r km = ((answer c t ct r km).1, (answer c t ct r km).2) from rfl, e1]
      cases (answer c t ct r km).2 with
      | error e => rfl
      | ok o' => exact ih e2 o'

theorem answer_nPoints {c : Cfg n k K V} {s s' : St n k K} {ct : Content k K} {r : Resp k K}
    {km : KMeans k K} {o : Out k K V} (h : answer c s ct r km = (s', .ok o)) :
    s'.nPoints = s.nPoints := by
  cases hsb : r.stepBack with
  | none =>
    exfalso
    unfold answer at h
    cases hv : validate ct r with
    | error e => rw [hv] at h; simp at h
    | ok u =>
      rw [hv] at h
      simp [handle, hsb] at h
  | some b =>
    cases b with
    | true =>
      obtain ⟨_, _, _, _, _, _, _, _, h8⟩ := answer_back_ok h hsb
      rw [h8]
    | false =>
      obtain ⟨i, z, left, _, _, _, _, h1 | h1⟩ := answer_choice_ok h hsb
      · obtain ⟨_, _, _, _, h2⟩ := h1
        rw [h2]
      · obtain ⟨_, _, _, _, _, _, _, _, _, _, _, _, _, _, _, hs⟩ := h1
        rw [hs]

theorem session_nPoints {c : Cfg n k K V} {s s' : St n k K} {o o' : Out k K V}
    {l : List (Resp k K × KMeans k K)} (h : session c s o l = .ok (s', o')) :
    s'.nPoints = s.nPoints := by
  induction l generalizing s o with
  | nil =>
    simp only [session, Except.ok.injEq, Prod.mk.injEq] at h
    rw [h.1]
  | cons p ps ih =>
    obtain ⟨r, km⟩ := p
    simp only [session] at h
    cases hn : next c s o r km with
    | mk s1 res =>
      rw [hn] at h
      cases res with
      | error e => simp at h
      | ok o1 =>
        rw [ih h]
        cases o with
        | stop z sol => simp only [next, Prod.mk.injEq] at hn; rw [hn.1]
        | points ct => exact answer_nPoints hn

/-- **C07**. A request `ct` was issued, any session followed, and now the decision maker steps back to
`ct`: the returned request equals `ct`, and every continuation `rest` from here on ends with the same
outcome (request, stop or exception) as it would have when `ct` was issued. -/
theorem C07_step_back_restores {c : Cfg n k K V} {s1 s2 : St n k K} {ct ct2 : Content k K}
    {hist : List (Content k K)} (h1 : Reached c s1 (.points ct) hist)
    {between : List (Resp k K × KMeans k K)}
    (h2 : session c s1 (.points ct) between = .ok (s2, .points ct2))
    {r : Resp k K} (hb : IsStepBackTo r ct) (hi : r.preferredIndex.isSome)
    (hch : r.changeRemaining.isSome) (km : KMeans k K) :
    ∃ s3, answer c s2 ct2 r km = (s3, .ok (.points ct)) ∧
      ∀ rest, (session c s3 (.points ct) rest).map Prod.snd =
        (session c s1 (.points ct) rest).map Prod.snd := by
  obtain ⟨inv1, inv2⟩ := h1.invariant
  obtain ⟨hmem, hleft⟩ := inv2 ct rfl
  obtain ⟨b0, b1, b2, b3, b4, b5⟩ := hb
  obtain ⟨i, hi⟩ := Option.isSome_iff_exists.1 hi
  obtain ⟨ch, hch⟩ := Option.isSome_iff_exists.1 hch
  refine ⟨{ s2 with left := some ct.left }, ?_, ?_⟩
  · have hv : validate ct2 r = .ok () := by
      simp [validate, hi, b0, hch, b1, b2, b3, b4, b5]
    unfold answer
    rw [hv]
    simp only [handle, b0, handleBack, b1, b2, b3, b4, b5]
    have := mkRequest_of (V := V) (inv1 ct hmem).len
    rw [this]
  · intro rest
    apply session_sameFuture
    exact ⟨hleft.symm, (session_nPoints h2 : _)⟩

/-- The hypotheses of C07 are met: one choice is made after the first request, then the decision
maker steps back to the first request. -/
example : Reached exCfg exS0 (.points exCt0) [exCt0] ∧
    session exCfg exS0 (.points exCt0) [(chooseResp 1, noKm)] = .ok (exS1, .points exCt1) ∧
    IsStepBackTo exBack exCt0 ∧ exBack.preferredIndex.isSome ∧ exBack.changeRemaining.isSome :=
  ⟨ex_reached0, by simp [session, next, ex_choose], ⟨rfl, rfl, rfl, rfl, rfl, rfl⟩, rfl, rfl⟩

theorem Reached.nPoints {c : Cfg n k K V} {s : St n k K} {o : Out k K V} {hist : List (Content k K)}
    (h : Reached c s o hist) : ∃ nP, s.nPoints = some nP := by
  induction h with
  | start h =>
    obtain ⟨nIt, nP, _, _, _, _, _, _, _, _, h5⟩ := begin_ok h
    exact ⟨nP.asInt, by rw [h5]⟩
  | choose hr hsb hpos h ih => rw [answer_nPoints h]; exact ih
  | finish hr hsb h ih => rw [answer_nPoints h]; exact ih
  | back hr hmem hb h ih => rw [answer_nPoints h]; exact ih

/-! ## C08 -/

/-- **C08**, partial (missing: it is false for index = number of points, and for any index up to
`k` when a single point is shown, see `C08_accepts_index_past_the_end`): an accepted choice whose index
is below the number of points denotes a shown point, and in every history answering it raises no
`IndexError` when decision variables have one row per front row and k-means answers with row numbers. -/
theorem C08_index_in_range_partial {c : Cfg n k K V} (hvars : ∀ vs, c.vars = some vs → vs.length = n)
    {s : St n k K} {ct : Content k K} {hist : List (Content k K)}
    (h : Reached c s (.points ct) hist) {r : Resp k K} {km : KMeans k K}
    (hkm : ∀ pts (m : Int), ∀ a ∈ km pts m, a < pts.length)
    (hsb : r.stepBack = some false) {i : Int} (hi : r.preferredIndex = some i)
    (hacc : validate ct r = .ok ()) (hlt : i < ct.points.length) :
    0 ≤ i ∧ (∃ z, ct.points[i.toNat]? = some z) ∧ (answer c s ct r km).2 ≠ .error .indexError := by
  have hi0 : 0 ≤ i := by
    by_contra hc
    unfold validate at hacc
    rw [hi, hsb] at hacc
    cases hch : r.changeRemaining with
    | none => rw [hch] at hacc; simp at hacc
    | some ch =>
      rw [hch] at hacc
      simp only [Bool.not_false, if_true] at hacc
      split at hacc
      · simp at hacc
      · simp [show i < 0 by omega] at hacc
  have hltN : i.toNat < ct.points.length := by omega
  refine ⟨hi0, ⟨_, List.getElem?_eq_getElem hltN⟩, ?_⟩
  obtain ⟨inv1, inv2⟩ := h.invariant
  obtain ⟨hmem, hleft⟩ := inv2 ct rfl
  obtain ⟨e1, e2, e3⟩ := (inv1 ct hmem).good
  intro herr
  unfold answer at herr
  rw [hacc] at herr
  obtain ⟨z, hz⟩ := pyGet_exists (l := ct.points) hi0 hlt
  obtain ⟨lo, hlo⟩ := pyGet_exists (l := ct.lowers) hi0 (by omega)
  obtain ⟨hi', hhi⟩ := pyGet_exists (l := ct.uppers) hi0 (by omega)
  simp only [handle, hsb, handleChoice, hi, hz, hleft, hlo, hhi] at herr
  split at herr
  · simp only [handleStop] at herr
    unfold findSolution at herr
    cases hv : c.vars with
    | none => rw [hv] at herr; simp at herr
    | some vs =>
      rw [hv] at herr
      dsimp only at herr
      cases ha : npArgmin ((List.finRange n).map fun i => c.nrm fun j => |c.front i j - z j|) with
      | error e =>
        rw [ha] at herr
        simp only [Except.error.injEq] at herr
        subst herr
        generalize ((List.finRange n).map fun i => c.nrm fun j => |c.front i j - z j|) = l at ha
        cases l <;> simp [npArgmin] at ha
      | ok idx =>
        rw [ha] at herr
        dsimp only at herr
        obtain ⟨m, h1, _, _⟩ := npArgmin_ok ha
        have hlt' : idx < n := by
          have := (List.getElem?_eq_some_iff.1 h1).1
          simpa using this
        have : idx < vs.length := by rw [hvars vs hv]; exact hlt'
        rw [List.getElem?_eq_getElem this] at herr
        simp at herr
  · cases hch : r.changeRemaining with
    | none => rw [hch] at herr; simp at herr
    | some ch =>
      rw [hch] at herr
      dsimp only at herr
      cases hl' : (if ch = true then r.iterationsLeft else some (ct.left - 1)) with
      | none => rw [hl'] at herr; simp at herr
      | some left' =>
        rw [hl'] at herr
        dsimp only at herr
        cases hp : s.nPoints with
        | none => rw [hp] at herr; simp at herr
        | some nP =>
          rw [hp] at herr
          dsimp only at herr
          unfold compute at herr
          cases hr : representative c.front (reachable c.front lo hi') nP km with
          | error e =>
            rw [hr] at herr
            simp only [Except.error.injEq] at herr
            unfold representative at hr
            dsimp only at hr
            split at hr
            · obtain ⟨a, ha, he⟩ := mapE_error hr
              have := hkm _ _ a ha
              obtain ⟨_, h2⟩ := pyGet_error he
              omega
            · simp at hr
          | ok zbars =>
            rw [hr] at herr
            dsimp only at herr
            by_cases hl0 : left' = 0
            · simp [intermediate, hl0] at herr
            · simp only [intermediate, hl0, if_false] at herr
              cases hb : bounds c.front (zbars.map fun zb => intermediatePoint z zb left') with
              | error e =>
                rw [hb] at herr
                simp only [Except.error.injEq] at herr
                have := ((C02_bounds_fail_iff _ _ _).1 hb).1
                rw [herr] at this
                simp at this
              | ok p =>
                rw [hb] at herr
                dsimp only at herr
                unfold mkRequest at herr
                split at herr
                · rename_i e he
                  simp only [Except.error.injEq] at herr
                  subst herr
                  unfold maxIndex at he
                  split at he
                  · split at he <;> simp at he
                  · simp at he
                · simp at herr

/-- **C08** (violated). For every request that shows other than exactly one point, the index equal to
the number of shown points passes validation; answering raises `IndexError` (and changes nothing). -/
theorem C08_accepts_index_past_the_end (c : Cfg n k K V) (s : St n k K) (ct : Content k K)
    (km : KMeans k K) (h : ct.points.length ≠ 1) :
    validate ct (chooseResp ct.points.length) = .ok () ∧
    answer c s ct (chooseResp ct.points.length) km = (s, .error .indexError) := by
  have hv : validate ct (chooseResp ct.points.length) = .ok () := by
    simp [validate, chooseResp, maxIndex, h]
  refine ⟨hv, ?_⟩
  have hg : pyGet ct.points (ct.points.length : Int) = .error .indexError := by
    rcases pyGet_cases ct.points (ct.points.length : Int) with ⟨j, hj, a, ha, _⟩ | ⟨_, hg⟩
    · rw [if_neg (by omega)] at hj
      have := (List.getElem?_eq_some_iff.1 ha).1
      omega
    · exact hg
  unfold answer
  rw [hv]
  simp only [handle, chooseResp, handleChoice, hg]

/-- The hypotheses of C08 are met: index 1 of three is accepted; three points are not one. -/
example : validate exCt0 (chooseResp 1) = .ok () ∧ (1 : Int) < exCt0.points.length ∧
    exCt0.points.length ≠ 1 ∧ (∀ pts (m : Int), ∀ a ∈ (noKm : KMeans 2 ℚ) pts m, a < pts.length) :=
  ⟨eq_of_beq (by decide +kernel), by decide, by decide, by simp [noKm]⟩

/-- **C08** (violated, single point): with one shown point and two objectives, indices 1 and 2 are
accepted as well. -/
example : validate exCt1 (chooseResp 2) = .ok () ∧ exCt1.points.length = 1 :=
  ⟨eq_of_beq (by decide +kernel), rfl⟩

/-! ## C09 -/

/-- **C09** (no `KeyError`). A response that passes validation never makes `iterate` raise `KeyError`. -/
theorem C09_accepted_never_keyError (c : Cfg n k K V) (s : St n k K) (ct : Content k K) (r : Resp k K)
    (km : KMeans k K) (hacc : validate ct r = .ok ()) :
    (answer c s ct r km).2 ≠ .error .keyError := by
  have hcomp : ∀ reach pref nP left, compute c reach pref nP left km ≠ .error .keyError := by
    intro reach pref nP left h
    unfold compute at h
    cases hr : representative c.front reach nP km with
    | error e =>
      rw [hr] at h
      simp only [Except.error.injEq] at h
      subst h
      unfold representative at hr
      dsimp only at hr
      split at hr
      · obtain ⟨a, ha, he⟩ := mapE_error hr
        have := (pyGet_error he).1
        simp at this
      · simp at hr
    | ok zbars =>
      rw [hr] at h
      dsimp only at h
      by_cases hl0 : left = 0
      · simp [intermediate, hl0] at h
      · simp only [intermediate, hl0, if_false] at h
        cases hb : bounds c.front (zbars.map fun zb => intermediatePoint pref zb left) with
        | error e =>
          rw [hb] at h
          simp only [Except.error.injEq] at h
          have := ((C02_bounds_fail_iff _ _ _).1 hb).1
          rw [h] at this
          simp at this
        | ok p => rw [hb] at h; simp at h
  have hreq : ∀ x : Content k K, (mkRequest x : Except Err (Out k K V)) ≠ .error .keyError := by
    intro x h
    unfold mkRequest at h
    split at h
    · rename_i e he
      simp only [Except.error.injEq] at h
      subst h
      unfold maxIndex at he
      split at he
      · split at he <;> simp at he
      · simp at he
    · simp at h
  intro herr
  unfold answer at herr
  rw [hacc] at herr
  dsimp only at herr
  unfold validate at hacc
  cases hi : r.preferredIndex with
  | none => rw [hi] at hacc; simp at hacc
  | some i =>
  cases hsb : r.stepBack with
  | none => rw [hi, hsb] at hacc; simp at hacc
  | some sb =>
  cases hch : r.changeRemaining with
  | none => rw [hi, hsb, hch] at hacc; simp at hacc
  | some ch =>
  rw [hi, hsb, hch] at hacc
  dsimp only at hacc
  unfold handle at herr
  rw [hsb] at herr
  cases sb with
  | true =>
    simp only [Bool.not_true, Bool.false_eq_true, if_false] at hacc herr
    unfold handleBack at herr
    cases h1 : r.prevSolutions with
    | none => rw [h1] at hacc; simp at hacc
    | some zs =>
    cases h2 : r.prevLower with
    | none => rw [h1, h2] at hacc; simp at hacc
    | some lo =>
    cases h3 : r.prevUpper with
    | none => rw [h1, h2, h3] at hacc; simp at hacc
    | some hi =>
    cases h4 : r.iterationsLeft with
    | none => rw [h1, h2, h3, h4] at hacc; simp at hacc
    | some left =>
    cases h5 : r.prevDistances with
    | none => rw [h1, h2, h3, h4, h5] at hacc; simp at hacc
    | some ds =>
      rw [h1, h2, h3, h4, h5] at herr
      exact hreq _ herr
  | false =>
    dsimp only at herr
    unfold handleChoice at herr
    rw [hi] at herr
    dsimp only at herr
    cases hz : pyGet ct.points i with
    | error e =>
      rw [hz] at herr
      simp only [Except.error.injEq] at herr
      have := (pyGet_error hz).1
      rw [herr] at this
      simp at this
    | ok z =>
    rw [hz] at herr
    dsimp only at herr
    cases hl : s.left with
    | none => rw [hl] at herr; simp at herr
    | some left =>
    rw [hl] at herr
    dsimp only at herr
    split at herr
    · simp only [handleStop] at herr
      unfold findSolution at herr
      cases hv : c.vars with
      | none => rw [hv] at herr; simp at herr
      | some vs =>
        rw [hv] at herr
        dsimp only at herr
        generalize ((List.finRange n).map fun i => c.nrm fun j => |c.front i j - z j|) = l at herr
        cases l with
        | nil => simp [npArgmin] at herr
        | cons a l =>
          simp only [npArgmin] at herr
          cases hg : vs[argminGo a 0 1 l]? with
          | none => rw [hg] at herr; simp at herr
          | some v => rw [hg] at herr; simp at herr
    · cases hlo : pyGet ct.lowers i with
      | error e =>
        rw [hlo] at herr
        simp only [Except.error.injEq] at herr
        have := (pyGet_error hlo).1
        rw [herr] at this
        simp at this
      | ok lo =>
      rw [hlo] at herr
      dsimp only at herr
      cases hhi : pyGet ct.uppers i with
      | error e =>
        rw [hhi] at herr
        simp only [Except.error.injEq] at herr
        have := (pyGet_error hhi).1
        rw [herr] at this
        simp at this
      | ok hi' =>
      rw [hhi] at herr
      dsimp only at herr
      rw [hch] at herr
      dsimp only at herr
      have hl' : ∃ left', (if ch = true then r.iterationsLeft else some (left - 1)) = some left' := by
        cases ch with
        | false => exact ⟨left - 1, by simp⟩
        | true =>
          simp only [Bool.not_false, if_true] at hacc
          split at hacc
          · simp at hacc
          · split at hacc
            · simp at hacc
            · cases hit : r.iterationsLeft with
              | none => rw [hit] at hacc; simp at hacc
              | some m => exact ⟨m, by simp⟩
      obtain ⟨left', hl'⟩ := hl'
      rw [hl'] at herr
      dsimp only at herr
      cases hp : s.nPoints with
      | none => rw [hp] at herr; simp at herr
      | some nP =>
        rw [hp] at herr
        dsimp only at herr
        cases hc : compute c (reachable c.front lo hi') z nP left' km with
        | error e =>
          rw [hc] at herr
          simp only [Except.error.injEq] at herr
          exact hcomp _ _ _ _ (herr ▸ hc)
        | ok ct' =>
          rw [hc] at herr
          exact hreq _ herr

/-- **C09** (refusal changes nothing): a response that fails validation leaves the method as it was. -/
theorem C09_refused_changes_nothing (c : Cfg n k K V) (s : St n k K) (ct : Content k K) (r : Resp k K)
    (km : KMeans k K) {e : Err} (h : validate ct r = .error e) :
    answer c s ct r km = (s, .error e) := by
  simp [answer, h]

/-- **C09** (violated). In every history with at least two iterations left, changing the remaining
iterations to zero passes validation, and answering raises `ZeroDivisionError` - after the method's
state was already changed: zero iterations left and the chosen point preferred. -/
theorem C09_zero_iterations_accepted_and_crashes {c : Cfg n k K V} {s : St n k K} {ct : Content k K}
    {hist : List (Content k K)} (h : Reached c s (.points ct) hist) (hleft : 2 ≤ ct.left)
    {i : Nat} {z : Vec k K} (hz : ct.points[i]? = some z)
    {km : KMeans k K} (hkm : ∀ pts (m : Int), ∀ a ∈ km pts m, a < pts.length) :
    let r : Resp k K := { (chooseResp i : Resp k K) with changeRemaining := some true, iterationsLeft := some 0 }
    validate ct r = .ok () ∧ (answer c s ct r km).2 = .error .zeroDivisionError ∧
      (answer c s ct r km).1.left = some 0 ∧ (answer c s ct r km).1.preferred = some z := by
  intro r
  have hlt := (List.getElem?_eq_some_iff.1 hz).1
  obtain ⟨inv1, inv2⟩ := h.invariant
  obtain ⟨hmem, hl⟩ := inv2 ct rfl
  have hv : validate ct r = .ok () := by
    unfold validate maxIndex
    by_cases h1 : ct.points.length = 1
    · have hk : k ≠ 1 := by
        rintro rfl
        obtain ⟨m, hm⟩ := (inv1 ct hmem).len
        simp [maxIndex, h1] at hm
      have : i = 0 := by omega
      subst this
      simp [r, chooseResp, h1, hk]
    · simp [r, chooseResp, h1]
      omega
  obtain ⟨e1, e2, e3⟩ := (inv1 ct hmem).good
  obtain ⟨lo, hlo⟩ : ∃ z, ct.lowers[i]? = some z := ⟨_, List.getElem?_eq_getElem (by omega)⟩
  obtain ⟨hi', hhi⟩ : ∃ z, ct.uppers[i]? = some z := ⟨_, List.getElem?_eq_getElem (by omega)⟩
  obtain ⟨nP, hnP⟩ := h.nPoints
  have hcomp : compute c (reachable c.front lo hi') z nP 0 km = .error .zeroDivisionError := by
    unfold compute
    cases hr : representative c.front (reachable c.front lo hi') nP km with
    | error e =>
      unfold representative at hr
      dsimp only at hr
      split at hr
      · obtain ⟨a, ha, he⟩ := mapE_error hr
        have := hkm _ _ a ha
        obtain ⟨_, h2⟩ := pyGet_error he
        omega
      · simp at hr
    | ok zb => simp [intermediate]
  have ha : answer c s ct r km =
      (⟨some z, lo, hi', reachable c.front lo hi', s.nPoints, some 0⟩, .error .zeroDivisionError) := by
    unfold answer
    rw [hv]
    simp only [handle, handleChoice, r, chooseResp, pyGet_nat.2 hz, hl, if_neg (show ¬ ct.left ≤ 1 by omega),
      pyGet_nat.2 hlo, pyGet_nat.2 hhi, if_true, hnP, hcomp]
  rw [ha]
  exact ⟨hv, rfl, rfl, rfl⟩

/-- The hypotheses of C09 are met: two iterations are left in the first request of the example;
a response without keys is refused. -/
example : Reached exCfg exS0 (.points exCt0) [exCt0] ∧ 2 ≤ exCt0.left ∧
    exCt0.points[1]? = some ![3/2, 3/2] ∧
    validate exCt0 { (chooseResp 1 : Resp 2 ℚ) with preferredIndex := none } = .error .refused :=
  ⟨ex_reached0, by decide, rfl, rfl⟩

/-! ## C10 -/

theorem dist_from_nadir {nrm : Vec k K → K} (hn : NormSpec nrm) {nadir zb : Vec k K} {N : Int} (hN : 1 ≤ N) :
    (fdiv (nrm fun j => intermediatePoint nadir zb N j - nadir j) (nrm fun j => zb j - nadir j)).scalePos 100 =
      if zb = nadir then .nan else .num (100 / (N : K)) := by
  have hNK : (0 : K) < (N : K) := by exact_mod_cast hN
  have e : (fun j => intermediatePoint nadir zb N j - nadir j) =
      fun j => (1 / (N : K)) * (fun j => zb j - nadir j) j := by
    funext j
    unfold intermediatePoint
    field_simp
    ring
  rw [e, hn.homog, abs_of_pos (one_div_pos.2 hNK)]
  by_cases hz : zb = nadir
  · subst hz
    have h0 : nrm (fun j => zb j - zb j) = 0 := (hn.eq_zero _).2 (fun j => by simp)
    rw [if_pos rfl]
    simp only [h0, mul_zero, fdiv, if_true, Fl.scalePos]
  · have h0 : nrm (fun j => zb j - nadir j) ≠ 0 := by
      intro h
      apply hz
      funext j
      have := (hn.eq_zero _).1 h j
      exact sub_eq_zero.1 this
    simp only [fdiv, h0, if_false, hz, Fl.scalePos, Fl.num.injEq]
    field_simp

/-- **C10** (first iteration). With `N` iterations every distance of the first request is `100/N`,
except that it is NaN for a shown point equal to the nadir (the representative point is the nadir). -/
theorem C10_first_distances {c : Cfg n k K V} (hn : NormSpec c.nrm) {r : InitResp} {km : KMeans k K}
    {s : St n k K} {ct : Content k K} (h : begin c (initSt c) r km = (s, .ok (.points ct))) :
    ct.distances.length = ct.points.length ∧
    ∀ (i : Nat) (d : Fl K), ct.distances[i]? = some d →
      (d = .num (100 / (ct.left : K)) ∧ ct.points[i]? ≠ some c.nadir) ∨
      (d = .nan ∧ ct.points[i]? = some c.nadir) := by
  obtain ⟨nIt, nP, ct', _, _, h1, _, h2, h3, h4, h5⟩ := begin_ok h
  simp only [Out.points.injEq] at h2
  subst h2
  obtain ⟨_, hl, _, zbars, h6, h7, h8⟩ := compute_ok h4
  have hNK : (1 : K) ≤ (nIt.asInt : K) := by exact_mod_cast h1
  refine ⟨by rw [h8]; simp [distances, h7], ?_⟩
  intro i d hd
  rw [h8, distances, h7, List.getElem?_zipWith] at hd
  cases hzb : zbars[i]? with
  | none => simp [hzb] at hd
  | some zb =>
    simp only [List.getElem?_map, hzb, Option.map_some, Option.some.injEq] at hd
    rw [dist_from_nadir hn h1] at hd
    rw [h7, hl]
    simp only [List.getElem?_map, hzb, Option.map_some, Option.some.injEq, ne_eq]
    by_cases hz : zb = c.nadir
    · right
      rw [if_pos hz] at hd
      refine ⟨hd.symm, ?_⟩
      subst hz
      funext j
      unfold intermediatePoint
      field_simp
      ring
    · left
      rw [if_neg hz] at hd
      refine ⟨hd.symm, ?_⟩
      intro hc
      apply hz
      funext j
      have := congrFun hc j
      unfold intermediatePoint at this
      have hne : (nIt.asInt : K) ≠ 0 := by linarith
      field_simp at this
      linarith

/-- **C10** (range). In every history with two objectives, every distance shown after a choice is a
number in `[0, 100]` - equal to `100` when one iteration is left - or NaN, the latter only if a
reachable row is the nadir itself. -/
theorem C10_distances_are_percentages {c : Cfg n 2 K V} (hn : NormSpec c.nrm)
    (hnd : MutuallyNondominated c.front) (hnad : ∀ i, AtLeastAsGood (c.front i) c.nadir)
    {s s' : St n 2 K} {ct ct' : Content 2 K} {hist : List (Content 2 K)}
    (h : Reached c s (.points ct) hist) {r : Resp 2 K} {km : KMeans 2 K}
    (hsb : r.stepBack = some false) (hpos : PositiveChange r)
    (ha : answer c s ct r km = (s', .ok (.points ct'))) :
    ct'.distances.length = ct'.points.length ∧
    ∀ d ∈ ct'.distances,
      (∃ x, d = .num x ∧ 0 ≤ x ∧ x ≤ 100 ∧ (ct'.left = 1 → x = 100)) ∨
      (d = .nan ∧ ∃ i, c.front i = c.nadir) := by
  obtain ⟨i, z, left, h1, hi0, hz, hl, h2 | h2⟩ := answer_choice_ok ha hsb
  · obtain ⟨_, sol, _, h3, _⟩ := h2
    simp at h3
  obtain ⟨hlt, lo, hi', ch, left', nP, ct'', hlo, hhi, hch, hl', hp, hc, ho, hm, hs⟩ := h2
  simp only [Out.points.injEq] at ho
  subst ho
  obtain ⟨inv1, inv2⟩ := h.invariant
  have hmem := (inv2 ct rfl).1
  have hex := (inv1 ct hmem).good.2.2 _ z lo hi' hz hlo hhi
  have hzn := ((h.kept (tight_two hnd) hnad).1 ct hmem).nadir z (List.mem_of_getElem? hz)
  obtain ⟨_, hll, _, zbars, h6, h7, h8⟩ := compute_ok hc
  have hlp := choice_left_pos hpos hch hlt hl'
  refine ⟨by rw [h8]; simp [distances, h7], ?_⟩
  intro d hd
  obtain ⟨m, hmd⟩ := List.getElem?_of_mem hd
  rw [h8, distances, h7, List.getElem?_zipWith] at hmd
  cases hzb : zbars[m]? with
  | none => simp [hzb] at hmd
  | some zb =>
    simp only [List.getElem?_map, hzb, Option.map_some, Option.some.injEq] at hmd
    obtain ⟨row, hrow, rfl⟩ := representative_mem h6 zb (List.mem_of_getElem? hzb)
    have hle := tight_two hnd z lo hi' hex row ((mem_reachable _ _ _ _).1 hrow)
    obtain ⟨g1, g2⟩ := intermediatePoint_le hlp hle
    by_cases h0 : c.nrm (fun j => c.front row j - c.nadir j) = 0
    · right
      have hrn : c.front row = c.nadir := by
        funext j
        exact sub_eq_zero.1 ((hn.eq_zero _).1 h0 j)
      refine ⟨?_, row, hrn⟩
      have hz0 : c.nrm (fun j => intermediatePoint z (c.front row) left' j - c.nadir j) = 0 := by
        refine (hn.eq_zero _).2 fun j => ?_
        have a1 := g1 j
        have a2 := g2 j
        have a3 := hzn j
        rw [hrn] at a2 ⊢
        rw [hrn] at a1
        linarith
      rw [← hmd]
      simp [fdiv, h0, hz0, Fl.scalePos]
    · left
      simp only [fdiv, h0, if_false, Fl.scalePos] at hmd
      have hp0 : 0 < c.nrm (fun j => c.front row j - c.nadir j) :=
        lt_of_le_of_ne (hn.nonneg _) (Ne.symm h0)
      refine ⟨_, hmd.symm, mul_nonneg (div_nonneg (hn.nonneg _) hp0.le) (by norm_num), ?_, ?_⟩
      · have : c.nrm (fun j => intermediatePoint z (c.front row) left' j - c.nadir j) ≤
            c.nrm (fun j => c.front row j - c.nadir j) := by
          apply hn.mono
          intro j
          have a1 := g1 j
          have a2 := g2 j
          have a3 := hzn j
          rw [abs_of_nonpos (by linarith), abs_of_nonpos (by linarith)]
          linarith
        have := (div_le_one hp0).2 this
        linarith
      · intro h1
        rw [hll] at h1
        subst h1
        rw [intermediatePoint_one, div_self h0]
        norm_num

/-- The hypotheses of C10 are met by the running example. -/
example : NormSpec exCfg.nrm ∧ MutuallyNondominated exCfg.front ∧
    (∀ i, AtLeastAsGood (exCfg.front i) exCfg.nadir) ∧ Reached exCfg exS0 (.points exCt0) [exCt0] ∧
    answer exCfg exS0 exCt0 (chooseResp 1) noKm = (exS1, .ok (.points exCt1)) ∧ exCt1.left = 1 :=
  ⟨supNorm_spec, by decide +kernel, by decide +kernel, ex_reached0, ex_choose, rfl⟩

end Verif.ENautilus
