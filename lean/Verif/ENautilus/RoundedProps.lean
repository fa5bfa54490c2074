import Verif.ENautilus.Rounded
import Verif.ENautilus.History

/-!
# E-NAUTILUS in floating-point arithmetic: C109, C110

`rnd` is any rounding (`IsRounding`), in particular `double`, numpy's `float64`.
-/

set_option linter.unusedSectionVars false

namespace Verif.ENautilus

variable {K V : Type} [Field K] [LinearOrder K] [IsStrictOrderedRing K] {n k : Nat}

/-! ## What a call does -/

theorem computeR_ok {rnd : K → K} {c : Cfg n k K V} {reach : List (Fin n)} {pref : Vec k K} {nP left : Int}
    {km : KMeans k K} {ct : Content k K} (h : computeR rnd c reach pref nP left km = .ok ct) :
    left ≠ 0 ∧ ct.left = left ∧ GoodBounds c.front ct ∧
    ∃ zbars, representative c.front reach nP km = .ok zbars ∧
      ct.points = zbars.map (fun zb => intermediatePointR rnd pref zb left) ∧
      ct.distances = distancesR rnd c.nrm ct.points zbars c.nadir := by
  unfold computeR at h
  cases hr : representative c.front reach nP km with
  | error e => rw [hr] at h; simp at h
  | ok zbars =>
    rw [hr] at h
    dsimp only at h
    by_cases hl : left = 0
    · simp [intermediateR, hl] at h
    · simp only [intermediateR, hl, if_false] at h
      cases hb : bounds c.front (zbars.map fun zb => intermediatePointR rnd pref zb left) with
      | error e => rw [hb] at h; simp at h
      | ok p =>
        obtain ⟨lo, hi⟩ := p
        rw [hb] at h
        simp only [Except.ok.injEq] at h
        subst h
        exact ⟨hl, rfl, bounds_good hb _ _, zbars, rfl, rfl, rfl⟩

/-- What a successful call on the initial request does. -/
theorem beginR_ok {rnd : K → K} {c : Cfg n k K V} {s s' : St n k K} {r : InitResp} {km : KMeans k K} {o : Out k K V}
    (h : beginR rnd c s r km = (s', .ok o)) :
    ∃ nIt nP ct, r.nIterations = some nIt ∧ r.nPoints = some nP ∧ 1 ≤ nIt.asInt ∧ 1 ≤ nP.asInt ∧
      o = .points ct ∧ (∃ m, maxIndex ct.points = .ok m) ∧
      computeR rnd c s.reach c.nadir nP.asInt nIt.asInt km = .ok ct ∧
      s' = { s with left := some nIt.asInt, nPoints := some nP.asInt, preferred := some c.nadir } := by
  unfold beginR at h
  cases hv : validateInitial r with
  | error e => rw [hv] at h; simp at h
  | ok u =>
    rw [hv] at h
    dsimp only at h
    unfold validateInitial at hv
    unfold handleInitialR at h
    cases h1 : r.nIterations with
    | none => rw [h1] at hv; simp at hv
    | some nIt =>
      cases h2 : r.nPoints with
      | none => rw [h1, h2] at hv; simp at hv
      | some nP =>
        rw [h1, h2] at hv h
        dsimp only at hv h
        have hn : 1 ≤ nIt.asInt := by
          by_contra hc
          simp [show nIt.asInt < 1 by omega] at hv
        have hp : 1 ≤ nP.asInt := by
          by_contra hc
          rw [show decide (nP.asInt < 1) = true by simp; omega] at hv
          split at hv <;> simp at hv
        cases hc : computeR rnd c s.reach c.nadir nP.asInt nIt.asInt km with
        | error e => rw [hc] at h; simp at h
        | ok ct =>
          rw [hc] at h
          simp only [Prod.mk.injEq] at h
          obtain ⟨rfl, h⟩ := h
          obtain ⟨rfl, hm⟩ := mkRequest_ok h
          exact ⟨nIt, nP, ct, rfl, rfl, hn, hp, rfl, hm, hc, rfl⟩

/-- What a successful call that does not step back does. -/
theorem answerR_choice_ok {rnd : K → K} {c : Cfg n k K V} {s s' : St n k K} {ct : Content k K} {r : Resp k K}
    {km : KMeans k K} {o : Out k K V}
    (h : answerR rnd c s ct r km = (s', .ok o)) (hsb : r.stepBack = some false) :
    ∃ i z left, r.preferredIndex = some i ∧ 0 ≤ i ∧ ct.points[i.toNat]? = some z ∧ s.left = some left ∧
      ((left ≤ 1 ∧ ∃ sol, findSolutionR rnd c z = .ok sol ∧ o = .stop z sol ∧
          s' = { s with preferred := some z, left := some 0 }) ∨
       (1 < left ∧ ∃ lo hi ch left' nP ct',
          ct.lowers[i.toNat]? = some lo ∧ ct.uppers[i.toNat]? = some hi ∧
          r.changeRemaining = some ch ∧ (if ch then r.iterationsLeft else some (left - 1)) = some left' ∧
          s.nPoints = some nP ∧
          computeR rnd c (reachable c.front lo hi) z nP left' km = .ok ct' ∧
          o = .points ct' ∧ (∃ m, maxIndex ct'.points = .ok m) ∧
          s' = { preferred := some z, lb := lo, ub := hi, reach := reachable c.front lo hi,
                 nPoints := s.nPoints, left := some left' })) := by
  unfold answerR at h
  cases hv : validate ct r with
  | error e => rw [hv] at h; simp at h
  | ok u =>
    rw [hv] at h
    dsimp only at h
    unfold handleR at h
    rw [hsb] at h
    dsimp only at h
    unfold handleChoiceR at h
    cases hi : r.preferredIndex with
    | none => rw [hi] at h; simp at h
    | some i =>
      rw [hi] at h
      dsimp only at h
      have hi0 : 0 ≤ i := by
        by_contra hc
        unfold validate at hv
        rw [hi, hsb] at hv
        cases hch : r.changeRemaining with
        | none => rw [hch] at hv; simp at hv
        | some ch =>
          rw [hch] at hv
          simp only [Bool.not_false, if_true] at hv
          split at hv
          · simp at hv
          · simp [show i < 0 by omega] at hv
      cases hz : pyGet ct.points i with
      | error e => rw [hz] at h; simp at h
      | ok z =>
        rw [hz] at h
        dsimp only at h
        have hz' := (pyGet_ok hi0).1 hz
        cases hl : s.left with
        | none => rw [hl] at h; simp at h
        | some left =>
          rw [hl] at h
          dsimp only at h
          refine ⟨i, z, left, rfl, hi0, hz', rfl, ?_⟩
          by_cases hle : left ≤ 1
          · left
            simp only [hle, if_true, handleStopR] at h
            cases hf : findSolutionR rnd c z with
            | error e => rw [hf] at h; simp at h
            | ok sol =>
              rw [hf] at h
              simp only [Prod.mk.injEq, Except.ok.injEq] at h
              exact ⟨hle, sol, rfl, h.2.symm, h.1.symm⟩
          · right
            simp only [hle, if_false] at h
            cases hlo : pyGet ct.lowers i with
            | error e => rw [hlo] at h; simp at h
            | ok lo =>
              rw [hlo] at h
              dsimp only at h
              cases hhi : pyGet ct.uppers i with
              | error e => rw [hhi] at h; simp at h
              | ok hi =>
                rw [hhi] at h
                dsimp only at h
                cases hch : r.changeRemaining with
                | none => rw [hch] at h; simp at h
                | some ch =>
                  rw [hch] at h
                  dsimp only at h
                  cases hl' : (if ch = true then r.iterationsLeft else some (left - 1)) with
                  | none => rw [hl'] at h; simp at h
                  | some left' =>
                    rw [hl'] at h
                    dsimp only at h
                    cases hp : s.nPoints with
                    | none => rw [hp] at h; simp at h
                    | some nP =>
                      rw [hp] at h
                      dsimp only at h
                      cases hc : computeR rnd c (reachable c.front lo hi) z nP left' km with
                      | error e => rw [hc] at h; simp at h
                      | ok ct' =>
                        rw [hc] at h
                        simp only [Prod.mk.injEq] at h
                        obtain ⟨h1, h2⟩ := h
                        obtain ⟨rfl, hm⟩ := mkRequest_ok h2
                        exact ⟨by omega, lo, hi, ch, left', nP, ct', (pyGet_ok hi0).1 hlo,
                          (pyGet_ok hi0).1 hhi, rfl, hl', rfl, hc, rfl, hm, h1.symm⟩

/-- What a successful call that steps back does. -/
theorem answerR_back_ok {rnd : K → K} {c : Cfg n k K V} {s s' : St n k K} {ct : Content k K} {r : Resp k K}
    {km : KMeans k K} {o : Out k K V}
    (h : answerR rnd c s ct r km = (s', .ok o)) (hsb : r.stepBack = some true) :
    ∃ ct', r.prevSolutions = some ct'.points ∧ r.prevLower = some ct'.lowers ∧
      r.prevUpper = some ct'.uppers ∧ r.iterationsLeft = some ct'.left ∧
      r.prevDistances = some ct'.distances ∧ (∃ m, maxIndex ct'.points = .ok m) ∧
      o = .points ct' ∧ s' = { s with left := some ct'.left } := by
  unfold answerR at h
  cases hv : validate ct r with
  | error e => rw [hv] at h; simp at h
  | ok u =>
    rw [hv] at h
    dsimp only at h
    unfold handleR at h
    rw [hsb] at h
    dsimp only at h
    unfold handleBack at h
    cases h1 : r.prevSolutions with
    | none => rw [h1] at h; simp at h
    | some zs =>
    cases h2 : r.prevLower with
    | none => rw [h1, h2] at h; simp at h
    | some lo =>
    cases h3 : r.prevUpper with
    | none => rw [h1, h2, h3] at h; simp at h
    | some hi =>
    cases h4 : r.iterationsLeft with
    | none => rw [h1, h2, h3, h4] at h; simp at h
    | some left =>
    cases h5 : r.prevDistances with
    | none => rw [h1, h2, h3, h4, h5] at h; simp at h
    | some ds =>
      rw [h1, h2, h3, h4, h5] at h
      simp only [Prod.mk.injEq] at h
      obtain ⟨h6, h7⟩ := h
      obtain ⟨rfl, hm⟩ := mkRequest_ok h7
      exact ⟨⟨zs, lo, hi, left, ds⟩, rfl, rfl, rfl, rfl, rfl, hm, rfl, h6.symm⟩

/-! ## Histories -/

/-- `LivedR rnd c s iss`: the object can be in state `s` after having issued the requests `iss`; as `Lived`, with
rounded arithmetic. -/
inductive LivedR (rnd : K → K) (c : Cfg n k K V) : St n k K → List (Content k K) → Prop
  | fresh : LivedR rnd c (initSt c) []
  | start {s : St n k K} {iss : List (Content k K)} (h : LivedR rnd c s iss) (r : InitResp) (km : KMeans k K) :
      LivedR rnd c (beginR rnd c s r km).1 (issued (beginR rnd c s r km).2 ++ iss)
  | respond {s : St n k K} {iss : List (Content k K)} {ct : Content k K} (h : LivedR rnd c s iss) (hm : ct ∈ iss)
      {r : Resp k K} (hr : Sensible iss r) (km : KMeans k K) :
      LivedR rnd c (answerR rnd c s ct r km).1 (issued (answerR rnd c s ct r km).2 ++ iss)

theorem intermediatePointR_one {u : K} {rnd : K → K} (hr : IsRounding u rnd) (pref zb : Vec k K)
    (hz : MachineVec rnd zb) : intermediatePointR rnd pref zb 1 = zb := by
  funext j
  unfold intermediatePointR
  rw [Int.cast_one]
  exact stepTo_one hr _ _ (hz j)

theorem computeR_proper {u : K} {rnd : K → K} (hR : IsRounding u rnd) {c : Cfg n k K V} {reach : List (Fin n)} {pref : Vec k K} {nP left : Int}
    {km : KMeans k K} {ct : Content k K} (h : computeR rnd c reach pref nP left km = .ok ct)
    (hF : ∀ i, MachineVec rnd (c.front i)) (hl : 1 ≤ left) (hm : ∃ m, maxIndex ct.points = .ok m) : Proper c ct := by
  obtain ⟨_, h1, h2, zbars, h3, h4, _⟩ := computeR_ok h
  refine ⟨h1 ▸ hl, h2, ?_, hm⟩
  intro h5 z hz
  rw [h1] at h5
  subst h5
  rw [h4] at hz
  obtain ⟨zb, hzb, rfl⟩ := List.mem_map.1 hz
  obtain ⟨i, _, hi⟩ := representative_mem h3 zb hzb
  exact ⟨i, by rw [intermediatePointR_one hR _ _ (hi ▸ hF i), hi]⟩

/-- What is left of a successful answer: a request showing points is proper. -/
theorem answerR_proper {u : K} {rnd : K → K} (hR : IsRounding u rnd) {c : Cfg n k K V} {s s' : St n k K} {iss : List (Content k K)} {ct ct' : Content k K}
    {r : Resp k K} {km : KMeans k K} (hF : ∀ i, MachineVec rnd (c.front i))
    (hp : ∀ x ∈ iss, Proper c x) (hr : Sensible iss r)
    (h : answerR rnd c s ct r km = (s', .ok (.points ct'))) : Proper c ct' := by
  cases hsb : r.stepBack with
  | none =>
    exfalso
    unfold answerR at h
    cases hv : validate ct r with
    | error e => rw [hv] at h; simp at h
    | ok u => rw [hv] at h; simp [handleR, hsb] at h
  | some b =>
    cases b with
    | true =>
      obtain ⟨x, hx, hb⟩ := hr.2 hsb
      obtain ⟨ct2, h1, h2, h3, h4, h5, h6, h7, h8⟩ := answerR_back_ok h hsb
      simp only [Out.points.injEq] at h7
      subst h7
      rw [hb.eq h1 h2 h3 h4 h5]
      exact hp x hx
    | false =>
      obtain ⟨i, z, left, _, _, _, hl, h1 | h1⟩ := answerR_choice_ok h hsb
      · obtain ⟨_, sol, _, h2, _⟩ := h1
        simp at h2
      · obtain ⟨hlt, lo, hi, ch, left', nP, ct'', _, _, hch, hl', _, hc, ho, hm, hs⟩ := h1
        simp only [Out.points.injEq] at ho
        subst ho
        exact computeR_proper hR hc hF (choice_left_pos (hr.1 hsb) hch hlt hl') hm

theorem findSolutionR_spec {u : K} {rnd : K → K} (hR : IsRounding u rnd) (hu : u < 1) {c : Cfg n k K V}
    (hn : Definite c.nrm) {z : Vec k K} {sol : Option V}
    (h : findSolutionR rnd c z = .ok sol) {vs : List V} (hv : c.vars = some vs)
    (hz : ∃ i, c.front i = z) : ∃ i : Fin n, c.front i = z ∧ sol = vs[i.val]? ∧ sol.isSome := by
  unfold findSolutionR at h
  rw [hv] at h
  dsimp only at h
  cases ha : npArgmin ((List.finRange n).map fun i => c.nrm fun j => |rnd (c.front i j - z j)|) with
  | error e => rw [ha] at h; simp at h
  | ok idx =>
    rw [ha] at h
    dsimp only at h
    cases hvi : vs[idx]? with
    | none => rw [hvi] at h; simp at h
    | some v =>
      rw [hvi] at h
      simp only [Except.ok.injEq] at h
      obtain ⟨m, h1, h2, _⟩ := npArgmin_ok ha
      have hlt : idx < n := by
        have := (List.getElem?_eq_some_iff.1 h1).1
        simpa using this
      obtain ⟨i0, hi0⟩ := hz
      have hm0 : m ≤ 0 := by
        have := h2 (c.nrm fun j => |rnd (c.front i0 j - z j)|) (by simp)
        refine le_trans this (le_of_eq ((hn.eq_zero _).2 fun j => by rw [hi0]; simp [hR.zero]))
      have hm : c.nrm (fun j => |rnd (c.front ⟨idx, hlt⟩ j - z j)|) = m := by
        rw [List.getElem?_eq_some_iff] at h1
        obtain ⟨_, h1⟩ := h1
        simpa using h1
      have hz0 := (hn.eq_zero _).1 (le_antisymm (hm ▸ hm0) (hn.nonneg _))
      refine ⟨⟨idx, hlt⟩, ?_, by rw [hvi, h], by rw [← h]; rfl⟩
      funext j
      have := hz0 j
      rw [abs_eq_zero] at this
      exact sub_eq_zero.1 (hR.eq_zero hu this)

theorem LivedR.proper {u : K} {rnd : K → K} (hR : IsRounding u rnd) {c : Cfg n k K V}
    (hF : ∀ i, MachineVec rnd (c.front i)) {s : St n k K} {iss : List (Content k K)} (h : LivedR rnd c s iss) :
    ∀ ct ∈ iss, Proper c ct := by
  induction h with
  | fresh => simp
  | start h r km ih =>
    rename_i s iss
    intro ct hct
    rcases List.mem_append.1 hct with hct | hct
    · have hq := mem_issued hct
      obtain ⟨nIt, nP, ct', _, _, h1, _, h2, h3, h4, h5⟩ :=
        beginR_ok (s' := (beginR rnd c s r km).1) (Prod.ext rfl hq)
      simp only [Out.points.injEq] at h2
      subst h2
      exact computeR_proper hR h4 hF h1 h3
    · exact ih ct hct
  | respond h hm hr km ih =>
    rename_i s iss ct r
    intro x hx
    rcases List.mem_append.1 hx with hx | hx
    · have hq := mem_issued hx
      exact answerR_proper hR hF ih hr (s' := (answerR rnd c s ct r km).1) (Prod.ext rfl hq)
    · exact ih x hx

/-! ## C109 -/

/-- **C109** (requests). In floating-point arithmetic, whatever the rounding and in every history: if the front consists of
machine numbers, every issued request has at least one iteration left, the bounds of every shown point are the exact
ranges for that point, and with one iteration left every shown point is, to the last bit, a row of the front. -/
theorem C109_requests_rounded {u : K} {rnd : K → K} (hR : IsRounding u rnd) {c : Cfg n k K V}
    (hF : ∀ i, MachineVec rnd (c.front i)) {s : St n k K} {iss : List (Content k K)} (h : LivedR rnd c s iss)
    {ct : Content k K} (hct : ct ∈ iss) :
    1 ≤ ct.left ∧ ct.lowers.length = ct.points.length ∧ ct.uppers.length = ct.points.length ∧
    (∀ (i : Nat) (z lo hi : Vec k K), ct.points[i]? = some z → ct.lowers[i]? = some lo → ct.uppers[i]? = some hi →
      ExactBounds c.front z lo hi) ∧
    (ct.left = 1 → ∀ z ∈ ct.points, ∃ i, c.front i = z) := by
  have hp := h.proper hR hF ct hct
  obtain ⟨e1, e2, e3⟩ := hp.good
  exact ⟨hp.left_pos, e1, e2, e3, hp.one⟩

/-- **C109** (end). In floating-point arithmetic, whatever the rounding and in every history: if the answered request
reported one iteration left, the objective vector of the stop request is, to the last bit, the row of the front that was
chosen, and the solution is the decision vector of a row with exactly these objective values. -/
theorem C109_stop_rounded {u : K} {rnd : K → K} (hR : IsRounding u rnd) (hu : u < 1) {c : Cfg n k K V}
    (hn : Definite c.nrm) (hF : ∀ i, MachineVec rnd (c.front i)) {s s' : St n k K} {iss : List (Content k K)}
    (h : LivedR rnd c s iss) {ct : Content k K} (hct : ct ∈ iss) (hone : ct.left = 1) {r : Resp k K}
    {km : KMeans k K} {z : Vec k K} {sol : Option V} (ha : answerR rnd c s ct r km = (s', .ok (.stop z sol))) :
    (∃ i : Nat, r.preferredIndex = some (i : Int) ∧ ct.points[i]? = some z) ∧ (∃ i, c.front i = z) ∧
    (∀ vs, c.vars = some vs → ∃ i : Fin n, c.front i = z ∧ sol = vs[i.val]? ∧ sol.isSome) ∧
    (c.vars = none → sol = none) := by
  have hsb : r.stepBack = some false := by
    cases hsb : r.stepBack with
    | none =>
      exfalso
      unfold answerR at ha
      cases hv : validate ct r with
      | error e => rw [hv] at ha; simp at ha
      | ok u => rw [hv] at ha; simp [handleR, hsb] at ha
    | some b =>
      cases b with
      | false => rfl
      | true =>
        obtain ⟨_, _, _, _, _, _, _, h7, _⟩ := answerR_back_ok ha hsb
        simp at h7
  obtain ⟨i', z', left, hi', hi0, hz', hl, h1 | h1⟩ := answerR_choice_ok ha hsb
  · obtain ⟨_, sol', hf, h2, _⟩ := h1
    simp only [Out.stop.injEq] at h2
    obtain ⟨rfl, rfl⟩ := h2
    have hrow := (C109_requests_rounded hR hF h hct).2.2.2.2 hone z (List.mem_of_getElem? hz')
    refine ⟨⟨i'.toNat, by rw [hi', Int.toNat_of_nonneg hi0], hz'⟩, hrow,
      fun vs hv => findSolutionR_spec hR hu hn hf hv hrow, ?_⟩
    intro hv
    unfold findSolutionR at hf
    rw [hv] at hf
    simp at hf
    exact hf.symm
  · obtain ⟨_, _, _, _, _, _, _, _, _, _, _, _, _, ho, _⟩ := h1
    simp at ho

/-- What the distances of a request with one iteration left are. -/
def FinalDistances (c : Cfg n k K V) (ct : Content k K) : Prop :=
  ct.left = 1 → ∀ (m : Nat) p d, ct.points[m]? = some p → ct.distances[m]? = some d →
    (p ≠ c.nadir → d = .num 100) ∧ (p = c.nadir → d = .nan)

theorem computeR_finalDistances {u : K} {rnd : K → K} (hR : IsRounding u rnd) (hu : u < 1) (h100 : Machine rnd 100)
    {c : Cfg n k K V} (hn : Definite c.nrm) (hF : ∀ i, MachineVec rnd (c.front i)) {reach : List (Fin n)}
    {pref : Vec k K} {nP left : Int} {km : KMeans k K} {ct : Content k K}
    (h : computeR rnd c reach pref nP left km = .ok ct) : FinalDistances c ct := by
  obtain ⟨_, h1, h2, zbars, h3, h4, h5⟩ := computeR_ok h
  intro hone m p d hp hd
  rw [h1] at hone
  subst hone
  have hpts : ct.points = zbars := by
    rw [h4]
    refine (List.map_congr_left (g := id) ?_).trans (List.map_id _)
    intro zb hzb
    obtain ⟨i, _, rfl⟩ := representative_mem h3 zb hzb
    exact intermediatePointR_one hR _ _ (hF i)
  rw [h5, hpts] at hd
  rw [hpts] at hp
  unfold distancesR at hd
  rw [List.getElem?_zipWith, hp] at hd
  simp only [Option.some.injEq] at hd
  have key : c.nrm (fun j => rnd (p j - c.nadir j)) = 0 ↔ p = c.nadir := by
    rw [hn.eq_zero]
    constructor
    · intro hz
      funext j
      exact sub_eq_zero.1 (hR.eq_zero hu (hz j))
    · intro he j
      rw [he, sub_self, hR.zero]
  subst hd
  constructor
  · intro hne
    have h0 : c.nrm (fun j => rnd (p j - c.nadir j)) ≠ 0 := fun h0 => hne (key.1 h0)
    simp only [fdiv, if_neg h0, div_self h0, flRound, hR.one, Fl.scalePos, one_mul]
    rw [h100]
  · intro he
    simp only [fdiv, if_pos (key.2 he), flRound, Fl.scalePos]

/-- **C109** (distances). In floating-point arithmetic, in every history: with one iteration left the distance shown for
a point is exactly 100 percent, unless the point is the nadir point itself (then it is NaN). -/
theorem C109_distances_rounded {u : K} {rnd : K → K} (hR : IsRounding u rnd) (hu : u < 1) (h100 : Machine rnd 100)
    {c : Cfg n k K V} (hn : Definite c.nrm) (hF : ∀ i, MachineVec rnd (c.front i)) {s : St n k K}
    {iss : List (Content k K)} (h : LivedR rnd c s iss) {ct : Content k K} (hct : ct ∈ iss) (hone : ct.left = 1)
    {m : Nat} {p : Vec k K} {d : Fl K} (hp : ct.points[m]? = some p) (hd : ct.distances[m]? = some d) :
    (p ≠ c.nadir → d = .num 100) ∧ (p = c.nadir → d = .nan) := by
  suffices ∀ ct ∈ iss, FinalDistances c ct from this ct hct hone m p d hp hd
  clear hct hp hd hone
  induction h with
  | fresh => simp
  | start h r km ih =>
    rename_i s iss
    intro ct hct
    rcases List.mem_append.1 hct with hct | hct
    · have hq := mem_issued hct
      obtain ⟨nIt, nP, ct', _, _, h1, _, h2, h3, h4, h5⟩ :=
        beginR_ok (s' := (beginR rnd c s r km).1) (Prod.ext rfl hq)
      simp only [Out.points.injEq] at h2
      subst h2
      exact computeR_finalDistances hR hu h100 hn hF h4
    · exact ih ct hct
  | respond h hm hr km ih =>
    rename_i s iss ct r
    intro x hx
    rcases List.mem_append.1 hx with hx | hx
    · have hq := mem_issued hx
      have ha : answerR rnd c s ct r km = ((answerR rnd c s ct r km).1, .ok (.points x)) := Prod.ext rfl hq
      cases hsb : r.stepBack with
      | none =>
        exfalso
        unfold answerR at hq
        cases hv : validate ct r with
        | error e => rw [hv] at hq; simp at hq
        | ok u => rw [hv] at hq; simp [handleR, hsb] at hq
      | some b =>
        cases b with
        | true =>
          obtain ⟨y, hy, hb⟩ := hr.2 hsb
          obtain ⟨ct2, h1, h2, h3, h4, h5, h6, h7, h8⟩ := answerR_back_ok ha hsb
          simp only [Out.points.injEq] at h7
          subst h7
          rw [hb.eq h1 h2 h3 h4 h5]
          exact ih y hy
        | false =>
          obtain ⟨i, z, left, _, _, _, hl, h1 | h1⟩ := answerR_choice_ok ha hsb
          · obtain ⟨_, sol, _, h2, _⟩ := h1
            simp at h2
          · obtain ⟨hlt, lo, hi, ch, left', nP, ct'', _, _, hch, hl', _, hc, ho, _, _⟩ := h1
            simp only [Out.points.injEq] at ho
            subst ho
            exact computeR_finalDistances hR hu h100 hn hF hc
    · exact ih x hx

/-! ## C110 -/

/-- The row `zb` lies within the bounds shown for a point that is not better. -/
theorem inBox_of_le {front : Fin n → Vec k K} {p lo hi : Vec k K} (hb : ExactBounds front p lo hi) {i : Fin n}
    (h : AtLeastAsGood (front i) p) : InBox lo hi (front i) := by
  intro j
  obtain ⟨⟨_, h1⟩, ⟨_, h2⟩⟩ := hb j
  have hg : GoodExcept front p j i := fun j' _ => h j'
  exact ⟨h1 i hg, h2 i hg⟩

/-- The points computed from `pref`: each heads for a reachable row; if rounding does not lose that row, it is at least
as good as the point and within its bounds. -/
theorem computeR_heads {u : K} {rnd : K → K} (hR : IsRounding u rnd) (hu : 0 ≤ u)
    (hhalf : ∀ x, Machine rnd x → Machine rnd (1 / 2 * x)) {c : Cfg n k K V}
    (hF : ∀ i, MachineVec rnd (c.front i)) {reach : List (Fin n)} {pref : Vec k K} {nP left : Int} (hl : 1 ≤ left)
    {km : KMeans k K} {ct : Content k K} (h : computeR rnd c reach pref nP left km = .ok ct)
    {m : Nat} {p lo hi : Vec k K} (hp : ct.points[m]? = some p) (hlo : ct.lowers[m]? = some lo)
    (hhi : ct.uppers[m]? = some hi) :
    ∃ i ∈ reach, (∀ j, p j = stepTo rnd (ct.left : K) (pref j) (c.front i j)) ∧
      ((∀ j, c.front i j ≤ pref j ∧ NotLost u rnd (ct.left : K) (pref j) (c.front i j)) →
        AtLeastAsGood (c.front i) p ∧ InBox lo hi (c.front i)) := by
  obtain ⟨_, h1, h2, zbars, h3, h4, _⟩ := computeR_ok h
  have hm := List.mem_of_getElem? hp
  rw [h4] at hm
  obtain ⟨zb, hzb, rfl⟩ := List.mem_map.1 hm
  obtain ⟨i, hi', rfl⟩ := representative_mem h3 zb hzb
  refine ⟨i, hi', fun j => by rw [h1]; rfl, ?_⟩
  intro hk
  have hle : AtLeastAsGood (c.front i) (intermediatePointR rnd pref (c.front i) left) := by
    intro j
    obtain ⟨a, b⟩ := hk j
    rw [h1] at b
    exact b.le hR hu hhalf (by exact_mod_cast hl) (hF i j) a
  exact ⟨hle, inBox_of_le (h2.2.2 m _ lo hi hp hlo hhi) hle⟩

/-- **C110** (start), what is true. Every point of the first request heads for a row of the front. If rounding does
not lose that row (`NotLost`: at most two iterations, or a margin, or a value the formula reproduces), the row is at
least as good as the point and lies within the bounds shown for the point. -/
theorem C110_start_partial {u : K} {rnd : K → K} (hR : IsRounding u rnd) (hu : 0 ≤ u)
    (hhalf : ∀ x, Machine rnd x → Machine rnd (1 / 2 * x)) {c : Cfg n k K V}
    (hF : ∀ i, MachineVec rnd (c.front i)) {s s' : St n k K} {r : InitResp} {km : KMeans k K} {ct : Content k K}
    (h : beginR rnd c s r km = (s', .ok (.points ct)))
    {m : Nat} {p lo hi : Vec k K} (hp : ct.points[m]? = some p) (hlo : ct.lowers[m]? = some lo)
    (hhi : ct.uppers[m]? = some hi) :
    ∃ i ∈ s.reach, (∀ j, p j = stepTo rnd (ct.left : K) (c.nadir j) (c.front i j)) ∧
      ((∀ j, c.front i j ≤ c.nadir j ∧ NotLost u rnd (ct.left : K) (c.nadir j) (c.front i j)) →
        AtLeastAsGood (c.front i) p ∧ InBox lo hi (c.front i)) := by
  obtain ⟨nIt, nP, ct', _, _, h1, _, h2, h3, h4, h5⟩ := beginR_ok h
  simp only [Out.points.injEq] at h2
  subst h2
  exact computeR_heads hR hu hhalf hF h1 h4 hp hlo hhi

/-- **C110** (later requests), what is true: the same after choosing a point `z`, for rows at least as good as `z`. -/
theorem C110_choice_partial {u : K} {rnd : K → K} (hR : IsRounding u rnd) (hu : 0 ≤ u)
    (hhalf : ∀ x, Machine rnd x → Machine rnd (1 / 2 * x)) {c : Cfg n k K V}
    (hF : ∀ i, MachineVec rnd (c.front i)) {s s' : St n k K} {ct ct' : Content k K} {r : Resp k K} {km : KMeans k K}
    (hsb : r.stepBack = some false) (hpos : PositiveChange r)
    (h : answerR rnd c s ct r km = (s', .ok (.points ct')))
    {m : Nat} {p lo hi : Vec k K} (hp : ct'.points[m]? = some p) (hlo : ct'.lowers[m]? = some lo)
    (hhi : ct'.uppers[m]? = some hi) :
    ∃ (a : Nat) (z zlo zhi : Vec k K), r.preferredIndex = some (a : Int) ∧ ct.points[a]? = some z ∧
      ct.lowers[a]? = some zlo ∧ ct.uppers[a]? = some zhi ∧
      ∃ i, InBox zlo zhi (c.front i) ∧ (∀ j, p j = stepTo rnd (ct'.left : K) (z j) (c.front i j)) ∧
      ((∀ j, c.front i j ≤ z j ∧ NotLost u rnd (ct'.left : K) (z j) (c.front i j)) →
        AtLeastAsGood (c.front i) p ∧ InBox lo hi (c.front i)) := by
  obtain ⟨a, z, left, ha, ha0, hz, hl, h1 | h1⟩ := answerR_choice_ok h hsb
  · obtain ⟨_, sol, _, h2, _⟩ := h1
    simp at h2
  · obtain ⟨hlt, zlo, zhi, ch, left', nP, ct'', hzlo, hzhi, hch, hl', _, hc, ho, _, _⟩ := h1
    simp only [Out.points.injEq] at ho
    subst ho
    obtain ⟨i, hi1, hi2, hi3⟩ :=
      computeR_heads hR hu hhalf hF (choice_left_pos hpos hch hlt hl') hc hp hlo hhi
    exact ⟨a.toNat, z, zlo, zhi, by rw [ha, Int.toNat_of_nonneg ha0], hz, hzlo, hzhi, i,
      (mem_reachable _ _ _ _).1 hi1, hi2, hi3⟩

/-- **C110** (no exception), what is true. If there are rows, no row is worse than the nadir point and rounding loses
none of them (which holds for one or two iterations), the first request is issued, for every valid answer of k-means. -/
theorem C110_starts_partial {u : K} {rnd : K → K} (hR : IsRounding u rnd) (hu : 0 ≤ u)
    (hhalf : ∀ x, Machine rnd x → Machine rnd (1 / 2 * x)) {c : Cfg n k K V} (hk : k ≠ 1)
    (hF : ∀ i, MachineVec rnd (c.front i)) {s : St n k K} {a b : Int} (ha : 1 ≤ a) (hb : 1 ≤ b) {km : KMeans k K}
    (hkm : ∀ pts, ∀ x ∈ km pts b, x < pts.length)
    (hrows : ∀ i ∈ s.reach, ∀ j, c.front i j ≤ c.nadir j ∧ NotLost u rnd (a : K) (c.nadir j) (c.front i j)) :
    ∃ ct, (beginR rnd c s ⟨some (.int a), some (.int b)⟩ km).2 = .ok (.points ct) := by
  have hv : validateInitial ⟨some (.int a), some (.int b)⟩ = .ok () := by
    simp only [validateInitial, PyVal.isInstanceInt, PyVal.asInt, Bool.not_true, Bool.false_or]
    simp [not_lt.2 ha, not_lt.2 hb]
  have hrep : ∃ zbars, representative c.front s.reach b km = .ok zbars := by
    unfold representative
    dsimp only
    split
    · apply mapE_exists
      intro x hx
      exact pyGet_exists (by omega) (by exact_mod_cast hkm _ x hx)
    · exact ⟨_, rfl⟩
  obtain ⟨zbars, hz⟩ := hrep
  have hbd : ∃ q, bounds c.front (zbars.map fun zb => intermediatePointR rnd c.nadir zb a) = .ok q := by
    unfold bounds
    have : ∃ bs, mapE (boundsAt c.front) (zbars.map fun zb => intermediatePointR rnd c.nadir zb a) = .ok bs := by
      apply mapE_exists
      intro p hp
      obtain ⟨zb, hzb, rfl⟩ := List.mem_map.1 hp
      obtain ⟨i, hi, rfl⟩ := representative_mem hz zb hzb
      have hle : ∀ j, c.front i j ≤ intermediatePointR rnd c.nadir (c.front i) a j := fun j =>
        (hrows i hi j).2.le hR hu hhalf (by exact_mod_cast ha) (hF i j) (hrows i hi j).1
      cases hq : boundsAt c.front (intermediatePointR rnd c.nadir (c.front i) a) with
      | ok q => exact ⟨q, rfl⟩
      | error e =>
        obtain ⟨_, r, hr⟩ := boundsAt_error hq
        exact absurd (fun j _ => hle j) (hr i)
    obtain ⟨bs, hbs⟩ := this
    rw [hbs]
    exact ⟨_, rfl⟩
  obtain ⟨⟨lo, hi⟩, hq⟩ := hbd
  have hmx : ∀ l : List (Vec k K), ∃ m, maxIndex l = .ok m := by
    intro l
    unfold maxIndex
    rw [if_neg hk]
    split
    · exact ⟨_, rfl⟩
    · exact ⟨_, rfl⟩
  have hc : ∃ ct, computeR rnd c s.reach c.nadir b a km = .ok ct := by
    unfold computeR
    rw [hz]
    simp only [intermediateR, if_neg (show a ≠ 0 by omega), hq]
    exact ⟨_, rfl⟩
  obtain ⟨ct, hc⟩ := hc
  refine ⟨ct, ?_⟩
  unfold beginR
  rw [hv]
  simp only [handleInitialR, PyVal.asInt, hc]
  exact mkRequest_of (hmx _)

/-! ### The claim is false in double precision -/

/-- Two extreme solutions; the nadir point is exact. -/
def exFl : Cfg 2 2 ℚ String :=
  { front := ![![7, 0], ![0, 7]], ideal := ![0, 0], nadir := ![7, 7], vars := some ["a", "b"], nrm := supNorm }

/-- Three iterations, at most five points. -/
def exFlInit : InitResp := { nIterations := some (.int 3), nPoints := some (.int 5) }

/-- First request, in double precision. -/
def exFl1 : St 2 2 ℚ × Except Err (Out 2 ℚ String) := beginR double exFl (initSt exFl) exFlInit noKm

/-- Second request, in double precision: the first point was chosen. -/
def exFl2 : St 2 2 ℚ × Except Err (Out 2 ℚ String) := answerR double exFl exFl1.1 (ctOf exFl1) (chooseResp 0) noKm

/-- **C110** (violated). Double precision, the front `(7, 0), (0, 7)`, three iterations: the first point heads for
`(7, 0)`, but since `(2/3)·7 + (1/3)·7` is computed as `6.999999999999999`, the bounds shown for it are `[7, 7]` in both
objectives and exclude `(7, 0)`; whoever chooses it gets a request without any points. Exact arithmetic shows the lower
bounds `(7, 0)`. -/
theorem C110_fails :
    exFl1.2 = .ok (.points (ctOf exFl1)) ∧
    (ctOf exFl1).points[0]? = some (fun j => stepTo double 3 (exFl.nadir j) (exFl.front 0 j)) ∧
    (ctOf exFl1).lowers[0]? = some ![7, 7] ∧ (ctOf exFl1).uppers[0]? = some ![7, 7] ∧ exFl.front 0 = ![7, 0] ∧
    exFl2.2 = .ok (.points (ctOf exFl2)) ∧ (ctOf exFl2).points = [] ∧
    (ctOf (begin exFl (initSt exFl) exFlInit noKm)).lowers[0]? = some ![7, 0] :=
  ⟨eq_of_beq (by decide +kernel), eq_of_beq (by decide +kernel), eq_of_beq (by decide +kernel),
    eq_of_beq (by decide +kernel), rfl, eq_of_beq (by decide +kernel), eq_of_beq (by decide +kernel),
    eq_of_beq (by decide +kernel)⟩

/-- Three extreme solutions of a problem with three objectives; the nadir point is exact. -/
def exFlCrash : Cfg 3 3 ℚ String :=
  { front := ![![7, 7, 0], ![7, 0, 7], ![0, 7, 7]], ideal := ![0, 0, 0], nadir := ![7, 7, 7], vars := none,
    nrm := supNorm }

/-- **C110** (violated). Double precision, the front `(7, 7, 0), (7, 0, 7), (0, 7, 7)`, three iterations: an accepted
response raises `ValueError`, because no row is found at least as good as the computed point; exact arithmetic issues a
request. -/
theorem C110_fails_crash : MutuallyNondominated exFlCrash.front ∧
    validateInitial exFlInit = .ok () ∧
    (beginR double exFlCrash (initSt exFlCrash) exFlInit noKm).2 = .error .valueError ∧
    isPts (begin exFlCrash (initSt exFlCrash) exFlInit noKm) = true :=
  ⟨by decide +kernel, rfl, eq_of_beq (by decide +kernel), by decide +kernel⟩

/-! ### Non-vacuity -/

theorem exFl_machine (i : Fin 2) : MachineVec double (exFl.front i) := by
  intro j
  fin_cases i <;> fin_cases j
  · exact machine_int 7 (by norm_num)
  · exact machine_int 0 (by norm_num)
  · exact machine_int 0 (by norm_num)
  · exact machine_int 7 (by norm_num)

theorem supNorm_definite {k : Nat} : Definite (supNorm : Vec k ℚ → ℚ) :=
  ⟨supNorm_spec.nonneg, supNorm_spec.eq_zero⟩

/-- Two iterations instead of three. -/
def exFlInit2 : InitResp := { nIterations := some (.int 2), nPoints := some (.int 5) }

/-- Two iterations: first request. -/
def exFlA : St 2 2 ℚ × Except Err (Out 2 ℚ String) := beginR double exFl (initSt exFl) exFlInit2 noKm

/-- Two iterations: second request. -/
def exFlB : St 2 2 ℚ × Except Err (Out 2 ℚ String) := answerR double exFl exFlA.1 (ctOf exFlA) (chooseResp 0) noKm

theorem exFlA_lived : LivedR double exFl exFlA.1 [ctOf exFlA] := by
  have h := LivedR.start (rnd := double) (c := exFl) LivedR.fresh exFlInit2 noKm
  have e : issued exFlA.2 = [ctOf exFlA] := eq_of_beq (by decide +kernel)
  have e' : issued (beginR double exFl (initSt exFl) exFlInit2 noKm).2 = [ctOf exFlA] := e
  rw [e', List.append_nil] at h
  exact h

theorem exFlB_lived : LivedR double exFl exFlB.1 [ctOf exFlB, ctOf exFlA] := by
  have h := LivedR.respond exFlA_lived (ct := ctOf exFlA) (by simp) (r := chooseResp 0)
    ⟨fun _ => by simp [PositiveChange, chooseResp], fun h => by simp [chooseResp] at h⟩ noKm
  have e : issued exFlB.2 = [ctOf exFlB] := eq_of_beq (by decide +kernel)
  have e' : issued (answerR double exFl exFlA.1 (ctOf exFlA) (chooseResp 0) noKm).2 = [ctOf exFlB] := e
  rw [e'] at h
  exact h

theorem exFlB_stop : answerR double exFl exFlB.1 (ctOf exFlB) (chooseResp 0) noKm =
    ((answerR double exFl exFlB.1 (ctOf exFlB) (chooseResp 0) noKm).1, .ok (.stop ![7, 0] (some "a"))) :=
  Prod.ext rfl (eq_of_beq (by decide +kernel))

theorem machine_half_double : ∀ x, Machine double x → Machine double (1 / 2 * x) := fun _ => machine_half

example := C109_requests_rounded isRounding_double exFl_machine exFlB_lived List.mem_cons_self

example := C109_stop_rounded isRounding_double (by norm_num) supNorm_definite exFl_machine exFlB_lived
  List.mem_cons_self (by decide +kernel) exFlB_stop

example := C109_distances_rounded isRounding_double (by norm_num) (machine_int 100 (by norm_num)) supNorm_definite
  exFl_machine exFlB_lived List.mem_cons_self (by decide +kernel) (m := 0) (p := ![7, 0]) (d := .num 100)
  (eq_of_beq (by decide +kernel)) (eq_of_beq (by decide +kernel))

example := C110_start_partial isRounding_double (by norm_num) machine_half_double exFl_machine
  (eq_of_isPts (show isPts exFlA = true by decide +kernel)) (m := 0) (p := ![7, 7 / 2]) (lo := ![7, 0])
  (hi := ![7, 7]) (eq_of_beq (by decide +kernel)) (eq_of_beq (by decide +kernel)) (eq_of_beq (by decide +kernel))

example := C110_choice_partial isRounding_double (by norm_num) machine_half_double exFl_machine (r := chooseResp 0)
  rfl (by simp [PositiveChange, chooseResp])
  (eq_of_isPts (show isPts exFlB = true by decide +kernel)) (m := 0) (p := ![7, 0]) (lo := ![7, 0]) (hi := ![7, 7])
  (eq_of_beq (by decide +kernel)) (eq_of_beq (by decide +kernel)) (eq_of_beq (by decide +kernel))

example := C110_starts_partial (K := ℚ) (a := 2) (b := 5) isRounding_double (by norm_num) machine_half_double
  (c := exFl) (s := initSt exFl) (by decide) exFl_machine (by norm_num) (by norm_num) (km := noKm)
  (fun _ x hx => by simp [noKm] at hx)
  (fun i _ j => ⟨(by decide +kernel : ∀ i j, exFl.front i j ≤ exFl.nadir j) i j, .inr (.inl (by norm_num))⟩)

end Verif.ENautilus
