import Verif.ENautilus.Props2

/-!
# E-NAUTILUS: histories with failed calls, older requests and restarts (C88 - C91)

`Lived` contains all states that any use of the object leads to: the initial request may be answered any
number of times, any issued request may be answered (not only the last one), and a call may raise; the state
after the exception is the partly changed one. Two things are required of the responses: the number of
remaining iterations is not set to zero or less, and a step back supplies the data of an issued request.
-/

set_option linter.unusedSectionVars false

namespace Verif.ENautilus

variable {K V : Type} [Field K] [LinearOrder K] [IsStrictOrderedRing K] {n k : Nat}

/-- The request a call issues, if it shows points. -/
def issued : Except Err (Out k K V) → List (Content k K)
  | .ok (.points ct) => [ct]
  | _ => []

/-- A response with a positive number of iterations that steps back only to issued requests. -/
def Sensible (iss : List (Content k K)) (r : Resp k K) : Prop :=
  (r.stepBack = some false → PositiveChange r) ∧ (r.stepBack = some true → ∃ ct ∈ iss, IsStepBackTo r ct)

/-- `Lived c s iss`: the object can be in state `s` after having issued the requests `iss`. -/
inductive Lived (c : Cfg n k K V) : St n k K → List (Content k K) → Prop
  | fresh : Lived c (initSt c) []
  | start {s : St n k K} {iss : List (Content k K)} (h : Lived c s iss) (r : InitResp) (km : KMeans k K) :
      Lived c (begin c s r km).1 (issued (begin c s r km).2 ++ iss)
  | respond {s : St n k K} {iss : List (Content k K)} {ct : Content k K} (h : Lived c s iss) (hm : ct ∈ iss)
      {r : Resp k K} (hr : Sensible iss r) (km : KMeans k K) :
      Lived c (answer c s ct r km).1 (issued (answer c s ct r km).2 ++ iss)

theorem mem_issued {x : Except Err (Out k K V)} {ct : Content k K} (h : ct ∈ issued x) : x = .ok (.points ct) := by
  unfold issued at h
  split at h
  · simp at h; subst h; rfl
  · simp at h

theorem IsStepBackTo.eq {r : Resp k K} {a b : Content k K} (ha : IsStepBackTo r a)
    (h1 : r.prevSolutions = some b.points) (h2 : r.prevLower = some b.lowers) (h3 : r.prevUpper = some b.uppers)
    (h4 : r.iterationsLeft = some b.left) (h5 : r.prevDistances = some b.distances) : b = a := by
  obtain ⟨_, b1, b2, b3, b4, b5⟩ := ha
  rw [b1] at h1; rw [b2] at h2; rw [b3] at h3; rw [b4] at h4; rw [b5] at h5
  simp only [Option.some.injEq] at h1 h2 h3 h4 h5
  cases a; cases b
  simp_all

/-- What is left of a successful answer: a request showing points is proper. -/
theorem answer_proper {c : Cfg n k K V} {s s' : St n k K} {iss : List (Content k K)} {ct ct' : Content k K}
    {r : Resp k K} {km : KMeans k K} (hp : ∀ x ∈ iss, Proper c x) (hr : Sensible iss r)
    (h : answer c s ct r km = (s', .ok (.points ct'))) : Proper c ct' := by
  cases hsb : r.stepBack with
  | none =>
    exfalso
    unfold answer at h
    cases hv : validate ct r with
    | error e => rw [hv] at h; simp at h
    | ok u => rw [hv] at h; simp [handle, hsb] at h
  | some b =>
    cases b with
    | true =>
      obtain ⟨x, hx, hb⟩ := hr.2 hsb
      obtain ⟨ct2, h1, h2, h3, h4, h5, h6, h7, h8⟩ := answer_back_ok h hsb
      simp only [Out.points.injEq] at h7
      subst h7
      rw [hb.eq h1 h2 h3 h4 h5]
      exact hp x hx
    | false =>
      obtain ⟨i, z, left, _, _, _, hl, h1 | h1⟩ := answer_choice_ok h hsb
      · obtain ⟨_, sol, _, h2, _⟩ := h1
        simp at h2
      · obtain ⟨hlt, lo, hi, ch, left', nP, ct'', _, _, hch, hl', _, hc, ho, hm, hs⟩ := h1
        simp only [Out.points.injEq] at ho
        subst ho
        exact compute_proper hc (choice_left_pos (hr.1 hsb) hch hlt hl') hm

theorem Lived.proper {c : Cfg n k K V} {s : St n k K} {iss : List (Content k K)} (h : Lived c s iss) :
    ∀ ct ∈ iss, Proper c ct := by
  induction h with
  | fresh => simp
  | start h r km ih =>
    rename_i s iss
    intro ct hct
    rcases List.mem_append.1 hct with hct | hct
    · have hq := mem_issued hct
      obtain ⟨nIt, nP, ct', _, _, h1, _, h2, h3, h4, h5⟩ :=
        begin_ok (s' := (begin c s r km).1) (Prod.ext rfl hq)
      simp only [Out.points.injEq] at h2
      subst h2
      exact compute_proper h4 h1 h3
    · exact ih ct hct
  | respond h hm hr km ih =>
    rename_i s iss ct r
    intro x hx
    rcases List.mem_append.1 hx with hx | hx
    · have hq := mem_issued hx
      exact answer_proper ih hr (s' := (answer c s ct r km).1) (Prod.ext rfl hq)
    · exact ih x hx

/-! ## C88 -/

/-- **C88**. In every history, every issued request is consistent: at least one iteration is left, every shown
point has bounds and they are the exact ranges, and with one iteration left every shown point is a row of the
front. -/
theorem C88_issued_requests_consistent {c : Cfg n k K V} {s : St n k K} {iss : List (Content k K)}
    (h : Lived c s iss) {ct : Content k K} (hct : ct ∈ iss) :
    1 ≤ ct.left ∧ ct.lowers.length = ct.points.length ∧ ct.uppers.length = ct.points.length ∧
    (∀ (i : Nat) (z lo hi : Vec k K), ct.points[i]? = some z → ct.lowers[i]? = some lo → ct.uppers[i]? = some hi →
      ExactBounds c.front z lo hi) ∧
    (ct.left = 1 → ∀ z ∈ ct.points, ∃ i, c.front i = z) := by
  have hp := h.proper ct hct
  obtain ⟨e1, e2, e3⟩ := hp.good
  exact ⟨hp.left_pos, e1, e2, e3, hp.one⟩

/-- The parts of the state that describe the reachable region. -/
def SameRegion (s t : St n k K) : Prop := s.reach = t.reach ∧ s.lb = t.lb ∧ s.ub = t.ub

theorem SameRegion.refl (s : St n k K) : SameRegion s s := ⟨rfl, rfl, rfl⟩

theorem begin_region (c : Cfg n k K V) (s : St n k K) (r : InitResp) (km : KMeans k K) :
    SameRegion (begin c s r km).1 s := by
  unfold begin
  cases validateInitial r with
  | error e => exact .refl s
  | ok u =>
    dsimp only
    unfold handleInitial
    split
    · dsimp only
      split <;> exact ⟨rfl, rfl, rfl⟩
    · exact .refl s

theorem answer_region (c : Cfg n k K V) (s : St n k K) (ct : Content k K) (r : Resp k K) (km : KMeans k K)
    (h1 : ct.lowers.length = ct.points.length) (h2 : ct.uppers.length = ct.points.length) :
    SameRegion (answer c s ct r km).1 s ∨ ∃ (i : Nat) (lo hi : Vec k K), r.stepBack = some false ∧
      r.preferredIndex = some (i : Int) ∧ ct.lowers[i]? = some lo ∧ ct.uppers[i]? = some hi ∧
      (answer c s ct r km).1.lb = lo ∧ (answer c s ct r km).1.ub = hi ∧
      (answer c s ct r km).1.reach = reachable c.front lo hi := by
  unfold answer
  cases hv : validate ct r with
  | error e => exact .inl (.refl s)
  | ok u =>
    dsimp only
    unfold handle
    cases hsb : r.stepBack with
    | none => exact .inl (.refl s)
    | some b =>
      cases b with
      | true =>
        dsimp only
        unfold handleBack
        left
        split
        · dsimp only
          split <;> exact ⟨rfl, rfl, rfl⟩
        · exact .refl s
      | false =>
        dsimp only
        unfold handleChoice
        cases hi : r.preferredIndex with
        | none => exact .inl (.refl s)
        | some i =>
          have hi0 : 0 ≤ i := by
            unfold validate at hv
            rw [hi, hsb] at hv
            cases hcr : r.changeRemaining with
            | none => rw [hcr] at hv; simp at hv
            | some ch =>
              rw [hcr] at hv
              simp only [Bool.not_false, if_true] at hv
              split at hv
              · simp at hv
              · split at hv
                · simp at hv
                · rename_i hb
                  push Not at hb
                  exact hb.1
          obtain ⟨m, rfl⟩ := Int.eq_ofNat_of_zero_le hi0
          dsimp only
          cases hz : pyGet ct.points (m : Int) with
          | error e => exact .inl (.refl s)
          | ok z =>
            dsimp only
            cases hl : s.left with
            | none => exact .inl ⟨rfl, rfl, rfl⟩
            | some left =>
              dsimp only
              by_cases hle : left ≤ 1
              · left
                simp only [hle, if_true, handleStop]
                split <;> exact ⟨rfl, rfl, rfl⟩
              · simp only [hle, if_false]
                have hz' := pyGet_nat.1 hz
                have hm : m < ct.points.length := (List.getElem?_eq_some_iff.1 hz').1
                have hlo : ct.lowers[m]? = some (ct.lowers[m]'(by omega)) := List.getElem?_eq_getElem _
                have hhi : ct.uppers[m]? = some (ct.uppers[m]'(by omega)) := List.getElem?_eq_getElem _
                simp only [pyGet_nat.2 hlo, pyGet_nat.2 hhi]
                refine .inr ⟨m, _, _, trivial, rfl, hlo, hhi, ?_⟩
                split
                · exact ⟨rfl, rfl, rfl⟩
                · split
                  · exact ⟨rfl, rfl, rfl⟩
                  · split
                    · exact ⟨rfl, rfl, rfl⟩
                    · split <;> exact ⟨rfl, rfl, rfl⟩

/-- **C88** (reachable region). In every history, either no region has been entered yet and all rows are
reachable, or the region is the one reported with some point of an issued request, and the reachable indices
are exactly the rows inside it, in increasing order. -/
theorem C88_region {c : Cfg n k K V} {s : St n k K} {iss : List (Content k K)} (h : Lived c s iss) :
    ((∀ row, row ∈ s.reach) ∧ s.lb = c.ideal ∧ s.ub = c.nadir ∨
      (∃ ct ∈ iss, ∃ i : Nat, ct.lowers[i]? = some s.lb ∧ ct.uppers[i]? = some s.ub) ∧
        ∀ row, row ∈ s.reach ↔ InBox s.lb s.ub (c.front row)) ∧ s.reach.Pairwise (· < ·) := by
  induction h with
  | fresh => exact ⟨.inl ⟨List.mem_finRange, rfl, rfl⟩, List.pairwise_lt_finRange n⟩
  | start h r km ih =>
    obtain ⟨e1, e2, e3⟩ := begin_region c _ r km
    rw [e1, e2, e3]
    refine ⟨?_, ih.2⟩
    rcases ih.1 with h1 | ⟨⟨ct, hct, h1⟩, h2⟩
    · exact .inl h1
    · exact .inr ⟨⟨ct, List.mem_append_right _ hct, h1⟩, h2⟩
  | respond h hm hr km ih =>
    rename_i s iss ct r
    obtain ⟨_, l1, l2, _, _⟩ := C88_issued_requests_consistent h hm
    rcases answer_region c s ct r km l1 l2 with ⟨e1, e2, e3⟩ | ⟨i, lo, hi, _, _, hlo, hhi, e2, e3, e1⟩
    · rw [e1, e2, e3]
      refine ⟨?_, ih.2⟩
      rcases ih.1 with h1 | ⟨⟨ct, hct, h1⟩, h2⟩
      · exact .inl h1
      · exact .inr ⟨⟨ct, List.mem_append_right _ hct, h1⟩, h2⟩
    · rw [e1, e2, e3]
      exact ⟨.inr ⟨⟨ct, List.mem_append_right _ hm, i, hlo, hhi⟩, fun row => mem_reachable _ _ _ _⟩,
        reachable_sorted _ _ _⟩

/-- The running example, as a history in this sense: two requests, then a failed call. -/
theorem ex_lived0 : Lived exCfg exS0 [exCt0] := by
  have h := Lived.start (Lived.fresh (c := exCfg)) exInit noKm
  rw [ex_begin] at h
  exact h

theorem ex_lived1 : Lived exCfg exS1 [exCt1, exCt0] := by
  have h := Lived.respond ex_lived0 List.mem_cons_self (r := chooseResp 1)
    ⟨fun _ => by simp [PositiveChange, chooseResp], fun h => by simp [chooseResp] at h⟩ noKm
  rw [ex_choose] at h
  exact h

example := C88_issued_requests_consistent ex_lived1 List.mem_cons_self
example := C88_region ex_lived1

/-! ## C89 -/

/-- **C89** (violated). An older request may be answered, and then the method may stop at a point that is not
on the front: here the request with two iterations left is answered a second time. -/
theorem C89_fails : ∃ (c : Cfg 3 2 ℚ String) (s s' : St 3 2 ℚ) (iss : List (Content 2 ℚ)) (ct : Content 2 ℚ)
    (r : Resp 2 ℚ) (z : Vec 2 ℚ) (sol : Option String), Lived c s iss ∧ ct ∈ iss ∧ Sensible iss r ∧
    answer c s ct r noKm = (s', .ok (.stop z sol)) ∧ ∀ i, c.front i ≠ z := by
  refine ⟨exCfg, exS1, { exS1 with preferred := some ![3/2, 3/2], left := some 0 }, _, exCt0, chooseResp 1,
    ![3/2, 3/2], some "b", ex_lived1, by simp, ⟨fun _ => by simp [PositiveChange, chooseResp],
    fun h => by simp [chooseResp] at h⟩, eq_of_beq (by decide +kernel), by decide +kernel⟩

/-- **C89**, what is true: whatever the history, if the answered request reported one iteration left, the
objective vector of the stop request is a row of the front and the solution is the decision vector of a row with
these objective values. -/
theorem C89_stop_on_front_partial {c : Cfg n k K V} (hn : NormSpec c.nrm) {s s' : St n k K}
    {iss : List (Content k K)} (h : Lived c s iss) {ct : Content k K} (hct : ct ∈ iss) (hone : ct.left = 1)
    {r : Resp k K} {km : KMeans k K} {z : Vec k K} {sol : Option V}
    (ha : answer c s ct r km = (s', .ok (.stop z sol))) :
    (∃ i, c.front i = z) ∧
    (∀ vs, c.vars = some vs → ∃ i : Fin n, c.front i = z ∧ sol = vs[i.val]? ∧ sol.isSome) ∧
    (c.vars = none → sol = none) := by
  obtain ⟨i, hi, hz⟩ := C05_stop_is_the_chosen_point ha
  have hsb : r.stepBack = some false := by
    cases hsb : r.stepBack with
    | none =>
      exfalso
      unfold answer at ha
      cases hv : validate ct r with
      | error e => rw [hv] at ha; simp at ha
      | ok u => rw [hv] at ha; simp [handle, hsb] at ha
    | some b =>
      cases b with
      | false => rfl
      | true =>
        obtain ⟨_, _, _, _, _, _, _, h7, _⟩ := answer_back_ok ha hsb
        simp at h7
  have hrow := (C88_issued_requests_consistent h hct).2.2.2.2 hone z (List.mem_of_getElem? hz)
  obtain ⟨i', z', left, hi', _, hz', hl, h1 | h1⟩ := answer_choice_ok ha hsb
  · obtain ⟨_, sol', hf, h2, _⟩ := h1
    simp only [Out.stop.injEq] at h2
    obtain ⟨rfl, rfl⟩ := h2
    refine ⟨hrow, fun vs hv => findSolution_spec hn hf hv hrow, ?_⟩
    intro hv
    unfold findSolution at hf
    rw [hv] at hf
    simp at hf
    exact hf.symm
  · obtain ⟨_, _, _, _, _, _, _, _, _, _, _, _, _, ho, _⟩ := h1
    simp at ho

example := C89_stop_on_front_partial supNorm_spec ex_lived1 List.mem_cons_self rfl ex_stop

/-! ## C90 -/

/-- The request shown when the running example is started again. -/
def exCtAgain : Content 2 ℚ :=
  { points := [![3/2, 3/2]], lowers := [![1, 1]], uppers := [![2, 2]],
    left := 2, distances := [.num 50] }

/-- **C90** (violated). Starting over after a choice does not show what a new object shows: the reachable rows
of the first run are kept. -/
theorem C90_fails : ∃ (c : Cfg 3 2 ℚ String) (s : St 3 2 ℚ) (iss : List (Content 2 ℚ)) (r : InitResp)
    (ct ct' : Content 2 ℚ), Lived c s iss ∧ (begin c (initSt c) r noKm).2 = .ok (.points ct) ∧
    (begin c s r noKm).2 = .ok (.points ct') ∧ ct.points.length = 3 ∧ ct'.points.length = 1 :=
  ⟨exCfg, exS1, _, exInit, exCt0, exCtAgain, ex_lived1, by rw [ex_begin], eq_of_beq (by decide +kernel), rfl, rfl⟩

/-- Histories in which no point has been chosen: the method was started any number of times and answers
stepped back or were refused. -/
inductive NoChoice (c : Cfg n k K V) : St n k K → Prop
  | fresh : NoChoice c (initSt c)
  | start {s : St n k K} (h : NoChoice c s) (r : InitResp) (km : KMeans k K) : NoChoice c (begin c s r km).1
  | back {s : St n k K} (h : NoChoice c s) (ct : Content k K) {r : Resp k K} (hr : r.stepBack = some true)
      (km : KMeans k K) : NoChoice c (answer c s ct r km).1
  | refused {s : St n k K} (h : NoChoice c s) (ct : Content k K) {r : Resp k K} (km : KMeans k K)
      (hr : (answer c s ct r km).2 = .error .refused) : NoChoice c (answer c s ct r km).1

theorem compute_ne_refused {c : Cfg n k K V} {reach : List (Fin n)} {pref : Vec k K} {nP left : Int}
    {km : KMeans k K} : compute c reach pref nP left km ≠ .error .refused := by
  intro h
  unfold compute at h
  cases hr : representative c.front reach nP km with
  | error e =>
    rw [hr] at h
    simp only [Except.error.injEq] at h
    subst h
    unfold representative at hr
    dsimp only at hr
    split at hr
    · obtain ⟨a, ha, he⟩ := mapE_error hr
      have := (pyGet_error he).1
      simp at this
    · simp at hr
  | ok zbars =>
    rw [hr] at h
    dsimp only at h
    by_cases hl0 : left = 0
    · simp [intermediate, hl0] at h
    · simp only [intermediate, hl0, if_false] at h
      cases hb : bounds c.front (zbars.map fun zb => intermediatePoint pref zb left) with
      | error e =>
        rw [hb] at h
        simp only [Except.error.injEq] at h
        have := ((C02_bounds_fail_iff _ _ _).1 hb).1
        rw [h] at this
        simp at this
      | ok p => rw [hb] at h; simp at h

theorem mkRequest_ne_refused {ct : Content k K} : (mkRequest ct : Except Err (Out k K V)) ≠ .error .refused := by
  intro h
  unfold mkRequest at h
  split at h
  · rename_i e he
    simp only [Except.error.injEq] at h
    subst h
    unfold maxIndex at he
    split at he
    · split at he <;> simp at he
    · simp at he
  · simp at h

theorem findSolution_ne_refused {c : Cfg n k K V} {z : Vec k K} : findSolution c z ≠ .error .refused := by
  intro herr
  unfold findSolution at herr
  cases hv : c.vars with
  | none => rw [hv] at herr; simp at herr
  | some vs =>
    rw [hv] at herr
    dsimp only at herr
    generalize ((List.finRange n).map fun i => c.nrm fun j => |c.front i j - z j|) = l at herr
    cases l with
    | nil => simp [npArgmin] at herr
    | cons a l =>
      simp only [npArgmin] at herr
      cases hg : vs[argminGo a 0 1 l]? with
      | none => rw [hg] at herr; simp at herr
      | some v => rw [hg] at herr; simp at herr

theorem pyGet_ne_refused {α : Type} {l : List α} {i : Int} : pyGet l i ≠ .error .refused := by
  intro h
  have := (pyGet_error h).1
  simp at this

theorem handle_ne_refused {c : Cfg n k K V} {s : St n k K} {ct : Content k K} {r : Resp k K} {km : KMeans k K} :
    (handle c s ct r km).2 ≠ .error .refused := by
  intro h
  unfold handle at h
  split at h
  · simp at h
  · unfold handleChoice at h
    split at h
    · simp at h
    · split at h
      · rename_i hz
        simp only [Except.error.injEq] at h
        subst h
        exact pyGet_ne_refused hz
      · dsimp only at h
        split at h
        · simp at h
        · split at h
          · unfold handleStop at h
            dsimp only at h
            split at h
            · rename_i hf
              simp only [Except.error.injEq] at h
              subst h
              exact findSolution_ne_refused hf
            · simp at h
          · split at h
            · rename_i hz
              simp only [Except.error.injEq] at h
              subst h
              exact pyGet_ne_refused hz
            · split at h
              · rename_i hz
                simp only [Except.error.injEq] at h
                subst h
                exact pyGet_ne_refused hz
              · split at h
                · simp at h
                · split at h
                  · simp at h
                  · split at h
                    · simp at h
                    · split at h
                      · rename_i hc
                        simp only [Except.error.injEq] at h
                        subst h
                        exact compute_ne_refused hc
                      · exact mkRequest_ne_refused h
  · unfold handleBack at h
    split at h
    · dsimp only at h
      split at h
      · simp at h
      · exact mkRequest_ne_refused h
    · simp at h

theorem answer_refused {c : Cfg n k K V} {s : St n k K} {ct : Content k K} {r : Resp k K} {km : KMeans k K}
    (h : (answer c s ct r km).2 = .error .refused) : (answer c s ct r km).1 = s := by
  unfold answer at h ⊢
  split at h
  · rfl
  · exact absurd h handle_ne_refused

theorem NoChoice.region {c : Cfg n k K V} {s : St n k K} (h : NoChoice c s) : SameRegion s (initSt c) := by
  induction h with
  | fresh => exact .refl _
  | start h r km ih =>
    obtain ⟨e1, e2, e3⟩ := begin_region c _ r km
    exact ⟨e1.trans ih.1, e2.trans ih.2.1, e3.trans ih.2.2⟩
  | back h ct hr km ih =>
    rename_i s r
    have : SameRegion (answer c s ct r km).1 s := by
      unfold answer
      split
      · exact .refl s
      · unfold handle handleBack
        simp only [hr]
        split
        · split <;> exact ⟨rfl, rfl, rfl⟩
        · exact .refl s
    exact ⟨this.1.trans ih.1, this.2.1.trans ih.2.1, this.2.2.trans ih.2.2⟩
  | refused h ct km hr ih =>
    rename_i s r
    rw [answer_refused hr]
    exact ih

theorem begin_congr {c : Cfg n k K V} {s t : St n k K} (h : s.reach = t.reach) (r : InitResp) (km : KMeans k K) :
    (begin c s r km).2 = (begin c t r km).2 := by
  unfold begin handleInitial
  cases validateInitial r with
  | error e => rfl
  | ok u =>
    dsimp only
    split
    · rw [h]
      split <;> rfl
    · rfl

/-- **C90**, what is true: as long as no point has been chosen, starting over shows what a new object shows. -/
theorem C90_restart_partial {c : Cfg n k K V} {s : St n k K} (h : NoChoice c s) (r : InitResp) (km : KMeans k K) :
    (begin c s r km).2 = (begin c (initSt c) r km).2 := begin_congr h.region.1 r km

/-- **C90**, what is true after a choice: the points shown lie between the nadir and rows inside the region
entered last. -/
theorem C90_restart_region_partial {c : Cfg n k K V} {s s' : St n k K} {iss : List (Content k K)}
    (h : Lived c s iss) (hs : ¬ (s.lb = c.ideal ∧ s.ub = c.nadir)) {r : InitResp} {km : KMeans k K}
    {ct : Content k K} (hb : begin c s r km = (s', .ok (.points ct))) :
    ∀ z ∈ ct.points, ∃ row, InBox s.lb s.ub (c.front row) ∧ Between c.nadir (c.front row) z := by
  have hreg : ∀ row, row ∈ s.reach → InBox s.lb s.ub (c.front row) := by
    rcases (C88_region h).1 with h1 | h1
    · exact absurd h1.2 hs
    · exact fun row hr => (h1.2 row).1 hr
  obtain ⟨nIt, nP, ct', _, _, h1, _, h2, h3, h4, h5⟩ := begin_ok hb
  simp only [Out.points.injEq] at h2
  subst h2
  obtain ⟨_, hl, _, zbars, h6, h7, _⟩ := compute_ok h4
  intro z hz
  rw [h7] at hz
  obtain ⟨zb, hzb, rfl⟩ := List.mem_map.1 hz
  obtain ⟨row, hrow, rfl⟩ := representative_mem h6 zb hzb
  exact ⟨row, hreg row hrow, intermediatePoint_between _ _ h1⟩

example := C90_restart_partial (NoChoice.start (NoChoice.fresh (c := exCfg)) exInit noKm) exInit noKm
example : ∀ z ∈ exCtAgain.points, ∃ row, InBox ![1, 1] ![2, 2] (exCfg.front row) ∧ Between exCfg.nadir (exCfg.front row) z :=
  C90_restart_region_partial (r := exInit) (km := noKm) (s' := { exS1 with left := some 2, preferred := some ![2, 2] })
    ex_lived1 (by decide +kernel) (eq_of_beq (by decide +kernel))

/-! ## C91 -/

/-- **C91** (violated). A call that raises has an effect: after the number of iterations zero was given by
mistake, which raises `ZeroDivisionError`, answering the same request again ends the method at once, at a point
that is not on the front. Without the failed call the method goes on. -/
theorem C91_fails : ∃ (c : Cfg 3 2 ℚ String) (s s1 s2 : St 3 2 ℚ) (iss : List (Content 2 ℚ)) (ct ct' : Content 2 ℚ)
    (r r' : Resp 2 ℚ) (z : Vec 2 ℚ) (sol : Option String), Lived c s iss ∧ ct ∈ iss ∧
    answer c s ct r noKm = (s1, .error .zeroDivisionError) ∧
    answer c s1 ct r' noKm = (s2, .ok (.stop z sol)) ∧ (∀ i, c.front i ≠ z) ∧
    (answer c s ct r' noKm).2 = .ok (.points ct') :=
  ⟨exCfg, exS0, { exS1 with left := some 0 }, { exS1 with left := some 0 }, _, exCt0, exCt1,
    { (chooseResp 1 : Resp 2 ℚ) with changeRemaining := some true, iterationsLeft := some 0 }, chooseResp 1,
    ![3/2, 3/2], some "b", ex_lived0, by simp, eq_of_beq (by decide +kernel), eq_of_beq (by decide +kernel),
    by decide +kernel, by rw [ex_choose]⟩

/-- **C91**, what is true: a refused response changes nothing, and neither does an accepted choice that denotes no
shown point (which raises `IndexError`). -/
theorem C91_failed_call_partial {c : Cfg n k K V} {s : St n k K} {ct : Content k K} {r : Resp k K}
    {km : KMeans k K} :
    ((answer c s ct r km).2 = .error .refused → (answer c s ct r km).1 = s) ∧
    (r.stepBack = some false → ∀ i : Nat, r.preferredIndex = some (i : Int) → ct.points.length ≤ i →
      (answer c s ct r km).1 = s ∧ ∃ e, (answer c s ct r km).2 = .error e) := by
  refine ⟨answer_refused, fun hsb i hi hlen => ?_⟩
  unfold answer
  cases hv : validate ct r with
  | error e => exact ⟨rfl, e, rfl⟩
  | ok u =>
    have hz : pyGet ct.points (i : Int) = .error .indexError := by
      cases h : pyGet ct.points (i : Int) with
      | ok z =>
        have := (List.getElem?_eq_some_iff.1 (pyGet_nat.1 h)).1
        omega
      | error e => rw [(pyGet_error h).1]
    simp only [handle, hsb, handleChoice, hi, hz]
    exact ⟨trivial, _, rfl⟩

/-- **C91**, what is true: a step back that fails changes at most the number of iterations left. -/
theorem C91_failed_back_partial {c : Cfg n k K V} {s : St n k K} {ct : Content k K} {r : Resp k K}
    {km : KMeans k K} (hsb : r.stepBack = some true) :
    ∃ left, (answer c s ct r km).1 = { s with left := left } := by
  unfold answer
  cases hv : validate ct r with
  | error e => exact ⟨s.left, rfl⟩
  | ok u =>
    simp only [handle, hsb, handleBack]
    split
    · split <;> exact ⟨_, rfl⟩
    · exact ⟨s.left, rfl⟩

example : (answer exCfg exS0 exCt0 (chooseResp 4) noKm).2 = .error .refused ∧
    (answer exCfg exS0 exCt0 (chooseResp 3) noKm).2 = .error .indexError ∧ exCt0.points.length ≤ 3 :=
  ⟨eq_of_beq (by decide +kernel), eq_of_beq (by decide +kernel), by decide⟩

end Verif.ENautilus
