import Verif.Nimbus.Plot

/-!
# Properties C134 and C135: what the plots of NIMBUS show
-/

set_option linter.unusedSectionVars false

namespace Verif.Nimbus

variable {K : Type} [Field K] [LinearOrder K] [IsStrictOrderedRing K] {k m : Nat}

/-! ### Specification -/

/-- The objective vectors in the content of a request, in order. -/
def Req.vectors : Req k m K → List (Vec k K)
  | .classify f => [f]
  | .save _ objs => objs
  | .inter _ objs => objs
  | .preferred _ objs => objs
  | .stop _ f => [f]

/-- The reply issued by a call of `iterate`, if any. -/
def issuedP (o : Except Err (Reply k m K)) : List (Reply k m K) :=
  match o with
  | .ok r => [r]
  | .error _ => []

/-- All histories, as in `Reached`, with the plot requests. -/
inductive ReachedP (c : Cfg k m K) (mult : Fin k → Int) : St k m K → List (Reply k m K) → Prop
  | init {s sp res} : construct c sp res = .ok s → ReachedP c mult s [startP s]
  | step {s s' l req p a orc o} : ReachedP c mult s l → (req, p) ∈ l → answerP c mult s req a orc = (s', o) →
      ReachedP c mult s' (issuedP o ++ l)

/-! ### Proofs -/

theorem answerP_answer {c : Cfg k m K} {mult : Fin k → Int} {s s' : St k m K} {req : Req k m K} {a : Ans K}
    {orc : Oracle k m K} {o : Except Err (Reply k m K)} (h : answerP c mult s req a orc = (s', o)) :
    answer c s req a orc = (s', request o) := by
  have e := answerP_fst c mult s req a orc
  rw [h] at e
  exact e.symm

theorem issuedP_fst (o : Except Err (Reply k m K)) : (issuedP o).map (·.1) = issued (request o) := by
  cases o <;> rfl

/-- Without the plots these are the histories of `Reached`. -/
theorem ReachedP.reached {c : Cfg k m K} {mult : Fin k → Int} {s : St k m K} {l : List (Reply k m K)}
    (h : ReachedP c mult s l) : Reached c s (l.map (·.1)) := by
  induction h with
  | init h => exact .init h
  | step _ hm ha ih =>
    rw [List.map_append, issuedP_fst]
    exact .step ih (List.mem_map.2 ⟨_, hm, rfl⟩) (answerP_answer ha)

theorem createPlot_rows (c : Cfg k m K) (mult : Fin k → Int) (l : List (Vec k K)) :
    (createPlot c mult l).rows = l ∧ (createPlot c mult l).ideal = c.ideal ∧
      (createPlot c mult l).nadir = c.nadir := by
  unfold createPlot
  cases c.problem <;> exact ⟨rfl, rfl, rfl⟩

/-- The plot returned with a request. -/
def plotOf (c : Cfg k m K) (mult : Fin k → Int) : Req k m K → Option (Plot k K)
  | .classify _ => none
  | .save _ objs => some (createPlot c mult objs)
  | .inter _ objs => some (createPlot c mult objs)
  | .preferred _ objs => some (createPlot c mult objs)
  | .stop _ f => some (createPlot c mult [f])

theorem iterateP_plot {c : Cfg k m K} {mult : Fin k → Int} {s s' : St k m K} {req r : Req k m K} {a : Ans K}
    {orc : Oracle k m K} {p : Option (Plot k K)} (h : iterateP c mult s req a orc = (s', .ok (r, p))) :
    p = plotOf c mult r ∨ (s.phase = .ended ∧ s' = s ∧ r = req ∧ p = none) := by
  unfold iterateP at h
  cases hp : s.phase with
  | classify =>
    simp only [hp] at h
    left
    split at h
    · rename_i f resp
      obtain ⟨_ | cls, _ | lv, _ | num⟩ := resp <;> try (simp [handleClassifyP] at h; done)
      simp only [handleClassifyP] at h
      cases hn : newSolutions c s cls (levelVec k lv) num orc with
      | error e => simp [hn] at h
      | ok l =>
        simp only [hn, Prod.mk.injEq, Except.ok.injEq] at h
        obtain ⟨_, rfl, rfl⟩ := h
        rfl
    · simp at h
  | archive =>
    simp only [hp] at h
    left
    split at h
    · rename_i sols objs idx
      unfold handleSaveP at h
      split at h
      · simp only [Prod.mk.injEq, Except.ok.injEq] at h
        obtain ⟨_, rfl, rfl⟩ := h
        rfl
      · cases ho : pick objs idx with
        | error e => simp [ho] at h
        | ok os =>
          cases hx : pick sols idx with
          | error e => simp [ho, hx] at h
          | ok xs =>
            simp only [ho, hx, Prod.mk.injEq, Except.ok.injEq] at h
            obtain ⟨_, rfl, rfl⟩ := h
            rfl
    · simp at h
  | intermediate =>
    simp only [hp] at h
    left
    split at h
    · rename_i sols objs idx num
      unfold handleInterP at h
      split at h
      · cases hx : pick sols idx with
        | error e => simp [hx] at h
        | ok xs =>
          rcases xs with _ | ⟨x, _ | ⟨y, rest⟩⟩
          · simp [hx] at h
          · simp [hx] at h
          · simp only [hx] at h
            cases hl : mapE (interSolve c orc) (interPoints c.nrm x y num.toNat).zipIdx with
            | error e => simp [hl] at h
            | ok l =>
              simp only [hl, Prod.mk.injEq, Except.ok.injEq] at h
              obtain ⟨_, rfl, rfl⟩ := h
              rfl
      · simp only [Prod.mk.injEq, Except.ok.injEq] at h
        obtain ⟨_, rfl, rfl⟩ := h
        rfl
    · simp at h
  | preferred =>
    simp only [hp] at h
    left
    split at h
    · rename_i sols objs i b
      unfold handlePreferredP at h
      cases hx : pyGet sols i.asInt with
      | error e => simp [hx] at h
      | ok x =>
        cases hf : pyGet objs i.asInt with
        | error e => simp [hx, hf] at h
        | ok f =>
          simp only [hx, hf] at h
          cases hb : decide (b = .bool true) with
          | true =>
            simp only [hb, if_true, Prod.mk.injEq, Except.ok.injEq] at h
            obtain ⟨_, rfl, rfl⟩ := h
            rfl
          | false =>
            simp only [hb, Bool.false_eq_true, if_false, Prod.mk.injEq, Except.ok.injEq] at h
            obtain ⟨_, rfl, rfl⟩ := h
            rfl
    · simp at h
  | ended =>
    simp only [hp, Prod.mk.injEq, Except.ok.injEq] at h
    obtain ⟨rfl, rfl, rfl⟩ := h
    exact .inr ⟨rfl, rfl, rfl, rfl⟩

theorem answerP_plot {c : Cfg k m K} {mult : Fin k → Int} {s s' : St k m K} {req r : Req k m K} {a : Ans K}
    {orc : Oracle k m K} {p : Option (Plot k K)} (h : answerP c mult s req a orc = (s', .ok (r, p))) :
    p = plotOf c mult r ∨ (s.phase = .ended ∧ s' = s ∧ r = req ∧ p = none) := by
  unfold answerP at h
  split at h
  · simp at h
  · exact iterateP_plot h

/-- Every reply has the plot of its request, or repeats a request already issued and has none. -/
theorem ReachedP.plots {c : Cfg k m K} {mult : Fin k → Int} {s : St k m K} {l : List (Reply k m K)}
    (h : ReachedP c mult s l) :
    ∀ r p, (r, p) ∈ l → (r, plotOf c mult r) ∈ l ∧ (p = plotOf c mult r ∨ p = none) := by
  induction h with
  | init h =>
    intro r p hm
    simp only [startP, List.mem_singleton, Prod.mk.injEq] at hm
    obtain ⟨rfl, rfl⟩ := hm
    exact ⟨List.mem_cons_self, .inr rfl⟩
  | @step s s' l req q a orc o hr hm ha ih =>
    intro r p hrp
    cases o with
    | error e => exact ih r p hrp
    | ok rp =>
      simp only [issuedP, List.singleton_append, List.mem_cons] at hrp ⊢
      rcases hrp with rfl | hrp
      · rcases answerP_plot ha with hp | ⟨_, _, rfl, hp⟩
        · exact ⟨.inl (by rw [← hp]), .inl hp⟩
        · exact ⟨.inr (ih r q hm).1, .inr hp⟩
      · exact ⟨.inr (ih r p hrp).1, (ih r p hrp).2⟩

/-- The request of a plot is not a classification request and the rows are its objective vectors. -/
theorem plotOf_spec {c : Cfg k m K} {mult : Fin k → Int} {r : Req k m K} {p : Plot k K}
    (h : plotOf c mult r = some p) : (∀ f, r ≠ .classify f) ∧ p = createPlot c mult r.vectors := by
  cases r <;> simp only [plotOf, Option.some.injEq, reduceCtorEq] at h <;>
    exact ⟨fun _ => nofun, h.symm⟩

theorem mem_zip_right {α β : Type} {l : List α} {r : List β} (h : l.length = r.length) {b : β} (hb : b ∈ r) :
    ∃ a, (a, b) ∈ l.zip r := by
  obtain ⟨i, hi, rfl⟩ := List.getElem_of_mem hb
  exact ⟨l[i], List.mem_iff_getElem.2 ⟨i, by simp [h, hi], by simp⟩⟩

theorem vectors_genuine {c : Cfg k m K} {s : St k m K} {l : List (Req k m K)} (h : Reached c s l) {r : Req k m K}
    (hr : r ∈ l) (hc : ∀ f, r ≠ .classify f) {v : Vec k K} (hv : v ∈ r.vectors) : ∃ x, (x, v) ∈ r.pairs := by
  have ha := h.inv.aligned r hr
  cases r with
  | classify f => exact absurd rfl (hc f)
  | save xs os => exact mem_zip_right ha hv
  | inter xs os => exact mem_zip_right ha hv
  | preferred xs os => exact mem_zip_right ha hv
  | stop x f =>
    simp only [Req.vectors, List.mem_singleton] at hv
    subst hv
    exact ⟨x, List.mem_cons_self⟩

/-! ### C134 -/

/-- **C134** (rows). In every history, the rows of every plot request are the objective vectors of the request
returned with it, in the same order, so that row `i` is the plotted counterpart of index `i` in the response;
its ideal and nadir are those of the method; and every row is the objective vector of a solution of the
problem, shown in the request. -/
theorem C134_plots_show_the_request {c : Cfg k m K} {mult : Fin k → Int} {s : St k m K} {l : List (Reply k m K)}
    (h : ReachedP c mult s l) {r : Req k m K} {p : Plot k K} (hm : (r, some p) ∈ l) :
    p.rows = r.vectors ∧ p.ideal = c.ideal ∧ p.nadir = c.nadir ∧
      ∀ v ∈ p.rows, ∃ x, (x, v) ∈ r.pairs ∧ Genuine c x v := by
  rcases (h.plots r _ hm).2 with hp | hp
  · obtain ⟨hc, rfl⟩ := plotOf_spec hp.symm
    obtain ⟨e1, e2, e3⟩ := createPlot_rows c mult r.vectors
    refine ⟨e1, e2, e3, fun v hv => ?_⟩
    rw [e1] at hv
    have hl : r ∈ l.map (·.1) := List.mem_map.2 ⟨_, hm, rfl⟩
    obtain ⟨x, hx⟩ := vectors_genuine h.reached hl hc hv
    exact ⟨x, hx, h.reached.inv.genuine r hl _ hx⟩
  · cases hp

/-- **C134** (present). In every history, every request that is not a classification request has been returned
with a plot request; classification requests never are. -/
theorem C134_every_request_plotted {c : Cfg k m K} {mult : Fin k → Int} {s : St k m K} {l : List (Reply k m K)}
    (h : ReachedP c mult s l) {r : Req k m K} {q : Option (Plot k K)} (hm : (r, q) ∈ l) :
    ((∀ f, r ≠ .classify f) → ∃ p, (r, some p) ∈ l) ∧ ((∃ f, r = .classify f) → q = none) := by
  obtain ⟨h1, h2⟩ := h.plots r q hm
  constructor
  · intro hc
    cases r with
    | classify f => exact absurd rfl (hc f)
    | save => exact ⟨_, h1⟩
    | inter => exact ⟨_, h1⟩
    | preferred => exact ⟨_, h1⟩
    | stop => exact ⟨_, h1⟩
  · rintro ⟨f, rfl⟩
    rcases h2 with rfl | rfl <;> rfl

/-- **C134** (box). The ideal and nadir drawn in any plot bound the levels accepted in later classifications. -/
theorem C134_plotted_box_bounds_levels {c : Cfg k m K} {mult : Fin k → Int} {s : St k m K}
    {l : List (Reply k m K)} (h : ReachedP c mult s l) {r : Req k m K} {p : Plot k K} (hm : (r, some p) ∈ l)
    {f : Vec k K} {cls : List Cls} {lv : Vec k K} {num : Int}
    (hv : validate c (.classify f) (.classify ⟨some cls, some (List.ofFn lv), some num⟩) = .ok ()) :
    ∀ j : Fin k, cls[j.val]? = some .le ∨ cls[j.val]? = some .ge → p.ideal j ≤ lv j ∧ lv j ≤ p.nadir j := by
  obtain ⟨_, e2, e3, _⟩ := C134_plots_show_the_request h hm
  obtain ⟨cls', lv', num', e, _, _, _, hb⟩ := C30_accepted_classification_partial hv
  simp only [ClassResp.mk.injEq, Option.some.injEq] at e
  obtain ⟨rfl, el, _⟩ := e
  have el' : lv = lv' := List.ofFn_injective el
  subst el'
  intro j hj
  rw [e2, e3]
  rcases hj with hj | hj
  · exact (hb j _ hj (.inl rfl)).2
  · exact (hb j _ hj (.inr rfl)).2

/-- The beginning of a session on the discrete example, with its plot: three new solutions. -/
def exMult : Fin 2 → Int := fun _ => 1

def exP1 : Plot 2 ℚ := ⟨exR1.vectors, exMult, ![0, 0], ![4, 4]⟩

theorem exP_step : answerP exCfg exMult exS0 exR0 exA0 exOrc = (exS1, .ok (exR1, some exP1)) :=
  eq_of_beq (by decide +kernel)

theorem exP_reached : ReachedP exCfg exMult exS1 [(exR1, some exP1), (exR0, none)] :=
  .step (l := [(exR0, none)]) (.init ex_construct) List.mem_cons_self exP_step

example := C134_plots_show_the_request exP_reached List.mem_cons_self
example := C134_every_request_plotted exP_reached List.mem_cons_self
example := C134_plotted_box_bounds_levels exP_reached List.mem_cons_self (f := ![1, 2]) (cls := [.le, .ge])
  (lv := ![0, 4]) (num := 3) (eq_of_beq (by decide +kernel))

/-! ### C135 -/

/-- `a` is better than `b` in the directions of a plot: nowhere worse and somewhere better, where larger is better
for objectives marked `-1`. -/
def BetterIn (minimize : Fin k → Int) (a b : Vec k K) : Prop :=
  (∀ j, (minimize j : K) * a j ≤ (minimize j : K) * b j) ∧ ∃ j, (minimize j : K) * a j < (minimize j : K) * b j

theorem betterIn_ones {minimize : Fin k → Int} (h : ∀ j, minimize j = 1) (a b : Vec k K) :
    BetterIn minimize a b ↔ Dominates a b := by
  simp only [BetterIn, h, Int.cast_one, one_mul]
  rfl

/-- The directions in a plot: the multipliers declared by an analytic problem, ones for a discrete problem. -/
theorem C135_directions_plotted {c : Cfg k m K} {mult : Fin k → Int} {s : St k m K} {l : List (Reply k m K)}
    (h : ReachedP c mult s l) {r : Req k m K} {p : Plot k K} (hm : (r, some p) ∈ l) :
    (∀ ev, c.problem = .mo ev → p.minimize = mult) ∧
    (∀ N obj dec cl, c.problem = .discrete N obj dec cl → p.minimize = fun _ => 1) := by
  rcases (h.plots r _ hm).2 with hp | hp
  · obtain ⟨_, rfl⟩ := plotOf_spec hp.symm
    constructor
    · intro ev he
      simp only [createPlot, he]
    · intro N obj dec cl he
      simp only [createPlot, he]
  · cases hp

/-- The declared directions have no effect on anything but the plots: the same answers, minimizers and states
give the same requests and states whatever the problem declares. -/
theorem C135_directions_have_no_effect (c : Cfg k m K) (mult mult' : Fin k → Int) (s : St k m K) (req : Req k m K)
    (a : Ans K) (orc : Oracle k m K) :
    (answerP c mult s req a orc).1 = (answerP c mult' s req a orc).1 ∧
      request (answerP c mult s req a orc).2 = request (answerP c mult' s req a orc).2 := by
  have h1 := answerP_fst c mult s req a orc
  rw [← answerP_fst c mult' s req a orc] at h1
  exact Prod.mk.inj h1

/-- What holds of C135. If all objectives are declared for minimization, then - with scalarizing functions that
strictly prefer dominating vectors, in every history in which the minimizer solves what it is asked for - no
feasible solution is better in the plotted directions than a plotted solution. For discrete problems the plots
always say 'minimize', and the same holds in every history. What is missing: problems that declare an objective
for maximization, see `C135_fails`. -/
theorem C135_plotted_solutions_optimal_partial {c : Cfg k m K} {mult : Fin k → Int} {s : St k m K}
    {l : List (Reply k m K)} (h : ReachedP c mult s l) {r : Req k m K} {p : Plot k K} (hm : (r, some p) ∈ l)
    (h1 : ∀ a b z, PrefersDominating (c.asf1 a b z)) (h2 : ∀ z, PrefersDominating (c.asf2 z))
    (h3 : ∀ z, PrefersDominating (c.asf3 z)) (h4 : ∀ a z, PrefersDominating (c.asf4 a z)) :
    (∀ ev, c.problem = .mo ev → (∀ j, mult j = 1) → ExactlyReached c s (l.map (·.1)) →
      ∀ v ∈ p.rows, ∀ y, c.feasible y = true → ¬ BetterIn p.minimize (ev y) v) ∧
    (∀ N obj dec cl, c.problem = .discrete N obj dec cl →
      ∀ v ∈ p.rows, ∀ i, ¬ BetterIn p.minimize (obj i) v) := by
  obtain ⟨_, _, _, hrow⟩ := C134_plots_show_the_request h hm
  obtain ⟨d1, d2⟩ := C135_directions_plotted h hm
  have hl : r ∈ l.map (·.1) := List.mem_map.2 ⟨_, hm, rfl⟩
  constructor
  · intro ev he hones hex v hv y hy
    obtain ⟨x, hx, _⟩ := hrow v hv
    rw [d1 ev he, betterIn_ones hones]
    exact ((C94_shown_solutions_pareto_optimal hex he h1 h2 h3 h4).2 r hl x v hx).2.2 y hy
  · intro N obj dec cl he v hv i
    obtain ⟨x, hx, _⟩ := hrow v hv
    rw [d2 N obj dec cl he, betterIn_ones fun _ => rfl]
    exact (C83_shown_solutions_pareto_optimal h.reached he h1 h2 h3 h4).2 r hl x v hx i

/-- The analytic example with its plot; `mult` are the declared directions. -/
def exFinPlot (mult : Fin 2 → Int) : Plot 2 ℚ := ⟨[![1, 1], ![0, 4]], mult, exFin.ideal, exFin.nadir⟩

theorem exFin_reachedP (mult : Fin 2 → Int) : ReachedP exFin mult exFinS'
    [(.save [![1], ![0]] [![1, 1], ![0, 4]], some (exFinPlot mult)), (.classify ![1, 1], none)] := by
  have h := answerP_fst exFin mult exFinS (.classify ![1, 1]) exFinA exFinOrc
  rw [exFin_step] at h
  have e1 := congrArg Prod.fst h
  have e2 := congrArg Prod.snd h
  refine .step (l := [(.classify ![1, 1], none)]) (o := .ok (_, some (exFinPlot mult))) (.init exFin_construct)
    List.mem_cons_self (a := exFinA) (orc := exFinOrc) ?_
  cases ho : answerP exFin mult exFinS (.classify ![1, 1]) exFinA exFinOrc with
  | mk s' o =>
    rw [ho] at e1 e2
    cases o with
    | error e => cases e2
    | ok rp =>
      obtain ⟨r, p⟩ := rp
      simp only [request, Except.ok.injEq] at e1 e2
      subst e1 e2
      rcases answerP_plot ho with hp | ⟨hp, _⟩
      · rw [hp]; rfl
      · cases hp

example := (C135_plotted_solutions_optimal_partial (exFin_reachedP fun _ => 1) List.mem_cons_self
  (fun _ _ => pointAsf_prefersDominating (by decide +kernel)) (pointAsf_prefersDominating (by decide +kernel))
  (pointAsf_prefersDominating (by decide +kernel)) (fun _ => pointAsf_prefersDominating (by decide +kernel))).1
  exFinEv rfl (fun _ => rfl) exFin_exactly

/-- C135 fails: the problem declares its second objective for maximization and the plot says so, but both
objectives are minimized. The plotted solution `(1, 1)`, found by a minimizer that solves what it is asked for, is
worse in both declared directions than the feasible solution `x = 0` with objectives `(0, 4)`. -/
theorem C135_fails : ∃ (s : St 2 1 ℚ) (l : List (Reply 2 1 ℚ)) (r : Req 2 1 ℚ) (p : Plot 2 ℚ),
    ReachedP exFin ![1, -1] s l ∧ ExactlyReached exFin s (l.map (·.1)) ∧ (r, some p) ∈ l ∧
    p.minimize = ![1, -1] ∧ ![1, 1] ∈ p.rows ∧ exFin.feasible ![0] = true ∧
    (∀ j, ((![1, -1] : Fin 2 → Int) j : ℚ) * exFinEv ![0] j < ((![1, -1] : Fin 2 → Int) j : ℚ) * (![1, 1] : Vec 2 ℚ) j) ∧
    BetterIn p.minimize (exFinEv ![0]) ![1, 1] := by
  refine ⟨_, _, _, _, exFin_reachedP ![1, -1], exFin_exactly, List.mem_cons_self, rfl, List.mem_cons_self,
    by decide +kernel, by decide +kernel, ?_⟩
  exact ⟨by decide +kernel, 0, by decide +kernel⟩

end Verif.Nimbus
