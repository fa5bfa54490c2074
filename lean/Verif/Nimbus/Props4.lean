import Verif.Nimbus.Props3

set_option linter.unusedSectionVars false

/-!
# NIMBUS on analytic problems: C93 (the classification is honoured), C94 (Pareto optimality)

For an `MOProblem` the solutions are whatever the scalar minimizer returns. C93 states what the minimizer
is asked for and what follows when it does what it is asked for; C94 does this for whole histories.
-/

namespace Verif.Nimbus

variable {K : Type} [Field K] [LinearOrder K] [IsStrictOrderedRing K] {k m : Nat}

/-! ## C93 -/

/-- `x` is an exact solution of the task `t`: it is admitted, has a value, and no admitted vector has a
smaller one. -/
def Solves (t : Task k m K) (x : Vec m K) : Prop :=
  t.admits x = true ∧ ∃ v, t.value x = some v ∧ ∀ y w, t.admits y = true → t.value y = some w → v ≤ w

theorem Asks.solves {t : Task k m K} {z : Vec k K} {value : Vec m K → K} {ok : Vec m K → Prop}
    (h : Asks t z value ok) {x : Vec m K} (hs : Solves t x) : ok x ∧ ∀ y, ok y → value x ≤ value y := by
  obtain ⟨h1, v, h2, h3⟩ := hs
  refine ⟨(h.admits x).1 h1, fun y hy => ?_⟩
  have := h3 y (value y) ((h.admits y).2 hy) (h.value y)
  rw [h.value x, Option.some.injEq] at h2
  rw [h2]
  exact this

theorem Asks.solves_iff {t : Task k m K} {z : Vec k K} {value : Vec m K → K} {ok : Vec m K → Prop}
    (h : Asks t z value ok) (x : Vec m K) : Solves t x ↔ ok x ∧ ∀ y, ok y → value x ≤ value y := by
  refine ⟨h.solves, fun ⟨h1, h2⟩ => ⟨(h.admits x).2 h1, value x, h.value x, fun y w hy hw => ?_⟩⟩
  rw [h.value y, Option.some.injEq] at hw
  rw [← hw]
  exact h2 y ((h.admits y).1 hy)

theorem task_asks (c : Cfg k m K) (ev : Vec m K → Vec k K) (z : Vec k K) (asf : Vec k K → K)
    (fe : Vec k K → Bool) :
    Asks (task c ev z asf fe) z (fun x => asf (ev x)) (fun x => c.feasible x = true ∧ fe (ev x) = true) :=
  ⟨rfl, fun _ => rfl, fun _ => by simp [task]⟩

/-- **C93** (what is asked). For analytic problems, in every history, the first solution shown after an
answered complete classification is what the minimizer returns for this task: minimize the first
scalarizing function, with the levels as reference point, over the feasible decision vectors whose
objectives honour the classification of the current objectives. -/
theorem C93_first_task {c : Cfg k m K} {s s' : St k m K} {l : List (Req k m K)}
    (h : Reached c s l) (hns : ∀ x f, Req.stop x f ∉ l) {ev : Vec m K → Vec k K} (hmo : c.problem = .mo ev)
    {f0 : Vec k K} {cls : Fin k → Cls} {lv : Vec k K} {num : Int} {orc : Oracle k m K} {r' : Req k m K}
    (ha : answer c s (.classify f0) (.classify (complete cls lv num)) orc = (s', .ok r')) :
    ∃ sols objs t, r' = .save sols objs ∧ sols[0]? = some (orc.minimize 0 t) ∧
      objs[0]? = some (ev (orc.minimize 0 t)) ∧
      Asks t lv (fun x => c.asf1 (positions cls .lt) (positions cls .le) lv (ev x))
        (fun x => c.feasible x = true ∧ Honours cls s.obj lv (ev x)) := by
  obtain ⟨hv, sols, objs, rfl, hnth⟩ := classify_nth h hns ha
  obtain ⟨_, v2, _, _⟩ := validate_complete hv
  obtain ⟨p, x, f, hp, hx, hf, hsol⟩ := hnth 0 (by omega)
  simp [problems] at hp
  subst hp
  simp only [solveOne, hmo, Except.ok.injEq, Prod.mk.injEq] at hsol
  refine ⟨sols, objs, _, rfl, by rw [hx, ← hsol.1], by rw [hf, ← hsol.2], rfl, fun x => ?_, fun x => ?_⟩
  · simp only [task, inds_ofFn]
  · simp only [task, Bool.and_eq_true, cons1_iff]

/-- **C93** (honoured). If the minimizer solves the task it is given whenever that has a solution, and
the current task has one, then the first solution shown is feasible, honours the classification, and
minimizes the scalarizing function among the feasible decision vectors that do. -/
theorem C93_first_solution_honours {c : Cfg k m K} {s s' : St k m K} {l : List (Req k m K)}
    (h : Reached c s l) (hns : ∀ x f, Req.stop x f ∉ l) {ev : Vec m K → Vec k K} (hmo : c.problem = .mo ev)
    {f0 : Vec k K} {cls : Fin k → Cls} {lv : Vec k K} {num : Int} {orc : Oracle k m K} {r' : Req k m K}
    (ha : answer c s (.classify f0) (.classify (complete cls lv num)) orc = (s', .ok r'))
    (hexact : ∀ t, (∃ x, Solves t x) → Solves t (orc.minimize 0 t))
    (hmin : ∃ x, c.feasible x = true ∧ Honours cls s.obj lv (ev x) ∧
      ∀ y, c.feasible y = true → Honours cls s.obj lv (ev y) →
        c.asf1 (positions cls .lt) (positions cls .le) lv (ev x) ≤
          c.asf1 (positions cls .lt) (positions cls .le) lv (ev y)) :
    ∃ sols objs x, r' = .save sols objs ∧ sols[0]? = some x ∧ objs[0]? = some (ev x) ∧
      c.feasible x = true ∧ Honours cls s.obj lv (ev x) ∧
      ∀ y, c.feasible y = true → Honours cls s.obj lv (ev y) →
        c.asf1 (positions cls .lt) (positions cls .le) lv (ev x) ≤
          c.asf1 (positions cls .lt) (positions cls .le) lv (ev y) := by
  obtain ⟨sols, objs, t, hr, hs, ho, ht⟩ := C93_first_task h hns hmo ha
  obtain ⟨x, h1, h2, h3⟩ := hmin
  have := hexact t ⟨x, (ht.solves_iff x).2 ⟨⟨h1, h2⟩, fun y hy => h3 y hy.1 hy.2⟩⟩
  obtain ⟨⟨g1, g2⟩, g3⟩ := (ht.solves_iff _).1 this
  exact ⟨sols, objs, _, hr, hs, ho, g1, g2, fun y hy hy' => g3 y ⟨hy, hy'⟩⟩

/-- **C93** (not contradictory), if no upper bound is below the current value: the current decision
vector honours every accepted complete classification, so the constraints given to the minimizer are
satisfiable whenever the current decision vector is feasible. What is missing: accepted levels of class
'>=' below the current value, see `C93_fails_contradictory`. -/
theorem C93_current_admitted_partial {c : Cfg k m K} {s : St k m K} {l : List (Req k m K)}
    (h : Reached c s l) {ev : Vec m K → Vec k K} (hmo : c.problem = .mo ev) {cls : Fin k → Cls} {lv : Vec k K}
    (hge : ∀ j, cls j = .ge → s.obj j ≤ lv j) : Honours cls s.obj lv (ev s.sol) := by
  have hcur := h.inv.current
  simp only [Genuine, hmo] at hcur
  rw [← hcur]
  exact fun j => ⟨fun _ => le_refl _, hge j⟩

/-- An analytic problem with one variable, feasible at 0, 1, 2 and 3; 3 is dominated by 2. -/
def exFinEv : Vec 1 ℚ → Vec 2 ℚ := fun x => ![x 0, (x 0 - 2) * (x 0 - 2)]
def exFinOk : Vec 1 ℚ → Bool := fun x =>
  decide (x 0 = 0) || decide (x 0 = 1) || decide (x 0 = 2) || decide (x 0 = 3)
def exFin : Cfg 2 1 ℚ := { exPareto with problem := .mo exFinEv, feasible := exFinOk }
def exFinS : St 2 1 ℚ := ⟨![1], ![1, 1], [], [], .classify⟩
def exFinA : Ans ℚ := .classify (complete ![.lt, .free] ![0, 0] 2)
def exFinOrc : Oracle 2 1 ℚ := ⟨fun i _ => if i = 0 then ![1] else ![0]⟩

/-- To solve a task of this problem it suffices to compare with the four feasible vectors. -/
theorem exFin_solves {z : Vec 2 ℚ} {asf : Vec 2 ℚ → ℚ} {fe : Vec 2 ℚ → Bool} {x : Vec 1 ℚ}
    (h1 : exFinOk x = true ∧ fe (exFinEv x) = true)
    (h2 : ∀ v ∈ ([0, 1, 2, 3] : List ℚ), fe (exFinEv ![v]) = true →
      asf (exFinEv x) ≤ asf (exFinEv ![v])) : Solves (task exFin exFinEv z asf fe) x := by
  rw [(task_asks exFin exFinEv z asf fe).solves_iff]
  refine ⟨h1, fun y hy => ?_⟩
  obtain ⟨hy1, hy2⟩ := hy
  have e : y = ![y 0] := by
    funext j
    have : j = 0 := Fin.ext (by omega)
    rw [this]
    rfl
  have : y 0 ∈ ([0, 1, 2, 3] : List ℚ) := by
    have h : exFinOk y = true := hy1
    simp only [exFinOk, Bool.or_eq_true, decide_eq_true_eq] at h
    simp only [List.mem_cons, List.not_mem_nil, or_false]
    tauto
  have h3 := h2 (y 0) this (by rw [← e]; exact hy2)
  rw [← e] at h3
  exact h3

open Classical in
/-- A constructor's minimizer that reports success only with an exact solution. -/
noncomputable def exFinRes (t : Task 2 1 ℚ) : Option (Vec 1 ℚ) := if Solves t ![1] then some ![1] else none

theorem exFinRes_solves (t : Task 2 1 ℚ) (x : Vec 1 ℚ) (h : exFinRes t = some x) : Solves t x := by
  unfold exFinRes at h
  split at h
  · simp only [Option.some.injEq] at h
    rw [← h]
    assumption
  · simp at h

theorem exFin_construct : construct exFin none exFinRes = .ok exFinS := by
  have hs : exFinRes (task exFin exFinEv (fun j => (exFin.ideal j + exFin.nadir j) / 2)
      (exFin.asf3 fun j => (exFin.ideal j + exFin.nadir j) / 2) fun _ => true) = some ![1] :=
    if_pos (exFin_solves (by decide +kernel) (by decide +kernel))
  have e : exFinEv ![1] = ![1, 1] := by decide +kernel
  simp only [construct, startRef, exFin] at hs ⊢
  rw [hs]
  simp only [e, exFinS]

theorem exFin_reached : Reached exFin exFinS [.classify ![1, 1]] := .init exFin_construct

def exFinS' : St 2 1 ℚ := { exFinS with phase := .archive }

theorem exFin_step : answer exFin exFinS (.classify ![1, 1]) exFinA exFinOrc =
    (exFinS', .ok (.save [![1], ![0]] [![1, 1], ![0, 4]])) := eq_of_beq (by decide +kernel)

example := C93_first_task exFin_reached (by simp) (ev := exFinEv) rfl (cls := ![.lt, .free]) (lv := ![0, 0])
  (num := 2) exFin_step

open Classical in
/-- A minimizer that solves every task that has a solution. -/
noncomputable def exExact : Oracle 2 1 ℚ := ⟨fun _ t => if h : ∃ x, Solves t x then h.choose else ![0]⟩

theorem exExact_solves (i : Nat) (t : Task 2 1 ℚ) (h : ∃ x, Solves t x) : Solves t (exExact.minimize i t) := by
  unfold exExact
  simp only [h, dif_pos]
  exact h.choose_spec

/-- The hypotheses of `C93_first_solution_honours` are met by that minimizer. -/
example : ∃ s' r', answer exFin exFinS (.classify ![1, 1]) exFinA exExact = (s', .ok r') ∧
    ∃ sols objs x, r' = .save sols objs ∧ sols[0]? = some x ∧ objs[0]? = some (exFinEv x) ∧
      Honours ![.lt, .free] ![1, 1] ![0, 0] (exFinEv x) := by
  obtain ⟨r', hr⟩ := C25_mo_never_raises (c := exFin) (l := []) exFin_reached (ev := exFinEv) rfl
    (cls := [.lt, .free]) (lv := [0, 0]) (num := 2) rfl (eq_of_beq (by decide +kernel)) exExact
  have ha : answer exFin exFinS (.classify ![1, 1]) exFinA exExact =
      ((answer exFin exFinS (.classify ![1, 1]) exFinA exExact).1, .ok r') := Prod.ext rfl hr
  refine ⟨_, r', ha, ?_⟩
  obtain ⟨so, ob, x, h1, h2, h3, _, h4, _⟩ := C93_first_solution_honours exFin_reached (by simp) (ev := exFinEv) rfl
    (cls := ![.lt, .free]) (lv := ![0, 0]) (num := 2) ha (exExact_solves 0) (by
      have := exFin_solves (z := ![0, 0]) (asf := exFin.asf1 (positions ![.lt, .free] .lt)
        (positions ![.lt, .free] .le) ![0, 0]) (fe := cons1 (List.ofFn ![.lt, .free]) ![1, 1] ![0, 0]) (x := ![1])
        (by decide +kernel) (by decide +kernel)
      obtain ⟨⟨g1, g2⟩, g3⟩ := (task_asks _ _ _ _ _).solves this
      exact ⟨![1], g1, (cons1_iff _ _ _ _).1 g2, fun y hy hy' => g3 y ⟨hy, (cons1_iff _ _ _ _).2 hy'⟩⟩)
  exact ⟨so, ob, x, h1, h2, h3, h4⟩

example := C93_current_admitted_partial exFin_reached (ev := exFinEv) rfl (cls := ![.lt, .ge]) (lv := ![0, 2])
  (by decide +kernel)

/-- C93 fails otherwise: class '=' for the first objective and '>=' for the second with a level below its
current value is accepted, although no feasible decision vector satisfies the constraints then given to
the minimizer; the method shows whatever the minimizer returns - here a vector that honours neither. -/
theorem C93_fails_contradictory :
    Reached exFin exFinS [.classify ![1, 1]] ∧
    (∀ x, exFin.feasible x = true → ¬ Honours ![.eq, .ge] exFinS.obj ![0, 0] (exFinEv x)) ∧
    answer exFin exFinS (.classify ![1, 1]) (.classify (complete ![.eq, .ge] ![0, 0] 1)) ⟨fun _ _ => ![3]⟩ =
      (exFinS', .ok (.save [![3]] [![3, 1]])) ∧ ¬ Honours ![.eq, .ge] exFinS.obj ![0, 0] (![3, 1] : Vec 2 ℚ) := by
  refine ⟨exFin_reached, ?_, eq_of_beq (by decide +kernel), ?_⟩
  · intro x hx h
    have h0 := (h 0).1 (by decide)
    have h1 := (h 1).2 (by decide)
    have h : exFinOk x = true := hx
    simp only [exFinOk, Bool.or_eq_true, decide_eq_true_eq] at h
    simp [exFinEv, exFinS] at h0 h1
    rcases h with ((h | h) | h) | h <;> rw [h] at h0 h1 <;> linarith
  · intro h
    have h0 := (h 0).1 (by decide)
    norm_num [exFinS] at h0

/-! ## C94 -/

/-- The minimizations asked for by answering `req` with `a`, with their numbers: NIMBUS.py:677-707 and
782-939. Used to state that they are solved exactly; `C94_asked_complete` says that nothing else is
used. -/
def asked (c : Cfg k m K) (s : St k m K) (req : Req k m K) (a : Ans K) : List (Nat × Task k m K) :=
  match c.problem with
  | .discrete .. => []
  | .mo ev =>
    match s.phase, req, a with
    | .classify, .classify _, .classify ⟨some cls, some lv, some num⟩ =>
      (((problems c s cls (levelVec k lv)).take num.toNat).zipIdx).map fun p =>
        (p.2, task c ev p.1.1 p.1.2.1 p.1.2.2)
    | .intermediate, .inter sols _, .inter ⟨some idx, some num⟩ =>
      match pick sols idx with
      | .ok (a :: b :: _) => (interPoints c.nrm a b num.toNat).zipIdx.map fun p => (p.2, interTask c ev p.1)
      | _ => []
    | _, _, _ => []

theorem mapE_congr {α β : Type} {f g : α → Except Err β} {l : List α} (h : ∀ x ∈ l, f x = g x) :
    mapE f l = mapE g l := by
  induction l with
  | nil => rfl
  | cons x t ih =>
    simp only [mapE]
    rw [h x List.mem_cons_self, ih fun y hy => h y (List.mem_cons_of_mem _ hy)]

/-- Two minimizers that agree on the tasks asked for lead to the same result: `asked` lists all
minimizations that matter. -/
theorem C94_asked_complete (c : Cfg k m K) (s : St k m K) (req : Req k m K) (a : Ans K)
    (orc orc' : Oracle k m K) (h : ∀ p ∈ asked c s req a, orc.minimize p.1 p.2 = orc'.minimize p.1 p.2) :
    answer c s req a orc = answer c s req a orc' := by
  unfold answer
  cases validate c req a with
  | error e => rfl
  | ok u =>
    show iterate c s req a orc = iterate c s req a orc'
    unfold iterate
    cases hph : s.phase with
    | classify =>
      dsimp only
      split
      · rename_i f r
        obtain ⟨cls, lv, num⟩ := r
        have : handleClassify c s ⟨cls, lv, num⟩ orc = handleClassify c s ⟨cls, lv, num⟩ orc' := by
          unfold handleClassify
          cases cls with
          | none => rfl
          | some cls =>
            cases lv with
            | none => rfl
            | some lv =>
              cases num with
              | none => rfl
              | some num =>
                have : newSolutions c s cls (levelVec k lv) num orc = newSolutions c s cls (levelVec k lv) num orc' := by
                  unfold newSolutions
                  have e : mapE (fun (p : (Vec k K × (Vec k K → K) × (Vec k K → Bool)) × Nat) =>
                        solveOne c orc p.2 p.1) (((problems c s cls (levelVec k lv)).take num.toNat).zipIdx) =
                      mapE (fun (p : (Vec k K × (Vec k K → K) × (Vec k K → Bool)) × Nat) =>
                        solveOne c orc' p.2 p.1) (((problems c s cls (levelVec k lv)).take num.toNat).zipIdx) := by
                    apply mapE_congr
                    intro p hp
                    unfold solveOne
                    cases hc : c.problem with
                    | discrete => rfl
                    | mo ev =>
                      have := h (p.2, task c ev p.1.1 p.1.2.1 p.1.2.2) (by
                        simp only [asked, hc, hph]
                        exact List.mem_map.2 ⟨p, hp, rfl⟩)
                      simp only at this
                      simp only [this]
                  rw [e]
                simp only [this]
        simp only [this]
      · rfl
    | archive => rfl
    | intermediate =>
      dsimp only
      split
      · rename_i sols objs idx num
        have : handleInter c sols objs idx num orc = handleInter c sols objs idx num orc' := by
          unfold handleInter
          cases hpk : pick sols idx with
          | error e => rfl
          | ok xs =>
            match xs, hpk with
            | [], _ => rfl
            | [_], _ => rfl
            | a :: b :: t, hpk =>
              have e : mapE (interSolve c orc) (interPoints c.nrm a b num.toNat).zipIdx =
                  mapE (interSolve c orc') (interPoints c.nrm a b num.toNat).zipIdx := by
                apply mapE_congr
                intro p hp
                unfold interSolve
                cases hc : c.problem with
                | discrete => rfl
                | mo ev =>
                  have := h (p.2, interTask c ev p.1) (by
                    simp only [asked, hc, hph, hpk]
                    exact List.mem_map.2 ⟨p, hp, rfl⟩)
                  simp only at this
                  simp only [this]
              simp only [e]
        simp only [this]
      · rfl
    | preferred => rfl
    | ended => rfl

/-- The histories in which the minimizer solves everything it is asked for (and reports success in the
constructor only with an exact solution). -/
inductive ExactlyReached (c : Cfg k m K) : St k m K → List (Req k m K) → Prop
  | init {s sp res} : construct c sp res = .ok s → (∀ t x, res t = some x → Solves t x) →
      ExactlyReached c s [Nimbus.start s]
  | step {s s' l req a orc o} : ExactlyReached c s l → req ∈ l → answer c s req a orc = (s', o) →
      (∀ p ∈ asked c s req a, Solves p.2 (orc.minimize p.1 p.2)) → ExactlyReached c s' (issued o ++ l)

theorem ExactlyReached.reached {c : Cfg k m K} {s : St k m K} {l : List (Req k m K)}
    (h : ExactlyReached c s l) : Reached c s l := by
  induction h with
  | init h _ => exact .init h
  | step _ hm ha _ ih => exact .step ih hm ha

/-- If the newly computed pairs have `P`, everything shown and the current solution still have `P`. -/
theorem all_step {c : Cfg k m K} {P : Vec m K → Vec k K → Prop} {s s' : St k m K} {l : List (Req k m K)}
    {req : Req k m K} {a : Ans K} {orc : Oracle k m K} {o : Except Err (Req k m K)} (hI : Inv c s l)
    (hmem : req ∈ l) (ha : answer c s req a orc = (s', o))
    (hnew : ∀ r', o = .ok r' → s.phase = .classify ∨ (s.phase = .intermediate ∧ r'.kind = .save) →
      ∀ p ∈ r'.pairs, P p.1 p.2)
    (ih : (∀ req ∈ l, ∀ p ∈ req.pairs, P p.1 p.2) ∧ (∀ f, Req.classify f ∈ l → ∃ x, P x f) ∧ P s.sol s.obj) :
    (∀ req ∈ issued o ++ l, ∀ p ∈ req.pairs, P p.1 p.2) ∧
      (∀ f, Req.classify f ∈ issued o ++ l → ∃ x, P x f) ∧ P s'.sol s'.obj := by
  obtain ⟨ih1, ih2, ih3⟩ := ih
  cases o with
  | error e =>
    have := answer_error (hI.aligned _ hmem) ha
    subst this
    exact ⟨by simpa [issued] using ih1, by simpa [issued] using ih2, ih3⟩
  | ok r' =>
    simp only [issued, List.singleton_append]
    suffices hh : (∀ p ∈ r'.pairs, P p.1 p.2) ∧ (∀ f, r' = .classify f → ∃ x, P x f) ∧ P s'.sol s'.obj by
      obtain ⟨h1, h2, h3⟩ := hh
      refine ⟨?_, ?_, h3⟩
      · intro q hq
        rcases List.mem_cons.1 hq with rfl | hq
        · exact h1
        · exact ih1 q hq
      · intro f hf
        rcases List.mem_cons.1 hf with hf | hf
        · exact h2 f hf.symm
        · exact ih2 f hf
    cases answer_ok ha with
    | ended he => exact ⟨ih1 _ hmem, fun f hf => ih2 f (hf ▸ hmem), ih3⟩
    | classify hp hv hn => exact ⟨hnew _ rfl (.inl hp), by simp, ih3⟩
    | save hp hrng hx ho =>
      rename_i sols objs idx xs os
      have hal : sols.length = objs.length := hI.aligned _ hmem
      have h0 : ∀ i ∈ idx, (0 : Int) ≤ i := fun i hi => (hrng i hi).1
      have hxo : xs.length = os.length := by rw [pick_length hx, pick_length ho]
      refine ⟨?_, by simp, ih3⟩
      intro p hp
      simp only [Req.pairs] at hp
      rw [List.zip_append (by simp [hI.arch_len, hxo]), List.zip_append hI.arch_len] at hp
      simp only [List.mem_append] at hp
      rcases hp with (hp | hp) | hp
      · obtain ⟨so, ob, h1, h2⟩ := hI.arch_shown p hp
        exact ih1 _ h1 p h2
      · exact ih1 _ hmem p (pick_mem_zip hx ho h0 hp)
      · rw [unsaved_zip _ _ _ hal] at hp
        exact ih1 _ hmem p (mem_unsaved_mem hp)
    | noInter hp =>
      have := ih1 _ hmem
      exact ⟨this, by simp, ih3⟩
    | inter hp _ _ _ hl => exact ⟨hnew _ rfl (.inr ⟨hp, rfl⟩), by simp, ih3⟩
    | «continue» hp hx hf =>
      have hg := ih1 _ hmem (_, _)
        (List.mem_of_getElem? (List.getElem?_zip_eq_some (z := (_, _)).2 ⟨hx, hf⟩))
      refine ⟨by simp [Req.pairs], ?_, hg⟩
      intro g he
      simp only [Req.classify.injEq] at he
      exact ⟨_, he ▸ hg⟩
    | stop hp hx hf =>
      have hg := ih1 _ hmem (_, _)
        (List.mem_of_getElem? (List.getElem?_zip_eq_some (z := (_, _)).2 ⟨hx, hf⟩))
      exact ⟨by simpa [Req.pairs] using hg, by simp, hg⟩

/-- An exact solution of a minimization over a set closed under domination is Pareto optimal. -/
theorem task_pareto {c : Cfg k m K} {ev : Vec m K → Vec k K} {z : Vec k K} {asf : Vec k K → K}
    {fe : Vec k K → Bool} {x : Vec m K} (h : Solves (task c ev z asf fe) x) (hasf : PrefersDominating asf)
    (hfe : ∀ f g, Dominates f g → fe g = true → fe f = true) :
    c.feasible x = true ∧ ∀ y, c.feasible y = true → ¬ Dominates (ev y) (ev x) := by
  obtain ⟨⟨h1, h2⟩, h3⟩ := (task_asks c ev z asf fe).solves h
  refine ⟨h1, fun y hy hd => ?_⟩
  exact absurd (hasf _ _ hd) (not_lt.2 (h3 y ⟨hy, hfe _ _ hd h2⟩))

/-- **C94**. For analytic problems: if the scalarizing functions strictly prefer dominating vectors, then
in every history in which the minimizer solves exactly what it is asked for, every solution NIMBUS shows -
to be classified, saved, used for intermediate solutions, chosen, or as the final solution - is a feasible
decision vector with its objective vector, and no feasible decision vector dominates it. -/
theorem C94_shown_solutions_pareto_optimal {c : Cfg k m K} {s : St k m K} {l : List (Req k m K)}
    (h : ExactlyReached c s l) {ev : Vec m K → Vec k K} (hmo : c.problem = .mo ev)
    (h1 : ∀ a b z, PrefersDominating (c.asf1 a b z)) (h2 : ∀ z, PrefersDominating (c.asf2 z))
    (h3 : ∀ z, PrefersDominating (c.asf3 z)) (h4 : ∀ a z, PrefersDominating (c.asf4 a z)) :
    (∀ f, Req.classify f ∈ l → ∃ x, c.feasible x = true ∧ f = ev x ∧
      ∀ y, c.feasible y = true → ¬ Dominates (ev y) f) ∧
    (∀ req ∈ l, ∀ x f, (x, f) ∈ req.pairs → c.feasible x = true ∧ f = ev x ∧
      ∀ y, c.feasible y = true → ¬ Dominates (ev y) f) := by
  suffices hh : (∀ req ∈ l, ∀ p ∈ req.pairs, (fun x f => c.feasible x = true ∧ f = ev x ∧
        ∀ y, c.feasible y = true → ¬ Dominates (ev y) f) p.1 p.2) ∧
      (∀ f, Req.classify f ∈ l → ∃ x, (fun x f => c.feasible x = true ∧ f = ev x ∧
        ∀ y, c.feasible y = true → ¬ Dominates (ev y) f) x f) ∧
      (fun x f => c.feasible x = true ∧ f = ev x ∧
        ∀ y, c.feasible y = true → ¬ Dominates (ev y) f) s.sol s.obj from
    ⟨hh.2.1, fun req hr x f hp => hh.1 req hr (x, f) hp⟩
  induction h with
  | init h hres =>
    rename_i s sp res
    have : c.feasible s.sol = true ∧ s.obj = ev s.sol ∧ ∀ y, c.feasible y = true → ¬ Dominates (ev y) s.obj := by
      unfold construct at h
      split at h
      · simp at h
      · simp only [hmo] at h
        split at h
        · simp at h
        · rename_i x hx
          simp only [Except.ok.injEq] at h
          subst h
          obtain ⟨g1, g2⟩ := task_pareto (hres _ _ hx) (h3 _) (fun _ _ _ _ => rfl)
          exact ⟨g1, rfl, g2⟩
    refine ⟨by simp [Nimbus.start, Req.pairs], ?_, this⟩
    intro f hf
    simp only [Nimbus.start, List.mem_singleton, Req.classify.injEq] at hf
    subst hf
    exact ⟨_, this⟩
  | step hr hm ha hex ih =>
    rename_i s s' l req a orc o
    refine all_step (P := fun x f => c.feasible x = true ∧ f = ev x ∧
      ∀ y, c.feasible y = true → ¬ Dominates (ev y) f) hr.reached.inv hm ha ?_ ih
    rintro r' rfl hph
    have hst := answer_ok ha
    cases hst with
    | ended he => rw [he] at hph; simp at hph
    | save hp => rw [hp] at hph; simp at hph
    | noInter hp => rw [hp] at hph; simp [Req.kind] at hph
    | «continue» hp => rw [hp] at hph; simp at hph
    | stop hp => rw [hp] at hph; simp at hph
    | classify hp hv hn =>
      rename_i f cls lv num sl
      intro p hp'
      simp only [Req.pairs, zip_map_fst_snd] at hp'
      unfold newSolutions at hn
      split at hn
      · simp at hn
      · split at hn
        · simp at hn
        · rw [mapE_ok_iff] at hn
          obtain ⟨⟨q, i⟩, hq', hq⟩ := forall₂_right hn p hp'
          have hq'' : q ∈ problems c s cls (levelVec k lv) := by
            have := List.mem_zipIdx hq'
            exact List.mem_of_mem_take (by rw [this.2.2]; exact List.getElem_mem _)
          have hs := hex (i, task c ev q.1 q.2.1 q.2.2) (by
            simp only [asked, hmo, hp]
            exact List.mem_map.2 ⟨(q, i), hq', rfl⟩)
          simp only [solveOne, hmo, Except.ok.injEq] at hq
          subst hq
          simp only [problems, List.mem_cons, List.not_mem_nil, or_false] at hq''
          rcases hq'' with rfl | rfl | rfl | rfl
          · obtain ⟨g1, g2⟩ := task_pareto hs (h1 _ _ _) (fun _ _ hdom hg => cons1_mono hdom hg)
            exact ⟨g1, rfl, g2⟩
          · obtain ⟨g1, g2⟩ := task_pareto hs (h2 _) (fun _ _ _ _ => rfl)
            exact ⟨g1, rfl, g2⟩
          · obtain ⟨g1, g2⟩ := task_pareto hs (h3 _) (fun _ _ _ _ => rfl)
            exact ⟨g1, rfl, g2⟩
          · obtain ⟨g1, g2⟩ := task_pareto hs (h4 _ _) (fun _ _ _ _ => rfl)
            exact ⟨g1, rfl, g2⟩
    | inter hp hpos hrg hpk hl =>
      rename_i sols objs idx num x0 y0 rest sl
      intro p hp'
      simp only [Req.pairs, zip_map_fst_snd] at hp'
      rw [mapE_ok_iff] at hl
      obtain ⟨⟨q, i⟩, hq', hq⟩ := forall₂_right hl p hp'
      have hs := hex (i, interTask c ev q) (by
        simp only [asked, hmo, hp, hpk]
        exact List.mem_map.2 ⟨(q, i), hq', rfl⟩)
      simp only [interSolve, hmo, Except.ok.injEq] at hq
      subst hq
      cases q with
      | none =>
        obtain ⟨_, v, hv, _⟩ := hs
        simp [interTask] at hv
      | some q =>
        have hs' : Solves (task c ev (ev q) (c.asf3 (ev q)) fun _ => true)
          (orc.minimize i (interTask c ev (some q))) := hs
        obtain ⟨g1, g2⟩ := task_pareto hs' (h3 _) (fun _ _ _ _ => rfl)
        exact ⟨g1, rfl, g2⟩

/-- A history of `exFin` in which everything is solved exactly. -/
theorem exFin_exactly : ExactlyReached exFin exFinS' [.save [![1], ![0]] [![1, 1], ![0, 4]], .classify ![1, 1]] := by
  refine .step (.init exFin_construct exFinRes_solves) List.mem_cons_self exFin_step ?_
  have e : asked exFin exFinS (Nimbus.start exFinS) exFinA =
      [(0, task exFin exFinEv ![0, 0] (exFin.asf1 [0] [] ![0, 0]) (cons1 [.lt, .free] ![1, 1] ![0, 0])),
       (1, task exFin exFinEv (zbar exFin [.lt, .free] ![0, 0] ![1, 1])
         (exFin.asf2 (zbar exFin [.lt, .free] ![0, 0] ![1, 1])) fun _ => true)] := by
    have : levelVec 2 (List.ofFn (![0, 0] : Vec 2 ℚ)) = ![0, 0] := levelVec_ofFn _
    simp only [asked, exFin, exFinS, Nimbus.start, exFinA, complete, this]
    rfl
  rw [e]
  intro p hp
  simp only [List.mem_cons, List.not_mem_nil, or_false] at hp
  rcases hp with rfl | rfl
  · exact exFin_solves (z := ![0, 0]) (asf := exFin.asf1 [0] [] ![0, 0])
      (fe := cons1 [.lt, .free] ![1, 1] ![0, 0]) (x := ![1]) (by decide +kernel) (by decide +kernel)
  · exact exFin_solves (z := zbar exFin [.lt, .free] ![0, 0] ![1, 1])
      (asf := exFin.asf2 (zbar exFin [.lt, .free] ![0, 0] ![1, 1])) (fe := fun _ => true) (x := ![0])
      (by decide +kernel) (by decide +kernel)

example := C94_shown_solutions_pareto_optimal exFin_exactly (ev := exFinEv) rfl
  (fun _ _ => pointAsf_prefersDominating (by decide +kernel)) (pointAsf_prefersDominating (by decide +kernel))
  (pointAsf_prefersDominating (by decide +kernel)) (fun _ => pointAsf_prefersDominating (by decide +kernel))

end Verif.Nimbus
