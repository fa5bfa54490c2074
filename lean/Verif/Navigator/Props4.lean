import Verif.Navigator.Props3

/-! The speed entry of NAUTILUS Navigator: what it influences and what is reported. -/

set_option linter.unusedSectionVars false

namespace Verif.Navigator

variable {K V : Type} [Field K] [LinearOrder K] [IsStrictOrderedRing K] {n k : Nat}

/-- A request without the shown speed. -/
def Content.forgetSpeed (ct : Content n k K) : Content n k K := { ct with speed := none }

/-- The state without the stored speed. -/
def St.forgetSpeed (s : St n k K) : St n k K := { s with speed := none }

/-- Two responses with the same entries up to the speed, both speeds being accepted. -/
def SameButSpeed (r r' : Resp K) : Prop :=
  (∃ v v', r' = { r with speed := some v' } ∧ r.speed = some v ∧
    validateSpeed v = .ok () ∧ validateSpeed v' = .ok ())

theorem validate_sameButSpeed {c : Cfg n k K V} {r r' : Resp K} (h : SameButSpeed r r') :
    validate c r' = validate c r := by
  obtain ⟨v, v', rfl, h1, h2, h3⟩ := h
  unfold validate
  cases r.ref <;> cases r.goToPrevious <;> cases r.userBounds <;> cases r.stop <;>
    simp [h1, h2, h3]

theorem advance_speed (c : Cfg n k K V) (s : St n k K) (v : Option PyVal) (u : Vec k (Option K)) :
    (advance c { s with speed := v } u).1.forgetSpeed = (advance c s u).1.forgetSpeed ∧
    shown (advance c { s with speed := v } u).2 = shown (advance c s u).2 := by
  unfold advance
  dsimp only
  cases hp : s.proj with
  | none => exact ⟨by simp [St.forgetSpeed, hp], by simp⟩
  | some p =>
    dsimp only
    split
    · exact ⟨by simp [St.forgetSpeed, hp], by simp⟩
    · exact ⟨by simp [St.forgetSpeed, move, hp],
        by simp [shown, Except.map, Out.forgetSpeed, St.content, move]⟩

theorem forward_speed (c : Cfg n k K V) (s : St n k K) (w : Option PyVal) (q : Vec k (Option K))
    (v v' : PyVal) (u : Vec k (Option K)) :
    (forward c { s with speed := w } q v' u).1.forgetSpeed = (forward c s q v u).1.forgetSpeed ∧
    shown (forward c { s with speed := w } q v' u).2 = shown (forward c s q v u).2 := by
  unfold forward
  have hn : needsProjection { s with speed := w } q = needsProjection s q := rfl
  rw [hn]
  cases needsProjection s q with
  | error e => exact ⟨rfl, rfl⟩
  | ok b =>
    cases b with
    | false => exact advance_speed c s w u
    | true =>
      dsimp only
      cases solve c s.reach q s.userBounds with
      | error e => exact ⟨rfl, rfl⟩
      | ok p =>
        dsimp only
        have h1 := advance_speed c { s with ref := some q, proj := some p }
          (if s.step = 1 then some v' else w) u
        have h2 := advance_speed c { s with ref := some q, proj := some p }
          (if s.step = 1 then some v else s.speed) u
        exact ⟨h1.1.trans h2.1.symm, h1.2.trans h2.2.symm⟩

theorem answer_speed {c : Cfg n k K V} (s : St n k K) (ct : Content n k K) (w w' : Option PyVal)
    {r r' : Resp K} (h : SameButSpeed r r') :
    (answer c { s with speed := w } { ct with speed := w' } r').1.forgetSpeed =
      (answer c s ct r).1.forgetSpeed ∧
    shown (answer c { s with speed := w } { ct with speed := w' } r').2 = shown (answer c s ct r).2 := by
  unfold answer
  rw [validate_sameButSpeed h]
  cases validate c r with
  | error e => exact ⟨rfl, rfl⟩
  | ok x =>
    dsimp only
    obtain ⟨v, v', rfl, h1, h2, h3⟩ := h
    unfold handle
    dsimp only
    rw [h1]
    cases r.ref with
    | none => exact ⟨rfl, rfl⟩
    | some ql =>
    cases r.goToPrevious with
    | none => exact ⟨rfl, rfl⟩
    | some g =>
    cases r.userBounds with
    | none => exact ⟨rfl, rfl⟩
    | some ul =>
    cases r.stop with
    | none => exact ⟨rfl, rfl⟩
    | some st =>
      dsimp only
      split
      · exact ⟨rfl, rfl⟩
      · split
        · exact ⟨rfl, rfl⟩
        · cases broadcast k ql with
          | error e => exact ⟨rfl, rfl⟩
          | ok q => exact forward_speed c s w q v v' _

/-- The result of a run without the speeds. -/
def forgetRun (o : Except Err (St n k K × Content n k K)) : Except Err (St n k K × Content n k K) :=
  o.map fun x => (x.1.forgetSpeed, x.2.forgetSpeed)

theorem run_speed {c : Cfg n k K V} {rs rs' : List (Resp K)} (h : List.Forall₂ SameButSpeed rs rs')
    (s : St n k K) (ct : Content n k K) (w w' : Option PyVal) :
    forgetRun (run c { s with speed := w } { ct with speed := w' } rs') = forgetRun (run c s ct rs) := by
  induction h generalizing s ct w w' with
  | nil => rfl
  | @cons r r' rs rs' hr hrs ih =>
    have ha := answer_speed (c := c) s ct w w' hr
    unfold run
    cases h1 : answer c s ct r with
    | mk s1 o1 =>
    cases h2 : answer c { s with speed := w } { ct with speed := w' } r' with
    | mk s2 o2 =>
    rw [h1, h2] at ha
    obtain ⟨hs, ho⟩ := ha
    dsimp only at hs ho
    have es : s2 = { s1 with speed := s2.speed } := by
      cases s1; cases s2
      simp only [St.forgetSpeed, St.mk.injEq] at hs ⊢
      tauto
    cases o1 with
    | error e =>
      cases o2 with
      | error e' =>
        simp only [shown, Except.map, Except.error.injEq] at ho
        subst ho
        rfl
      | ok x => simp [shown, Except.map] at ho
    | ok x =>
      cases o2 with
      | error e' => simp [shown, Except.map] at ho
      | ok x' =>
        simp only [shown, Except.map, Except.ok.injEq] at ho
        cases x with
        | stop a b d =>
          cases x' with
          | stop a' b' d' => rfl
          | nav ct' => simp [Out.forgetSpeed] at ho
        | nav ct1 =>
          cases x' with
          | stop a' b' d' => simp [Out.forgetSpeed] at ho
          | nav ct2 =>
            have ec : ct2 = { ct1 with speed := ct2.speed } := by
              cases ct1; cases ct2
              simp only [Out.forgetSpeed, Out.nav.injEq, Content.mk.injEq] at ho ⊢
              tauto
            dsimp only
            rw [es, ec]
            exact ih s1 ct1 _ _

/-- **C81** (speed does not influence the navigation). Two interactions whose responses agree up to
the speed entries, all of which are accepted speeds, raise the same exception or show the same
requests up to the speed. -/
theorem C81_speed_does_not_influence {c : Cfg n k K V} {rs rs' : List (Resp K)}
    (h : List.Forall₂ SameButSpeed rs rs') :
    (∀ e, run c (initSt c) (start (initSt c)) rs = .error e ↔
      run c (initSt c) (start (initSt c)) rs' = .error e) ∧
    ∀ s ct s' ct', run c (initSt c) (start (initSt c)) rs = .ok (s, ct) →
      run c (initSt c) (start (initSt c)) rs' = .ok (s', ct') →
      ct' = { ct with speed := ct'.speed } := by
  have hr := run_speed (c := c) h (initSt c) (start (initSt c)) (initSt c).speed (start (initSt c)).speed
  change forgetRun (run c (initSt c) (start (initSt c)) rs') =
    forgetRun (run c (initSt c) (start (initSt c)) rs) at hr
  constructor
  · intro e
    cases h1 : run c (initSt c) (start (initSt c)) rs <;>
      cases h2 : run c (initSt c) (start (initSt c)) rs' <;>
      rw [h1, h2] at hr <;> simp_all [forgetRun, Except.map]
  · intro s ct s' ct' h1 h2
    rw [h1, h2] at hr
    simp only [forgetRun, Except.map, Except.ok.injEq, Prod.mk.injEq] at hr
    have := hr.2
    cases ct; cases ct'
    simp only [Content.forgetSpeed, Content.mk.injEq] at this ⊢
    tauto

/-- Met: two forward steps of the example at speeds 1, 1 and at speeds 5, 2. -/
example := C81_speed_does_not_influence (c := exCfg)
  (rs := [forwardResp [some 1, some 1] (.int 1) noB, forwardResp [some 0, some 2] (.int 1) noB])
  (rs' := [forwardResp [some 1, some 1] (.int 5) noB, forwardResp [some 0, some 2] (.int 2) noB])
  (.cons ⟨_, _, rfl, rfl, rfl, rfl⟩ (.cons ⟨_, _, rfl, rfl, rfl, rfl⟩ .nil))

/-- **C81** (reported speed). A forward step at step number 1 makes the request report the speed just
given; any later forward step ignores the given speed, and so does returning to an earlier request: both
report the stored one (`s.speed`), which only a forward step at step number 1 changes, see
`C81_stored_speed`. -/
theorem C81_reported_speed {c : Cfg n k K V} {s s' : St n k K} {ct0 : Content n k K}
    {l : List (Content n k K)} (h : Reached c s (ct0 :: l)) {ct ct' : Content n k K} {r : Resp K}
    (ha : answer c s ct r = (s', .ok (.nav ct'))) :
    (r.goToPrevious = some (.bool true) → ct'.speed = s.speed) ∧
    (r.goToPrevious = some (.bool false) → ct0.step = 1 → ct'.speed = r.speed) ∧
    (r.goToPrevious = some (.bool false) → ct0.step ≠ 1 → ct'.speed = s.speed) := by
  have hh := h.head
  simp only [St.content, Content.mk.injEq] at hh
  obtain ⟨_, _, _, _, hs, _, _, _, _⟩ := hh
  refine ⟨fun hg => ?_, fun hg h1 => ?_, fun hg h1 => ?_⟩
  · obtain ⟨e1, ⟨ul', _, hu', hs'⟩ | ⟨_, _, _, _, _, _, hg', _⟩⟩ := answer_nav ha
    · rw [e1, hs']; rfl
    · rw [hg] at hg'; simp at hg'
  all_goals
    obtain ⟨e1, ql, q, v, ul, s1, p, _, _, hv, _, hp, _, hs'⟩ := answer_forward hg ha
    rw [← hs] at h1
    rw [e1, hs']
  · rcases hp with ⟨hnp, _, _⟩ | ⟨_, _, rfl⟩
    · simp [needsProjection, h1] at hnp
    · simp [St.content, move, h1, hv]
  · rcases hp with ⟨_, rfl, _⟩ | ⟨_, _, rfl⟩
    · rfl
    · simp [St.content, move, h1]

/-- **C81** (stored speed). The stored speed changes only by an accepted forward response given when
the newest request has step number 1. -/
theorem C81_stored_speed {c : Cfg n k K V} {s s' : St n k K} {ct0 : Content n k K}
    {l : List (Content n k K)} (h : Reached c s (ct0 :: l)) {ct : Content n k K} {r : Resp K}
    {o : Except Err (Out n k K V)} (ha : answer c s ct r = (s', o)) (hne : s'.speed ≠ s.speed) :
    validate c r = .ok () ∧ r.goToPrevious = some (.bool false) ∧ ct0.step = 1 ∧
      s'.speed = r.speed := by
  have hh := h.head
  simp only [St.content, Content.mk.injEq] at hh
  obtain ⟨_, _, _, _, hs, _⟩ := hh
  rcases answer_cases ha with ⟨e, _, rfl, _⟩ | ⟨_, _, rfl, _⟩ | ⟨_, _, _, _, _, rfl, _⟩ |
    ⟨ql, q, v, ul, hv, _, hg, _, _, hsp, _, hf⟩
  · exact absurd rfl hne
  · exact absurd rfl hne
  · exact absurd rfl hne
  · have key : s'.speed = s.speed ∨ (s.step = 1 ∧ s'.speed = some v) := by
      unfold forward at hf
      have hadv : ∀ t : St n k K, (advance c t (toBounds k ul)).1.speed = t.speed := by
        intro t; unfold advance; split
        · rfl
        · split <;> rfl
      cases hn : needsProjection s q with
      | error e =>
        rw [hn] at hf
        simp only [Prod.mk.injEq] at hf
        exact .inl (by rw [hf.1])
      | ok b =>
        rw [hn] at hf
        cases b with
        | false =>
          have := hadv s
          simp only at hf
          rw [hf] at this
          exact .inl this
        | true =>
          simp only at hf
          by_cases h1 : s.step = 1
          · simp only [h1, if_true] at hf
            split at hf
            · simp only [Prod.mk.injEq] at hf
              exact .inr ⟨h1, by rw [← hf.1]⟩
            · rename_i p _
              have := hadv { s with speed := some v, step := 1, ref := some q, proj := some p }
              rw [hf] at this
              exact .inr ⟨h1, this⟩
          · simp only [h1, if_false] at hf
            split at hf
            · simp only [Prod.mk.injEq] at hf
              exact .inl (by rw [← hf.1])
            · rename_i p _
              have := hadv { s with ref := some q, proj := some p }
              rw [hf] at this
              exact .inl this
    rcases key with h1 | ⟨h1, h2⟩
    · exact absurd h1 hne
    · exact ⟨hv, hg, by rw [← hs]; exact h1, by rw [h2, hsp]⟩

example : exS1.speed ≠ (initSt exCfg).speed := by decide +kernel

example : Reached exCfg exS1 [exS1.content, start (initSt exCfg)] ∧ exS1.content.step ≠ 1 ∧
    (start (initSt exCfg)).step = 1 ∧
    answer exCfg exS1 exS1.content exR2 = (exS2, .ok (.nav exS2.content)) :=
  ⟨ex_reached1, by decide +kernel, rfl, ex_step2⟩

end Verif.Navigator
