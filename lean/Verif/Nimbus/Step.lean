import Verif.Nimbus.Lemmas

set_option linter.unusedSectionVars false

/-! What answering a request does, case by case (derived from the model). -/

namespace Verif.Nimbus

variable {K : Type} [Field K] [LinearOrder K] {k m : Nat}

/-- The ways in which answering a request can return a new one. -/
inductive Step (c : Cfg k m K) (orc : Oracle k m K) (s : St k m K) :
    Req k m K → Ans K → St k m K → Req k m K → Prop
  | ended {req a} : s.phase = .ended → Step c orc s req a s req
  | classify {f cls lv num l} : s.phase = .classify →
      validateClassify c ⟨some cls, some lv, some num⟩ = .ok () →
      newSolutions c s cls (levelVec k lv) num orc = .ok l →
      Step c orc s (.classify f) (.classify ⟨some cls, some lv, some num⟩) { s with phase := .archive }
        (.save (l.map (·.1)) (l.map (·.2)))
  | save {sols objs idx xs os} : s.phase = .archive → (∀ i ∈ idx, 0 ≤ i ∧ i < (objs.length : Int)) →
      pick sols idx = .ok xs → pick objs idx = .ok os →
      Step c orc s (.save sols objs) (.save (some idx))
        { s with archSols := s.archSols ++ xs, archObjs := s.archObjs ++ os, phase := .intermediate }
        (.inter (s.archSols ++ xs ++ unsaved sols idx) (s.archObjs ++ os ++ unsaved objs idx))
  | noInter {sols objs} : s.phase = .intermediate →
      Step c orc s (.inter sols objs) (.inter ⟨some [], some 0⟩) { s with phase := .preferred }
        (.preferred sols objs)
  | inter {sols objs idx num a b rest l} : s.phase = .intermediate → 0 < num →
      (∀ i ∈ idx, 0 ≤ i ∧ i < (objs.length : Int)) → pick sols idx = .ok (a :: b :: rest) →
      mapE (interSolve c orc) (interPoints c.nrm a b num.toNat).zipIdx = .ok l →
      Step c orc s (.inter sols objs) (.inter ⟨some idx, some num⟩) { s with phase := .archive }
        (.save (l.map (·.1)) (l.map (·.2)))
  | continue {sols objs x f} {i : Nat} : s.phase = .preferred → sols[i]? = some x → objs[i]? = some f →
      Step c orc s (.preferred sols objs) (.preferred ⟨some (.int i), some (.bool true)⟩)
        { s with sol := x, obj := f, phase := .classify } (.classify f)
  | stop {sols objs x f} {i : Nat} : s.phase = .preferred → sols[i]? = some x → objs[i]? = some f →
      Step c orc s (.preferred sols objs) (.preferred ⟨some (.int i), some (.bool false)⟩)
        { s with sol := x, obj := f, phase := .ended } (.stop x f)

theorem handleSave_eq (s : St k m K) (sols : List (Vec m K)) (objs : List (Vec k K)) (idx : List Int) :
    handleSave s sols objs idx = match pick objs idx with
    | .error e => (s, .error e)
    | .ok os => match pick sols idx with
      | .error e => ({ s with archObjs := s.archObjs ++ os }, .error e)
      | .ok xs => ({ s with archSols := s.archSols ++ xs, archObjs := s.archObjs ++ os },
          .ok (.inter (s.archSols ++ xs ++ unsaved sols idx) (s.archObjs ++ os ++ unsaved objs idx))) := by
  unfold handleSave
  split
  · rename_i h
    rw [List.length_eq_zero_iff.1 h]
    simp [pick, mapE]
  · cases pick objs idx with
    | error e => rfl
    | ok os =>
      cases pick sols idx with
      | error e => rfl
      | ok xs => rfl

theorem answer_ok {c : Cfg k m K} {orc : Oracle k m K} {s s' : St k m K} {req r' : Req k m K} {a : Ans K}
    (h : answer c s req a orc = (s', .ok r')) : Step c orc s req a s' r' := by
  unfold answer at h
  split at h
  · simp at h
  · rename_i u hv
    unfold iterate at h
    split at h
    · rename_i hp
      split at h
      · rename_i f r
        simp only [validate] at hv
        obtain ⟨cls, lv, num, rfl, _⟩ := validateClassify_ok hv
        simp only [handleClassify] at h
        cases hn : newSolutions c s cls (levelVec k lv) num orc with
        | error e => simp [hn, enter] at h
        | ok l =>
          simp only [hn, enter, Prod.mk.injEq, Except.ok.injEq] at h
          obtain ⟨rfl, rfl⟩ := h
          exact .classify hp hv hn
      · simp at h
    · rename_i hp
      split at h
      · rename_i sols objs idx
        simp only [validate] at hv
        obtain ⟨idx', hi, hr⟩ := validateSave_ok hv
        simp only [Option.some.injEq] at hi
        subst hi
        rw [handleSave_eq] at h
        cases ho : pick objs idx with
        | error e => simp [ho, enter] at h
        | ok os =>
          cases hx : pick sols idx with
          | error e => simp [ho, hx, enter] at h
          | ok xs =>
            simp only [ho, hx, enter, Prod.mk.injEq, Except.ok.injEq] at h
            obtain ⟨rfl, rfl⟩ := h
            exact .save hp hr hx ho
      · simp at h
    · rename_i hp
      split at h
      · rename_i sols objs idx num
        simp only [validate] at hv
        obtain ⟨idx', num', hi, hr, h0, h1⟩ := validateInter_ok hv
        simp only [InterResp.mk.injEq, Option.some.injEq] at hi
        obtain ⟨rfl, rfl⟩ := hi
        simp only [handleInter] at h
        split at h
        · rename_i hlen
          cases hx : pick sols idx with
          | error e => simp [hx, enterAfter] at h
          | ok xs =>
            rw [hx] at h
            have hnum : 0 < num := by
              rcases lt_or_eq_of_le h0 with h2 | h2
              · exact h2
              · rw [h1.2 h2.symm] at hlen; simp at hlen
            rcases xs with _ | ⟨x, _ | ⟨y, rest⟩⟩
            · simp [enterAfter] at h
            · simp [enterAfter] at h
            · dsimp only at h
              cases hl : mapE (interSolve c orc) (interPoints c.nrm x y num.toNat).zipIdx with
              | error e => simp [hl, enterAfter] at h
              | ok l =>
                simp only [hl, enterAfter, Prod.mk.injEq, Except.ok.injEq] at h
                obtain ⟨rfl, rfl⟩ := h
                exact .inter hp hnum hr hx hl
        · rename_i hlen
          have hnil : idx = [] := by
            cases idx with
            | nil => rfl
            | cons => simp at hlen
          subst hnil
          have hz := h1.1 rfl
          subst hz
          simp only [enterAfter, Prod.mk.injEq, Except.ok.injEq] at h
          obtain ⟨rfl, rfl⟩ := h
          exact .noInter hp
      · simp at h
    · rename_i hp
      split at h
      · rename_i sols objs i b
        simp only [validate] at hv
        obtain ⟨i', b', hi, hr⟩ := validatePreferred_ok hv
        simp only [PrefResp.mk.injEq, Option.some.injEq] at hi
        obtain ⟨rfl, rfl⟩ := hi
        simp only [handlePreferred, PyVal.asInt] at h
        cases hx : pyGet sols (i' : Int) with
        | error e => simp [hx, enterAfter] at h
        | ok x =>
          cases hf : pyGet objs (i' : Int) with
          | error e => simp [hx, hf, enterAfter] at h
          | ok f =>
            rw [hx, hf] at h
            rw [pyGet_nat] at hx hf
            cases b' with
            | true =>
              simp only [decide_true, if_true, enterAfter, Prod.mk.injEq, Except.ok.injEq] at h
              obtain ⟨rfl, rfl⟩ := h
              exact .continue hp hx hf
            | false =>
              simp [enterAfter] at h
              obtain ⟨rfl, rfl⟩ := h
              exact .stop hp hx hf
      · simp at h
    · rename_i hp
      simp only [Prod.mk.injEq, Except.ok.injEq] at h
      obtain ⟨rfl, rfl⟩ := h
      exact .ended hp

/-- The solutions and objectives of a request are lists of the same length. -/
def Req.Aligned : Req k m K → Prop
  | .save sols objs => sols.length = objs.length
  | .inter sols objs => sols.length = objs.length
  | .preferred sols objs => sols.length = objs.length
  | _ => True

/-- An exception leaves the state as it was. -/
theorem answer_error {c : Cfg k m K} {orc : Oracle k m K} {s s' : St k m K} {req : Req k m K} {a : Ans K}
    {e : Err} (hal : req.Aligned) (h : answer c s req a orc = (s', .error e)) : s' = s := by
  unfold answer at h
  split at h
  · simp only [Prod.mk.injEq] at h; exact h.1.symm
  · rename_i u hv
    unfold iterate at h
    split at h
    · split at h
      · rename_i f r
        cases hn : handleClassify c s r orc with
        | error e => simp only [hn, enter, Prod.mk.injEq] at h; exact h.1.symm
        | ok l => simp [hn] at h
      · simp only [Prod.mk.injEq] at h; exact h.1.symm
    · split at h
      · rename_i sols objs idx
        simp only [validate] at hv
        obtain ⟨idx', hi, hr⟩ := validateSave_ok hv
        simp only [Option.some.injEq] at hi
        subst hi
        obtain ⟨os, ho⟩ := pick_exists (l := objs) hr
        obtain ⟨xs, hx⟩ := pick_exists (l := sols) (idx := idx) (by
          intro i hi; have := hr i hi; have : sols.length = objs.length := hal; omega)
        rw [handleSave_eq] at h
        simp [ho, hx] at h
      · simp only [Prod.mk.injEq] at h; exact h.1.symm
    · split at h
      · rename_i sols objs idx num
        cases hn : handleInter c sols objs idx num orc with
        | error e => simp only [hn, enterAfter, Prod.mk.injEq] at h; exact h.1.symm
        | ok l => simp [hn] at h
      · simp only [Prod.mk.injEq] at h; exact h.1.symm
    · split at h
      · rename_i sols objs i b
        simp only [validate] at hv
        obtain ⟨i', b', hi, hr⟩ := validatePreferred_ok hv
        simp only [PrefResp.mk.injEq, Option.some.injEq] at hi
        obtain ⟨rfl, rfl⟩ := hi
        have : sols.length = objs.length := hal
        obtain ⟨x, hx⟩ := pyGet_exists (l := sols) (i := i') (by omega) (by omega)
        obtain ⟨f, hf⟩ := pyGet_exists (l := objs) (i := i') (by omega) (by omega)
        simp only [handlePreferred, PyVal.asInt, hx, hf] at h
        cases b' <;> simp at h
      · simp only [Prod.mk.injEq] at h; exact h.1.symm
    · simp at h

end Verif.Nimbus
