import Verif.Navigator.Rounded
import Verif.Navigator.Props

/-!
# NAUTILUS Navigator with rounded arithmetic: what a call does

The facts of `Lemmas` and `Props` that do not depend on the arithmetic, for the rounded model.
-/

set_option linter.unusedSectionVars false

namespace Verif.Navigator

variable {K V : Type} [Field K] [LinearOrder K] {n k : Nat}

/-- The part of a forward step before moving: the state `s1` with the projection `p` to move to. -/
def PreparedR (A : Arith k K) (c : Cfg n k K V) (s : St n k K) (q : Vec k (Option K)) (v : PyVal)
    (s1 : St n k K) (p : Fin n) : Prop :=
  (needsProjectionR A s q = .ok false ∧ s1 = s ∧ s.proj = some p) ∨
  (needsProjectionR A s q = .ok true ∧ solve c s.reach q s.userBounds = .ok p ∧
    s1 = { s with speed := if s.step = 1 then some v else s.speed, ref := some q, proj := some p })

theorem PreparedR.proj {A : Arith k K} {c : Cfg n k K V} {s s1 : St n k K} {q : Vec k (Option K)} {v : PyVal} {p : Fin n}
    (h : PreparedR A c s q v s1 p) : s1.proj = some p := by
  rcases h with ⟨_, rfl, h⟩ | ⟨_, _, rfl⟩
  · exact h
  · rfl

theorem PreparedR.eq {A : Arith k K} {c : Cfg n k K V} {s s1 : St n k K} {q : Vec k (Option K)} {v : PyVal} {p : Fin n}
    (h : PreparedR A c s q v s1 p) :
    s1.lb = s.lb ∧ s1.ub = s.ub ∧ s1.reach = s.reach ∧ s1.nav = s.nav ∧ s1.rem = s.rem ∧
      s1.step = s.step ∧ s1.dist = s.dist ∧ s1.userBounds = s.userBounds := by
  rcases h with ⟨_, rfl, h⟩ | ⟨_, _, rfl⟩ <;> simp

/-- All outcomes of `forward`. -/
theorem forward_casesR {A : Arith k K} {c : Cfg n k K V} {s s' : St n k K} {q u : Vec k (Option K)} {v : PyVal}
    {o : Except Err (Out n k K V)} (h : forwardR A c s q v u = (s', o)) :
    (∃ e, o = .error e ∧
      ((needsProjectionR A s q = .error e ∧ s' = s) ∨
       (needsProjectionR A s q = .ok true ∧ solve c s.reach q s.userBounds = .error e ∧
          s' = { s with speed := if s.step = 1 then some v else s.speed }) ∨
       (needsProjectionR A s q = .ok false ∧ s.proj = none ∧ e = .typeError ∧ s' = s) ∨
       (s.rem = 0 ∧ e = .zeroDivisionError ∧ ∃ p, PreparedR A c s q v s' p))) ∨
    (∃ s1 p, PreparedR A c s q v s1 p ∧ s.rem ≠ 0 ∧ s' = moveR A c s1 p u ∧ o = .ok (.nav s'.content)) := by
  unfold forwardR at h
  split at h
  · rename_i e he
    simp only [Prod.mk.injEq] at h
    exact .inl ⟨e, h.2.symm, .inl ⟨he, h.1.symm⟩⟩
  · rename_i he
    unfold advanceR at h
    split at h
    · rename_i hp
      simp only [Prod.mk.injEq] at h
      exact .inl ⟨_, h.2.symm, .inr (.inr (.inl ⟨he, hp, rfl, h.1.symm⟩))⟩
    · rename_i p hp
      split at h
      · rename_i hr
        simp only [Prod.mk.injEq] at h
        exact .inl ⟨_, h.2.symm, .inr (.inr (.inr ⟨hr, rfl, p, .inl ⟨he, h.1.symm, hp⟩⟩))⟩
      · rename_i hr
        simp only [Prod.mk.injEq] at h
        refine .inr ⟨s, p, .inl ⟨he, rfl, hp⟩, hr, h.1.symm, ?_⟩
        rw [← h.1, ← h.2]
  · rename_i he
    dsimp only at h
    split at h
    · rename_i e hs
      simp only [Prod.mk.injEq] at h
      exact .inl ⟨e, h.2.symm, .inr (.inl ⟨he, hs, h.1.symm⟩)⟩
    · rename_i p hs
      simp only [advanceR] at h
      split at h
      · rename_i hr
        simp only [Prod.mk.injEq] at h
        exact .inl ⟨_, h.2.symm, .inr (.inr (.inr ⟨hr, rfl, p, .inr ⟨he, hs, h.1.symm⟩⟩))⟩
      · rename_i hr
        simp only [Prod.mk.injEq] at h
        refine .inr ⟨_, p, .inr ⟨he, hs, rfl⟩, hr, h.1.symm, ?_⟩
        rw [← h.1, ← h.2]

/-- All outcomes of answering a request. -/
theorem answer_casesR {A : Arith k K} {c : Cfg n k K V} {s s' : St n k K} {ct : Content n k K} {r : Resp K}
    {o : Except Err (Out n k K V)} (h : answerR A c s ct r = (s', o)) :
    (∃ e, validate c r = .error e ∧ s' = s ∧ o = .error e) ∨
    (validate c r = .ok () ∧ r.stop = some (.bool true) ∧ s' = s ∧ o = .ok (stopRequest c ct.reach)) ∨
    (∃ ul, validate c r = .ok () ∧ r.stop = some (.bool false) ∧ r.goToPrevious = some (.bool true) ∧
      r.userBounds = some ul ∧ s' = goBack s ct (toBounds k ul) ∧ o = .ok (.nav s'.content)) ∨
    (∃ ql q v ul, validate c r = .ok () ∧ r.stop = some (.bool false) ∧
      r.goToPrevious = some (.bool false) ∧ r.ref = some ql ∧ broadcast k ql = .ok q ∧
      r.speed = some v ∧ r.userBounds = some ul ∧ forwardR A c s q v (toBounds k ul) = (s', o)) := by
  unfold answerR at h
  cases hv : validate c r with
  | error e =>
    rw [hv] at h
    simp only [Prod.mk.injEq] at h
    exact .inl ⟨e, rfl, h.1.symm, h.2.symm⟩
  | ok x =>
    rw [hv] at h
    right
    have hv0 := hv
    unfold validate at hv
    split at hv
    · rename_i ql v g ul st hq hsp hg hu hst
      split at hv
      · simp at hv
      · rename_i hvr
        split at hv
        · simp at hv
        · split at hv
          · simp at hv
          · rename_i hg'
            split at hv
            · simp at hv
            · split at hv
              · simp at hv
              · rename_i hst'
                have hgb : ∃ b, g = .bool b := by
                  cases g <;> simp_all [PyVal.typeIsBool]
                have hsb : ∃ b, st = .bool b := by
                  cases st <;> simp_all [PyVal.typeIsBool]
                obtain ⟨gb, rfl⟩ := hgb
                obtain ⟨sb, rfl⟩ := hsb
                simp only [handleR, hq, hsp, hg, hu, hst] at h
                cases sb with
                | true =>
                  simp only [if_true, Prod.mk.injEq] at h
                  exact .inl ⟨rfl, hst, h.1.symm, h.2.symm⟩
                | false =>
                  right
                  cases gb with
                  | true =>
                    simp at h
                    refine .inl ⟨ul, rfl, hst, hg, hu, h.1.symm, ?_⟩
                    rw [← h.1, ← h.2]
                  | false =>
                    right
                    unfold validateRef at hvr
                    cases hb : broadcast k ql with
                    | error e => rw [hb] at hvr; simp at hvr
                    | ok q =>
                      rw [hb] at h
                      simp at h
                      exact ⟨ql, q, v, ul, rfl, hst, hg, hq, hb, hsp, hu, h⟩
    · simp at hv

/-- Returned requests: either a return to the answered request, or one move. -/
theorem answer_navR {A : Arith k K} {c : Cfg n k K V} {s s' : St n k K} {ct ct' : Content n k K} {r : Resp K}
    (h : answerR A c s ct r = (s', .ok (.nav ct'))) :
    ct' = s'.content ∧
    ((∃ ul, r.goToPrevious = some (.bool true) ∧ r.userBounds = some ul ∧
        s' = goBack s ct (toBounds k ul)) ∨
     (∃ ql q v ul s1 p, r.goToPrevious = some (.bool false) ∧ r.ref = some ql ∧
        broadcast k ql = .ok q ∧ r.speed = some v ∧ r.userBounds = some ul ∧
        PreparedR A c s q v s1 p ∧ s.rem ≠ 0 ∧ s' = moveR A c s1 p (toBounds k ul))) := by
  rcases answer_casesR h with ⟨e, _, _, h⟩ | ⟨_, _, _, h⟩ | ⟨ul, _, _, hg, hu, hs, ho⟩ |
    ⟨ql, q, v, ul, _, _, hg, hq, hb, hsp, hu, hf⟩
  · simp at h
  · simp [stopRequest] at h
  · simp only [Except.ok.injEq, Out.nav.injEq] at ho
    exact ⟨ho, .inl ⟨ul, hg, hu, hs⟩⟩
  · rcases forward_casesR hf with ⟨e, he, _⟩ | ⟨s1, p, hp, hr, hs, ho⟩
    · simp at he
    · simp only [Except.ok.injEq, Out.nav.injEq] at ho
      exact ⟨ho, .inr ⟨ql, q, v, ul, s1, p, hg, hq, hb, hsp, hu, hp, hr, hs⟩⟩

/-- A returned request to a forward response is one move. -/
theorem answer_forwardR {A : Arith k K} {c : Cfg n k K V} {s s' : St n k K} {ct ct' : Content n k K} {r : Resp K}
    (hg : r.goToPrevious = some (.bool false)) (h : answerR A c s ct r = (s', .ok (.nav ct'))) :
    ct' = s'.content ∧ ∃ ql q v ul s1 p, r.ref = some ql ∧
        broadcast k ql = .ok q ∧ r.speed = some v ∧ r.userBounds = some ul ∧
        PreparedR A c s q v s1 p ∧ s.rem ≠ 0 ∧ s' = moveR A c s1 p (toBounds k ul) := by
  obtain ⟨h1, ⟨ul, hg', _⟩ | ⟨ql, q, v, ul, s1, p, _, h2⟩⟩ := answer_navR h
  · rw [hg] at hg'; simp at hg'
  · exact ⟨h1, ql, q, v, ul, s1, p, h2⟩

/-- Every outcome either changes at most the stored speed / reference point / projection and issues
no request, or issues the request describing the new state. -/
theorem answer_effectR {A : Arith k K} {c : Cfg n k K V} {s s' : St n k K} {ct : Content n k K} {r : Resp K}
    {o : Except Err (Out n k K V)} (h : answerR A c s ct r = (s', o)) :
    ((∀ ct', o ≠ .ok (.nav ct')) ∧ s'.content = { s.content with speed := s'.speed } ∧
      ((s'.proj = s.proj ∧ s'.ref = s.ref) ∨ s.rem = 0)) ∨
    ∃ ct', o = .ok (.nav ct') := by
  rcases answer_casesR h with ⟨e, _, rfl, rfl⟩ | ⟨_, _, rfl, rfl⟩ | ⟨ul, _, _, hg, hu, hs, ho⟩ |
    ⟨ql, q, v, ul, _, _, hg, hq, hb, hsp, hu, hf⟩
  · exact .inl ⟨by simp, rfl, .inl ⟨rfl, rfl⟩⟩
  · exact .inl ⟨by simp [stopRequest], rfl, .inl ⟨rfl, rfl⟩⟩
  · exact .inr ⟨_, ho⟩
  · rcases forward_casesR hf with ⟨e, he, h1 | h1 | h1 | h1⟩ | ⟨s1, p, hp, hr, hs, ho⟩
    · obtain ⟨_, rfl⟩ := h1
      exact .inl ⟨by simp [he], rfl, .inl ⟨rfl, rfl⟩⟩
    · obtain ⟨_, _, rfl⟩ := h1
      exact .inl ⟨by simp [he], rfl, .inl ⟨rfl, rfl⟩⟩
    · obtain ⟨_, _, _, rfl⟩ := h1
      exact .inl ⟨by simp [he], rfl, .inl ⟨rfl, rfl⟩⟩
    · obtain ⟨h0, _, p, hp⟩ := h1
      refine .inl ⟨by simp [he], ?_, .inr h0⟩
      obtain ⟨a, b, c', d, e', f, g, i⟩ := hp.eq
      simp [St.content, *]
    · exact .inr ⟨_, ho⟩

section
variable [IsStrictOrderedRing K]

/-- Everything that can happen: `Reached c s l` holds if, starting with `start`, answering any
already issued requests (not only the last one) with any responses - accepted or refused, forwardR,
returning or stopping, also ones on which the code raises - can lead to the state `s`, and `l` are
the requests issued so far, newest first. -/
inductive ReachedR (A : Arith k K) (c : Cfg n k K V) : St n k K → List (Content n k K) → Prop
  | init : ReachedR A c (initSt c) [start (initSt c)]
  | step {s s' : St n k K} {l : List (Content n k K)} {ct : Content n k K} {r : Resp K}
      {o : Except Err (Out n k K V)} : ReachedR A c s l → ct ∈ l → answerR A c s ct r = (s', o) →
      ReachedR A c s' (issued o ++ l)

/-- A property of the shown data that does not depend on the speed is an invariant if it holds at the
start and is preserved by moving. -/
theorem ReachedR.induct {A : Arith k K} {c : Cfg n k K V} {P : Content n k K → Prop}
    (hspeed : ∀ (ct : Content n k K) v, P ct → P { ct with speed := v })
    (huser : ∀ (ct : Content n k K) u, P ct → P { ct with userBounds := u })
    (h0 : P (start (initSt c)))
    (hmove : ∀ (s1 : St n k K) p u, P s1.content → P (moveR A c s1 p u).content)
    {s : St n k K} {l : List (Content n k K)} (h : ReachedR A c s l) :
    P s.content ∧ ∀ ct ∈ l, P ct := by
  induction h with
  | init => exact ⟨h0, by simpa using h0⟩
  | @step s s' l ct r o hr hmem ha ih =>
    rcases answer_effectR ha with ⟨hno, hs, _⟩ | ⟨ct', rfl⟩
    · refine ⟨by rw [hs]; exact hspeed _ _ ih.1, ?_⟩
      intro ct1 h1
      rw [List.mem_append] at h1
      rcases h1 with h1 | h1
      · unfold issued at h1
        split at h1
        · rename_i ct2; exact absurd rfl (hno ct2)
        · simp at h1
      · exact ih.2 _ h1
    · have key : P s'.content := by
        obtain ⟨_, ⟨ul, _, _, hs⟩ | ⟨ql, q, v, ul, s1, p, _, _, _, _, _, hp, hr', hs⟩⟩ := answer_navR ha
        · have := huser _ (toBounds k ul) (hspeed _ s.speed (ih.2 ct hmem))
          rw [hs]; exact this
        · rw [hs]
          apply hmove
          obtain ⟨a1, a2, a3, a4, a5, a6, a7, a8⟩ := hp.eq
          have := hspeed _ s1.speed ih.1
          have e : s1.content = { s.content with speed := s1.speed } := by
            simp [St.content, *]
          rw [e]; exact this
      refine ⟨key, ?_⟩
      intro ct1 h1
      simp only [issued, List.singleton_append, List.mem_cons] at h1
      rcases h1 with rfl | h1
      · rw [(answer_navR ha).1]; exact key
      · exact ih.2 _ h1

/-- The newest request shows the state (up to the stored speed). -/
theorem ReachedR.head {A : Arith k K} {c : Cfg n k K V} {s : St n k K} {ct : Content n k K} {l : List (Content n k K)}
    (h : ReachedR A c s (ct :: l)) : s.content = { ct with speed := s.speed } := by
  generalize hl : ct :: l = L at h
  induction h generalizing ct l with
  | init =>
    simp only [List.cons.injEq] at hl
    obtain ⟨rfl, _⟩ := hl
    rfl
  | @step s s' l' ct1 r o hr hmem ha ih =>
    rcases answer_effectR ha with ⟨hno, hs, _⟩ | ⟨ct', rfl⟩
    · have hi : issued o = [] := by
        unfold issued
        split
        · rename_i ct2; exact absurd rfl (hno ct2)
        · rfl
      rw [hi, List.nil_append] at hl
      rw [hs, ih hl]
    · simp only [issued, List.singleton_append, List.cons.injEq] at hl
      rw [hl.1, (answer_navR ha).1]
      rfl

end

end Verif.Navigator
