import Verif.Rpm.Props

set_option linter.unusedSectionVars false

/-!
# Reference point method: C95 (failed calls), C96 (starting over)
-/

namespace Verif.Rpm

variable {K : Type} [Field K] [LinearOrder K] {k : Nat} {X D : Type}

/-! ### C95 -/

/-- **C95** (reference point method). In every history, a call that raises - a refused response or an
exception in `iterate` - leaves the method as it was. -/
theorem C95_failed_call {c : Cfg k X D K} {G : Oracle k D K → Prop} {s s' : St k X K}
    {iss : List (Req k X K)} {req : Req k X K} {r : Resp K} {orc : Oracle k D K} {e : Err}
    (hR : Reached c G s iss) (ha : answer c s req r orc = (s', .error e)) : s' = s := by
  rcases answer_same hR.store ha with ⟨f, a, h⟩ | ⟨h, _⟩
  · simp at h
  · exact h

/-- An accepted response that raises, in the example. -/
theorem ex_raises : answer exCfg exS2 exR2 { satisfied := some true, index := some (.float 1) } exOrc =
    (exS2, .error .typeError) := eq_of_beq (by decide +kernel)

example := C95_failed_call (ex_reached2 (G := Exact exCfg) exOrc_exact) ex_raises

/-! ### C96 -/

/-- What the decision maker sees who always answers the newest request; after an exception the same
request is answered again. -/
def play (c : Cfg k X D K) (s : St k X K) (req : Req k X K) :
    List (Resp K × Oracle k D K) → List (Except Err (Option (Req k X K)))
  | [] => []
  | (r, orc) :: rest =>
    (answer c s req r orc).2 ::
      play c (answer c s req r orc).1
        (match (answer c s req r orc).2 with
          | .ok (some q) => q
          | _ => req) rest

/-- Two states with the same current entry. -/
structure Alike (s t : St k X K) : Prop where
  left : Store s
  right : Store t
  x : s.xs[s.h]? = t.xs[t.h]?
  f : s.fs[s.h]? = t.fs[t.h]?
  ax : s.axs[s.h]? = t.axs[t.h]?
  af : s.afs[s.h]? = t.afs[t.h]?

theorem solved_alike (c : Cfg k X D K) (orc : Oracle k D K) (q : Vec k K) {s t : St k X K} (hs : Store s)
    (ht : Store t) : Alike (solved c orc q s) (solved c orc q t) := by
  refine ⟨solved_store hs, solved_store ht, ?_, ?_, ?_, ?_⟩ <;>
  · obtain ⟨a, b, d, e, f, g, h⟩ := hs
    obtain ⟨a', b', d', e', f', g', h'⟩ := ht
    dsimp only [solved]
    rw [set_get (by omega), set_get (by omega)]

theorem choose_alike {s t : St k X K} (h : Alike s t) (v : PyVal) : (choose v s).2 = (choose v t).2 := by
  have hr : ∀ {α : Type} {l l' : List (Option α)} {i j : Nat}, l[i]? = l'[j]? → slotRead l i = slotRead l' j := by
    intro α l l' i j h
    simp only [slotRead, h]
  have hg : ∀ {α : Type} {l l' : List (Option α)} {i j : Nat}, l[i]? = l'[j]? → slotGet l i = slotGet l' j := by
    intro α l l' i j h
    simp only [slotGet, h]
  unfold choose
  rw [Exec.get_bind, Exec.get_bind]
  split
  · have hx := hr h.x
    have hf := hr h.f
    simp only [look, Bind.bind, Exec.bind, hx]
    rcases slotRead t.xs t.h with e | x
    · rfl
    · simp only [hf]
      rcases slotRead t.fs t.h with e | x <;> rfl
  · have hx := hg h.ax
    have hf := hg h.af
    simp only [take, Bind.bind, Exec.bind, Exec.lift, hx]
    rcases slotGet t.axs t.h with e | x
    · rfl
    · dsimp only
      rcases entry x v with e | y
      · rfl
      · dsimp only
        rw [hf]
        rcases slotGet t.afs t.h with e | z
        · rfl
        · dsimp only
          rcases entry z v with e | w <;> rfl

/-- Answering in two states with enough storage: the same result, except for the choice of a solution,
which needs the same current entry; and the same current entry afterwards. -/
theorem answer_alike {c : Cfg k X D K} {orc : Oracle k D K} {s t : St k X K} {req : Req k X K} {r : Resp K}
    (hs : Store s) (ht : Store t) (h : req = .initial ∨ Alike s t) :
    (answer c s req r orc).2 = (answer c t req r orc).2 ∧
    ((∃ q, (answer c s req r orc).2 = .ok (some q)) ∨ Alike s t →
      Alike (answer c s req r orc).1 (answer c t req r orc).1) ∧
    Store (answer c s req r orc).1 ∧ Store (answer c t req r orc).1 := by
  unfold answer
  cases hv : validate c req r with
  | error e =>
    refine ⟨rfl, ?_, hs, ht⟩
    rintro (⟨q, hq⟩ | h')
    · simp at hq
    · exact h'
  | ok u =>
    dsimp only
    cases req with
    | initial =>
      simp only [iterate, handleInitial]
      cases r.ref with
      | none =>
        refine ⟨rfl, ?_, hs, ht⟩
        rintro (⟨q, hq⟩ | h')
        · simp [Exec.raise] at hq
        · exact h'
      | some l =>
        simp only [solve_eq hs, solve_eq ht]
        exact ⟨trivial, fun _ => solved_alike c orc _ hs ht, solved_store hs, solved_store ht⟩
    | stop x f =>
      have h' : Alike s t := by simpa using h
      exact ⟨rfl, fun _ => h', hs, ht⟩
    | nav f a =>
      have h' : Alike s t := by simpa using h
      simp only [iterate, handleNav]
      by_cases hsat : r.satisfied = some true
      · simp only [if_pos hsat]
        cases r.index with
        | none => exact ⟨rfl, fun _ => h', hs, ht⟩
        | some v =>
          dsimp only
          rw [choose_state, choose_state]
          exact ⟨choose_alike h' v, fun _ => h', hs, ht⟩
      · simp only [if_neg hsat]
        have hv' : validateNav c r = .ok () := hv
        unfold validateNav at hv'
        rw [if_neg hsat] at hv'
        cases hl : r.ref with
        | none => simp [hl] at hv'
        | some l =>
          dsimp only
          rw [Exec.modify_bind, Exec.modify_bind, Exec.modify_bind, Exec.modify_bind, solve_eq (expand_store hs),
            solve_eq (expand_store ht)]
          exact ⟨rfl, fun _ => solved_alike c orc _ (expand_store hs) (expand_store ht),
            solved_store (expand_store hs), solved_store (expand_store ht)⟩

theorem play_alike (c : Cfg k X D K) (rs : List (Resp K × Oracle k D K)) : ∀ {s t : St k X K} {req : Req k X K},
    Store s → Store t → (req = .initial ∨ Alike s t) → play c s req rs = play c t req rs := by
  induction rs with
  | nil => intros; rfl
  | cons p rest ih =>
    intro s t req hs ht h
    obtain ⟨r, orc⟩ := p
    obtain ⟨h1, h2, h3, h4⟩ := answer_alike (c := c) (orc := orc) (r := r) hs ht h
    simp only [play]
    rw [h1]
    congr 1
    refine ih h3 h4 ?_
    split
    · rename_i q hq
      exact .inr (h2 (.inl ⟨q, h1.trans hq⟩))
    · rcases h with h | h
      · exact .inl h
      · exact .inr (h2 (.inr h))

/-- **C96** (reference point method). In every history, answering the initial request again starts over:
whatever the decision maker answers from then on, always answering the newest request, every request and
every exception is the one a newly constructed method gives. -/
theorem C96_restart {c : Cfg k X D K} {G : Oracle k D K → Prop} {s : St k X K} {iss : List (Req k X K)}
    (hR : Reached c G s iss) (rs : List (Resp K × Oracle k D K)) :
    play c s .initial rs = play c St.init .initial rs :=
  play_alike c rs hR.store init_store (.inl rfl)

/-- **C96**, memory. In every history and for every issued request that is not the stop request, what is
shown for a new reference point depends on that reference point and the minimizers only. -/
theorem C96_memoryless {c : Cfg k X D K} {G : Oracle k D K → Prop} {s : St k X K} {iss : List (Req k X K)}
    (hR : Reached c G s iss) {f : Vec k K} {a : Fin k → Vec k K} {r : Resp K}
    (hsat : r.satisfied ≠ some true) (orc : Oracle k D K) :
    (answer c s (.nav f a) r orc).2 = (answer c St.init .initial r orc).2 := by
  unfold answer
  have hv : validate c (.nav f a : Req k X K) r = validate c .initial r := by
    simp only [validate, validateNav, validateInitial, if_neg hsat]
  rw [hv]
  cases hv' : validate c (.initial : Req k X K) r with
  | error e => rfl
  | ok u =>
    simp only [iterate, handleNav, handleInitial, if_neg hsat]
    cases hl : r.ref with
    | none => simp [validate, validateInitial, hl] at hv'
    | some l =>
      dsimp only
      rw [Exec.modify_bind, Exec.modify_bind, solve_eq (expand_store hR.store), solve_eq init_store]

/-- In the example the restarted method and the new one show the same, and something else than before. -/
example : play exCfg exS2 .initial [(exFirst, exOrc), (exPick 1, exOrc)] =
    [.ok (some exR1), .ok (some (.stop (some 1) (some ![-3, -2])))] ∧ exR1 ≠ exR2 :=
  ⟨eq_of_beq (by decide +kernel), by
    rw [exR1_eq, exR2_eq]
    intro h
    simp only [Req.nav.injEq] at h
    exact absurd (congrFun (congrFun h.2 0) 0) (by decide +kernel)⟩

example := C96_restart (ex_reached2 (G := Exact exCfg) exOrc_exact) [(exFirst, exOrc), (exPick 1, exOrc)]
example := C96_memoryless (ex_reached2 (G := Exact exCfg) exOrc_exact) (f := ![0, 0]) (a := fun _ => ![0, 0])
  (r := exNext) (by simp [exNext]) exOrc

end Verif.Rpm
