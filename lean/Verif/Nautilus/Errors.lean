import Verif.Nautilus.Lemmas
import Mathlib.Tactic.Tauto

set_option linter.unusedSectionVars false

/-! Which exceptions accepted responses can raise. -/

namespace Verif.Nautilus

open Exec

variable {K : Type} [Field K] [LinearOrder K] {k m : Nat}

/-- The storage has room for the iterations left. -/
structure Store (s : St k m K) : Prop where
  x : s.xs.length = s.zs.length
  f : s.fs.length = s.zs.length
  step : 1 ≤ s.step
  room : s.step + 1 ≤ s.zs.length
  left : 0 ≤ s.left
  leftRoom : s.step + s.left + 1 ≤ s.zs.length

/-- What an exception is allowed to be and to leave behind. -/
def Bad (e : Err) (s : St k m K) : Prop := Store s ∧ e ≠ .indexError

theorem Store.setZ {s : St k m K} (h : Store s) (i : Nat) (v : Option (Vec k K)) :
    Store { s with zs := s.zs.set i v } := by
  obtain ⟨h1, h2, h3, h4, h5, h6⟩ := h
  exact ⟨by simpa using h1, by simpa using h2, h3, by simpa using h4, h5, by simpa using h6⟩

theorem Store.setX {s : St k m K} (h : Store s) (i : Nat) (v : Option (Vec m K)) :
    Store { s with xs := s.xs.set i v } := by
  obtain ⟨h1, h2, h3, h4, h5, h6⟩ := h
  exact ⟨by simpa using h1, h2, h3, h4, h5, h6⟩

theorem Store.setF {s : St k m K} (h : Store s) (i : Nat) (v : Option (Vec k K)) :
    Store { s with fs := s.fs.set i v } := by
  obtain ⟨h1, h2, h3, h4, h5, h6⟩ := h
  exact ⟨h1, by simpa using h2, h3, h4, h5, h6⟩

theorem factors_error {c : Cfg k m K} {meth : Int} {info : List K} {arr : Bool} {e : Err}
    (h : factors c meth info arr = .error e) : e = .typeError ∧ meth ≠ 1 ∧ arr = false := by
  unfold factors at h
  split at h
  · simp at h
  · split at h
    · simp at h
    · rename_i h1 h2
      simp only [Except.error.injEq] at h
      exact ⟨h.symm, h1, by simpa using h2⟩

theorem triple_getZ {t : St k m K} {i : Nat} (hi : i ≤ t.step) :
    Triple (fun s : St k m K => Store s ∧ s.step = t.step) (getZ i)
      (fun _ s => Store s ∧ s.step = t.step) Bad := by
  intro s ⟨hs, ht⟩
  have := hs.room
  refine ⟨fun s' a h => ?_, fun s' e h => ?_⟩
  · obtain ⟨rfl, _⟩ := getZ_ok.1 h
    exact ⟨hs, ht⟩
  · obtain ⟨rfl, h | h⟩ := getZ_error.1 h
    · omega
    · exact ⟨hs, by rw [h.2]; simp⟩

theorem triple_getF {t : St k m K} {i : Nat} (hi : i ≤ t.step) :
    Triple (fun s : St k m K => Store s ∧ s.step = t.step) (getF i)
      (fun _ s => Store s ∧ s.step = t.step) Bad := by
  intro s ⟨hs, ht⟩
  have := hs.room
  have := hs.f
  refine ⟨fun s' a h => ?_, fun s' e h => ?_⟩
  · obtain ⟨rfl, _⟩ := getF_ok.1 h
    exact ⟨hs, ht⟩
  · obtain ⟨rfl, h | h⟩ := getF_error.1 h
    · omega
    · exact ⟨hs, by rw [h.2]; simp⟩

theorem triple_readX {t : St k m K} {i : Nat} (hi : i ≤ t.step) :
    Triple (fun s : St k m K => Store s ∧ s.step = t.step) (readX i)
      (fun _ s => Store s ∧ s.step = t.step) Bad := by
  intro s ⟨hs, ht⟩
  have := hs.room
  have := hs.x
  refine ⟨fun s' a h => ?_, fun s' e h => ?_⟩
  · obtain ⟨rfl, _⟩ := readX_ok.1 h
    exact ⟨hs, ht⟩
  · obtain ⟨rfl, h⟩ := readX_error.1 h
    omega

theorem triple_readF {t : St k m K} {i : Nat} (hi : i ≤ t.step) :
    Triple (fun s : St k m K => Store s ∧ s.step = t.step) (readF i)
      (fun _ s => Store s ∧ s.step = t.step) Bad := by
  intro s ⟨hs, ht⟩
  have := hs.room
  have := hs.f
  refine ⟨fun s' a h => ?_, fun s' e h => ?_⟩
  · obtain ⟨rfl, _⟩ := readF_ok.1 h
    exact ⟨hs, ht⟩
  · obtain ⟨rfl, h⟩ := readF_error.1 h
    omega

theorem triple_setZ {t : St k m K} {i : Nat} {v : Vec k K} (hi : i ≤ t.step) :
    Triple (fun s : St k m K => Store s ∧ s.step = t.step) (setZ i v)
      (fun _ s => Store s ∧ s.step = t.step) Bad := by
  intro s ⟨hs, ht⟩
  have := hs.room
  refine ⟨fun s' a h => ?_, fun s' e h => ?_⟩
  · obtain ⟨_, rfl⟩ := setZ_ok.1 h
    exact ⟨hs.setZ _ _, ht⟩
  · obtain ⟨h, _⟩ := setZ_error.1 h
    omega

theorem triple_setX {t : St k m K} {i : Nat} {v : Option (Vec m K)} (hi : i ≤ t.step) :
    Triple (fun s : St k m K => Store s ∧ s.step = t.step) (setX i v)
      (fun _ s => Store s ∧ s.step = t.step) Bad := by
  intro s ⟨hs, ht⟩
  have := hs.room
  have := hs.x
  refine ⟨fun s' a h => ?_, fun s' e h => ?_⟩
  · obtain ⟨_, rfl⟩ := setX_ok.1 h
    exact ⟨hs.setX _ _, ht⟩
  · obtain ⟨h, _⟩ := setX_error.1 h
    omega

theorem triple_setF {t : St k m K} {i : Nat} {v : Option (Vec k K)} (hi : i ≤ t.step) :
    Triple (fun s : St k m K => Store s ∧ s.step = t.step) (setF i v)
      (fun _ s => Store s ∧ s.step = t.step) Bad := by
  intro s ⟨hs, ht⟩
  have := hs.room
  have := hs.f
  refine ⟨fun s' a h => ?_, fun s' e h => ?_⟩
  · obtain ⟨_, rfl⟩ := setF_ok.1 h
    exact ⟨hs.setF _ _, ht⟩
  · obtain ⟨h, _⟩ := setF_error.1 h
    omega

theorem triple_get :
    Triple (Store (k := k) (m := m) (K := K)) Exec.get (fun t s => Store s ∧ s.step = t.step) Bad :=
  Triple.get.weaken (fun _ h => h) (fun a s h => ⟨h.1, by rw [h.2]⟩) (fun _ _ h => h)

theorem triple_solveNew (c : Cfg k m K) (orc : Oracle k m K) (meth : Int) (info : List K) (arr : Bool) :
    Triple Store (solveNew c orc meth info arr) (fun _ s => Store s) Bad := by
  unfold solveNew
  refine Triple.bind (Triple.lift (Q := fun _ s => Store s) (fun s h _ _ => h) ?_) fun w => ?_
  · intro s hs e he
    exact ⟨hs, by rw [(factors_error he).1]; simp⟩
  refine Triple.bind triple_get fun t => ?_
  refine Triple.bind (triple_getZ (by omega)) fun q => ?_
  refine Triple.bind (triple_setX le_rfl) fun _ => ?_
  exact (triple_setF le_rfl).weaken (fun _ h => h) (fun _ _ h => h.1) (fun _ _ h => h)

theorem triple_movePoint (c : Cfg k m K) (orc : Oracle k m K) :
    Triple Store (movePoint c orc) (fun _ s => Store s) Bad := by
  unfold movePoint
  refine Triple.bind triple_get fun t => ?_
  refine Triple.bind (triple_getZ (by omega)) fun q => ?_
  refine Triple.bind (triple_getF le_rfl) fun f => ?_
  refine Triple.bind (triple_setZ le_rfl) fun _ => ?_
  exact Triple.pure fun s h => h.1

theorem triple_shortStep (c : Cfg k m K) (orc : Oracle k m K) :
    Triple Store (shortStep c orc) (fun _ s => Store s) Bad := by
  unfold shortStep
  refine Triple.bind triple_get fun t => ?_
  refine Triple.bind (triple_getZ le_rfl) fun q => ?_
  refine Triple.bind (triple_getZ (by omega)) fun q => ?_
  refine Triple.bind (triple_setZ le_rfl) fun _ => ?_
  refine Triple.bind (triple_getF le_rfl) fun f => ?_
  exact Triple.pure fun s h => h.1

theorem triple_forward (c : Cfg k m K) (r : Resp K) (orc : Oracle k m K) :
    Triple (fun s => Store s ∧ 1 < s.left) (forward c r orc) (fun _ s => Store s) Bad := by
  unfold forward
  refine Triple.bind (Triple.modify (Q := fun _ s => Store s) ?_) fun _ => ?_
  · intro s ⟨hs, hl⟩
    obtain ⟨h1, h2, h3, h4, h5, h6⟩ := hs
    refine ⟨h1, h2, ?_, ?_, ?_, ?_⟩ <;> simp <;> omega
  · split
    · exact Triple.raise fun s h => ⟨h, by simp⟩
    · refine Triple.bind triple_get fun t => ?_
      refine Triple.bind (triple_readX (by omega)) fun q => ?_
      refine Triple.bind (triple_setX le_rfl) fun _ => ?_
      refine Triple.bind (triple_readF (by omega)) fun f => ?_
      refine Triple.bind (triple_setF le_rfl) fun f => ?_
      exact (triple_movePoint c orc).weaken (fun _ h => h.1) (fun _ _ h => h) (fun _ _ h => h)
    · exact Triple.bind (triple_solveNew _ _ _ _ _) fun _ => triple_movePoint c orc
    · exact Triple.raise fun s h => ⟨h, by simp⟩

theorem triple_goBack (c : Cfg k m K) (r : Resp K) (orc : Oracle k m K) :
    Triple Store (goBack c r orc) (fun _ s => Store s) Bad := by
  unfold goBack
  split
  · exact Triple.raise fun s h => ⟨h, by simp⟩
  · exact triple_shortStep c orc
  · split
    · exact Triple.raise fun s h => ⟨h, by simp⟩
    · exact Triple.pure fun s h => h
    · exact Triple.bind (triple_solveNew _ _ _ _ _) fun _ => triple_movePoint c orc
    · exact Triple.raise fun s h => ⟨h, by simp⟩

/-- The storage after changing the number of iterations: there is room, and `left` may be negative. -/
theorem Store.changeN {s : St k m K} (h : Store s) (n : Option PyVal) :
    (changeN s n).xs.length = (changeN s n).zs.length ∧
    (changeN s n).fs.length = (changeN s n).zs.length ∧
    1 ≤ (changeN s n).step ∧ (changeN s n).step + 1 ≤ (changeN s n).zs.length ∧
    (changeN s n).step + (changeN s n).left + 1 ≤ (changeN s n).zs.length := by
  obtain ⟨h1, h2, h3, h4, h5, h6⟩ := h
  unfold Nautilus.changeN
  split
  · exact ⟨h1, h2, h3, h4, h6⟩
  · simp only [List.length_append, slots_length]
    refine ⟨?_, ?_, ?_, ?_, ?_⟩ <;> omega

theorem triple_handleNav (c : Cfg k m K) (r : Resp K) (orc : Oracle k m K) :
    Triple Store (handleNav c r orc) (fun _ s => Store s) Bad := by
  intro s hs
  obtain ⟨h1, h2, h3, h4, h5⟩ := hs.changeN r.nIterations
  unfold handleNav
  rw [modify_bind, get_bind]
  generalize changeN s r.nIterations = s1 at *
  split
  · have hs0 : Store { s1 with left := 0 } := ⟨h1, h2, h3, h4, le_rfl, by simp; omega⟩
    have T : Triple (fun s : St k m K => Store s ∧ s.step = ({ s1 with left := 0 } : St k m K).step)
        (do
          let x ← readX s1.step
          let f ← readF s1.step
          pure (some (Req.stop x f))) (fun _ s => Store s) Bad := by
      refine Triple.bind (triple_readX (t := { s1 with left := 0 }) le_rfl) fun x => ?_
      refine Triple.bind (triple_readF (t := { s1 with left := 0 }) le_rfl) fun f => ?_
      exact Triple.pure fun s h => h.1
    rw [modify_bind]
    exact T _ ⟨hs0, rfl⟩
  · rename_i hl
    have hs1 : Store s1 := ⟨h1, h2, h3, h4, by omega, h5⟩
    cases r.stepBack with
    | none => exact (Triple.raise fun s h => ⟨h, by simp⟩ : Triple Store _ _ _) s1 hs1
    | some b =>
      cases b with
      | false => exact triple_forward c r orc s1 ⟨hs1, not_le.1 hl⟩
      | true => exact triple_goBack c r orc s1 hs1

/-- Answering any later request keeps room in the storage and never raises `IndexError`. -/
theorem answer_store {c : Cfg k m K} {orc : Oracle k m K} {s s' : St k m K} {req : Req k m K}
    {r : Resp K} {o : Except Err (Option (Req k m K))} (hs : Store s) (hreq : req ≠ .initial)
    (h : answer c s req r orc = (s', o)) : Store s' ∧ o ≠ .error .indexError := by
  unfold answer at h
  split at h
  · rename_i e he
    simp only [Prod.mk.injEq] at h
    obtain ⟨rfl, rfl⟩ := h
    refine ⟨hs, ?_⟩
    simp only [ne_eq, Except.error.injEq]
    rintro rfl
    cases req with
    | initial => exact hreq rfl
    | nav z lo up d =>
      simp only [validate, validateNav] at he
      split at he
      · simp at he
      · split at he
        · simp at he
        · split at he
          · simp at he
          · split at he
            · rename_i e2 he2
              simp only [Except.error.injEq] at he
              subst he
              split at he2
              · simp at he2
              · simp only [validatePreferences, pyMax] at he2
                repeat' split at he2
                all_goals first
                  | (simp at he2; done)
                  | (rename_i h3; simp only [Except.error.injEq] at he2; subst he2
                     have := (npMax_error_iff _ _).1 h3; simp_all)
            · simp only [validateN] at he
              repeat' split at he
              all_goals simp at he
    | stop x f => simp [validate] at he
  · unfold iterate at h
    cases req with
    | initial => exact absurd rfl hreq
    | nav z lo up d =>
      rcases o with e | a
      · obtain ⟨h1, h2⟩ := (triple_handleNav c r orc s hs).2 s' e h
        exact ⟨h1, by simpa using h2⟩
      · exact ⟨(triple_handleNav c r orc s hs).1 s' a h, by simp⟩
    | stop x f =>
      simp only [pure_run, Prod.mk.injEq] at h
      obtain ⟨rfl, rfl⟩ := h
      exact ⟨hs, by simp⟩

end Verif.Nautilus
