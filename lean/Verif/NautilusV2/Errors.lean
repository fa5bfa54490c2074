import Verif.NautilusV2.Lemmas
import Mathlib.Tactic.Tauto

set_option linter.unusedSectionVars false

/-! Which exceptions accepted responses can raise. -/

namespace Verif.NautilusV2

open Exec

variable {K : Type} [Field K] [LinearOrder K] {k m : Nat}

/-- The storage has room for the iterations left. -/
structure Store (s : St k m K) : Prop where
  x : s.xs.length = s.zs.length
  f : s.fs.length = s.zs.length
  b : s.bs.length = s.zs.length
  step : 1 ≤ s.step
  room : s.step + 2 ≤ s.zs.length
  left : 0 ≤ s.left
  leftRoom : s.step + s.left + 1 ≤ s.zs.length
  total : s.n + 2 ≤ s.zs.length

/-- What an exception is allowed to be and to leave behind. -/
def Bad (e : Err) (s : St k m K) : Prop := Store s ∧ e ≠ .indexError

theorem Store.setZ {s : St k m K} (h : Store s) (i : Nat) (v : Option (Vec k K)) :
    Store { s with zs := s.zs.set i v } := by
  obtain ⟨h1, h2, h2', h3, h4, h5, h6, h7⟩ := h
  exact ⟨by simpa using h1, by simpa using h2, by simpa using h2', h3, by simpa using h4, h5,
    by simpa using h6, by simpa using h7⟩

theorem Store.setX {s : St k m K} (h : Store s) (i : Nat) (v : Option (Vec m K)) :
    Store { s with xs := s.xs.set i v } := by
  obtain ⟨h1, h2, h2', h3, h4, h5, h6, h7⟩ := h
  exact ⟨by simpa using h1, h2, h2', h3, h4, h5, h6, h7⟩

theorem Store.setF {s : St k m K} (h : Store s) (i : Nat) (v : Option (Vec k K)) :
    Store { s with fs := s.fs.set i v } := by
  obtain ⟨h1, h2, h2', h3, h4, h5, h6, h7⟩ := h
  exact ⟨h1, by simpa using h2, h2', h3, h4, h5, h6, h7⟩

theorem Store.setB {s : St k m K} (h : Store s) (i : Nat) (v : Option (Vec k K)) :
    Store { s with bs := s.bs.set i v } := by
  obtain ⟨h1, h2, h2', h3, h4, h5, h6, h7⟩ := h
  exact ⟨h1, h2, by simpa using h2', h3, h4, h5, h6, h7⟩

theorem doiLoop_diverges {miss : List Int} {l : List (Pair K)} {fuel : Nat} {d : Vec k K} {e : Err}
    (h : doiLoop miss l fuel d = .error e) : e = .diverges := by
  induction fuel generalizing d with
  | zero =>
    unfold doiLoop at h
    split at h
    · simpa using h.symm
    · simp at h
  | succ fuel ih =>
    unfold doiLoop at h
    split at h
    · exact ih h
    · simp at h

theorem factors_error {meth : Int} {info : Pref K} {e : Err}
    (h : factors k meth info = .error e) : e ≠ .indexError := by
  unfold factors at h
  split at h
  · split at h
    · simp at h
    · simp only [Except.error.injEq] at h; rw [← h]; simp
  · split at h
    · rw [doiLoop_diverges h]; simp
    · simp only [Except.error.injEq] at h; rw [← h]; simp
  · simp only [Except.error.injEq] at h; rw [← h]; simp

theorem triple_getZ {t : St k m K} {i : Nat} (hi : i ≤ t.step) :
    Triple (fun s : St k m K => Store s ∧ s.step = t.step) (getZ i)
      (fun _ s => Store s ∧ s.step = t.step) Bad := by
  intro s ⟨hs, ht⟩
  have := hs.room
  refine ⟨fun s' a h => ?_, fun s' e h => ?_⟩
  · obtain ⟨rfl, _⟩ := getZ_ok.1 h
    exact ⟨hs, ht⟩
  · obtain ⟨rfl, h | h⟩ := getZ_error.1 h
    · omega
    · exact ⟨hs, by rw [h.2]; simp⟩

theorem triple_getF {t : St k m K} {i : Nat} (hi : i ≤ t.step) :
    Triple (fun s : St k m K => Store s ∧ s.step = t.step) (getF i)
      (fun _ s => Store s ∧ s.step = t.step) Bad := by
  intro s ⟨hs, ht⟩
  have := hs.room
  have := hs.f
  refine ⟨fun s' a h => ?_, fun s' e h => ?_⟩
  · obtain ⟨rfl, _⟩ := getF_ok.1 h
    exact ⟨hs, ht⟩
  · obtain ⟨rfl, h | h⟩ := getF_error.1 h
    · omega
    · exact ⟨hs, by rw [h.2]; simp⟩

theorem triple_readX {t : St k m K} {i : Nat} (hi : i ≤ t.step) :
    Triple (fun s : St k m K => Store s ∧ s.step = t.step) (readX i)
      (fun _ s => Store s ∧ s.step = t.step) Bad := by
  intro s ⟨hs, ht⟩
  have := hs.room
  have := hs.x
  refine ⟨fun s' a h => ?_, fun s' e h => ?_⟩
  · obtain ⟨rfl, _⟩ := readX_ok.1 h
    exact ⟨hs, ht⟩
  · obtain ⟨rfl, h⟩ := readX_error.1 h
    omega

theorem triple_readF {t : St k m K} {i : Nat} (hi : i ≤ t.step) :
    Triple (fun s : St k m K => Store s ∧ s.step = t.step) (readF i)
      (fun _ s => Store s ∧ s.step = t.step) Bad := by
  intro s ⟨hs, ht⟩
  have := hs.room
  have := hs.f
  refine ⟨fun s' a h => ?_, fun s' e h => ?_⟩
  · obtain ⟨rfl, _⟩ := readF_ok.1 h
    exact ⟨hs, ht⟩
  · obtain ⟨rfl, h⟩ := readF_error.1 h
    omega

theorem triple_setZ {t : St k m K} {i : Nat} {v : Vec k K} (hi : i ≤ t.step) :
    Triple (fun s : St k m K => Store s ∧ s.step = t.step) (setZ i v)
      (fun _ s => Store s ∧ s.step = t.step) Bad := by
  intro s ⟨hs, ht⟩
  have := hs.room
  refine ⟨fun s' a h => ?_, fun s' e h => ?_⟩
  · obtain ⟨_, rfl⟩ := setZ_ok.1 h
    exact ⟨hs.setZ _ _, ht⟩
  · obtain ⟨h, _⟩ := setZ_error.1 h
    omega

theorem triple_setX {t : St k m K} {i : Nat} {v : Option (Vec m K)} (hi : i ≤ t.step) :
    Triple (fun s : St k m K => Store s ∧ s.step = t.step) (setX i v)
      (fun _ s => Store s ∧ s.step = t.step) Bad := by
  intro s ⟨hs, ht⟩
  have := hs.room
  have := hs.x
  refine ⟨fun s' a h => ?_, fun s' e h => ?_⟩
  · obtain ⟨_, rfl⟩ := setX_ok.1 h
    exact ⟨hs.setX _ _, ht⟩
  · obtain ⟨h, _⟩ := setX_error.1 h
    omega

theorem triple_setF {t : St k m K} {i : Nat} {v : Option (Vec k K)} (hi : i ≤ t.step) :
    Triple (fun s : St k m K => Store s ∧ s.step = t.step) (setF i v)
      (fun _ s => Store s ∧ s.step = t.step) Bad := by
  intro s ⟨hs, ht⟩
  have := hs.room
  have := hs.f
  refine ⟨fun s' a h => ?_, fun s' e h => ?_⟩
  · obtain ⟨_, rfl⟩ := setF_ok.1 h
    exact ⟨hs.setF _ _, ht⟩
  · obtain ⟨h, _⟩ := setF_error.1 h
    omega

theorem triple_setB {t : St k m K} {i : Nat} {v : Vec k K} (hi : i ≤ t.step + 1) :
    Triple (fun s : St k m K => Store s ∧ s.step = t.step) (setB i v)
      (fun _ s => Store s ∧ s.step = t.step) Bad := by
  intro s ⟨hs, ht⟩
  have := hs.room
  have := hs.b
  refine ⟨fun s' a h => ?_, fun s' e h => ?_⟩
  · obtain ⟨_, rfl⟩ := setB_ok.1 h
    exact ⟨hs.setB _ _, ht⟩
  · obtain ⟨h, _⟩ := setB_error.1 h
    omega

theorem triple_get :
    Triple (Store (k := k) (m := m) (K := K)) Exec.get (fun t s => Store s ∧ s.step = t.step) Bad :=
  Triple.get.weaken (fun _ h => h) (fun a s h => ⟨h.1, by rw [h.2]⟩) (fun _ _ h => h)

theorem triple_solveWith (c : Cfg k m K) (orc : Oracle k m K) (w : Vec k K) :
    Triple Store (solveWith c orc w) (fun _ s => Store s) Bad := by
  unfold solveWith
  refine Triple.bind triple_get fun t => ?_
  refine Triple.bind (triple_getZ (by omega)) fun q => ?_
  refine Triple.bind (triple_setX le_rfl) fun _ => ?_
  exact (triple_setF le_rfl).weaken (fun _ h => h) (fun _ _ h => h.1) (fun _ _ h => h)

theorem triple_factors (meth : Int) (info : Pref K) :
    Triple (Store (k := k) (m := m) (K := K)) (Exec.lift (factors k meth info)) (fun _ s => Store s) Bad :=
  Triple.lift (fun _ h _ _ => h) fun _ hs _ he => ⟨hs, factors_error he⟩

theorem triple_movePoint (c : Cfg k m K) (orc : Oracle k m K) :
    Triple Store (movePoint c orc) (fun _ s => Store s) Bad := by
  unfold movePoint
  refine Triple.bind triple_get fun t => ?_
  refine Triple.bind (triple_getZ (by omega)) fun q => ?_
  refine Triple.bind (triple_getF le_rfl) fun f => ?_
  refine Triple.bind (triple_setZ le_rfl) fun _ => ?_
  refine Triple.bind (triple_setB le_rfl) fun _ => ?_
  exact Triple.pure fun s h => h.1

theorem triple_shortStep (c : Cfg k m K) (orc : Oracle k m K) :
    Triple Store (shortStep c orc) (fun _ s => Store s) Bad := by
  unfold shortStep
  refine Triple.bind triple_get fun t => ?_
  refine Triple.bind (triple_getZ le_rfl) fun q => ?_
  refine Triple.bind (triple_getZ (by omega)) fun q => ?_
  refine Triple.bind (triple_setZ le_rfl) fun _ => ?_
  refine Triple.bind (triple_setB le_rfl) fun _ => ?_
  refine Triple.bind (triple_getF le_rfl) fun f => ?_
  exact Triple.pure fun s h => h.1

theorem triple_forward (c : Cfg k m K) (r : Resp K) (orc : Oracle k m K) :
    Triple (fun s => Store s ∧ 1 < s.left) (forward c r orc) (fun _ s => Store s) Bad := by
  unfold forward
  refine Triple.bind (Triple.modify (Q := fun _ s => Store s) ?_) fun _ => ?_
  · intro s ⟨hs, hl⟩
    obtain ⟨h1, h2, h2', h3, h4, h5, h6, h7⟩ := hs
    refine ⟨h1, h2, h2', ?_, ?_, ?_, ?_, h7⟩ <;> simp <;> omega
  · split
    · exact Triple.raise fun s h => ⟨h, by simp⟩
    · refine Triple.bind triple_get fun t => ?_
      refine Triple.bind (triple_readX (by omega)) fun q => ?_
      refine Triple.bind (triple_setX le_rfl) fun _ => ?_
      refine Triple.bind (triple_readF (by omega)) fun f => ?_
      refine Triple.bind (triple_setF le_rfl) fun f => ?_
      exact (triple_movePoint c orc).weaken (fun _ h => h.1) (fun _ _ h => h) (fun _ _ h => h)
    · exact Triple.bind (triple_factors _ _) fun _ => Triple.bind (triple_solveWith _ _ _) fun _ =>
        triple_movePoint c orc
    · exact Triple.raise fun s h => ⟨h, by simp⟩

theorem triple_goBack (c : Cfg k m K) (r : Resp K) (orc : Oracle k m K) :
    Triple Store (goBack c r orc) (fun _ s => Store s) Bad := by
  unfold goBack
  split
  · exact Triple.raise fun s h => ⟨h, by simp⟩
  · exact triple_shortStep c orc
  · split
    · exact Triple.raise fun s h => ⟨h, by simp⟩
    · exact Triple.pure fun s h => h
    · exact Triple.bind (triple_factors _ _) fun _ => Triple.bind (triple_solveWith _ _ _) fun _ =>
        triple_movePoint c orc
    · exact Triple.raise fun s h => ⟨h, by simp⟩

/-- A new number of iterations that does not exceed what the original plan (or the new number itself)
leaves room for. -/
def Fits (s : St k m K) (n : Option PyVal) : Prop :=
  ∀ v, n = some v → s.step + v.asInt ≤ max s.n v.asInt + 1

theorem Store.changeN {s : St k m K} (h : Store s) {n : Option PyVal} (hn : Fits s n) :
    (changeN s n).xs.length = (changeN s n).zs.length ∧
    (changeN s n).fs.length = (changeN s n).zs.length ∧
    (changeN s n).bs.length = (changeN s n).zs.length ∧
    1 ≤ (changeN s n).step ∧ (changeN s n).step + 2 ≤ (changeN s n).zs.length ∧
    (changeN s n).step + (changeN s n).left + 1 ≤ (changeN s n).zs.length ∧
    (changeN s n).n + 2 ≤ (changeN s n).zs.length := by
  obtain ⟨h1, h2, h2', h3, h4, h5, h6, h7⟩ := h
  unfold NautilusV2.changeN
  cases n with
  | none => exact ⟨h1, h2, h2', h3, h4, h6, h7⟩
  | some v =>
    have := hn v rfl
    simp only [List.length_append, slots_length]
    refine ⟨?_, ?_, ?_, ?_, ?_, ?_, ?_⟩ <;> omega

theorem triple_handleNav (c : Cfg k m K) (r : Resp K) (orc : Oracle k m K) :
    Triple (fun s => Store s ∧ Fits s r.nIterations) (handleNav c r orc) (fun _ s => Store s) Bad := by
  intro s ⟨hs, hn⟩
  obtain ⟨h1, h2, h2', h3, h4, h5, h6⟩ := hs.changeN hn
  unfold handleNav
  rw [modify_bind, get_bind]
  generalize changeN s r.nIterations = s1 at *
  split
  · have hs0 : Store { s1 with left := 0 } := ⟨h1, h2, h2', h3, h4, le_rfl, by simp; omega, h6⟩
    have T : Triple (fun s : St k m K => Store s ∧ s.step = ({ s1 with left := 0 } : St k m K).step)
        (do
          let x ← readX s1.step
          let f ← readF s1.step
          pure (some (Req.stop x f))) (fun _ s => Store s) Bad := by
      refine Triple.bind (triple_readX (t := { s1 with left := 0 }) le_rfl) fun x => ?_
      refine Triple.bind (triple_readF (t := { s1 with left := 0 }) le_rfl) fun f => ?_
      exact Triple.pure fun s h => h.1
    rw [modify_bind]
    exact T _ ⟨hs0, rfl⟩
  · rename_i hl
    have hs1 : Store s1 := ⟨h1, h2, h2', h3, h4, by omega, h5, h6⟩
    cases r.stepBack with
    | none => exact (Triple.raise fun s h => ⟨h, by simp⟩ : Triple Store _ _ _) s1 hs1
    | some b =>
      cases b with
      | false => exact triple_forward c r orc s1 ⟨hs1, not_le.1 hl⟩
      | true => exact triple_goBack c r orc s1 hs1

/-- Answering any later request keeps room in the storage, and accepted responses do not raise
`IndexError`. -/
theorem answer_store {c : Cfg k m K} {orc : Oracle k m K} {s s' : St k m K} {req : Req k m K}
    {r : Resp K} {o : Except Err (Option (Req k m K))} (hs : Store s) (hn : Fits s r.nIterations)
    (hreq : req ≠ .initial) (h : answer c s req r orc = (s', o)) :
    Store s' ∧ (validate c req r = .ok () → o ≠ .error .indexError) := by
  unfold answer at h
  split at h
  · rename_i e he
    simp only [Prod.mk.injEq] at h
    obtain ⟨rfl, rfl⟩ := h
    exact ⟨hs, fun h => by rw [he] at h; simp at h⟩
  · unfold iterate at h
    cases req with
    | initial => exact absurd rfl hreq
    | nav z lo up d =>
      rcases o with e | a
      · obtain ⟨h1, h2⟩ := (triple_handleNav c r orc s ⟨hs, hn⟩).2 s' e h
        exact ⟨h1, fun _ => by simpa using h2⟩
      · exact ⟨(triple_handleNav c r orc s ⟨hs, hn⟩).1 s' a h, by simp⟩
    | stop x f =>
      simp only [pure_run, Prod.mk.injEq] at h
      obtain ⟨rfl, rfl⟩ := h
      exact ⟨hs, by simp⟩

end Verif.NautilusV2
