import Verif.Base

/-!
# Method calls as programs

`Exec σ α`: a Python method body on an object with mutable attributes `σ`; it ends with a value or an
exception, and mutations made before an exception is raised are kept.
-/

namespace Verif

/-- A method body. -/
def Exec (σ α : Type) : Type := σ → σ × Except Err α

namespace Exec

variable {σ α β : Type}

/-- Sequencing: an exception skips the rest of the body and keeps the state. -/
def bind (x : Exec σ α) (f : α → Exec σ β) : Exec σ β := fun s =>
  match (x s).2 with
  | .ok a => f a (x s).1
  | .error e => ((x s).1, .error e)

instance : Monad (Exec σ) where
  pure a := fun s => (s, .ok a)
  bind := bind

/-- Read the attributes. -/
def get : Exec σ σ := fun s => (s, .ok s)

/-- Assign attributes. -/
def modify (f : σ → σ) : Exec σ Unit := fun s => (f s, .ok ())

/-- Raise an exception. -/
def raise (e : Err) : Exec σ α := fun s => (s, .error e)

/-- A computation that does not touch the object. -/
def lift (x : Except Err α) : Exec σ α := fun s => (s, x)

theorem bind_ok {x : Exec σ α} {f : α → Exec σ β} {s s' : σ} {b : β} :
    (x >>= f) s = (s', .ok b) ↔ ∃ s1 a, x s = (s1, .ok a) ∧ f a s1 = (s', .ok b) := by
  show bind x f s = _ ↔ _
  unfold bind
  rcases h : x s with ⟨s1, _ | a⟩
  · simp
  · constructor
    · intro h'; exact ⟨s1, a, rfl, h'⟩
    · rintro ⟨s1', a', h1, h2⟩
      simp only [Prod.mk.injEq, Except.ok.injEq] at h1
      obtain ⟨rfl, rfl⟩ := h1
      exact h2

theorem bind_error {x : Exec σ α} {f : α → Exec σ β} {s s' : σ} {e : Err} :
    (x >>= f) s = (s', .error e) ↔
      x s = (s', .error e) ∨ ∃ s1 a, x s = (s1, .ok a) ∧ f a s1 = (s', .error e) := by
  show bind x f s = _ ↔ _
  unfold bind
  rcases h : x s with ⟨s1, _ | a⟩ <;> simp

@[simp] theorem pure_run (a : α) (s : σ) : (pure a : Exec σ α) s = (s, .ok a) := rfl
@[simp] theorem get_run (s : σ) : (get : Exec σ σ) s = (s, .ok s) := rfl
@[simp] theorem modify_run (f : σ → σ) (s : σ) : modify f s = (f s, .ok ()) := rfl
@[simp] theorem raise_run (e : Err) (s : σ) : (raise e : Exec σ α) s = (s, .error e) := rfl
@[simp] theorem lift_run (x : Except Err α) (s : σ) : (lift x : Exec σ α) s = (s, x) := rfl

@[simp] theorem get_bind (f : σ → Exec σ β) (s : σ) : (get >>= f) s = f s s := rfl
@[simp] theorem modify_bind (g : σ → σ) (f : Unit → Exec σ β) (s : σ) :
    (modify g >>= f) s = f () (g s) := rfl
@[simp] theorem raise_bind (e : Err) (f : α → Exec σ β) (s : σ) :
    ((raise e : Exec σ α) >>= f) s = (s, .error e) := rfl
@[simp] theorem pure_bind_run (a : α) (f : α → Exec σ β) (s : σ) :
    ((pure a : Exec σ α) >>= f) s = f a s := rfl
@[simp] theorem lift_ok_bind (a : α) (f : α → Exec σ β) (s : σ) :
    ((lift (.ok a) : Exec σ α) >>= f) s = f a s := rfl
@[simp] theorem lift_error_bind (e : Err) (f : α → Exec σ β) (s : σ) :
    ((lift (.error e) : Exec σ α) >>= f) s = (s, .error e) := rfl

/-- From a state satisfying `P`, the body returns a value and a state satisfying `Q` or raises an
exception leaving a state satisfying `E`. -/
def Triple (P : σ → Prop) (x : Exec σ α) (Q : α → σ → Prop) (E : Err → σ → Prop) : Prop :=
  ∀ s, P s → (∀ s' a, x s = (s', .ok a) → Q a s') ∧ (∀ s' e, x s = (s', .error e) → E e s')

theorem Triple.bind {P : σ → Prop} {x : Exec σ α} {f : α → Exec σ β} {Q : α → σ → Prop}
    {R : β → σ → Prop} {E : Err → σ → Prop} (hx : Triple P x Q E)
    (hf : ∀ a, Triple (Q a) (f a) R E) : Triple P (x >>= f) R E := by
  intro s hs
  refine ⟨fun s' b h => ?_, fun s' e h => ?_⟩
  · obtain ⟨s1, a, h1, h2⟩ := bind_ok.1 h
    exact ((hf a) s1 ((hx s hs).1 s1 a h1)).1 s' b h2
  · rcases bind_error.1 h with h1 | ⟨s1, a, h1, h2⟩
    · exact (hx s hs).2 s' e h1
    · exact ((hf a) s1 ((hx s hs).1 s1 a h1)).2 s' e h2

theorem Triple.weaken {P P' : σ → Prop} {x : Exec σ α} {Q Q' : α → σ → Prop} {E E' : Err → σ → Prop}
    (h : Triple P x Q E) (hP : ∀ s, P' s → P s) (hQ : ∀ a s, Q a s → Q' a s)
    (hE : ∀ e s, E e s → E' e s) : Triple P' x Q' E' := fun s hs =>
  ⟨fun s' a hx => hQ _ _ ((h s (hP s hs)).1 s' a hx), fun s' e hx => hE _ _ ((h s (hP s hs)).2 s' e hx)⟩

theorem Triple.get {P : σ → Prop} {E : Err → σ → Prop} :
    Triple P (get : Exec σ σ) (fun a s => P s ∧ a = s) E := by
  intro s hs
  refine ⟨fun s' a h => ?_, fun s' e h => ?_⟩
  · simp only [get_run, Prod.mk.injEq, Except.ok.injEq] at h
    obtain ⟨rfl, rfl⟩ := h
    exact ⟨hs, rfl⟩
  · simp at h

theorem Triple.modify {P : σ → Prop} {g : σ → σ} {Q : Unit → σ → Prop} {E : Err → σ → Prop}
    (h : ∀ s, P s → Q () (g s)) : Triple P (modify g) Q E := by
  intro s hs
  refine ⟨fun s' a h' => ?_, fun s' e h' => ?_⟩
  · simp only [modify_run, Prod.mk.injEq] at h'
    obtain ⟨rfl, _⟩ := h'
    exact h s hs
  · simp at h'

theorem Triple.pure {P : σ → Prop} {a : α} {Q : α → σ → Prop} {E : Err → σ → Prop}
    (h : ∀ s, P s → Q a s) : Triple P (pure a : Exec σ α) Q E := by
  intro s hs
  refine ⟨fun s' a h' => ?_, fun s' e h' => ?_⟩
  · simp only [pure_run, Prod.mk.injEq, Except.ok.injEq] at h'
    obtain ⟨rfl, rfl⟩ := h'
    exact h s hs
  · simp at h'

theorem Triple.raise {P : σ → Prop} {e : Err} {Q : α → σ → Prop} {E : Err → σ → Prop}
    (h : ∀ s, P s → E e s) : Triple P (raise e : Exec σ α) Q E := by
  intro s hs
  refine ⟨fun s' a h' => ?_, fun s' e h' => ?_⟩
  · simp at h'
  · simp only [raise_run, Prod.mk.injEq, Except.error.injEq] at h'
    obtain ⟨rfl, rfl⟩ := h'
    exact h s hs

theorem Triple.lift {P : σ → Prop} {x : Except Err α} {Q : α → σ → Prop} {E : Err → σ → Prop}
    (h : ∀ s, P s → ∀ a, x = .ok a → Q a s) (h' : ∀ s, P s → ∀ e, x = .error e → E e s) :
    Triple P (lift x : Exec σ α) Q E := by
  intro s hs
  refine ⟨fun s' a h1 => ?_, fun s' e h1 => ?_⟩
  · simp only [lift_run, Prod.mk.injEq] at h1
    obtain ⟨rfl, rfl⟩ := h1
    exact h s hs a rfl
  · simp only [lift_run, Prod.mk.injEq] at h1
    obtain ⟨rfl, rfl⟩ := h1
    exact h' s hs e rfl

end Exec

/-! ### Preallocated Python lists `[None] * n` -/

/-- `l[i] = v` on a preallocated list: `IndexError` outside. -/
def slotSet {α : Type} (l : List (Option α)) (i : Nat) (v : Option α) : Except Err (List (Option α)) :=
  if i < l.length then .ok (l.set i v) else .error .indexError

/-- `l[i]`, the entry may be `None`. -/
def slotRead {α : Type} (l : List (Option α)) (i : Nat) : Except Err (Option α) :=
  match l[i]? with
  | some v => .ok v
  | none => .error .indexError

/-- `l[i]` used in arithmetic: `TypeError` if the entry is `None`. -/
def slotGet {α : Type} (l : List (Option α)) (i : Nat) : Except Err α :=
  match l[i]? with
  | some (some v) => .ok v
  | some none => .error .typeError
  | none => .error .indexError

/-- `[None] * n`. -/
def slots (α : Type) (n : Nat) : List (Option α) := List.replicate n none

section
variable {α : Type} {l : List (Option α)} {i : Nat}

theorem slotSet_ok {v : Option α} (h : i < l.length) : slotSet l i v = .ok (l.set i v) := by
  simp [slotSet, h]

theorem slotSet_ok_iff {v : Option α} {l' : List (Option α)} :
    slotSet l i v = .ok l' ↔ i < l.length ∧ l' = l.set i v := by
  unfold slotSet; split <;> simp_all [eq_comm]

theorem slotSet_error_iff {v : Option α} {e : Err} :
    slotSet l i v = .error e ↔ l.length ≤ i ∧ e = .indexError := by
  unfold slotSet; split
  · simp; omega
  · simp [eq_comm]; omega

theorem slotRead_ok_iff {v : Option α} : slotRead l i = .ok v ↔ l[i]? = some v := by
  unfold slotRead
  cases l[i]? <;> simp

theorem slotRead_error_iff {e : Err} : slotRead l i = .error e ↔ l.length ≤ i ∧ e = .indexError := by
  unfold slotRead
  cases h : l[i]? with
  | none => simp [eq_comm, List.getElem?_eq_none_iff.1 h]
  | some v =>
    have := (List.getElem?_eq_some_iff.1 h).1
    simp; omega

theorem slotGet_ok_iff {v : α} : slotGet l i = .ok v ↔ l[i]? = some (some v) := by
  unfold slotGet
  rcases l[i]? with _ | _ | a <;> simp

theorem slotGet_error_iff {e : Err} : slotGet l i = .error e ↔
    (l.length ≤ i ∧ e = .indexError) ∨ (l[i]? = some none ∧ e = .typeError) := by
  unfold slotGet
  rcases h : l[i]? with _ | _ | a
  · simp [eq_comm, List.getElem?_eq_none_iff.1 h]
  · have := (List.getElem?_eq_some_iff.1 h).1
    simp [eq_comm]; omega
  · have := (List.getElem?_eq_some_iff.1 h).1
    simp; omega

@[simp] theorem slots_length (n : Nat) : (slots α n).length = n := by simp [slots]

end

end Verif
