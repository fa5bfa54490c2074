import Verif.Base

/-! Helper lemmas about the vocabulary of `Verif.Base`. -/

namespace Verif

section order
variable {K : Type} [LinearOrder K]

theorem foldl_min_spec (l : List K) (a : K) :
    (l.foldl min a = a ∨ l.foldl min a ∈ l) ∧ l.foldl min a ≤ a ∧ ∀ x ∈ l, l.foldl min a ≤ x := by
  induction l generalizing a with
  | nil => simp
  | cons y ys ih =>
    obtain ⟨h1, h2, h3⟩ := ih (min a y)
    refine ⟨?_, ?_, ?_⟩
    · simp only [List.foldl_cons, List.mem_cons]
      rcases h1 with h | h
      · rcases min_choice a y with h' | h' <;> rw [h, h'] <;> simp
      · simp [h]
    · exact le_trans h2 (min_le_left _ _)
    · intro x hx
      rcases List.mem_cons.1 hx with rfl | hx
      · exact le_trans h2 (min_le_right _ _)
      · exact h3 x hx

theorem foldl_max_spec (l : List K) (a : K) :
    (l.foldl max a = a ∨ l.foldl max a ∈ l) ∧ a ≤ l.foldl max a ∧ ∀ x ∈ l, x ≤ l.foldl max a := by
  induction l generalizing a with
  | nil => simp
  | cons y ys ih =>
    obtain ⟨h1, h2, h3⟩ := ih (max a y)
    refine ⟨?_, ?_, ?_⟩
    · simp only [List.foldl_cons, List.mem_cons]
      rcases h1 with h | h
      · rcases max_choice a y with h' | h' <;> rw [h, h'] <;> simp
      · simp [h]
    · exact le_trans (le_max_left _ _) h2
    · intro x hx
      rcases List.mem_cons.1 hx with rfl | hx
      · exact le_trans (le_max_right _ _) h2
      · exact h3 x hx

theorem npMin_ok_iff (l : List K) (m : K) :
    npMin l = .ok m ↔ m ∈ l ∧ ∀ x ∈ l, m ≤ x := by
  cases l with
  | nil => simp [npMin]
  | cons a l =>
    obtain ⟨h1, h2, h3⟩ := foldl_min_spec l a
    simp only [npMin, Except.ok.injEq]
    constructor
    · rintro rfl
      refine ⟨?_, ?_⟩
      · rcases h1 with h | h
        · rw [h]; simp
        · simp [h]
      · intro x hx
        rcases List.mem_cons.1 hx with rfl | hx
        · exact h2
        · exact h3 x hx
    · rintro ⟨hm, hle⟩
      apply le_antisymm
      · rcases List.mem_cons.1 hm with rfl | hm
        · exact h2
        · exact h3 m hm
      · rcases h1 with h | h
        · rw [h]; exact hle a (by simp)
        · exact hle _ (by simp [h])

theorem npMax_ok_iff (l : List K) (m : K) :
    npMax l = .ok m ↔ m ∈ l ∧ ∀ x ∈ l, x ≤ m := by
  cases l with
  | nil => simp [npMax]
  | cons a l =>
    obtain ⟨h1, h2, h3⟩ := foldl_max_spec l a
    simp only [npMax, Except.ok.injEq]
    constructor
    · rintro rfl
      refine ⟨?_, ?_⟩
      · rcases h1 with h | h
        · rw [h]; simp
        · simp [h]
      · intro x hx
        rcases List.mem_cons.1 hx with rfl | hx
        · exact h2
        · exact h3 x hx
    · rintro ⟨hm, hle⟩
      apply le_antisymm
      · rcases h1 with h | h
        · rw [h]; exact hle a (by simp)
        · exact hle _ (by simp [h])
      · rcases List.mem_cons.1 hm with rfl | hm
        · exact h2
        · exact h3 m hm

theorem npMin_error_iff (l : List K) (e : Err) :
    npMin l = .error e ↔ l = [] ∧ e = .valueError := by
  cases l <;> simp [npMin, eq_comm]

theorem npMax_error_iff (l : List K) (e : Err) :
    npMax l = .error e ↔ l = [] ∧ e = .valueError := by
  cases l <;> simp [npMax, eq_comm]

theorem npMin_exists {l : List K} (h : l ≠ []) : ∃ m, npMin l = .ok m := by
  cases l with
  | nil => exact absurd rfl h
  | cons a l => exact ⟨_, rfl⟩

theorem npMax_exists {l : List K} (h : l ≠ []) : ∃ m, npMax l = .ok m := by
  cases l with
  | nil => exact absurd rfl h
  | cons a l => exact ⟨_, rfl⟩

theorem argminGo_spec (pre : List K) (xs : List K) (b : K) (bi : Nat)
    (hb : pre[bi]? = some b) (hmin : ∀ x ∈ pre, b ≤ x) (hfirst : ∀ j < bi, ∀ x, pre[j]? = some x → b < x) :
    ∃ m, (pre ++ xs)[argminGo b bi pre.length xs]? = some m ∧ (∀ x ∈ pre ++ xs, m ≤ x) ∧
      ∀ j < argminGo b bi pre.length xs, ∀ x, (pre ++ xs)[j]? = some x → m < x := by
  induction xs generalizing pre b bi with
  | nil => exact ⟨b, by simpa [argminGo] using hb, by simpa using hmin, by simpa [argminGo] using hfirst⟩
  | cons x xs ih =>
    have e : pre ++ x :: xs = (pre ++ [x]) ++ xs := by simp
    have hl : (pre ++ [x]).length = pre.length + 1 := by simp
    have hbi : bi < pre.length := (List.getElem?_eq_some_iff.1 hb).1
    by_cases h : x < b
    · have := ih (pre ++ [x]) x pre.length (by simp) (by
        intro y hy
        rcases List.mem_append.1 hy with hy | hy
        · exact le_trans h.le (hmin y hy)
        · simp at hy; rw [hy]) (by
        intro j hj y hy
        rw [List.getElem?_append_left hj] at hy
        exact lt_of_lt_of_le h (hmin y (List.mem_of_getElem? hy)))
      rw [hl] at this
      simp only [argminGo, h, if_true]
      rw [e]
      exact this
    · have := ih (pre ++ [x]) b bi (by rw [List.getElem?_append_left hbi]; exact hb) (by
        intro y hy
        rcases List.mem_append.1 hy with hy | hy
        · exact hmin y hy
        · simp at hy; rw [hy]; exact not_lt.1 h) (by
        intro j hj y hy
        rw [List.getElem?_append_left (by omega)] at hy
        exact hfirst j hj y hy)
      rw [hl] at this
      simp only [argminGo, h, if_false]
      rw [e]
      exact this

theorem npArgmin_ok {l : List K} {i : Nat} (h : npArgmin l = .ok i) :
    ∃ m, l[i]? = some m ∧ (∀ x ∈ l, m ≤ x) ∧ ∀ j < i, ∀ x, l[j]? = some x → m < x := by
  cases l with
  | nil => simp [npArgmin] at h
  | cons a l =>
    simp only [npArgmin, Except.ok.injEq] at h
    have := argminGo_spec [a] l a 0 (by simp) (by simp) (by simp)
    simp only [List.length_singleton, h] at this
    simpa using this

theorem npArgmin_exists {l : List K} (h : l ≠ []) : ∃ i, npArgmin l = .ok i := by
  cases l with
  | nil => exact absurd rfl h
  | cons a l => exact ⟨_, rfl⟩

/-- Loop invariant of `nanArgminGo`. -/
theorem nanArgminGo_spec (pre xs : List (Option K)) (b : Option (K × Nat))
    (hn : b = none → ∀ x, some x ∉ pre)
    (hs : ∀ y i, b = some (y, i) → pre[i]? = some (some y) ∧ ∀ x, some x ∈ pre → y ≤ x) :
    (nanArgminGo b pre.length xs = none → ∀ x, some x ∉ pre ++ xs) ∧
    (∀ y i, nanArgminGo b pre.length xs = some (y, i) →
      (pre ++ xs)[i]? = some (some y) ∧ ∀ x, some x ∈ pre ++ xs → y ≤ x) := by
  induction xs generalizing pre b with
  | nil => simpa [nanArgminGo] using ⟨hn, hs⟩
  | cons o xs ih =>
    have e : pre ++ o :: xs = (pre ++ [o]) ++ xs := by simp
    have hl : (pre ++ [o]).length = pre.length + 1 := by simp
    rw [e]
    cases o with
    | none =>
      have := ih (pre ++ [none]) b (by
        intro hb x hx
        simp at hx
        exact hn hb x hx) (by
        intro y i hb
        obtain ⟨h1, h2⟩ := hs y i hb
        have hi := (List.getElem?_eq_some_iff.1 h1).1
        refine ⟨by rw [List.getElem?_append_left hi]; exact h1, ?_⟩
        intro x hx
        simp at hx
        exact h2 x hx)
      rw [hl] at this
      simpa [nanArgminGo] using this
    | some x =>
      cases b with
      | none =>
        have := ih (pre ++ [some x]) (some (x, pre.length)) (by simp) (by
          intro y i hb
          simp only [Option.some.injEq, Prod.mk.injEq] at hb
          obtain ⟨rfl, rfl⟩ := hb
          refine ⟨by simp, ?_⟩
          intro z hz
          simp only [List.mem_append, List.mem_singleton, Option.some.injEq] at hz
          rcases hz with hz | hz
          · exact absurd hz (hn rfl z)
          · rw [hz])
        rw [hl] at this
        simpa [nanArgminGo] using this
      | some p =>
        obtain ⟨y, bi⟩ := p
        obtain ⟨h1, h2⟩ := hs y bi rfl
        have hi := (List.getElem?_eq_some_iff.1 h1).1
        by_cases h : x < y
        · have := ih (pre ++ [some x]) (some (x, pre.length)) (by simp) (by
            intro y' i hb
            simp only [Option.some.injEq, Prod.mk.injEq] at hb
            obtain ⟨rfl, rfl⟩ := hb
            refine ⟨by simp, ?_⟩
            intro z hz
            simp only [List.mem_append, List.mem_singleton, Option.some.injEq] at hz
            rcases hz with hz | hz
            · exact le_trans h.le (h2 z hz)
            · rw [hz])
          rw [hl] at this
          simpa [nanArgminGo, h] using this
        · have := ih (pre ++ [some x]) (some (y, bi)) (by simp) (by
            intro y' i hb
            simp only [Option.some.injEq, Prod.mk.injEq] at hb
            obtain ⟨rfl, rfl⟩ := hb
            refine ⟨by rw [List.getElem?_append_left hi]; exact h1, ?_⟩
            intro z hz
            simp only [List.mem_append, List.mem_singleton, Option.some.injEq] at hz
            rcases hz with hz | hz
            · exact h2 z hz
            · rw [hz]; exact not_lt.1 h)
          rw [hl] at this
          simpa [nanArgminGo, h] using this

theorem npNanArgmin_ok {l : List (Option K)} {i : Nat} (h : npNanArgmin l = .ok i) :
    ∃ m, l[i]? = some (some m) ∧ ∀ x, some x ∈ l → m ≤ x := by
  have := nanArgminGo_spec [] l none (by simp) (by simp)
  simp only [List.length_nil, List.nil_append] at this
  unfold npNanArgmin at h
  split at h
  · simp at h
  · rename_i y j hj
    simp only [Except.ok.injEq] at h
    subst h
    exact ⟨y, this.2 y j hj⟩

theorem npNanArgmin_error {l : List (Option K)} {e : Err} (h : npNanArgmin l = .error e) :
    e = .valueError ∧ ∀ x, some x ∉ l := by
  have := nanArgminGo_spec [] l none (by simp) (by simp)
  simp only [List.length_nil, List.nil_append] at this
  unfold npNanArgmin at h
  split at h
  · rename_i hj
    simp only [Except.error.injEq] at h
    exact ⟨h.symm, this.1 hj⟩
  · simp at h

end order

theorem mapE_ok_iff {α β : Type} (f : α → Except Err β) (l : List α) (r : List β) :
    mapE f l = .ok r ↔ List.Forall₂ (fun a b => f a = .ok b) l r := by
  induction l generalizing r with
  | nil => cases r <;> simp [mapE]
  | cons a l ih =>
    simp only [mapE]
    cases h : f a with
    | error e => cases r <;> simp [h]
    | ok b =>
      cases h' : mapE f l with
      | error e =>
        cases r with
        | nil => simp
        | cons c cs =>
          simp only [List.forall₂_cons, h]
          rw [← ih cs]
          simp [h']
      | ok bs =>
        cases r with
        | nil => simp
        | cons c cs =>
          simp only [List.forall₂_cons, h, Except.ok.injEq, List.cons.injEq]
          rw [← ih cs, h']
          simp

theorem mapE_error {α β : Type} {f : α → Except Err β} {l : List α} {e : Err}
    (h : mapE f l = .error e) : ∃ a ∈ l, f a = .error e := by
  induction l with
  | nil => simp [mapE] at h
  | cons a l ih =>
    simp only [mapE] at h
    cases hf : f a with
    | error e' =>
      rw [hf] at h
      simp only [Except.error.injEq] at h
      exact ⟨a, by simp, by rw [hf, h]⟩
    | ok b =>
      rw [hf] at h
      cases h' : mapE f l with
      | error e' =>
        rw [h'] at h
        simp only [Except.error.injEq] at h
        obtain ⟨x, hx, hx'⟩ := ih (by rw [h', h])
        exact ⟨x, by simp [hx], hx'⟩
      | ok bs => rw [h'] at h; simp at h

theorem mapE_exists {α β : Type} {f : α → Except Err β} {l : List α}
    (h : ∀ a ∈ l, ∃ b, f a = .ok b) : ∃ r, mapE f l = .ok r := by
  cases hm : mapE f l with
  | ok r => exact ⟨r, rfl⟩
  | error e =>
    obtain ⟨a, ha, he⟩ := mapE_error hm
    obtain ⟨b, hb⟩ := h a ha
    rw [hb] at he
    simp at he

theorem mapE_length {α β : Type} {f : α → Except Err β} {l : List α} {r : List β}
    (h : mapE f l = .ok r) : r.length = l.length :=
  ((mapE_ok_iff f l r).1 h).length_eq.symm

theorem vecM_ok_iff {α : Type} {k : Nat} (f : Fin k → Except Err α) (g : Fin k → α) :
    vecM f = .ok g ↔ ∀ i, f i = .ok (g i) := by
  induction k with
  | zero =>
    simp only [vecM, Except.ok.injEq]
    constructor
    · intro _ i; exact i.elim0
    · intro _; funext i; exact i.elim0
  | succ k ih =>
    simp only [vecM]
    cases h : f 0 with
    | error e =>
      simp only [reduceCtorEq, false_iff, not_forall]
      exact ⟨0, by simp [h]⟩
    | ok a =>
      cases h' : vecM (fun i : Fin k => f i.succ) with
      | error e =>
        simp only [reduceCtorEq, false_iff]
        intro hall
        have := (ih (fun i => f i.succ) (fun i => g i.succ)).2 (fun i => hall i.succ)
        rw [h'] at this
        simp at this
      | ok g' =>
        have hg' := (ih _ _).1 h'
        simp only [Except.ok.injEq]
        constructor
        · rintro rfl i
          refine Fin.cases ?_ ?_ i
          · simpa using h
          · intro j; simpa using hg' j
        · intro hall
          funext i
          refine Fin.cases ?_ ?_ i
          · have := hall 0
            rw [h] at this
            simpa using this
          · intro j
            have h1 := hall j.succ
            have h2 := hg' j
            rw [h1] at h2
            simpa using h2.symm

theorem vecM_error {α : Type} {k : Nat} {f : Fin k → Except Err α} {e : Err}
    (h : vecM f = .error e) : ∃ i, f i = .error e := by
  induction k with
  | zero => simp [vecM] at h
  | succ k ih =>
    simp only [vecM] at h
    cases h0 : f 0 with
    | error e' =>
      rw [h0] at h
      simp only [Except.error.injEq] at h
      exact ⟨0, by rw [h0, h]⟩
    | ok a =>
      rw [h0] at h
      cases h' : vecM (fun i : Fin k => f i.succ) with
      | error e' =>
        rw [h'] at h
        simp only [Except.error.injEq] at h
        obtain ⟨i, hi⟩ := ih (f := fun i => f i.succ) (by rw [h', h])
        exact ⟨i.succ, hi⟩
      | ok g' => rw [h'] at h; simp at h

theorem vecM_exists {α : Type} {k : Nat} {f : Fin k → Except Err α}
    (h : ∀ i, ∃ b, f i = .ok b) : ∃ g, vecM f = .ok g := by
  cases hm : vecM f with
  | ok r => exact ⟨r, rfl⟩
  | error e =>
    obtain ⟨i, he⟩ := vecM_error hm
    obtain ⟨b, hb⟩ := h i
    rw [hb] at he
    simp at he

theorem pyGet_ok {α : Type} {l : List α} {i : Int} {a : α} (h0 : 0 ≤ i) :
    pyGet l i = .ok a ↔ l[i.toNat]? = some a := by
  unfold pyGet
  simp only [show ¬ i < 0 by omega, if_false]
  cases h : l[i.toNat]? <;> simp

theorem pyGet_nat {α : Type} {l : List α} {i : Nat} {a : α} :
    pyGet l (i : Int) = .ok a ↔ l[i]? = some a := by
  rw [pyGet_ok (by omega)]; simp

theorem pyGet_cases {α : Type} (l : List α) (i : Int) :
    (∃ j : Nat, (j : Int) = (if i < 0 then i + l.length else i) ∧ ∃ a, l[j]? = some a ∧ pyGet l i = .ok a) ∨
    ((i < -l.length ∨ l.length ≤ i) ∧ pyGet l i = .error .indexError) := by
  unfold pyGet
  generalize hj : (if i < 0 then i + (l.length : Int) else i) = j
  dsimp only
  by_cases h : j < 0
  · right
    refine ⟨?_, by simp [h]⟩
    split at hj <;> omega
  · by_cases h' : j.toNat < l.length
    · left
      refine ⟨j.toNat, by omega, l[j.toNat], by simp [h'], by simp [h, h']⟩
    · right
      refine ⟨?_, by simp [h, List.getElem?_eq_none (not_lt.1 h')]⟩
      split at hj <;> omega

theorem pyGet_mem {α : Type} {l : List α} {i : Int} {a : α} (h : pyGet l i = .ok a) : a ∈ l := by
  rcases pyGet_cases l i with ⟨j, _, b, hb, hg⟩ | ⟨_, hg⟩
  · rw [hg] at h
    simp only [Except.ok.injEq] at h
    exact h ▸ List.mem_of_getElem? hb
  · rw [hg] at h; simp at h

theorem pyGet_exists {α : Type} {l : List α} {i : Int} (h0 : 0 ≤ i) (h1 : i < l.length) :
    ∃ a, pyGet l i = .ok a := by
  have : i.toNat < l.length := by omega
  exact ⟨l[i.toNat], (pyGet_ok h0).2 (List.getElem?_eq_getElem this)⟩

theorem pyGet_error {α : Type} {l : List α} {i : Int} {e : Err} (h : pyGet l i = .error e) :
    e = .indexError ∧ (i < -l.length ∨ l.length ≤ i) := by
  rcases pyGet_cases l i with ⟨j, _, b, hb, hg⟩ | ⟨hi, hg⟩
  · rw [hg] at h; simp at h
  · rw [hg] at h
    simp only [Except.error.injEq] at h
    exact ⟨h.symm, hi⟩

end Verif
