import Verif.Solvers.Props

set_option linter.unusedSectionVars false

/-!
# Property C87: which solutions a front representation returns
-/

namespace Verif.Solvers

open Navigator (pointAsf)

variable {K : Type} [Field K] [LinearOrder K] {k : Nat} {X : Type}

/-- The solution of reference point number `n` is kept: the optimization was successful, and it is the first
one or not worse in all objectives than one of the solutions kept before. -/
inductive Kept (ok : Nat → Bool) (f : Nat → Vec (k + 1) K) : Nat → Prop
  | first : ok 0 = true → Kept ok f 0
  | later {n m : Nat} (j : Fin (k + 1)) : ok n = true → m < n → Kept ok f m → f n j ≤ f m j → Kept ok f n

theorem Kept.ok {ok : Nat → Bool} {f : Nat → Vec (k + 1) K} {n : Nat} (h : Kept ok f n) : ok n = true := by
  cases h <;> assumption

open Classical in
/-- The row of a reference point in the arrays. -/
noncomputable def row {α : Type} (ok : Nat → Bool) (f : Nat → Vec (k + 1) K) (g : Nat → α) (n : Nat) : Option α :=
  if Kept ok f n then some (g n) else none

theorem accepts_iff (ok : Nat → Bool) (f : Nat → Vec (k + 1) K) (i : Nat) (h : ok i = true) :
    accepts ((List.range i).map (row ok f f)) i (f i) = true ↔ Kept ok f i := by
  have hmem : ∀ p, p ∈ ((List.range i).map (row ok f f)).filterMap id ↔ ∃ m < i, Kept ok f m ∧ f m = p := by
    intro p
    simp only [List.mem_filterMap, List.mem_map, List.mem_range, id_eq, exists_eq_right]
    constructor
    · rintro ⟨m, hm, hr⟩
      unfold row at hr
      split at hr
      · rename_i hk
        exact ⟨m, hm, hk, by simpa using hr⟩
      · simp at hr
    · rintro ⟨m, hm, hk, rfl⟩
      exact ⟨m, hm, by unfold row; rw [if_pos hk]⟩
  unfold accepts
  rw [Bool.or_eq_true, Bool.not_eq_true', decide_eq_true_eq, List.all_eq_false]
  constructor
  · rintro (⟨p, hp, hd⟩ | hi)
    · obtain ⟨m, hm, hk, rfl⟩ := (hmem p).1 hp
      simp only [decide_eq_true_eq, not_forall, not_lt] at hd
      obtain ⟨j, hj⟩ := hd
      exact .later j h hm hk hj
    · have : i = 0 := by omega
      subst this
      exact .first h
  · intro hk
    cases hk with
    | first => exact .inr (by omega)
    | @later _ m j _ hm hk hj =>
      refine .inl ⟨f m, (hmem _).2 ⟨m, hm, hk, rfl⟩, ?_⟩
      simp only [decide_eq_true_eq, not_forall, not_lt]
      exact ⟨j, hj⟩

theorem frontLoop_rows (obj : X → Vec (k + 1) K) (asf : Vec (k + 1) K → Vec (k + 1) K → K)
    (solve : Nat → (X → K) → X × Bool) (found : Nat → X × Bool) (zs : List (Vec (k + 1) K)) (i : Nat)
    (h : ∀ n z, zs[n]? = some z → found (i + n) = solve (i + n) fun x => asf z (obj x)) :
    frontLoop obj asf solve i zs
      ((List.range i).map (row (fun n => (found n).2) (fun n => obj (found n).1) fun n => (found n).1))
      ((List.range i).map (row (fun n => (found n).2) (fun n => obj (found n).1) fun n => obj (found n).1)) =
    ((List.range (i + zs.length)).map
        (row (fun n => (found n).2) (fun n => obj (found n).1) fun n => (found n).1),
      (List.range (i + zs.length)).map
        (row (fun n => (found n).2) (fun n => obj (found n).1) fun n => obj (found n).1)) := by
  induction zs generalizing i with
  | nil => simp [frontLoop]
  | cons z zs ih =>
    have h0 : found i = solve i fun x => asf z (obj x) := h 0 z rfl
    have hs : ∀ n z', zs[n]? = some z' → found (i + 1 + n) = solve (i + 1 + n) fun x => asf z' (obj x) := by
      intro n z' hz
      have := h (n + 1) z' (by simpa using hz)
      rwa [show i + (n + 1) = i + 1 + n by omega] at this
    have hlen : i + (z :: zs).length = i + 1 + zs.length := by simp; omega
    have ih' := ih (i + 1) hs
    rw [List.range_succ, List.map_append, List.map_append] at ih'
    simp only [List.map_cons, List.map_nil] at ih'
    rw [hlen]
    refine Eq.trans ?_ ih'
    conv_lhs => unfold frontLoop
    simp only [← h0]
    by_cases hk : Kept (fun n => (found n).2) (fun n => obj (found n).1) i
    · have hok : (found i).2 = true := hk.ok
      rw [if_neg (by simp [hok]), if_pos ((accepts_iff _ _ i hok).2 hk)]
      simp only [row, if_pos hk]
    · by_cases hok : (found i).2 = true
      · rw [if_neg (by simp [hok]), if_neg (fun h' => hk ((accepts_iff _ _ i hok).1 h'))]
        simp only [row, if_neg hk]
      · rw [if_pos (by simpa using hok)]
        simp only [row, if_neg hk]

open Classical in
theorem filterMap_row {α : Type} (ok : Nat → Bool) (f : Nat → Vec (k + 1) K) (g : Nat → α) (l : List Nat) :
    (l.map (row ok f g)).filterMap id = (l.filter fun n => decide (Kept ok f n)).map g := by
  induction l with
  | nil => rfl
  | cons n l ih =>
    by_cases hk : Kept ok f n
    · have hr : row ok f g n = some (g n) := if_pos hk
      rw [List.map_cons, hr, List.filterMap_cons, List.filter_cons, if_pos (decide_eq_true hk), List.map_cons, ← ih]
      rfl
    · have hr : row ok f g n = none := if_neg hk
      rw [List.map_cons, hr, List.filterMap_cons, List.filter_cons, if_neg (by simpa using hk), ← ih]
      rfl

variable [FloorRing K]

open Classical in
/-- **C87**. Whatever the minimizers return: the solutions returned are exactly those kept, in the order of the
reference points, together with their objective vectors. `found n` is what the minimizer returned for
reference point number `n`. -/
theorem C87_kept {obj : X → Vec (k + 1) K} {step : StepArg K} {eps : K} {lo hi : Vec (k + 1) K}
    {cons : Option (X → List K)} {table front : Solver X K} {zs : List (Vec (k + 1) K)}
    (hz : referencePoints lo hi eps step = .ok zs) {found : Nat → X × Bool}
    (hf : ∀ n z, zs[n]? = some z → found n = front n none fun x => pointAsf lo hi z (obj x)) :
    ∃ ns : List Nat, ns.Pairwise (· < ·) ∧
      (∀ n, n ∈ ns ↔ n < zs.length ∧ Kept (fun n => (found n).2) (fun n => obj (found n).1) n) ∧
      frontGeneral obj step eps (.given lo) (.given hi) cons table front =
        .ok (ns.map fun n => (found n).1, ns.map fun n => obj (found n).1) := by
  refine ⟨(List.range zs.length).filter fun n => decide (Kept (fun n => (found n).2) (fun n => obj (found n).1) n),
    (List.pairwise_lt_range).filter _, ?_, ?_⟩
  · intro n
    simp
  · unfold frontGeneral
    simp only [resolveBounds, hz]
    have h := frontLoop_rows obj (pointAsf lo hi) (fun i g => front i none g) found zs 0 (by simpa using hf)
    simp only [List.range_zero, List.map_nil, Nat.zero_add] at h
    rw [h]
    simp only [filterMap_row]

/-- **C87**, consequence: if the first optimization fails, nothing is returned, whatever the other ones find. -/
theorem C87_first_fails {obj : X → Vec (k + 1) K} {step : StepArg K} {eps : K} {lo hi : Vec (k + 1) K}
    {cons : Option (X → List K)} {table front : Solver X K} {z : Vec (k + 1) K} {zs : List (Vec (k + 1) K)}
    (hz : referencePoints lo hi eps step = .ok (z :: zs))
    (h0 : (front 0 none fun x => pointAsf lo hi z (obj x)).2 = false) :
    frontGeneral obj step eps (.given lo) (.given hi) cons table front = .ok ([], []) := by
  let found : Nat → X × Bool := fun n => front n none fun x => pointAsf lo hi ((z :: zs).getD n 0) (obj x)
  have hf : ∀ n z', (z :: zs)[n]? = some z' → found n = front n none fun x => pointAsf lo hi z' (obj x) := by
    intro n z' hn
    simp only [found, List.getD_eq_getElem?_getD, hn, Option.getD_some]
  obtain ⟨ns, _, h2, h3⟩ := C87_kept (cons := cons) (table := table) hz hf
  have hno : ∀ n, ¬ Kept (fun n => (found n).2) (fun n => obj (found n).1) n := by
    intro n hk
    induction hk with
    | first h => simp [found, h0] at h
    | later _ _ _ _ _ ih => exact ih
  have : ns = [] := by
    rw [List.eq_nil_iff_forall_not_mem]
    exact fun n hn => hno n ((h2 n).1 hn).2
  rw [h3, this]
  rfl

example := C87_kept (obj := exProblem.obj) (step := .float 2) (eps := 1/1000000) (lo := ![0, 0]) (hi := ![2, 2])
  (cons := none) (table := exSolver) (front := exSolver) ex_points (found := fun n => exSolver n none fun _ => 0)
  (fun _ _ _ => rfl)

example := C87_first_fails (obj := fun _ : Unit => (![1, 1] : Vec 2 ℚ)) (step := .float 2) (eps := 1/1000000)
  (lo := ![0, 0]) (hi := ![2, 2]) (cons := none) (table := exFailing) (front := exFailing) ex_points rfl

end Verif.Solvers
