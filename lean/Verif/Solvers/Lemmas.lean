import Verif.Solvers.Model
import Verif.Navigator.Props3

/-! # Lemmas about the grid and the loop of the front representation -/

namespace Verif.Solvers

set_option linter.unusedSectionVars false

variable {K : Type} [Field K] [LinearOrder K] [IsStrictOrderedRing K] [FloorRing K] {k : Nat} {X : Type}

/-! ### Grid -/

theorem axis_ok {start stop step : K} (hs : 0 < step) (h : start ≤ stop) :
    ∃ l, axis start stop step = .ok l ∧ l.Nodup ∧
      ∀ x, x ∈ l ↔ ∃ n : Nat, x = start + n * step ∧ x < stop := by
  have hnn : 0 ≤ ⌈(stop - start) / step⌉ := Int.ceil_nonneg (div_nonneg (by linarith) hs.le)
  refine ⟨_, by unfold axis; rw [if_neg hs.ne', if_neg (not_lt.2 hnn)], ?_, ?_⟩
  · refine List.nodup_range.map ?_
    intro a b hab
    have : (a : K) * step = b * step := by simpa using hab
    exact_mod_cast mul_right_cancel₀ hs.ne' this
  · intro x
    simp only [List.mem_map, List.mem_range]
    have key : ∀ n : Nat, n < ⌈(stop - start) / step⌉.toNat ↔ start + n * step < stop := by
      intro n
      have : n < ⌈(stop - start) / step⌉.toNat ↔ (n : Int) < ⌈(stop - start) / step⌉ := by omega
      rw [this, Int.lt_ceil, Int.cast_natCast, lt_div_iff₀ hs]
      constructor <;> intro h <;> linarith
    constructor
    · rintro ⟨n, hn, rfl⟩
      exact ⟨n, rfl, (key n).1 hn⟩
    · rintro ⟨n, rfl, hn⟩
      exact ⟨n, (key n).2 hn, rfl⟩

theorem axesOf_ok : ∀ (m : Nat) (start stop step : Vec m K), (∀ i, 0 < step i) → (∀ i, start i ≤ stop i) →
    ∃ axes, axesOf m start stop step = .ok axes ∧ (∀ i, (axes i).Nodup) ∧
      ∀ i x, x ∈ axes i ↔ ∃ n : Nat, x = start i + n * step i ∧ x < stop i := by
  intro m
  induction m with
  | zero => intro _ _ _ _ _; exact ⟨_, rfl, fun i => i.elim0, fun i => i.elim0⟩
  | succ m ih =>
    intro start stop step hs h
    obtain ⟨a, h1, h2, h3⟩ := axis_ok (hs 0) (h 0)
    obtain ⟨as, h4, h5, h6⟩ := ih (fun i => start i.succ) (fun i => stop i.succ) (fun i => step i.succ)
      (fun i => hs i.succ) (fun i => h i.succ)
    refine ⟨Fin.cons a as, by unfold axesOf; simp only [h1, h4], ?_, ?_⟩
    · intro i
      refine Fin.cases ?_ (fun j => ?_) i
      · simpa using h2
      · simpa using h5 j
    · intro i
      refine Fin.cases ?_ (fun j => ?_) i
      · simpa using h3
      · simpa using h6 j

theorem mem_meshOf : ∀ (m : Nat) (axes : Fin m → List K) (z : Vec m K), z ∈ meshOf m axes ↔ ∀ i, z i ∈ axes i := by
  intro m
  induction m with
  | zero =>
    intro axes z
    simp only [meshOf, List.mem_singleton]
    exact ⟨fun _ i => i.elim0, fun _ => funext fun i => i.elim0⟩
  | succ m ih =>
    intro axes z
    simp only [meshOf, List.mem_flatMap, List.mem_map]
    constructor
    · rintro ⟨x, hx, v, hv, rfl⟩ i
      refine Fin.cases ?_ (fun j => ?_) i
      · simpa using hx
      · simpa using (ih _ v).1 hv j
    · intro h
      exact ⟨z 0, h 0, fun i => z i.succ, (ih _ _).2 fun i => h i.succ, Fin.cons_self_tail z⟩

theorem nodup_meshOf : ∀ (m : Nat) (axes : Fin m → List K), (∀ i, (axes i).Nodup) → (meshOf m axes).Nodup := by
  intro m
  induction m with
  | zero => intro _ _; exact List.nodup_singleton _
  | succ m ih =>
    intro axes h
    unfold meshOf
    rw [List.nodup_flatMap]
    refine ⟨fun x _ => (ih _ fun i => h i.succ).map (Fin.cons_right_injective (α := fun _ => K) x), ?_⟩
    refine (h 0).imp ?_
    intro a b hab
    rw [Function.onFun, List.disjoint_left]
    intro v hv hw
    obtain ⟨u, _, rfl⟩ := List.mem_map.1 hv
    obtain ⟨w, _, hw⟩ := List.mem_map.1 hw
    have := congrFun hw 0
    simp only [Fin.cons_zero] at this
    exact hab this.symm

/-! ### Loop -/

theorem frontLoop_spec (obj : X → Vec (k + 1) K) (asf : Vec (k + 1) K → Vec (k + 1) K → K)
    (solve : Nat → (X → K) → X × Bool) : ∀ (zs : List (Vec (k + 1) K)) (i : Nat) (xs : List (Option X)),
    ∃ ys : List (Option X), frontLoop obj asf solve i zs xs (xs.map (Option.map obj)) =
        (xs ++ ys, (xs ++ ys).map (Option.map obj)) ∧ ys.length = zs.length ∧
      ∀ (n : Nat) (x : X), ys[n]? = some (some x) →
        ∃ z, zs[n]? = some z ∧ solve (i + n) (fun x => asf z (obj x)) = (x, true) := by
  intro zs
  induction zs with
  | nil => intro i xs; exact ⟨[], by simp [frontLoop], rfl, by simp⟩
  | cons z zs ih =>
    intro i xs
    have tail : ∀ (w : Option X) (ys : List (Option X)), (∀ x, w = some x →
          solve i (fun x => asf z (obj x)) = (x, true)) →
        (∀ (n : Nat) (x : X), ys[n]? = some (some x) →
          ∃ z', zs[n]? = some z' ∧ solve (i + 1 + n) (fun x => asf z' (obj x)) = (x, true)) →
        ∀ (n : Nat) (x : X), (w :: ys)[n]? = some (some x) →
          ∃ z', (z :: zs)[n]? = some z' ∧ solve (i + n) (fun x => asf z' (obj x)) = (x, true) := by
      intro w ys hw hys n x hx
      cases n with
      | zero =>
        simp only [List.getElem?_cons_zero, Option.some.injEq] at hx
        exact ⟨z, rfl, hw x hx⟩
      | succ n =>
        simp only [List.getElem?_cons_succ] at hx
        obtain ⟨z', h1, h2⟩ := hys n x hx
        refine ⟨z', by simpa using h1, ?_⟩
        rw [← h2]
        congr 1
        omega
    unfold frontLoop
    simp only []
    by_cases h1 : (solve i fun x => asf z (obj x)).2 = false
    · rw [if_pos h1]
      obtain ⟨ys, h2, h3, h4⟩ := ih (i + 1) (xs ++ [none])
      refine ⟨none :: ys, ?_, by simp [h3], tail none ys (by simp) h4⟩
      simpa using h2
    · rw [if_neg h1]
      by_cases h5 : accepts (xs.map (Option.map obj)) i (obj (solve i fun x => asf z (obj x)).1) = true
      · rw [if_pos h5]
        obtain ⟨ys, h2, h3, h4⟩ := ih (i + 1) (xs ++ [some (solve i fun x => asf z (obj x)).1])
        refine ⟨some (solve i fun x => asf z (obj x)).1 :: ys, ?_, by simp [h3], tail _ ys ?_ h4⟩
        · simpa using h2
        · rintro x hx
          simp only [Option.some.injEq] at hx
          rw [← hx]
          exact Prod.ext rfl (by simpa using h1)
      · rw [if_neg h5]
        obtain ⟨ys, h2, h3, h4⟩ := ih (i + 1) (xs ++ [none])
        refine ⟨none :: ys, ?_, by simp [h3], tail none ys (by simp) h4⟩
        simpa using h2

theorem filterMap_map_option {α β : Type} (f : α → β) (l : List (Option α)) :
    (l.map (Option.map f)).filterMap id = (l.filterMap id).map f := by
  induction l with
  | nil => rfl
  | cons a l ih =>
    cases a with
    | none => exact ih
    | some a => exact congrArg (f a :: ·) ih

/-- The solutions of the successful calls. -/
def successes (obj : X → Vec (k + 1) K) (asf : Vec (k + 1) K → Vec (k + 1) K → K)
    (solve : Nat → (X → K) → X × Bool) : Nat → List (Vec (k + 1) K) → List X
  | _, [] => []
  | i, z :: zs =>
    if (solve i fun x => asf z (obj x)).2 = true then
      (solve i fun x => asf z (obj x)).1 :: successes obj asf solve (i + 1) zs
    else successes obj asf solve (i + 1) zs

theorem frontLoop_sublist (obj : X → Vec (k + 1) K) (asf : Vec (k + 1) K → Vec (k + 1) K → K)
    (solve : Nat → (X → K) → X × Bool) : ∀ (zs : List (Vec (k + 1) K)) (i : Nat) (xs : List (Option X)) fs,
    ∃ ys : List X, ((frontLoop obj asf solve i zs xs fs).1).filterMap id = xs.filterMap id ++ ys ∧
      ys.Sublist (successes obj asf solve i zs) := by
  intro zs
  induction zs with
  | nil => intro i xs fs; exact ⟨[], by simp [frontLoop], .slnil⟩
  | cons z zs ih =>
    intro i xs fs
    unfold frontLoop successes
    simp only []
    by_cases h1 : (solve i fun x => asf z (obj x)).2 = false
    · rw [if_pos h1, if_neg (by simp [h1])]
      obtain ⟨ys, h2, h3⟩ := ih (i + 1) (xs ++ [none]) (fs ++ [none])
      exact ⟨ys, by simpa using h2, h3⟩
    · have h1' : (solve i fun x => asf z (obj x)).2 = true := by simpa using h1
      rw [if_neg h1, if_pos h1']
      by_cases h5 : accepts fs i (obj (solve i fun x => asf z (obj x)).1) = true
      · rw [if_pos h5]
        obtain ⟨ys, h2, h3⟩ := ih (i + 1) (xs ++ [some (solve i fun x => asf z (obj x)).1])
          (fs ++ [some (obj (solve i fun x => asf z (obj x)).1)])
        exact ⟨(solve i fun x => asf z (obj x)).1 :: ys, by simpa using h2, h3.cons_cons _⟩
      · rw [if_neg h5]
        obtain ⟨ys, h2, h3⟩ := ih (i + 1) (xs ++ [none]) (fs ++ [none])
        exact ⟨ys, by simpa using h2, h3.cons _⟩

/-- If every solution accepted so far or found is optimal and one has been accepted, all solutions found are
accepted. -/
theorem frontLoop_all {obj : X → Vec (k + 1) K} {asf : Vec (k + 1) K → Vec (k + 1) K → K}
    {solve : Nat → (X → K) → X × Bool} (hopt : ∀ n z, (solve n fun x => asf z (obj x)).2 = true →
      ∀ y, ¬ Dominates (obj y) (obj (solve n fun x => asf z (obj x)).1)) :
    ∀ (zs : List (Vec (k + 1) K)) (i : Nat) (xs : List (Option X)), xs.filterMap id ≠ [] →
      ((frontLoop obj asf solve i zs xs (xs.map (Option.map obj))).1).filterMap id =
        xs.filterMap id ++ successes obj asf solve i zs := by
  intro zs
  induction zs with
  | nil => intro i xs _; simp [frontLoop, successes]
  | cons z zs ih =>
    intro i xs hne
    unfold frontLoop successes
    simp only []
    by_cases h1 : (solve i fun x => asf z (obj x)).2 = false
    · rw [if_pos h1, if_neg (by simp [h1])]
      have := ih (i + 1) (xs ++ [none]) (by simpa using hne)
      simpa using this
    · have h1' : (solve i fun x => asf z (obj x)).2 = true := by simpa using h1
      rw [if_neg h1, if_pos h1']
      have hacc : accepts (xs.map (Option.map obj)) i (obj (solve i fun x => asf z (obj x)).1) = true := by
        unfold accepts
        rw [filterMap_map_option]
        obtain ⟨x0, hx0⟩ := List.exists_mem_of_ne_nil _ hne
        have hnd := hopt i z (by simpa using h1) x0
        rw [Bool.or_eq_true]
        left
        rw [Bool.not_eq_true']
        by_contra hc
        rw [Bool.not_eq_false, List.all_eq_true] at hc
        have := hc (obj x0) (List.mem_map_of_mem hx0)
        simp only [decide_eq_true_eq] at this
        exact hnd ⟨fun j => (this j).le, 0, this 0⟩
      rw [if_pos hacc]
      have := ih (i + 1) (xs ++ [some (solve i fun x => asf z (obj x)).1]) (by simp)
      simpa using this

/-- Nothing is accepted after a start without an accepted solution. -/
theorem frontLoop_none {obj : X → Vec (k + 1) K} {asf : Vec (k + 1) K → Vec (k + 1) K → K}
    {solve : Nat → (X → K) → X × Bool} :
    ∀ (zs : List (Vec (k + 1) K)) (i : Nat) (xs : List (Option X)) fs, 1 ≤ i → xs.filterMap id = [] →
      fs.filterMap id = [] → ((frontLoop obj asf solve i zs xs fs).1).filterMap id = [] ∧
        ((frontLoop obj asf solve i zs xs fs).2).filterMap id = [] := by
  intro zs
  induction zs with
  | nil => intro i xs fs _ h1 h2; exact ⟨h1, h2⟩
  | cons z zs ih =>
    intro i xs fs hi h1 h2
    have step := ih (i + 1) (xs ++ [none]) (fs ++ [none]) (by omega) (by simpa using h1) (by simpa using h2)
    unfold frontLoop
    simp only []
    by_cases h3 : (solve i fun x => asf z (obj x)).2 = false
    · rw [if_pos h3]; exact step
    · rw [if_neg h3, if_neg]
      · exact step
      · unfold accepts
        rw [h2]
        simp
        omega

end Verif.Solvers
