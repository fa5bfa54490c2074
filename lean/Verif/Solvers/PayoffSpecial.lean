import Verif.Solvers.Props
import Mathlib.Data.Fin.VecNotation
import Mathlib.Tactic.FinCases

set_option linter.unusedSectionVars false

/-!
# Payoff table with infinite or undefined objective values: property C155
-/

namespace Verif.Solvers

variable {K : Type} [Field K] [LinearOrder K] [IsStrictOrderedRing K] {k : Nat} {X : Type}

/-! ### Model -/

/-- IEEE multiplication of a double by a finite number. -/
def timesF (x : Fl K) (w : K) : Fl K :=
  match x with
  | .num y => .num (y * w)
  | .nan => .nan
  | .pinf => if w = 0 then .nan else if 0 < w then .pinf else .ninf
  | .ninf => if w = 0 then .nan else if 0 < w then .ninf else .pinf

/-- IEEE addition. -/
def addF : Fl K → Fl K → Fl K
  | .num x, .num y => .num (x + y)
  | .num _, y => y
  | x, .num _ => x
  | .pinf, .pinf => .pinf
  | .ninf, .ninf => .ninf
  | _, _ => .nan

/-- The maximum of two doubles in `np.max`: NaN is passed on. -/
def maxF : Fl K → Fl K → Fl K
  | .nan, _ => .nan
  | _, .nan => .nan
  | .pinf, _ => .pinf
  | _, .pinf => .pinf
  | .ninf, y => y
  | x, .ninf => x
  | .num x, .num y => .num (max x y)

/-- solvers.py:22-32 for one vector of doubles. -/
def weightedScalarizerF (f : Vec (k + 1) (Fl K)) (ws : Vec (k + 1) K) : Fl K :=
  ((List.finRange (k + 1)).map fun i => timesF (f i) (ws i)).foldl addF (.num 0)

/-- A minimizer of a function with infinite and undefined values. -/
abbrev SolverF (X K : Type) := Nat → Option (X → List K) → (X → Fl K) → X × Bool

/-- solvers.py:84-89. -/
def payoffTableF (obj : X → Vec (k + 1) (Fl K)) (cons : Option (X → List K)) (solve : SolverF X K) :
    Fin (k + 1) → Vec (k + 1) (Fl K) :=
  fun i => obj (solve i cons fun x => weightedScalarizerF (obj x) fun j => if i = j then 1 else 0).1

/-- solvers.py:35-94: ideal (`np.diag`) and nadir (`np.max`). -/
def payoffGeneralF (obj : X → Vec (k + 1) (Fl K)) (cons : Option (X → List K)) (solve : SolverF X K) :
    Vec (k + 1) (Fl K) × Vec (k + 1) (Fl K) :=
  (fun i => payoffTableF obj cons solve i i,
   fun j => ((List.finRange k).map fun i => payoffTableF obj cons solve i.succ j).foldl maxF
     (payoffTableF obj cons solve 0 j))

/-! ### Specification -/

/-- The order of the doubles; NaN is not comparable. -/
inductive LeF : Fl K → Fl K → Prop
  | num {x y : K} : x ≤ y → LeF (.num x) (.num y)
  | bot {y : Fl K} : y ≠ .nan → LeF .ninf y
  | top {x : Fl K} : x ≠ .nan → LeF x .pinf

/-- A double that is a number. -/
def IsNum (x : Fl K) : Prop := ∃ y, x = .num y

/-- Row `i` of the payoff table: the objectives of the solution found when minimizing `g`. -/
def FoundBy (obj : X → Vec (k + 1) (Fl K)) (cons : Option (X → List K)) (solve : SolverF X K) (i : Fin (k + 1))
    (g : X → Fl K) : Vec (k + 1) (Fl K) := obj (solve i cons g).1

/-! ### Sums and maxima -/

theorem addF_zero (x : Fl K) : addF x (.num 0) = x := by cases x <;> simp [addF]

theorem zero_addF (x : Fl K) : addF (.num 0) x = x := by cases x <;> simp [addF]

theorem foldl_nan (l : List (Fl K)) : l.foldl addF .nan = .nan := by
  induction l with
  | nil => rfl
  | cons x l ih => cases x <;> simpa [addF] using ih

theorem addF_nan (x : Fl K) : addF x .nan = .nan := by cases x <;> rfl

theorem foldl_mem_nan {l : List (Fl K)} (h : .nan ∈ l) (a : Fl K) : l.foldl addF a = .nan := by
  induction l generalizing a with
  | nil => cases h
  | cons x l ih =>
    rcases List.mem_cons.1 h with h | h
    · rw [List.foldl_cons, ← h, addF_nan, foldl_nan]
    · exact ih h _

theorem foldl_zeros {l : List (Fl K)} (h : ∀ x ∈ l, x = .num 0) (a : Fl K) : l.foldl addF a = a := by
  induction l generalizing a with
  | nil => rfl
  | cons x l ih =>
    rw [List.foldl_cons, h x List.mem_cons_self, addF_zero]
    exact ih (fun y hy => h y (List.mem_cons_of_mem _ hy)) a

/-- One objective is picked out if the others are numbers. -/
theorem scalar_unit {f : Vec (k + 1) (Fl K)} (i : Fin (k + 1)) (h : ∀ j, j ≠ i → IsNum (f j)) :
    weightedScalarizerF f (fun j => if i = j then 1 else 0) = f i := by
  obtain ⟨l1, l2, hl⟩ := List.append_of_mem (List.mem_finRange i)
  have hnd := List.nodup_finRange (k + 1)
  rw [hl] at hnd
  have h1 : ∀ j ∈ l1, j ≠ i := by
    intro j hj e
    have := (List.nodup_append.1 hnd).2.2 j hj i List.mem_cons_self
    exact this e
  have h2 : ∀ j ∈ l2, j ≠ i := by
    intro j hj e
    have := (List.nodup_cons.1 (List.nodup_append.1 hnd).2.1).1
    exact this (e ▸ hj)
  have hz : ∀ l : List (Fin (k + 1)), (∀ j ∈ l, j ≠ i) →
      ∀ x ∈ l.map fun j => timesF (f j) (if i = j then 1 else 0), x = .num 0 := by
    intro l hl x hx
    obtain ⟨j, hj, rfl⟩ := List.mem_map.1 hx
    obtain ⟨y, hy⟩ := h j (hl j hj)
    rw [hy, if_neg (Ne.symm (hl j hj))]
    simp [timesF]
  have h3 : timesF (f i) (if i = i then 1 else 0) = f i := by
    cases f i <;> simp [timesF]
  unfold weightedScalarizerF
  rw [hl, List.map_append, List.map_cons, List.foldl_append, List.foldl_cons, foldl_zeros (hz l1 h1), h3, zero_addF,
    foldl_zeros (hz l2 h2)]

/-- The sum is undefined if another objective is not a number. -/
theorem scalar_unit_nan {f : Vec (k + 1) (Fl K)} {i j : Fin (k + 1)} (hj : j ≠ i) (h : ¬ IsNum (f j)) :
    weightedScalarizerF f (fun j => if i = j then 1 else 0) = .nan := by
  unfold weightedScalarizerF
  apply foldl_mem_nan
  refine List.mem_map.2 ⟨j, List.mem_finRange j, ?_⟩
  show timesF (f j) (if i = j then 1 else 0) = .nan
  rw [if_neg (Ne.symm hj)]
  cases hf : f j with
  | num y => exact absurd ⟨y, hf⟩ h
  | nan => rfl
  | pinf => simp [timesF]
  | ninf => simp [timesF]

theorem LeF.refl {x : Fl K} (h : x ≠ .nan) : LeF x x := by
  cases x with
  | num y => exact .num le_rfl
  | nan => exact absurd rfl h
  | pinf => exact .top h
  | ninf => exact .bot h

theorem LeF.trans {x y z : Fl K} (h : LeF x y) (h' : LeF y z) : LeF x z := by
  cases h with
  | num h =>
    cases h' with
    | num h' => exact .num (h.trans h')
    | top _ => exact .top (by simp)
  | bot _ =>
    cases h' with
    | num _ => exact .bot (by simp)
    | bot h => exact .bot h
    | top _ => exact .bot (by simp)
  | top h =>
    cases h' with
    | top _ => exact .top h

theorem maxF_nan {x y : Fl K} : maxF x y = .nan ↔ x = .nan ∨ y = .nan := by
  cases x <;> cases y <;> simp [maxF]

theorem maxF_spec {x y : Fl K} (hx : x ≠ .nan) (hy : y ≠ .nan) :
    (maxF x y = x ∨ maxF x y = y) ∧ LeF x (maxF x y) ∧ LeF y (maxF x y) := by
  cases x <;> cases y <;> first | exact absurd rfl hx | exact absurd rfl hy | skip
  · rename_i a b
    simp only [maxF]
    refine ⟨?_, .num (le_max_left _ _), .num (le_max_right _ _)⟩
    rcases max_choice a b with h | h <;> simp [h]
  all_goals
    simp only [maxF]
    refine ⟨by simp, ?_, ?_⟩ <;> first | exact .refl (by simp) | exact .top (by simp) | exact .bot (by simp)

theorem foldl_max_nan (l : List (Fl K)) (a : Fl K) : l.foldl maxF a = .nan ↔ a = .nan ∨ .nan ∈ l := by
  induction l generalizing a with
  | nil => simp
  | cons x l ih =>
    rw [List.foldl_cons, ih, maxF_nan, List.mem_cons]
    constructor
    · rintro ((h | h) | h)
      · exact .inl h
      · exact .inr (.inl h.symm)
      · exact .inr (.inr h)
    · rintro (h | h | h)
      · exact .inl (.inl h)
      · exact .inl (.inr h.symm)
      · exact .inr h

theorem foldl_max_spec (l : List (Fl K)) {a : Fl K} (ha : a ≠ .nan) (hl : .nan ∉ l) :
    l.foldl maxF a ∈ a :: l ∧ ∀ x ∈ a :: l, LeF x (l.foldl maxF a) := by
  induction l generalizing a with
  | nil => simp [LeF.refl ha]
  | cons x l ih =>
    rw [List.mem_cons, not_or] at hl
    have hx : x ≠ .nan := fun h => hl.1 h.symm
    obtain ⟨c, l1, l2⟩ := maxF_spec ha hx
    obtain ⟨i1, i2⟩ := ih (a := maxF a x) (fun h => by rcases maxF_nan.1 h with h | h <;> contradiction) hl.2
    rw [List.foldl_cons]
    refine ⟨?_, ?_⟩
    · rcases List.mem_cons.1 i1 with h | h
      · rw [h]
        rcases c with c | c <;> rw [c] <;> simp
      · exact List.mem_cons_of_mem _ (List.mem_cons_of_mem _ h)
    · intro y hy
      rcases List.mem_cons.1 hy with rfl | hy
      · exact l1.trans (i2 _ List.mem_cons_self)
      · rcases List.mem_cons.1 hy with rfl | hy
        · exact l2.trans (i2 _ List.mem_cons_self)
        · exact i2 y (List.mem_cons_of_mem _ hy)

theorem column_mem (t : Fin (k + 1) → Fl K) (x : Fl K) :
    x ∈ t 0 :: (List.finRange k).map (fun i => t i.succ) ↔ ∃ i, t i = x := by
  rw [Fin.exists_fin_succ, List.mem_cons]
  simp [eq_comm]

/-! ### Properties -/

/-- **C155** (separate minimization). If at every decision vector the other objectives are numbers, row `i` of
the payoff table belongs to the solution found when minimizing objective `i`. -/
theorem C155_separate_partial (obj : X → Vec (k + 1) (Fl K)) (cons : Option (X → List K)) (solve : SolverF X K)
    (i : Fin (k + 1)) (h : ∀ x j, j ≠ i → IsNum (obj x j)) :
    (payoffGeneralF obj cons solve).1 i = FoundBy obj cons solve i (fun x => obj x i) i := by
  have : (fun x => weightedScalarizerF (obj x) fun j => if i = j then 1 else 0) = fun x => obj x i :=
    funext fun x => scalar_unit i (h x)
  simp only [payoffGeneralF, payoffTableF, FoundBy, this]

/-- **C155** (separate minimization, in general). What is minimized for objective `i` is the objective where all
other objectives are numbers, and undefined elsewhere. -/
theorem C155_minimized (obj : X → Vec (k + 1) (Fl K)) (cons : Option (X → List K)) (solve : SolverF X K) :
    ∃ g : Fin (k + 1) → X → Fl K,
      (∀ i x, (∀ j, j ≠ i → IsNum (obj x j)) → g i x = obj x i) ∧
      (∀ i x j, j ≠ i → ¬ IsNum (obj x j) → g i x = .nan) ∧
      (∀ i, (payoffGeneralF obj cons solve).1 i = FoundBy obj cons solve i (g i) i) ∧
      ∀ j, (∃ i, FoundBy obj cons solve i (g i) j = .nan) ↔ (payoffGeneralF obj cons solve).2 j = .nan := by
  refine ⟨fun i x => weightedScalarizerF (obj x) fun j => if i = j then 1 else 0, fun i x h => scalar_unit i h,
    fun i x j hj h => scalar_unit_nan hj h, fun i => rfl, fun j => ?_⟩
  simp only [payoffGeneralF]
  rw [foldl_max_nan]
  have := column_mem (fun i => payoffTableF obj cons solve i j) .nan
  rw [List.mem_cons, eq_comm] at this
  exact this.symm

/-- **C155** (ideal and nadir). In every objective that is defined at all solutions found, the ideal is at most
the nadir, and the nadir is the largest value found; one undefined value makes the nadir undefined. -/
theorem C155_order_partial (obj : X → Vec (k + 1) (Fl K)) (cons : Option (X → List K)) (solve : SolverF X K)
    (j : Fin (k + 1)) (h : ∀ x, obj x j ≠ .nan) :
    LeF ((payoffGeneralF obj cons solve).1 j) ((payoffGeneralF obj cons solve).2 j) ∧
      ∃ x, obj x j = (payoffGeneralF obj cons solve).2 j := by
  have ha : payoffTableF obj cons solve 0 j ≠ .nan := h _
  have hl : (.nan : Fl K) ∉ (List.finRange k).map fun i => payoffTableF obj cons solve i.succ j := by
    intro hm
    obtain ⟨i, _, hi⟩ := List.mem_map.1 hm
    exact h _ hi
  obtain ⟨h1, h2⟩ := foldl_max_spec _ ha hl
  refine ⟨h2 _ ((column_mem (fun i => payoffTableF obj cons solve i j) _).2 ⟨j, rfl⟩), ?_⟩
  obtain ⟨i, hi⟩ := (column_mem (fun i => payoffTableF obj cons solve i j) _).1 h1
  exact ⟨_, hi⟩

/-- **C155** (numbers only). With objectives that are numbers everywhere these are the ideal and nadir of the
ordinary model, if the two solvers agree on functions with numbers as values. -/
theorem C155_numbers (obj : X → Vec (k + 1) K) (cons : Option (X → List K)) (solveF : SolverF X K) (solve : Solver X K)
    (hs : ∀ i c (g : X → K), solveF i c (fun x => .num (g x)) = solve i c g) :
    payoffGeneralF (fun x j => .num (obj x j)) cons solveF =
      (fun i => .num ((payoffGeneral obj cons solve).1 i), fun j => .num ((payoffGeneral obj cons solve).2 j)) := by
  have ht : ∀ i, payoffTableF (fun x j => .num (obj x j)) cons solveF i =
      fun j => .num (payoffTable obj cons solve i j) := by
    intro i
    have e1 : (fun x => weightedScalarizerF (fun j => Fl.num (obj x j)) fun j => if i = j then 1 else 0) =
        fun x => .num (obj x i) := funext fun x => scalar_unit i fun j _ => ⟨_, rfl⟩
    have e2 : (fun x => weightedScalarizer (obj x) fun j => if i = j then 1 else 0) = fun x => obj x i := by
      funext x
      simp [weightedScalarizer]
    simp only [payoffTableF, payoffTable, e1, e2, hs]
  refine Prod.ext (funext fun i => ?_) (funext fun j => ?_)
  · simp only [payoffGeneralF, payoffGeneral, ht]
  · simp only [payoffGeneralF, payoffGeneral, ht]
    obtain ⟨h1, h2⟩ := foldl_max_spec
      ((List.finRange k).map fun i : Fin k => Fl.num (payoffTable obj cons solve i.succ j))
      (a := .num (payoffTable obj cons solve 0 j)) (by simp) (by simp)
    obtain ⟨i, hi⟩ := (column_mem (fun i => Fl.num (payoffTable obj cons solve i j)) _).1 h1
    rw [← hi, Fl.num.injEq]
    refine le_antisymm (le_vmax (fun i => payoffTable obj cons solve i j) i) (vmax_le_iff.2 fun l => ?_)
    have := h2 _ ((column_mem (fun i => Fl.num (payoffTable obj cons solve i j)) _).2 ⟨l, rfl⟩)
    rw [← hi] at this
    cases this with
    | num h => exact h

/-! ### The claim fails -/

/-- The claim: some solver finds the minimum of every objective, whatever the other objectives are. -/
def Separate (X K : Type) [Field K] [LinearOrder K] : Prop :=
  ∃ solve : SolverF X K, ∀ (obj : X → Vec 2 (Fl K)) (i : Fin 2), (∃ x₀, IsNum (obj x₀ i) ∧
    ∀ x, LeF (obj x₀ i) (obj x i)) →
    ∀ x, LeF ((payoffGeneralF obj none solve).1 i) (obj x i)

/-- Two decision vectors; the second objective is infinite at the first one, where the first objective is `a`. -/
def pole (a : ℚ) (b : Bool) : Vec 2 (Fl ℚ) := if b then ![.num 1, .num 0] else ![.num a, .pinf]

/-- **C155 fails.** No solver at all finds the ideal of both these problems: the value of the first objective
where the second one is infinite does not enter the minimization. -/
theorem C155_fails : ¬ Separate Bool ℚ := by
  rintro ⟨solve, h⟩
  have hg : ∀ a : ℚ, (fun x => weightedScalarizerF (pole a x) fun j => if (0 : Fin 2) = j then 1 else 0) =
      fun b => if b then .num 1 else .nan := by
    intro a
    funext b
    cases b
    · exact scalar_unit_nan (j := 1) (by simp) (by rintro ⟨y, hy⟩; simp [pole] at hy)
    · exact scalar_unit 0 fun j hj => by
        have : j = 1 := by fin_cases j <;> simp_all
        subst this
        exact ⟨0, rfl⟩
  have hi : ∀ a : ℚ, (payoffGeneralF (pole a) none solve).1 0 =
      pole a (solve 0 none fun b => if b then .num 1 else .nan).1 0 := by
    intro a
    simp only [payoffGeneralF, payoffTableF, hg]
    rfl
  have h1 := h (pole 0) 0 ⟨false, ⟨0, rfl⟩, fun x => by
    cases x
    · exact .refl (by simp [pole])
    · exact .num (by norm_num)⟩ false
  have h2 := h (pole 2) 0 ⟨true, ⟨1, rfl⟩, fun x => by
    cases x
    · exact .num (by norm_num)
    · exact .refl (by simp [pole])⟩ true
  rw [hi] at h1 h2
  cases hs : (solve 0 none fun b : Bool => if b then (.num 1 : Fl ℚ) else .nan).1 with
  | false =>
    rw [hs] at h2
    have h2' : LeF (.num 2 : Fl ℚ) (.num 1) := h2
    cases h2' with
    | num h => norm_num at h
  | true =>
    rw [hs] at h1
    have h1' : LeF (.num 1 : Fl ℚ) (.num 0) := h1
    cases h1' with
    | num h => norm_num at h

/-! ### Examples -/

/-- A solver that returns a fixed decision vector. -/
def fixedF : SolverF Bool ℚ := fun _ _ _ => (false, true)

example : (payoffGeneralF (pole 0) none fixedF).1 1 = FoundBy (pole 0) none fixedF 1 (fun x => pole 0 x 1) 1 :=
  C155_separate_partial (pole 0) none fixedF 1 fun x j hj => by
    have : j = 0 := by fin_cases j <;> simp_all
    subst this
    cases x
    · exact ⟨0, rfl⟩
    · exact ⟨1, rfl⟩

example : LeF ((payoffGeneralF (pole 0) none fixedF).1 1) ((payoffGeneralF (pole 0) none fixedF).2 1) ∧
    ∃ x, pole 0 x 1 = (payoffGeneralF (pole 0) none fixedF).2 1 :=
  C155_order_partial (pole 0) none fixedF 1 fun x => by cases x <;> simp [pole]

example : payoffGeneralF (fun (b : Bool) j => .num ((if b then ![1, 0] else ![0, 1] : Vec 2 ℚ) j)) none
      (fun i _ _ => (i == 1, true)) =
    (fun i => .num ((payoffGeneral (fun (b : Bool) => (if b then ![1, 0] else ![0, 1] : Vec 2 ℚ)) none
      fun i _ _ => (i == 1, true)).1 i),
     fun j => .num ((payoffGeneral (fun (b : Bool) => (if b then ![1, 0] else ![0, 1] : Vec 2 ℚ)) none
      fun i _ _ => (i == 1, true)).2 j)) :=
  C155_numbers _ none _ _ fun _ _ _ => rfl

example := C155_minimized (pole 0) none fixedF

end Verif.Solvers
