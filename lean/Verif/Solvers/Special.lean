import Verif.Solvers.Props

set_option linter.unusedSectionVars false

/-!
# Front representations: NaN objective values and infinite bounds, C145 and C80
-/

namespace Verif.Solvers

open Navigator (pointAsf)

variable {K : Type} [Field K] [LinearOrder K] {k : Nat} {X : Type}

/-! ### Model with NaN -/

/-- One row of the array of objective values; `none` is NaN. -/
abbrev Row (k : Nat) (K : Type) := Fin (k + 1) → Option K

/-- `np.all(np.isnan(row))`. -/
def isNan (r : Row k K) : Bool := decide (∀ j, (r j).isNone = true)

/-- `a > b` of two doubles: false if one of them is NaN. -/
def gtNan : Option K → Option K → Bool
  | some a, some b => decide (b < a)
  | _, _ => false

/-- solvers.py:242-247 with NaN: rows of NaN are left out of the comparison. -/
def nAccepts (prev : List (Row k K)) (i : Nat) (f : Row k K) : Bool :=
  !((prev.filter fun p => !isNan p).all fun p => decide (∀ j, gtNan (f j) (p j) = true)) || decide (i < 1)

/-- solvers.py:230-250 with NaN. The decision vectors found are numbers, `none` is a row of NaN. What the minimizer finds
for a reference point is arbitrary. -/
def nLoop (obj : X → Row k K) (solve : Nat → Vec (k + 1) K → X × Bool) : Nat → List (Vec (k + 1) K) → List (Option X) →
    List (Row k K) → List (Option X) × List (Row k K)
  | _, [], xs, fs => (xs, fs)
  | i, z :: zs, xs, fs =>
    if (solve i z).2 = false then nLoop obj solve (i + 1) zs (xs ++ [none]) (fs ++ [fun _ => none])
    else if nAccepts fs i (obj (solve i z).1) then
      nLoop obj solve (i + 1) zs (xs ++ [some (solve i z).1]) (fs ++ [obj (solve i z).1])
    else nLoop obj solve (i + 1) zs (xs ++ [none]) (fs ++ [fun _ => none])

/-- solvers.py:227-255 with NaN: rows of NaN are removed from both arrays, separately. -/
def nFront (obj : X → Row k K) (solve : Nat → Vec (k + 1) K → X × Bool) (zs : List (Vec (k + 1) K)) :
    List X × List (Row k K) :=
  ((nLoop obj solve 0 zs [] []).1.filterMap id, (nLoop obj solve 0 zs [] []).2.filter fun r => !isNan r)

/-! ### Without NaN it is the model of `Solvers.Model` -/

/-- A row as the model without NaN has it. -/
def rowOf : Option (Vec (k + 1) K) → Row k K
  | none => fun _ => none
  | some v => fun j => some (v j)

theorem isNan_rowOf (o : Option (Vec (k + 1) K)) : isNan (rowOf o) = o.isNone := by
  cases o with
  | none => simp [isNan, rowOf]
  | some v => simp [isNan, rowOf]

theorem rows_filter (l : List (Option (Vec (k + 1) K))) :
    (l.map rowOf).filter (fun r => !isNan r) = (l.filterMap id).map fun v => rowOf (some v) := by
  induction l with
  | nil => rfl
  | cons o l ih =>
    cases o with
    | none => simp only [List.map_cons, List.filter_cons, isNan_rowOf]; simpa using ih
    | some v => simp only [List.map_cons, List.filter_cons, isNan_rowOf]; simpa using ih

theorem nAccepts_total (prev : List (Option (Vec (k + 1) K))) (i : Nat) (f : Vec (k + 1) K) :
    nAccepts (prev.map rowOf) i (fun j => some (f j)) = accepts prev i f := by
  unfold nAccepts accepts
  rw [rows_filter, List.all_map]
  simp [Function.comp_def, gtNan, rowOf]

theorem nLoop_total (obj : X → Vec (k + 1) K) (asf : Vec (k + 1) K → Vec (k + 1) K → K)
    (solve : Nat → (X → K) → X × Bool) : ∀ (zs : List (Vec (k + 1) K)) (i : Nat) (xs : List (Option X))
      (fs : List (Option (Vec (k + 1) K))),
    nLoop (fun x j => some (obj x j)) (fun i z => solve i fun x => asf z (obj x)) i zs xs (fs.map rowOf) =
      ((frontLoop obj asf solve i zs xs fs).1, (frontLoop obj asf solve i zs xs fs).2.map rowOf) := by
  intro zs
  induction zs with
  | nil => intro i xs fs; rfl
  | cons z zs ih =>
    intro i xs fs
    unfold nLoop frontLoop
    simp only []
    by_cases h : (solve i fun x => asf z (obj x)).2 = false
    · rw [if_pos h, if_pos h, ← ih]
      simp [rowOf]
    · rw [if_neg h, if_neg h, nAccepts_total]
      by_cases h2 : accepts fs i (obj (solve i fun x => asf z (obj x)).1) = true
      · rw [if_pos h2, if_pos h2, ← ih]
        simp [rowOf]
      · rw [if_neg h2, if_neg h2, ← ih]
        simp [rowOf]

/-- For objectives without NaN the two models return the same. -/
theorem nFront_total (obj : X → Vec (k + 1) K) (asf : Vec (k + 1) K → Vec (k + 1) K → K)
    (solve : Nat → (X → K) → X × Bool) (zs : List (Vec (k + 1) K)) :
    nFront (fun x j => some (obj x j)) (fun i z => solve i fun x => asf z (obj x)) zs =
      ((frontLoop obj asf solve 0 zs [] []).1.filterMap id,
        ((frontLoop obj asf solve 0 zs [] []).2.filterMap id).map fun v j => some (v j)) := by
  have h := nLoop_total obj asf solve zs 0 [] []
  simp only [List.map_nil] at h
  unfold nFront
  rw [h, rows_filter]
  rfl

/-! ### C145 -/

/-- The full claim: the objective vectors returned are those of the decision vectors returned, in the same order. -/
def Aligned (obj : X → Row k K) (r : List X × List (Row k K)) : Prop := r.2 = r.1.map obj

/-- The rows of the two arrays. -/
theorem nLoop_rows (obj : X → Row k K) (solve : Nat → Vec (k + 1) K → X × Bool)
    (hdef : ∀ i z, (solve i z).2 = true → ∃ j, obj (solve i z).1 j ≠ none) :
    ∀ (zs : List (Vec (k + 1) K)) (i : Nat) (xs : List (Option X)) (fs : List (Row k K)),
      fs.filter (fun r => !isNan r) = (xs.filterMap id).map obj →
      (nLoop obj solve i zs xs fs).2.filter (fun r => !isNan r) = ((nLoop obj solve i zs xs fs).1.filterMap id).map obj := by
  intro zs
  induction zs with
  | nil => intro i xs fs h; exact h
  | cons z zs ih =>
    intro i xs fs h
    have hn : (fs ++ [fun _ => none]).filter (fun r : Row k K => !isNan r) = ((xs ++ [none]).filterMap id).map obj := by
      rw [List.filter_append, List.filterMap_append, List.map_append, h]
      simp [isNan]
    unfold nLoop
    by_cases h1 : (solve i z).2 = false
    · rw [if_pos h1]; exact ih _ _ _ hn
    · rw [if_neg h1]
      by_cases h2 : nAccepts fs i (obj (solve i z).1) = true
      · rw [if_pos h2]
        refine ih _ _ _ ?_
        rw [List.filter_append, List.filterMap_append, List.map_append, h]
        obtain ⟨j, hj⟩ := hdef i z (by simpa using h1)
        have : isNan (obj (solve i z).1) = false := by
          unfold isNan
          rw [decide_eq_false_iff_not]
          intro hc
          exact hj (Option.isNone_iff_eq_none.1 (hc j))
        simp [this]
      · rw [if_neg h2]; exact ih _ _ _ hn

/-- **C145**, if every solution the minimizer finds has an objective that is not NaN: for all objective functions, some
values of which may be NaN, and all results of the minimizations, the rows of the two arrays belong together. Missing:
solutions all objectives of which are NaN (`C145_fails`). -/
theorem C145_aligned_partial (obj : X → Row k K) (solve : Nat → Vec (k + 1) K → X × Bool) (zs : List (Vec (k + 1) K))
    (hdef : ∀ i z, (solve i z).2 = true → ∃ j, obj (solve i z).1 j ≠ none) : Aligned obj (nFront obj solve zs) :=
  nLoop_rows obj solve hdef zs 0 [] [] rfl

/-- Solution 0 has no objective value, solution 1 only one of the two, solution 2 both. -/
def nanObj : Fin 3 → Row 1 ℚ := ![![none, none], ![none, some 1], ![some 2, some 3]]

/-- C145 applies: partly undefined objectives, both solutions found are returned. -/
example : Aligned nanObj (nFront nanObj (fun i _ => if i = 0 then (1, true) else (2, true)) [![0, 0], ![1, 1]]) ∧
    (nFront nanObj (fun i _ => if i = 0 then (1, true) else (2, true)) [![0, 0], ![1, 1]]).1 = [1, 2] := by
  refine ⟨C145_aligned_partial _ _ _ fun i z _ => ?_, by decide +kernel⟩
  by_cases h : i = 0
  · rw [if_pos h]; exact ⟨1, by decide +kernel⟩
  · rw [if_neg h]; exact ⟨1, by decide +kernel⟩

/-- Solution 2, then solution 0, then solution 1. -/
def nanSolve (i : Nat) (_ : Vec 2 ℚ) : Fin 3 × Bool := if i = 0 then (2, true) else if i = 1 then (0, true) else (1, true)

/-- C145 fails: if all objectives of a solution found are NaN, its decision vector is returned without an objective vector,
so the objective vectors returned stand beside the wrong decision vectors. If it is the first one found, moreover, no other
solution is ever accepted: its decision vector is returned alone. -/
theorem C145_fails :
    (nFront nanObj nanSolve [![0, 0], ![0, 1], ![1, 0]]).1 = [2, 0, 1] ∧
    (nFront nanObj nanSolve [![0, 0], ![0, 1], ![1, 0]]).2 = [![some 2, some 3], ![none, some 1]] ∧
    ¬ Aligned nanObj (nFront nanObj nanSolve [![0, 0], ![0, 1], ![1, 0]]) ∧
    nFront nanObj (fun i _ => if i = 0 then (0, true) else (2, true)) [![0, 0], ![0, 1], ![1, 0]] = ([0], []) := by
  have h1 : (nFront nanObj nanSolve [![0, 0], ![0, 1], ![1, 0]]).1 = [2, 0, 1] := by decide +kernel
  have h2 : (nFront nanObj nanSolve [![0, 0], ![0, 1], ![1, 0]]).2 = [![some 2, some 3], ![none, some 1]] := by
    decide +kernel
  refine ⟨h1, h2, fun h => ?_, by decide +kernel⟩
  unfold Aligned at h
  rw [h1, h2] at h
  exact absurd (congrArg List.length h) (by decide)

/-! ### C80: bounds some components of which are infinite -/

variable [FloorRing K] [IsStrictOrderedRing K]

/-- `np.all(np.isinf(v))`. -/
def allInf {m : Nat} (v : Fin m → Fl K) : Prop := ∀ j, v j = .pinf ∨ v j = .ninf

/-- All components are numbers. -/
def numbers {m : Nat} (v : Fin m → Fl K) : Option (Vec m K) :=
  if ∀ j, (match v j with | .num _ => true | _ => false) = true then
    some fun j => match v j with | .num x => x | _ => 0
  else none

open Classical in
/-- solvers.py:196-255 for ideal and nadir with infinite or NaN components (`none` is `None`). If both are used as they are
and a component is not a number, the quotient in `np.mgrid` (solvers.py:225) is infinite or NaN and rounding it up raises
`OverflowError` or `ValueError`, after the step has been checked (212-223). -/
noncomputable def specialFront (obj : X → Vec (k + 1) K) (step : StepArg K) (eps : K) (ideal nadir : Option (Fin (k + 1) → Fl K))
    (cons : Option (X → List K)) (table front : Solver X K) : Except Err (List X × List (Vec (k + 1) K)) :=
  match ideal with
  | none => .error .typeError
  | some i =>
    if allInf i then frontGeneral obj step eps .infinite .infinite cons table front
    else
      match nadir with
      | none => .error .typeError
      | some n =>
        if allInf n then frontGeneral obj step eps .infinite .infinite cons table front
        else
          match numbers i, numbers n with
          | some a, some b => frontGeneral obj step eps (.given a) (.given b) cons table front
          | _, _ =>
            match stepsOf (k := k) step with
            | .error e => .error e
            | .ok _ => .error .valueError

/-- C80 fails if only some components of the ideal or the nadir are known, for all problems, steps and solvers: nothing is
computed for the missing ones, the call raises. -/
theorem C80_fails_partly (obj : X → Vec (k + 1) K) (step : StepArg K) (eps : K) (ideal nadir : Fin (k + 1) → Fl K)
    (cons : Option (X → List K)) (table front : Solver X K)
    (hi : ∃ j x, ideal j = .num x) (hn : ∃ j x, nadir j = .num x)
    (hinf : (∃ j, ideal j = .pinf ∨ ideal j = .ninf) ∨ ∃ j, nadir j = .pinf ∨ nadir j = .ninf) :
    specialFront obj step eps (some ideal) (some nadir) cons table front =
      .error .refused ∧ BadStep k step ∨
    specialFront obj step eps (some ideal) (some nadir) cons table front = .error .valueError ∧ ¬ BadStep k step := by
  have h1 : ¬ allInf ideal := by
    obtain ⟨j, x, h⟩ := hi
    intro hc
    have := hc j
    rw [h] at this
    simp at this
  have h2 : ¬ allInf nadir := by
    obtain ⟨j, x, h⟩ := hn
    intro hc
    have := hc j
    rw [h] at this
    simp at this
  have h3 : numbers ideal = none ∨ numbers nadir = none := by
    rcases hinf with ⟨j, h⟩ | ⟨j, h⟩
    · left
      unfold numbers
      rw [if_neg]
      intro hc
      have := hc j
      rcases h with h | h <;> simp [h] at this
    · right
      unfold numbers
      rw [if_neg]
      intro hc
      have := hc j
      rcases h with h | h <;> simp [h] at this
  unfold specialFront
  simp only []
  rw [if_neg h1, if_neg h2]
  have h4 : ∀ o o' : Option (Vec (k + 1) K), o = none ∨ o' = none →
      (match o, o' with
        | some a, some b => frontGeneral obj step eps (.given a) (.given b) cons table front
        | _, _ =>
          match stepsOf (k := k) step with
          | .error e => .error e
          | .ok _ => .error .valueError) = (match stepsOf (k := k) step with
      | .error e => (.error e : Except Err (List X × List (Vec (k + 1) K)))
      | .ok _ => .error .valueError) := by
    intro o o' h
    cases o with
    | none => rfl
    | some a =>
      cases o' with
      | none => rfl
      | some b => simp at h
  rw [h4 _ _ h3]
  by_cases hb : BadStep k step
  · exact .inl ⟨by rw [stepsOf_bad.2 hb], hb⟩
  · exact .inr ⟨by rw [stepsOf_good hb], hb⟩

/-- A problem with known ideal and one known component of the nadir. -/
example := C80_fails_partly exProblem.obj (.float 2) (1 / 1000000) ![.num 0, .num 0] ![.num 2, .pinf] none exSolver exSolver
  ⟨0, 0, rfl⟩ ⟨0, 2, rfl⟩ (.inr ⟨1, .inl rfl⟩)

/-- With finite points it is the model of `Solvers.Model`. -/
theorem specialFront_finite (obj : X → Vec (k + 1) K) (step : StepArg K) (eps : K) (a b : Vec (k + 1) K)
    (cons : Option (X → List K)) (table front : Solver X K) :
    specialFront obj step eps (some fun j => .num (a j)) (some fun j => .num (b j)) cons table front =
      frontGeneral obj step eps (.given a) (.given b) cons table front := by
  have h : ∀ v : Vec (k + 1) K, ¬ allInf (fun j => Fl.num (v j)) := fun v hc => by simpa using hc 0
  have h2 : ∀ v : Vec (k + 1) K, numbers (fun j => Fl.num (v j)) = some v := fun v => by simp [numbers]
  unfold specialFront
  simp only []
  rw [if_neg (h a), if_neg (h b), h2, h2]

end Verif.Solvers
