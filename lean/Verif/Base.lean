import Mathlib.Algebra.Order.Field.Basic
import Mathlib.Algebra.Order.Field.Rat
import Mathlib.Data.Rat.Defs
import Mathlib.Tactic.Linarith
import Mathlib.Tactic.Ring
import Mathlib.Tactic.FieldSimp
import Mathlib.Tactic.Positivity
import Mathlib.Tactic.NormNum
import Mathlib.Data.List.FinRange
import Mathlib.Data.Fin.Tuple.Basic

/-!
# Python / numpy vocabulary shared by all models

Exceptions are values of `Err`; a Python call that may raise is an `Except Err α`.
A method call that mutates the object is a function returning the new state *together with*
the `Except`, so that mutations made before an exception is raised are kept.
-/

namespace Verif

/-- The Python exceptions the modelled code can raise.
`refused` stands for the module's own exception class (`ENautilusException`,
`NautilusNavigatorException`, `NimbusException`, `NautilusException`, `RPMException`,
`ParetoNavigatorException`, `PAINTException`, `MCDMUtilityException`).
`diverges` is not an exception: the call does not return. -/
inductive Err
  | refused
  | indexError
  | keyError
  | valueError
  | typeError
  | zeroDivisionError
  | diverges
  deriving DecidableEq, Repr

/-- An objective vector: a 1D numpy array of known length `k` over the number type `K`. -/
abbrev Vec (k : Nat) (K : Type) := Fin k → K

/-! Boolean equality of vectors, used only to evaluate concrete examples. -/

instance instBEqFinFun {k : Nat} {α : Type} [BEq α] : BEq (Fin k → α) :=
  ⟨fun a b => (List.finRange k).all fun i => a i == b i⟩

instance instReflBEqFinFun {k : Nat} {α : Type} [BEq α] [ReflBEq α] : ReflBEq (Fin k → α) :=
  ⟨by intro a; simp [BEq.beq]⟩

instance instLawfulBEqFinFun {k : Nat} {α : Type} [BEq α] [LawfulBEq α] : LawfulBEq (Fin k → α) :=
  ⟨by
    intro a b h
    funext i
    have h' : ((List.finRange k).all fun i => a i == b i) = true := h
    rw [List.all_eq_true] at h'
    exact eq_of_beq (h' i (List.mem_finRange i))⟩

instance instBEqExceptErr {α : Type} [BEq α] : BEq (Except Err α) :=
  ⟨fun a b => match a, b with
    | .ok x, .ok y => x == y
    | .error e, .error e' => decide (e = e')
    | _, _ => false⟩

instance instLawfulBEqExceptErr {α : Type} [BEq α] [LawfulBEq α] : LawfulBEq (Except Err α) where
  eq_of_beq := by
    intro a b h
    cases a <;> cases b <;> simp_all [BEq.beq]
  rfl := by
    intro a
    cases a <;> simp [BEq.beq]

/-- Double precision values, without rounding: a number, NaN or an infinity. -/
inductive Fl (K : Type)
  | num (x : K)
  | nan
  | pinf
  | ninf
  deriving BEq, ReflBEq, LawfulBEq, Repr

/-- IEEE division of two finite numbers (numpy does not raise): `0/0` is NaN, `x/0` is infinite. -/
def fdiv {K : Type} [Field K] [LinearOrder K] (a b : K) : Fl K :=
  if b = 0 then (if a = 0 then .nan else if 0 < a then .pinf else .ninf) else .num (a / b)

/-- Multiplication of a double by a finite positive constant. -/
def Fl.scalePos {K : Type} [Mul K] (c : K) : Fl K → Fl K
  | .num x => .num (x * c)
  | .nan => .nan
  | .pinf => .pinf
  | .ninf => .ninf

/-- Python sequence indexing `l[i]` with negative indices counting from the end. -/
def pyGet {α : Type} (l : List α) (i : Int) : Except Err α :=
  let j := if i < 0 then i + l.length else i
  if j < 0 then .error .indexError
  else match l[j.toNat]? with
    | some a => .ok a
    | none => .error .indexError

/-- numpy's `np.min` on a 1D array: `ValueError` on an empty one. -/
def npMin {K : Type} [LinearOrder K] : List K → Except Err K
  | [] => .error .valueError
  | a :: l => .ok (l.foldl min a)

/-- numpy's `np.max` on a 1D array: `ValueError` on an empty one. -/
def npMax {K : Type} [LinearOrder K] : List K → Except Err K
  | [] => .error .valueError
  | a :: l => .ok (l.foldl max a)

/-- Loop of `argmin`: `b` is the best value so far, `bi` its index, `i` the next index. -/
def argminGo {K : Type} [LinearOrder K] (b : K) (bi i : Nat) : List K → Nat
  | [] => bi
  | x :: xs => if x < b then argminGo x i (i + 1) xs else argminGo b bi (i + 1) xs

/-- numpy's `argmin`: the first index of a smallest entry, `ValueError` on an empty array. -/
def npArgmin {K : Type} [LinearOrder K] : List K → Except Err Nat
  | [] => .error .valueError
  | a :: l => .ok (argminGo a 0 1 l)

/-- Loop of `nanargmin`; `none` entries are NaN and skipped. -/
def nanArgminGo {K : Type} [LinearOrder K] (b : Option (K × Nat)) (i : Nat) :
    List (Option K) → Option (K × Nat)
  | [] => b
  | none :: xs => nanArgminGo b (i + 1) xs
  | some x :: xs =>
    match b with
    | none => nanArgminGo (some (x, i)) (i + 1) xs
    | some (y, bi) =>
      if x < y then nanArgminGo (some (x, i)) (i + 1) xs
      else nanArgminGo (some (y, bi)) (i + 1) xs

/-- numpy's `nanargmin`: the first index of a smallest non-NaN entry, `ValueError` if there is none. -/
def npNanArgmin {K : Type} [LinearOrder K] (l : List (Option K)) : Except Err Nat :=
  match nanArgminGo none 0 l with
  | none => .error .valueError
  | some (_, i) => .ok i

/-- A Python `for` loop over a list that computes one result per element and stops at the
first exception. -/
def mapE {α β : Type} (f : α → Except Err β) : List α → Except Err (List β)
  | [] => .ok []
  | a :: l =>
    match f a with
    | .error e => .error e
    | .ok b =>
      match mapE f l with
      | .error e => .error e
      | .ok bs => .ok (b :: bs)

/-- A Python `for` loop over the components of a vector that computes one entry per component
and stops at the first exception. -/
def vecM {α : Type} : {k : Nat} → (Fin k → Except Err α) → Except Err (Fin k → α)
  | 0, _ => .ok (fun i => i.elim0)
  | _ + 1, f =>
    match f 0 with
    | .error e => .error e
    | .ok a =>
      match vecM (fun i => f i.succ) with
      | .error e => .error e
      | .ok g => .ok (Fin.cons a g)

/-- The dynamically typed values Python validation code distinguishes with `isinstance`/`type`. -/
inductive PyVal
  | int (z : Int)
  | bool (b : Bool)
  | float (q : ℚ)
  | str (s : String)
  | none
  deriving DecidableEq, Repr

/-- `isinstance(v, int)`: true for Python booleans as well. -/
def PyVal.isInstanceInt : PyVal → Bool
  | .int _ => true
  | .bool _ => true
  | _ => false

/-- `type(v) == int`: false for booleans. -/
def PyVal.typeIsInt : PyVal → Bool
  | .int _ => true
  | _ => false

/-- The integer a Python `int`/`bool` stands for in arithmetic. -/
def PyVal.asInt : PyVal → Int
  | .int z => z
  | .bool b => if b then 1 else 0
  | _ => 0

end Verif
