import Verif.Exec
import Mathlib.Algebra.Field.Rat
import Mathlib.Data.List.Dedup
import Mathlib.Data.List.Sort

/-!
# Model of `desdeo_mcdm/approximation/PAINT.py`

Modelled: the constructor, `perturbate`, `sort_wrt_entries` and `approximate` with both rules, loop by loop
and with the same index arithmetic. Parameters, arbitrary in every call: the Delaunay triangulation with
`generate_polytopes` (`polytopes`), `polytope_dominates` (`dominates`) and `inherently_nondominated`
(`nondominated`) of `desdeo_tools`; the first fails only if Qhull does. Not modelled: what `print_info` prints, with its counters and timers; a
one-dimensional array of outcomes (`atleast_2d`); NaN.
-/

namespace Verif.Paint

variable {K : Type} {k : Nat}

/-- A row of the array of polytopes: numbers of outcomes, possibly repeated. -/
abbrev Row := List Int

/-- The optional arguments `epsilon` and `method` of the functions for polytopes. -/
structure Opts (K : Type) where
  eps : K
  method : String

/-- The attributes: `po_outcomes` and `_po_outcomes`. -/
structure St (k : Nat) (K : Type) where
  outcomes : List (Vec k K)
  perturbed : Option (List (Vec k K)) := none

/-- Functions of `desdeo_tools` and scipy. `dominates u v o`: the polytope with vertices `u` dominates the one
with vertices `v`. -/
structure Tools (k : Nat) (K : Type) where
  polytopes : List (Vec k K) → Except Err (List Row)
  dominates : List (Vec k K) → List (Vec k K) → Opts K → Bool
  nondominated : List (Vec k K) → Opts K → Bool

/-- PAINT.py:30-38. -/
def construct (outcomes : List (Vec k K)) : Except Err (St k K) :=
  if k ≥ outcomes.length then .error .refused else .ok { outcomes := outcomes }

/-- PAINT.py:53-61; `noise` is the random array. -/
def perturbate [Add K] (s : St k K) (noise : List (Vec k K)) : St k K :=
  { s with perturbed := some (List.zipWith (fun p e => fun i => p i + e i) s.outcomes noise) }

/-- The sorting key in PAINT.py:51: number of distinct entries, then the smallest entry. -/
def key (r : Row) : Nat × Int := (r.dedup.length, r.foldl min (r.headD 0))

/-- Comparison of the keys, which are tuples. -/
def keyLe (a b : Row) : Bool :=
  decide ((key a).1 < (key b).1) || ((key a).1 == (key b).1 && decide ((key a).2 ≤ (key b).2))

/-- PAINT.py:40-51. `sorted` is stable, as insertion sort. `min` of an empty row raises `ValueError`. -/
def sortWrtEntries (rows : List Row) : Except Err (List Row) :=
  if rows.any List.isEmpty then .error .valueError else .ok (rows.insertionSort fun a b => keyLe a b = true)

/-- `po_outcomes[row]`: the vertices of a polytope. -/
def vertices (po : List (Vec k K)) : Row → Except Err (List (Vec k K))
  | [] => .ok []
  | i :: is =>
    match pyGet po i with
    | .error e => .error e
    | .ok p =>
      match vertices po is with
      | .error e => .error e
      | .ok ps => .ok (p :: ps)

/-- PAINT.py:134-136: does the polytope conflict with one of the outcomes? -/
def hitsOutcome (T : Tools k K) (po : List (Vec k K)) (o : Opts K) (vs : List (Vec k K)) : Bool :=
  po.any fun p => T.dominates [p] vs o || T.dominates vs [p] o

/-- PAINT.py:127-136: is the polytope removed by rule 1? -/
def removed1 (T : Tools k K) (po : List (Vec k K)) (o : Opts K) (r : Row) : Except Err Bool :=
  match vertices po r with
  | .error e => .error e
  | .ok vs => if T.nondominated vs o = false then .ok true else .ok (hitsOutcome T po o vs)

/-- PAINT.py:130, 137: interchange two rows. -/
def swapRows (D : List Row) (i d : Nat) : List Row :=
  (D.set i (D[d]?.getD [])).set d (D[i]?.getD [])

/-- PAINT.py:126-140: rule 1, from the numbers of the rows still to be looked at, the number of deleted rows
and the array. -/
def rule1 (rm : Row → Except Err Bool) : List Nat → Nat → List Row → Except Err (Nat × List Row)
  | [], d, D => .ok (d, D)
  | i :: is, d, D =>
    match rm (D[i]?.getD []) with
    | .error e => .error e
    | .ok true => rule1 rm is (d + 1) (swapRows D i d)
    | .ok false => rule1 rm is d D

/-- PAINT.py:163: do two polytopes conflict? Called without `epsilon` and `method`, so with their defaults
`o0`. -/
def conflict (T : Tools k K) (o0 : Opts K) (u v : List (Vec k K)) : Bool :=
  T.dominates u v o0 || T.dominates v u o0

/-- PAINT.py:158-169: is row `i` removed because of one of the rows in the list? The row of a deleted polytope
starts with -1. `T[l][0]` of an empty row raises. -/
def removed2 (T : Tools k K) (po : List (Vec k K)) (o0 : Opts K) (ri : Row) : List Row → Except Err Bool
  | [] => .ok false
  | rl :: ls =>
    match vertices po ri with
    | .error e => .error e
    | .ok vi =>
      match rl with
      | [] => .error .indexError
      | x :: _ =>
        if x = -1 then removed2 T po o0 ri ls
        else
          match vertices po rl with
          | .error e => .error e
          | .ok vl => if conflict T o0 vi vl then .ok true else removed2 T po o0 ri ls

/-- PAINT.py:157-169: rule 2, from the last row to the first; `is` are the numbers of the rows still to be
looked at. -/
def rule2 (T : Tools k K) (po : List (Vec k K)) (o0 : Opts K) : List Nat → List Row → Except Err (List Row)
  | [], rows => .ok rows
  | i :: is, rows =>
    match removed2 T po o0 (rows[i]?.getD []) (rows.drop (i + 1)) with
    | .error e => .error e
    | .ok true => rule2 T po o0 is (rows.set i ((rows[i]?.getD []).map fun _ => -1))
    | .ok false => rule2 T po o0 is rows

/-- PAINT.py:181: rows with a nonnegative entry. -/
def survivors (rows : List Row) : List Row := rows.filter fun r => r.any fun x => decide (0 ≤ x)

/-- PAINT.py:126-181: everything after the polytopes have been generated. -/
def filterPolytopes (T : Tools k K) (po : List (Vec k K)) (o o0 : Opts K) (D : List Row) :
    Except Err (List Row) :=
  match rule1 (removed1 T po o) (List.range D.length) 0 D with
  | .error e => .error e
  | .ok (d, D') =>
    match sortWrtEntries (D'.drop d) with
    | .error e => .error e
    | .ok rows =>
      match rule2 T po o0 (List.range rows.length).reverse rows with
      | .error e => .error e
      | .ok rows' => .ok (survivors rows')

/-- PAINT.py:63-181. -/
def approximate (T : Tools k K) (o0 : Opts K) (s : St k K) (arg : Option (List (Vec k K))) (o : Opts K) :
    Except Err (List Row) :=
  let po := arg.getD s.outcomes
  match T.polytopes po with
  | .error _ => .error .refused
  | .ok D => filterPolytopes T po o o0 D

end Verif.Paint
