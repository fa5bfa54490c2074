import Verif.Base

/-!
# The argument checks of the constructors of E-NAUTILUS and NAUTILUS Navigator

Arrays are given by their shapes; `objective_names` by its length. The checks of the constructors of the
other methods are `Nautilus.construct`, `NautilusV2.construct` and `Rpm.construct`.
-/

namespace Verif.Constructors

/-- ENautilus.py:199-226. `ideal.shape[0]` raises `IndexError` for a zero-dimensional array.
An empty list of names counts as not given. The `variables` are not checked. -/
def eNautilus (front ideal nadir : List Nat) (names : Option Nat) : Except Err Unit :=
  match front with
  | [_, cols] =>
    match ideal with
    | [] => .error .indexError
    | d :: rest =>
      if d ≠ cols then .error .refused
      else if (d :: rest) ≠ nadir then .error .refused
      else match names with
        | none => .ok ()
        | some l => if l = 0 then .ok () else if l = d then .ok () else .error .refused
  | _ => .error .refused

/-- NautilusNavigator.py:232-262. `dvars` is the shape of `decision_variables`. -/
def navigator (front ideal nadir : List Nat) (dvars : Option (List Nat)) : Except Err Unit :=
  match front with
  | [rows, cols] =>
    match (match dvars with
      | none => .ok ()
      | some [] => .error .indexError
      | some (v :: _) => if v ≠ rows then .error .refused else .ok () : Except Err Unit) with
    | .error e => .error e
    | .ok _ =>
      match ideal with
      | [] => .error .indexError
      | d :: rest =>
        if d ≠ cols then .error .refused
        else if (d :: rest) ≠ nadir then .error .refused
        else .ok ()
  | _ => .error .refused

end Verif.Constructors
