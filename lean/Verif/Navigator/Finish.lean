import Verif.Navigator.Props3
import Verif.Finish

set_option linter.unusedSectionVars false

/-!
# The decision maker can always finish NAUTILUS Navigator: property C162
-/

namespace Verif.Navigator

variable {K V : Type} [Field K] [LinearOrder K] [IsStrictOrderedRing K] {n k : Nat}

/-- Specification: the response to the request is accepted and answered with `q'`. There are no other sources of
uncertainty. -/
def Next (c : Cfg n k K V) (s : St n k K) (q : Out n k K V) (r : Resp K) (_ : Unit) (s' : St n k K) (q' : Out n k K V) :
    Prop :=
  ∃ ct, q = .nav ct ∧ validate c r = .ok () ∧ answer c s ct r = (s', .ok q')

/-- Specification: a stop request. -/
def IsStop : Out n k K V → Prop
  | .stop .. => True
  | _ => False

/-- C162 for NAUTILUS Navigator: every request, in any state, can be answered with one response such that a stop request
comes, which returns the solutions shown as reachable in this request. -/
theorem C162_navigator {c : Cfg n k K V} (hc : ∀ j, c.ideal j ≤ c.nadir j) (s : St n k K) (ct : Content n k K) :
    Finishes (Next c) (fun _ => True) (fun q => IsStop q ∧ ∃ objs dec, q = .stop ct.reach objs dec) s (.nav ct) 1 := by
  refine .of_step ⟨some (List.ofFn fun j => some (c.nadir j)), some (.int 1), some (.bool false),
    some (List.replicate k none), some (.bool true)⟩ fun _ _ => ?_
  have hv : validate c ⟨some (List.ofFn fun j => some (c.nadir j)), some (.int 1), some (.bool false),
      some (List.replicate k none), some (.bool true)⟩ = .ok () := by
    apply C20_usable_is_accepted
    refine ⟨⟨c.nadir, rfl, fun j => ⟨hc j, le_rfl⟩⟩, ⟨1, rfl, by norm_num, by norm_num⟩, ⟨_, rfl⟩, ⟨_, rfl, by simp⟩, _, rfl⟩
  refine ⟨s, stopRequest c ct.reach, ⟨ct, rfl, hv, ?_⟩, .done ⟨trivial, _, _, rfl⟩⟩
  unfold answer
  rw [hv]
  simp [handle]

example := C162_navigator (c := exCfg) (by decide +kernel) exS1 exS1.content

end Verif.Navigator
