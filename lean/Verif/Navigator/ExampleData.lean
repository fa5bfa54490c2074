import Verif.Navigator.Model
import Verif.Norms
import Mathlib.Data.Fin.VecNotation

/-! Concrete fronts used by the non-vacuity examples and counterexamples for NAUTILUS Navigator. -/

namespace Verif.Navigator

/-- A front with two objectives and three rows. -/
def exCfg : Cfg 3 2 ℚ String :=
  { front := ![![0, 2], ![1, 1], ![2, 0]], ideal := ![0, 0], nadir := ![2, 2],
    vars := some ![ "a", "b", "c"], nrm := supNorm, asf := pointAsf ![0, 0] ![2, 2] }

/-- No user bounds. -/
def noB : List (Option ℚ) := [none, none]

/-- Aim at `(1,1)` without user bounds. -/
def exR : Resp ℚ := forwardResp [some 1, some 1] (.int 3) noB

/-- The state after the first step of the example. -/
def exS1 : St 3 2 ℚ := (answer exCfg (initSt exCfg) (initSt exCfg).content exR).1

theorem ex_step1 : answer exCfg (initSt exCfg) (start (initSt exCfg)) exR =
    (exS1, .ok (.nav exS1.content)) := eq_of_beq (by decide +kernel)

/-- The second step of the example aims at `(0,2)`. -/
def exR2 : Resp ℚ := forwardResp [some 0, some 2] (.int 3) noB

/-- The state after the second step of the example. -/
def exS2 : St 3 2 ℚ := (answer exCfg exS1 exS1.content exR2).1

theorem ex_step2 : answer exCfg exS1 exS1.content exR2 =
    (exS2, .ok (.nav exS2.content)) := eq_of_beq (by decide +kernel)

end Verif.Navigator
