import Verif.Nautilus.Total
import Verif.Norms
import Mathlib.Data.Fin.VecNotation

/-! A concrete problem (minimize `x` and `1 - x` for `0 ≤ x ≤ 1`), an exact solver for it, and sessions on
it, used to show that the hypotheses of the theorems are met. -/

namespace Verif.Nautilus

def exCfg : Cfg 2 1 ℚ where
  ideal := ![0, 0]
  nadir := ![1, 1]
  utopian := ![-1/100, -1/100]
  evaluate := fun x => ![x 0, 1 - x 0]
  nrm := supNorm

def exFeasible (x : Vec 1 ℚ) : Prop := 0 ≤ x 0 ∧ x 0 ≤ 1

/-- Finds the middle of the solutions at least as good as the reference point, and the exact bounds. -/
def exOrc : Oracle 2 1 ℚ where
  asf := fun _ q => ![(max 0 (1 - q 1) + min 1 (q 0)) / 2]
  eps := fun i z => if i = 0 then ![max 0 (1 - z 1)] else ![min 1 (z 0)]

def getReq (o : Except Err (Option (Req 2 1 ℚ))) : Req 2 1 ℚ :=
  match o with
  | .ok (some r) => r
  | _ => .initial

/-- Four iterations, rank 1 for the first and 2 for the second objective. -/
def exFirst : Resp ℚ := { nIterations := some (.int 4), method := some 1, info := some [1, 2] }

/-- Go on with the same preferences. -/
def keepResp {K : Type} : Resp K := { stepBack := some false, usePrevious := some true }

/-- Step back and take a short step. -/
def exShort : Resp ℚ := { stepBack := some true, shortStep := some true, usePrevious := some true }

/-- Step back and give percentages. -/
def exRedo : Resp ℚ :=
  { stepBack := some true, shortStep := some false, usePrevious := some false, method := some 2,
    info := some [30, 70] }

/-- Go on with percentages, and six iterations. -/
def exChange : Resp ℚ :=
  { nIterations := some (.int 6), stepBack := some false, usePrevious := some false, method := some 2,
    info := some [30, 70] }

def exS1 : St 2 1 ℚ := (answer exCfg St.init .initial exFirst exOrc).1
def exR1 : Req 2 1 ℚ := getReq (answer exCfg St.init .initial exFirst exOrc).2
theorem ex_step1 : answer exCfg St.init .initial exFirst exOrc = (exS1, .ok (some exR1)) :=
  eq_of_beq (by decide +kernel)
theorem exR1_eq : exR1 = .nav ![7/8, 7/8] ![1/8, 1/8] ![7/8, 7/8] (.num 25) :=
  eq_of_beq (by decide +kernel)

def exS2 : St 2 1 ℚ := (answer exCfg exS1 exR1 keepResp exOrc).1
def exR2 : Req 2 1 ℚ := getReq (answer exCfg exS1 exR1 keepResp exOrc).2
theorem ex_step2 : answer exCfg exS1 exR1 keepResp exOrc = (exS2, .ok (some exR2)) :=
  eq_of_beq (by decide +kernel)
theorem exR2_eq : exR2 = .nav ![3/4, 3/4] ![1/4, 1/4] ![3/4, 3/4] (.num 50) :=
  eq_of_beq (by decide +kernel)

def exS3 : St 2 1 ℚ := (answer exCfg exS2 exR2 exShort exOrc).1
def exR3 : Req 2 1 ℚ := getReq (answer exCfg exS2 exR2 exShort exOrc).2
theorem ex_step3 : answer exCfg exS2 exR2 exShort exOrc = (exS3, .ok (some exR3)) :=
  eq_of_beq (by decide +kernel)
theorem exR3_eq : exR3 = .nav ![13/16, 13/16] ![3/16, 3/16] ![13/16, 13/16] (.num (75/2)) :=
  eq_of_beq (by decide +kernel)

def exS4 : St 2 1 ℚ := (answer exCfg exS3 exR3 exRedo exOrc).1
def exR4 : Req 2 1 ℚ := getReq (answer exCfg exS3 exR3 exRedo exOrc).2
theorem ex_step4 : answer exCfg exS3 exR3 exRedo exOrc = (exS4, .ok (some exR4)) :=
  eq_of_beq (by decide +kernel)

def exS5 : St 2 1 ℚ := (answer exCfg exS4 exR4 exChange exOrc).1
def exR5 : Req 2 1 ℚ := getReq (answer exCfg exS4 exR4 exChange exOrc).2
theorem ex_step5 : answer exCfg exS4 exR4 exChange exOrc = (exS5, .ok (some exR5)) :=
  eq_of_beq (by decide +kernel)

theorem ex_smooth1 (G : Oracle 2 1 ℚ → Prop) (h : G exOrc) : Smooth exCfg G exS1 [exR1] :=
  .first rfl h ex_step1
theorem ex_smooth2 (G : Oracle 2 1 ℚ → Prop) (h : G exOrc) : Smooth exCfg G exS2 [exR2, exR1] :=
  .next (ex_smooth1 G h) List.mem_cons_self h ex_step2 fun _ => ⟨_, rfl⟩
theorem ex_smooth3 (G : Oracle 2 1 ℚ → Prop) (h : G exOrc) : Smooth exCfg G exS3 [exR3, exR2, exR1] :=
  .next (ex_smooth2 G h) List.mem_cons_self h ex_step3 fun _ => ⟨_, rfl⟩
theorem ex_smooth4 (G : Oracle 2 1 ℚ → Prop) (h : G exOrc) :
    Smooth exCfg G exS4 [exR4, exR3, exR2, exR1] :=
  .next (ex_smooth3 G h) List.mem_cons_self h ex_step4 fun _ => ⟨_, rfl⟩
theorem ex_smooth5 (G : Oracle 2 1 ℚ → Prop) (h : G exOrc) :
    Smooth exCfg G exS5 [exR5, exR4, exR3, exR2, exR1] :=
  .next (ex_smooth4 G h) List.mem_cons_self h ex_step5 fun _ => ⟨_, rfl⟩

end Verif.Nautilus
