import Verif.Nimbus.Step
import Mathlib.Data.Fin.VecNotation

/-! A concrete discrete problem (two objectives, four solutions) and a complete NIMBUS session on it,
used to show that the hypotheses of the theorems are met. -/

namespace Verif.Nimbus

def exObj : Fin 4 → Vec 2 ℚ := ![![0, 4], ![1, 2], ![2, 1], ![4, 0]]
def exDec : Fin 4 → Vec 1 ℚ := ![![0], ![1], ![2], ![3]]

def exAsf (ref f : Vec 2 ℚ) : ℚ := max (f 0 - ref 0) (f 1 - ref 1)

def exClosest : Option (Vec 1 ℚ) → Fin 4
  | none => 0
  | some x => if x 0 < 1 / 2 then 0 else if x 0 < 3 / 2 then 1 else if x 0 < 5 / 2 then 2 else 3

def exCfg : Cfg 2 1 ℚ where
  ideal := ![0, 0]
  nadir := ![4, 4]
  problem := .discrete 4 exObj exDec exClosest
  nrm := fun v => |v 0|
  feasible := fun _ => true
  asf1 := fun _ _ => exAsf
  asf2 := fun ref f => (f 0 - ref 0) + (f 1 - ref 1)
  asf3 := exAsf
  asf4 := fun _ => exAsf

def exOrc : Oracle 2 1 ℚ := ⟨fun _ _ => ![0]⟩

def getReq (o : Except Err (Req 2 1 ℚ)) : Req 2 1 ℚ :=
  match o with
  | .ok r => r
  | .error _ => .classify ![0, 0]

def exS0 : St 2 1 ℚ := ⟨![1], ![1, 2], [], [], .classify⟩
def exR0 : Req 2 1 ℚ := .classify ![1, 2]

theorem ex_construct : construct exCfg none (fun _ => none) = .ok exS0 := eq_of_beq (by decide +kernel)

/-- Improve the first objective to 0 at least, allow the second to grow to 4; three solutions. -/
def exA0 : Ans ℚ := .classify ⟨some [.le, .ge], some [0, 4], some 3⟩
def exS1 : St 2 1 ℚ := (answer exCfg exS0 exR0 exA0 exOrc).1
def exR1 : Req 2 1 ℚ := getReq (answer exCfg exS0 exR0 exA0 exOrc).2
theorem ex_step0 : answer exCfg exS0 exR0 exA0 exOrc = (exS1, .ok exR1) := eq_of_beq (by decide +kernel)

/-- Save the second and the first solution. -/
def exA1 : Ans ℚ := .save (some [1, 0])
def exS2 : St 2 1 ℚ := (answer exCfg exS1 exR1 exA1 exOrc).1
def exR2 : Req 2 1 ℚ := getReq (answer exCfg exS1 exR1 exA1 exOrc).2
theorem ex_step1 : answer exCfg exS1 exR1 exA1 exOrc = (exS2, .ok exR2) := eq_of_beq (by decide +kernel)

/-- Two solutions between the first two. -/
def exA2 : Ans ℚ := .inter ⟨some [0, 2], some 2⟩
def exS3 : St 2 1 ℚ := (answer exCfg exS2 exR2 exA2 exOrc).1
def exR3 : Req 2 1 ℚ := getReq (answer exCfg exS2 exR2 exA2 exOrc).2
theorem ex_step2 : answer exCfg exS2 exR2 exA2 exOrc = (exS3, .ok exR3) := eq_of_beq (by decide +kernel)

def exA3 : Ans ℚ := .save (some [])
def exS4 : St 2 1 ℚ := (answer exCfg exS3 exR3 exA3 exOrc).1
def exR4 : Req 2 1 ℚ := getReq (answer exCfg exS3 exR3 exA3 exOrc).2
theorem ex_step3 : answer exCfg exS3 exR3 exA3 exOrc = (exS4, .ok exR4) := eq_of_beq (by decide +kernel)

def exA4 : Ans ℚ := .inter ⟨some [], some 0⟩
def exS5 : St 2 1 ℚ := (answer exCfg exS4 exR4 exA4 exOrc).1
def exR5 : Req 2 1 ℚ := getReq (answer exCfg exS4 exR4 exA4 exOrc).2
theorem ex_step4 : answer exCfg exS4 exR4 exA4 exOrc = (exS5, .ok exR5) := eq_of_beq (by decide +kernel)

def exA5 : Ans ℚ := .preferred ⟨some (.int 1), some (.bool false)⟩
def exS6 : St 2 1 ℚ := (answer exCfg exS5 exR5 exA5 exOrc).1
def exR6 : Req 2 1 ℚ := getReq (answer exCfg exS5 exR5 exA5 exOrc).2
theorem ex_step5 : answer exCfg exS5 exR5 exA5 exOrc = (exS6, .ok exR6) := eq_of_beq (by decide +kernel)

end Verif.Nimbus
