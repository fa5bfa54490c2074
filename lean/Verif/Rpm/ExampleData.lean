import Verif.Rpm.Lemmas
import Verif.Norms
import Mathlib.Data.Fin.VecNotation

/-! A table of five solutions, an exact solver for it, and sessions on it, used to show that the hypotheses
of the theorems are met. -/

namespace Verif.Rpm

/-- Five solutions, the last one dominated. -/
def exTable : Fin 5 → Vec 2 ℚ := ![![-4, 0], ![-3, -2], ![-2, -3], ![0, -4], ![-1, -1]]

def exCfg : Cfg 2 ℚ (Fin 5) ℚ where
  ideal := ![-4, -4]
  nadir := ![0, 0]
  utopian := ![-5, -5]
  vars := fun i => i.val
  obj := exTable
  nrm := supNorm

def finite (w : Fl ℚ) : ℚ :=
  match w with
  | .num x => x
  | _ => 0

/-- The first row of the table with the smallest value. -/
def exBest {n : Nat} (v : Fin (n + 1) → ℚ) : Fin (n + 1) :=
  (List.finRange (n + 1)).foldl (fun b i => if v i < v b then i else b) 0

def exOrc : Oracle 2 (Fin 5) ℚ where
  main := fun w q => exBest fun d => refPointASF (fun i => finite (w i)) ![0, 0] ![-5, -5] (1/10000) q (exTable d)
  add := fun _ w q => exBest fun d => refPointASF (fun i => finite (w i)) ![0, 0] ![-5, -5] (1/10000) q (exTable d)

def getReq {k : Nat} {X : Type} (o : Except Err (Option (Req k X ℚ))) : Req k X ℚ :=
  match o with
  | .ok (some r) => r
  | _ => .initial

def exFirst : Resp ℚ := { ref := some [-3, -2] }
def exNext : Resp ℚ := { ref := some [-1/2, -1] }
def exPick (i : Int) : Resp ℚ := { satisfied := some true, index := some (.int i) }

def exS1 : St 2 ℚ ℚ := (answer exCfg St.init .initial exFirst exOrc).1
def exR1 : Req 2 ℚ ℚ := getReq (answer exCfg St.init .initial exFirst exOrc).2
theorem ex_step1 : answer exCfg St.init .initial exFirst exOrc = (exS1, .ok (some exR1)) :=
  eq_of_beq (by decide +kernel)
theorem exR1_eq : exR1 = .nav ![-3, -2] ![![-3, -2], ![-3, -2]] := eq_of_beq (by decide +kernel)

def exS2 : St 2 ℚ ℚ := (answer exCfg exS1 exR1 exNext exOrc).1
def exR2 : Req 2 ℚ ℚ := getReq (answer exCfg exS1 exR1 exNext exOrc).2
theorem ex_step2 : answer exCfg exS1 exR1 exNext exOrc = (exS2, .ok (some exR2)) :=
  eq_of_beq (by decide +kernel)
theorem exR2_eq : exR2 = .nav ![-3, -2] ![![-2, -3], ![-4, 0]] := eq_of_beq (by decide +kernel)

/-- The minimizers solve the achievement problems of the code exactly, over all solutions `D`
(ReferencePointMethod.py:588-613, augmentation 1e-4), whenever the weights are finite. -/
structure Exact {K : Type} [Field K] [LinearOrder K] {k : Nat} {X D : Type} (c : Cfg (k + 1) X D K)
    (orc : Oracle (k + 1) D K) : Prop where
  main : ∀ (mu q : Vec (k + 1) K) (d : D),
    refPointASF mu c.nadir c.utopian (1/10000) q (c.obj (orc.main (fun i => .num (mu i)) q)) ≤
      refPointASF mu c.nadir c.utopian (1/10000) q (c.obj d)
  add : ∀ i (mu q : Vec (k + 1) K) (d : D),
    refPointASF mu c.nadir c.utopian (1/10000) q (c.obj (orc.add i (fun i => .num (mu i)) q)) ≤
      refPointASF mu c.nadir c.utopian (1/10000) q (c.obj d)

theorem foldl_best {ι : Type} (v : ι → ℚ) (l : List ι) (b : ι) :
    v (l.foldl (fun b i => if v i < v b then i else b) b) ≤ v b ∧
      ∀ i ∈ l, v (l.foldl (fun b i => if v i < v b then i else b) b) ≤ v i := by
  induction l generalizing b with
  | nil => simp
  | cons a l ih =>
    simp only [List.foldl_cons, List.mem_cons, forall_eq_or_imp]
    split
    · rename_i h
      obtain ⟨h1, h2⟩ := ih a
      exact ⟨h1.trans h.le, h1, h2⟩
    · rename_i h
      obtain ⟨h1, h2⟩ := ih b
      exact ⟨h1, h1.trans (not_lt.1 h), h2⟩

theorem exBest_le {n : Nat} (v : Fin (n + 1) → ℚ) (i : Fin (n + 1)) : v (exBest v) ≤ v i :=
  (foldl_best v _ 0).2 i (List.mem_finRange i)

theorem exOrc_exact : Exact exCfg exOrc where
  main := fun mu q d => exBest_le
    (fun d => refPointASF mu ![0, 0] ![-5, -5] (1/10000) q (exTable d)) d
  add := fun _ mu q d => exBest_le
    (fun d => refPointASF mu ![0, 0] ![-5, -5] (1/10000) q (exTable d)) d

theorem ex_reached1 {G : Oracle 2 (Fin 5) ℚ → Prop} (hG : G exOrc) :
    Reached exCfg G exS1 [exR1, .initial] :=
  .next .init List.mem_cons_self hG ex_step1

theorem ex_reached2 {G : Oracle 2 (Fin 5) ℚ → Prop} (hG : G exOrc) :
    Reached exCfg G exS2 [exR2, exR1, .initial] :=
  .next (ex_reached1 hG) List.mem_cons_self hG ex_step2

/-! A second table, with positive objective values. -/

def posTable : Fin 2 → Vec 2 ℚ := ![![1, 1], ![2, 2]]

def posCfg : Cfg 2 ℚ (Fin 2) ℚ where
  ideal := ![1, 1]
  nadir := ![2, 2]
  utopian := ![0, 0]
  vars := fun i => i.val
  obj := posTable
  nrm := supNorm

def posOrc : Oracle 2 (Fin 2) ℚ where
  main := fun w q => exBest fun d => refPointASF (fun i => finite (w i)) ![2, 2] ![0, 0] (1/10000) q (posTable d)
  add := fun _ w q => exBest fun d => refPointASF (fun i => finite (w i)) ![2, 2] ![0, 0] (1/10000) q (posTable d)

theorem posOrc_exact : Exact posCfg posOrc where
  main := fun mu q d => exBest_le
    (fun d => refPointASF mu ![2, 2] ![0, 0] (1/10000) q (posTable d)) d
  add := fun _ mu q d => exBest_le
    (fun d => refPointASF mu ![2, 2] ![0, 0] (1/10000) q (posTable d)) d

end Verif.Rpm
