import Verif.ENautilus.Model
import Verif.Norms
import Mathlib.Data.Fin.VecNotation

/-! Concrete fronts used by the non-vacuity examples and counterexamples for E-NAUTILUS. -/

namespace Verif.ENautilus

/-- A front with two objectives and three rows. -/
def exCfg : Cfg 3 2 ℚ String :=
  { front := ![![0, 2], ![1, 1], ![2, 0]], ideal := ![0, 0], nadir := ![2, 2],
    vars := some ["a", "b", "c"], nrm := supNorm }

/-- k-means is not called when at most `n_points` rows are reachable. -/
def noKm {k : Nat} {K : Type} : KMeans k K := fun _ _ => []

/-- "Two iterations, show up to five points". -/
def exInit : InitResp := { nIterations := some (.int 2), nPoints := some (.int 5) }

/-- The first request of the example. -/
def exCt0 : Content 2 ℚ :=
  { points := [![1, 2], ![3/2, 3/2], ![2, 1]],
    lowers := [![0, 1], ![1, 1], ![1, 0]],
    uppers := [![2, 2], ![2, 2], ![2, 2]],
    left := 2, distances := [.num 50, .num 50, .num 50] }

/-- The state after the first request of the example. -/
def exS0 : St 3 2 ℚ :=
  { preferred := some ![2, 2], lb := ![0, 0], ub := ![2, 2], reach := [0, 1, 2],
    nPoints := some 5, left := some 2 }

theorem ex_begin : begin exCfg (initSt exCfg) exInit noKm = (exS0, .ok (.points exCt0)) := 
  eq_of_beq (by decide +kernel)

/-- The second request: the middle point was chosen, only the middle row is reachable. -/
def exCt1 : Content 2 ℚ :=
  { points := [![1, 1]], lowers := [![1, 1]], uppers := [![2, 2]], left := 1, distances := [.num 100] }

/-- The state after the second request of the example. -/
def exS1 : St 3 2 ℚ :=
  { preferred := some ![3/2, 3/2], lb := ![1, 1], ub := ![2, 2], reach := [1],
    nPoints := some 5, left := some 1 }

theorem ex_choose : answer exCfg exS0 exCt0 (chooseResp 1) noKm = (exS1, .ok (.points exCt1)) := 
  eq_of_beq (by decide +kernel)

theorem ex_stop : answer exCfg exS1 exCt1 (chooseResp 0) noKm =
    ({ exS1 with preferred := some ![1, 1], left := some 0 }, .ok (.stop ![1, 1] (some "b"))) := 
  eq_of_beq (by decide +kernel)

/-- The response stepping back to the first request of the example. -/
def exBack : Resp 2 ℚ :=
  { preferredIndex := some 0, stepBack := some true, changeRemaining := some false,
    iterationsLeft := some exCt0.left, prevSolutions := some exCt0.points,
    prevLower := some exCt0.lowers, prevUpper := some exCt0.uppers,
    prevDistances := some exCt0.distances }

/-- Three objectives, four mutually nondominated rows. -/
def exCfg3 : Cfg 4 3 ℚ String :=
  { front := ![![1, 2, 1], ![3, 0, 0], ![0, 3, 0], ![2, 1, 0]], ideal := ![0, 0, 0], nadir := ![3, 3, 1],
    vars := none, nrm := supNorm }

/-- "Three iterations, show up to five points". -/
def exInit3 : InitResp := { nIterations := some (.int 3), nPoints := some (.int 5) }

/-- The request inside a result, if it shows points (examples only). -/
def ctOf {n k : Nat} {K V : Type} (x : St n k K × Except Err (Out k K V)) : Content k K :=
  match x.2 with
  | .ok (.points ct) => ct
  | _ => ⟨[], [], [], 0, []⟩

/-- Does the result show points (examples only)? -/
def isPts {n k : Nat} {K V : Type} (x : St n k K × Except Err (Out k K V)) : Bool :=
  match x.2 with
  | .ok (.points _) => true
  | _ => false

theorem eq_of_isPts {n k : Nat} {K V : Type} {x : St n k K × Except Err (Out k K V)} (h : isPts x = true) :
    x = (x.1, .ok (.points (ctOf x))) := by
  obtain ⟨s, r⟩ := x
  unfold isPts at h
  unfold ctOf
  dsimp only at h ⊢
  split at h
  · rename_i ct; simp
  · simp at h

/-- The three-objective session: first request. -/
def ex3a : St 4 3 ℚ × Except Err (Out 3 ℚ String) := begin exCfg3 (initSt exCfg3) exInit3 noKm

/-- The three-objective session: the third point was chosen. -/
def ex3b : St 4 3 ℚ × Except Err (Out 3 ℚ String) := answer exCfg3 ex3a.1 (ctOf ex3a) (chooseResp 2) noKm

/-- The three-objective session: then the first point was chosen. -/
def ex3c : St 4 3 ℚ × Except Err (Out 3 ℚ String) := answer exCfg3 ex3b.1 (ctOf ex3b) (chooseResp 0) noKm

end Verif.ENautilus
