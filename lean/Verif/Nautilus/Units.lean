import Verif.Nautilus.Recast
import Verif.Navigator.Units
import Verif.Norms
import Verif.Nautilus.ExampleData

/-!
# NAUTILUS: order, origins and units of the objectives (C120, C121, C122)
-/

set_option linter.unusedSectionVars false

namespace Verif.Nautilus

open Verif.Navigator (Recast reorder shift rescale)
open Verif.ENautilus (fdiv_common)

variable {K : Type} [Field K] [LinearOrder K] [IsStrictOrderedRing K] {k m : Nat}

/-- Specification: the same problem presented anew, for the method constructed with `epsilon = e`. -/
def dataOf (u : Recast k K) (e : K) (c : Cfg k m K) : Cfg k m K :=
  cfgOf u (utopianOf e (u.conv c.ideal)) c.nrm c

/-- Specification: the same use of the method in two presentations: the same responses in the same order
to the same requests, the minimizers steady, no rank or percentage zero. -/
def SameUse (u : Recast (k + 1) K) (c c' : Cfg (k + 1) m K) (P : Side m K)
    (steps steps' : List (Nat × Resp K × Oracle (k + 1) m K)) : Prop :=
  List.Forall₂ (SameStep u c c' P) steps steps'

/-! ### A steady exact minimizer exists -/

/-- Specification: choose some exact solution. -/
noncomputable def pick (t : Task m K) : Vec m K :=
  @Classical.epsilon _ ⟨fun _ => 0⟩ fun x => Solves x t

theorem pick_solves {t : Task m K} (h : ∃ x, Solves x t) : Solves (pick t) t :=
  @Classical.epsilon_spec _ (fun x => Solves x t) h

theorem solves_affine {t t' : Task m K} {a b : K} (ha : 0 < a) (h1 : ∀ x, t'.admits x ↔ t.admits x)
    (h2 : ∀ x, t'.value x = (t.value x).map fun v => a * v + b) (x : Vec m K) :
    Solves x t' ↔ Solves x t := by
  unfold Solves
  simp only [h1, h2, Option.map_eq_some_iff]
  refine and_congr_right fun _ => forall_congr' fun y => forall_congr' fun _ => ?_
  constructor
  · intro h v hv
    obtain ⟨_, ⟨w, hw, rfl⟩, hle⟩ := h _ ⟨v, hv, rfl⟩
    refine ⟨w, hw, ?_⟩
    rwa [add_le_add_iff_right, mul_le_mul_iff_right₀ ha] at hle
  · rintro h _ ⟨v, hv, rfl⟩
    obtain ⟨w, hw, hle⟩ := h v hv
    exact ⟨_, ⟨w, hw, rfl⟩, by rwa [add_le_add_iff_right, mul_le_mul_iff_right₀ ha]⟩

/-- Choosing some exact solution is steady. -/
theorem pick_steady : Steady (pick (K := K) (m := m)) := by
  intro t t' a b ha h1 h2
  unfold pick
  congr 1
  funext x
  exact propext (solves_affine ha h1 h2 x)

/-- The minimizers of one call when `solver` is used. -/
noncomputable def orcOf (c : Cfg (k + 1) m K) (P : Side m K) (solver : Task m K → Vec m K) :
    Oracle (k + 1) m K where
  asf := fun w q => solver (asfTask c P w q)
  eps := fun i z => solver (epsTask c P i z)

theorem orcOf_uses (c : Cfg (k + 1) m K) (P : Side m K) (solver : Task m K → Vec m K) :
    Uses c P solver (orcOf c P solver) := ⟨fun _ _ _ _ => rfl, fun _ _ => rfl⟩

/-- For any responses without zero entries there are such uses of the method, with exact minimizers. -/
theorem sameUse_exists (u : Recast (k + 1) K) (c c' : Cfg (k + 1) m K) (P : Side m K)
    (l : List (Nat × Resp K)) (h : ∀ p ∈ l, NonzeroPref (k + 1) p.2) :
    SameUse u c c' P (l.map fun p => (p.1, p.2, orcOf c P pick))
      (l.map fun p => (p.1, respOf u p.2, orcOf c' P pick)) := by
  unfold SameUse
  induction l with
  | nil => exact .nil
  | cons p l ih =>
    refine .cons ⟨rfl, rfl, h p (by simp), pick, pick_steady, orcOf_uses _ _ _, orcOf_uses _ _ _⟩
      (ih fun q hq => h q (by simp [hq]))

/-! ### Order -/

/-- **C120.** List the objectives in another order (in the problem, the ideal and nadir points, the ranks
and percentages): whatever is answered, in whatever order and to whichever request, every request, stop
result, `None` and exception is the same with the objectives listed in that order. -/
theorem C120_order {c : Cfg (k + 1) m K} {e : K} (hu : c.utopian = utopianOf e c.ideal)
    (hR : ∀ j, c.nadir j ≠ c.utopian j) (σ : Equiv.Perm (Fin (k + 1)))
    (hn : ∀ v, c.nrm (fun j => v (σ j)) = c.nrm v) {P : Side m K}
    {steps steps' : List (Nat × Resp K × Oracle (k + 1) m K)}
    (h : SameUse (reorder σ) c (dataOf (reorder σ) e c) P steps steps') :
    use (dataOf (reorder σ) e c) steps' = (use c steps).map (resultOf (reorder σ) id) := by
  have e1 : ∀ v : Vec (k + 1) K, (reorder σ).conv v = fun j => v (σ j) := by
    intro v; funext j; simp [Recast.conv, reorder]
  have hut : utopianOf e ((reorder σ).conv c.ideal) = (reorder σ).conv c.utopian := by
    rw [hu, e1, e1]; rfl
  unfold dataOf at h ⊢
  rw [hut] at h ⊢
  refine use_recast hR (fun z f => ?_) h
  simp only [distance, cfgOf, e1, id]
  rw [hn fun j => z j - c.nadir j, hn fun j => f j - c.nadir j]

/-! ### Origins -/

theorem infoOf_same {u : Recast k K} (hp : u.perm = 1) (l : List K) : infoOf u l = l := by
  unfold infoOf
  split
  · rename_i h
    conv_rhs => rw [← List.take_append_drop k l]
    congr 1
    apply List.ext_getElem
    · simp [h]
    · intro i h1 h2
      simp only [List.length_ofFn] at h1
      have : i < l.length := by omega
      simp [hp, this]
  · rfl

theorem respOf_same {u : Recast k K} (hp : u.perm = 1) (r : Resp K) : respOf u r = r := by
  unfold respOf
  have : infoOf u = id := funext fun l => infoOf_same hp l
  rw [this, Option.map_id]
  rfl

/-- **C121.** Measure the objectives from other origins: every request, stop result, `None` and exception
is the same, in the new origins. -/
theorem C121_origins {c : Cfg (k + 1) m K} {e : K} (hu : c.utopian = utopianOf e c.ideal)
    (hR : ∀ j, c.nadir j ≠ c.utopian j) (o : Vec (k + 1) K) {P : Side m K}
    {steps steps' : List (Nat × Resp K × Oracle (k + 1) m K)}
    (h : SameUse (shift o) c (dataOf (shift o) e c) P steps steps') :
    use (dataOf (shift o) e c) steps' = (use c steps).map (resultOf (shift o) id) := by
  have e1 : ∀ v : Vec (k + 1) K, (shift o).conv v = fun j => v j + o j := by
    intro v; funext j; simp [Recast.conv, shift]
  have hut : utopianOf e ((shift o).conv c.ideal) = (shift o).conv c.utopian := by
    rw [hu, e1, e1]
    funext j
    simp only [utopianOf]
    ring
  unfold dataOf at h ⊢
  rw [hut] at h ⊢
  refine use_recast hR (fun z f => ?_) h
  simp only [distance, cfgOf, e1, id, add_sub_add_right_eq_sub]

/-! ### Units -/

/-- Specification: a request without the distance. -/
def noDist : Req k m K → Req k m K
  | .initial => .initial
  | .nav z lo up _ => .nav z lo up .nan
  | .stop x f => .stop x f

/-- Specification: a result without the distance. -/
def resNoDist (o : Except Err (Option (Req k m K))) : Except Err (Option (Req k m K)) :=
  o.map fun q => q.map noDist

/-- Nothing is presented anew. -/
def sameRecast : Recast k K :=
  { perm := 1, scale := fun _ => 1, origin := fun _ => 0, pos := fun _ => one_pos }

theorem sameRecast_conv (v : Vec k K) : (sameRecast : Recast k K).conv v = v := by
  funext j; simp [Recast.conv, sameRecast]

theorem resultOf_same (o : Except Err (Option (Req k m K))) :
    resultOf sameRecast (fun _ => .nan) o = resNoDist o := by
  have e : (sameRecast : Recast k K).conv = id := funext sameRecast_conv
  rcases o with _ | _ | q
  · rfl
  · rfl
  · cases q <;> simp [resultOf, resNoDist, Except.map, reqOf, noDist, e]

theorem resultOf_nan (u : Recast k K) (o : Except Err (Option (Req k m K))) :
    resultOf u (fun _ => .nan) o = resNoDist (resultOf u id o) := by
  rcases o with _ | _ | q
  · rfl
  · rfl
  · cases q <;> rfl

theorem distance_zero (c : Cfg k m K) (z f : Vec k K) :
    distance { c with nrm := fun _ => 0 } z f = .nan := by
  simp [distance, fdiv, Fl.scalePos]

theorem Uses.norm {c : Cfg (k + 1) m K} {P : Side m K} {solver : Task m K → Vec m K}
    {orc : Oracle (k + 1) m K} (h : Uses c P solver orc) (nrm : Vec (k + 1) K → K) :
    Uses { c with nrm := nrm } P solver orc := ⟨h.asf, h.eps⟩

theorem cfgOf_same (c : Cfg k m K) (nrm : Vec k K → K) :
    cfgOf sameRecast (sameRecast.conv c.utopian) nrm c = { c with nrm := nrm } := by
  simp only [cfgOf, sameRecast_conv]

/-- Two uses of the method on the same problem with different norms differ only in the distances. -/
theorem use_noDist {c : Cfg (k + 1) m K} (hR : ∀ j, c.nadir j ≠ c.utopian j) {P : Side m K}
    {steps : List (Nat × Resp K × Oracle (k + 1) m K)}
    (h : ∀ p ∈ steps, NonzeroPref (k + 1) p.2.1 ∧ ∃ solver, Steady solver ∧ Uses c P solver p.2.2) :
    use { c with nrm := fun _ => 0 } steps = (use c steps).map resNoDist := by
  have h1 : List.Forall₂ (SameStep sameRecast c
      (cfgOf sameRecast (sameRecast.conv c.utopian) (fun _ => 0) c) P) steps steps := by
    rw [List.forall₂_same]
    intro p hp
    obtain ⟨h0, solver, h1, h2⟩ := h p hp
    refine ⟨rfl, (respOf_same rfl _).symm, h0, solver, h1, h2, ?_⟩
    rw [cfgOf_same]
    exact h2.norm _
  have h2 := use_recast (δ := fun _ => .nan) hR (fun z f => by
    rw [cfgOf_same]; exact distance_zero c _ _) h1
  rw [cfgOf_same] at h2
  rw [h2]
  exact List.map_congr_left fun o _ => resultOf_same o

/-- Specification of the full claim: the units of the objectives do not matter, if `epsilon` stays the
same, except for the distances. -/
def UnitsFree (c : Cfg (k + 1) m K) (e : K) (P : Side m K) : Prop :=
  ∀ (w : Vec (k + 1) K) (hw : ∀ j, 0 < w j) (steps steps' : List (Nat × Resp K × Oracle (k + 1) m K)),
    SameUse (rescale w hw) c (dataOf (rescale w hw) e c) P steps steps' →
    (use (dataOf (rescale w hw) e c) steps').map resNoDist =
      ((use c steps).map (resultOf (rescale w hw) id)).map resNoDist

theorem sameStep_right {u : Recast (k + 1) K} {c c' : Cfg (k + 1) m K} {P : Side m K}
    {steps steps' : List (Nat × Resp K × Oracle (k + 1) m K)} (hp : u.perm = 1)
    (h : SameUse u c c' P steps steps') :
    ∀ p ∈ steps', NonzeroPref (k + 1) p.2.1 ∧ ∃ solver, Steady solver ∧ Uses c' P solver p.2.2 := by
  unfold SameUse at h
  induction h with
  | nil => simp
  | @cons p q l l' hpq _ ih =>
    intro x hx
    rcases List.mem_cons.1 hx with rfl | hx
    · obtain ⟨_, h2, h3, solver, h4, _, h6⟩ := hpq
      refine ⟨?_, solver, h4, h6⟩
      rw [h2, respOf_same hp]
      exact h3
    · exact ih x hx

/-- **C122**, partial. With `epsilon = 0` (the utopian point is the ideal point) the units of the objectives
do not matter: everything but the distances is the same, in the new units. Missing: with any other
`epsilon` it is false, see `C122_fails`. -/
theorem C122_units_partial {c : Cfg (k + 1) m K} (hu : c.utopian = c.ideal)
    (hR : ∀ j, c.nadir j ≠ c.ideal j) (P : Side m K) : UnitsFree c 0 P := by
  intro w hw steps steps' h
  have hut : utopianOf 0 ((rescale w hw).conv c.ideal) = (rescale w hw).conv c.utopian := by
    rw [hu]; funext j; simp [utopianOf]
  have hR' : ∀ j, c.nadir j ≠ c.utopian j := by rw [hu]; exact hR
  have hR2 : ∀ j, (dataOf (rescale w hw) 0 c).nadir j ≠ (dataOf (rescale w hw) 0 c).utopian j := by
    intro j
    simp only [dataOf, cfgOf, hut]
    simp only [Recast.conv, rescale, add_zero]
    intro he
    exact hR' j (mul_left_cancel₀ (hw j).ne' he)
  rw [← use_noDist hR2 (sameStep_right rfl h)]
  have hd : ({ dataOf (rescale w hw) 0 c with nrm := fun _ => 0 } : Cfg (k + 1) m K) =
      cfgOf (rescale w hw) ((rescale w hw).conv c.utopian) (fun _ => 0) c := by
    simp only [dataOf, hut]; rfl
  rw [hd]
  rw [use_recast (P := P) (δ := fun _ => .nan) hR' (fun z f => ?_) ?_, List.map_map]
  · exact List.map_congr_left fun o _ => resultOf_nan _ o
  · refine List.Forall₂.imp ?_ h
    rintro p p' ⟨h1, h2, h3, solver, h4, h5, h6⟩
    refine ⟨h1, h2, h3, solver, h4, h5, ?_⟩
    rw [← hd]
    exact h6.norm _
  · exact distance_zero (cfgOf (rescale w hw) ((rescale w hw).conv c.utopian) (fun _ => 0) c) _ _

/-- **C122**, partial. If all objectives are measured in a common unit, and `epsilon` is too, everything is the
same in another unit, including the distances. -/
theorem C122_common_unit_partial {c : Cfg (k + 1) m K} {e : K} (hu : c.utopian = utopianOf e c.ideal)
    (hR : ∀ j, c.nadir j ≠ c.utopian j) (hn : NormSpec c.nrm) (a : K) (ha : 0 < a) {P : Side m K}
    {steps steps' : List (Nat × Resp K × Oracle (k + 1) m K)}
    (h : SameUse (rescale (fun _ => a) fun _ => ha) c
      (dataOf (rescale (fun _ => a) fun _ => ha) (a * e) c) P steps steps') :
    use (dataOf (rescale (fun _ => a) fun _ => ha) (a * e) c) steps' =
      (use c steps).map (resultOf (rescale (fun _ => a) fun _ => ha) id) := by
  have e1 : ∀ v : Vec (k + 1) K, (rescale (fun _ => a) fun _ => ha).conv v = fun j => a * v j := by
    intro v; funext j; simp [Recast.conv, rescale]
  have hut : utopianOf (a * e) ((rescale (fun _ => a) fun _ => ha).conv c.ideal) =
      (rescale (fun _ => a) fun _ => ha).conv c.utopian := by
    rw [hu, e1, e1]
    funext j
    simp only [utopianOf]
    ring
  unfold dataOf at h ⊢
  rw [hut] at h ⊢
  refine use_recast hR (fun z f => ?_) h
  simp only [distance, cfgOf, e1, id, ← mul_sub]
  rw [hn.homog a fun j => z j - c.nadir j, hn.homog a fun j => f j - c.nadir j, abs_of_pos ha,
    fdiv_common ha]

/-! ### Examples -/

/-- A response with ranks, and only one iteration. -/
def oneRank (a b : ℝ) : Resp ℝ := { nIterations := some (.int 1), method := some 1, info := some [a, b] }

/-- The weights after `oneRank 1 1`. -/
noncomputable def oneWeights (c : Cfg 2 m ℝ) : Fin 2 → Fl ℝ := fun i =>
  rankFactor (([1, 1] : List ℝ)[i.val]?.getD 0) (c.nadir i) (c.utopian i)

/-- The solution found after `oneRank 1 1`. -/
noncomputable def oneFound (c : Cfg 2 m ℝ) (orc : Oracle 2 m ℝ) : Vec 2 ℝ :=
  c.evaluate (orc.asf (oneWeights c) c.nadir)

/-- What is shown after one response with only one iteration. -/
theorem use_one (c : Cfg 2 m ℝ) (orc : Oracle 2 m ℝ) :
    use c [(0, oneRank 1 1, orc)] = [.ok (some (.nav (oneFound c orc)
      (bounds c orc (oneFound c orc)) (oneFound c orc) (distance c (oneFound c orc) (oneFound c orc))))] := by
  have hv : validate c (.initial : Req 2 m ℝ) (oneRank 1 1) = .ok () := by
    simp [validate, validateInitial, validatePreferences, oneRank, pyMax, npMax, validateN,
      PyVal.isInstanceInt, PyVal.asInt]
  have hz : iterationPoint 1 c.nadir (oneFound c orc) = oneFound c orc := by
    funext j; simp [iterationPoint]
  simp only [use, replay, List.getElem?_cons_zero, answer, hv, iterate]
  have h : (handleInitial c (oneRank 1 1) orc St.init).2 = .ok (some (.nav
      (iterationPoint 1 c.nadir (oneFound c orc))
      (bounds c orc (iterationPoint 1 c.nadir (oneFound c orc)))
      (iterationPoint 1 c.nadir (oneFound c orc))
      (distance c (iterationPoint 1 c.nadir (oneFound c orc)) (oneFound c orc)))) := rfl
  rw [h, hz]

/-- The achievement function of two objectives. -/
theorem refPointASF_two (mu nadir utopian : Vec 2 ℝ) (rho : ℝ) (q f : Vec 2 ℝ) :
    refPointASF (k := 1) mu nadir utopian rho q f =
      max (mu 0 * (f 0 - q 0)) (mu 1 * (f 1 - q 1)) +
        rho * ((f 0 - q 0) / (nadir 0 - utopian 0) + (f 1 - q 1) / (nadir 1 - utopian 1)) := by
  unfold refPointASF
  rw [vmax_two]
  congr 2
  exact Fin.sum_univ_two _

/-- Four solutions: `x ≤ 1/4`, `1/4 < x ≤ 1/2`, `1/2 < x ≤ 3/4`, `3/4 < x`. -/
noncomputable def fourPoints (x : Vec 1 ℝ) : Vec 2 ℝ :=
  if x 0 ≤ 1 / 4 then ![0, 1] else if x 0 ≤ 1 / 2 then ![1 / 5, 1 / 2]
  else if x 0 ≤ 3 / 4 then ![2 / 5, 3 / 10] else ![1, 0]

/-- A problem with four Pareto optimal objective vectors, with its ideal and nadir points, and the default
`epsilon`. -/
noncomputable def fourCfg : Cfg 2 1 ℝ where
  ideal := ![0, 0]
  nadir := ![1, 1]
  utopian := utopianOf (1 / 1000000) ![0, 0]
  evaluate := fourPoints
  nrm := euclid

/-- `0 ≤ x ≤ 1`, no constraints. -/
def unitSide : Side 1 ℝ := ⟨fun x => 0 ≤ x 0 ∧ x 0 ≤ 1, fun _ => True⟩

/-- The first objective in a unit that is a million times as large. -/
noncomputable def millionth : Vec 2 ℝ := ![1 / 1000000, 1]

theorem millionth_pos : ∀ j, 0 < millionth j := by
  intro j
  fin_cases j <;> norm_num [millionth]

theorem four_cases (x : Vec 1 ℝ) : fourPoints x = ![0, 1] ∨ fourPoints x = ![1 / 5, 1 / 2] ∨
    fourPoints x = ![2 / 5, 3 / 10] ∨ fourPoints x = ![1, 0] := by
  unfold fourPoints
  split_ifs <;> simp

/-- If the value at one solution is the least, an exact minimizer finds it. -/
theorem pick_found {c : Cfg 2 1 ℝ} {mu : Vec 2 ℝ} (hw : AreNums (oneWeights c) mu) (x0 : Vec 1 ℝ)
    (hx0 : unitSide.inBounds x0) {F : Vec 2 ℝ → ℝ} (hF : F = fun f => refPointASF mu c.nadir c.utopian (1 / 1000000) c.nadir f)
    (hmin : ∀ y, c.evaluate y = c.evaluate x0 ∨ F (c.evaluate x0) < F (c.evaluate y)) :
    oneFound c (orcOf c unitSide pick) = c.evaluate x0 := by
  have hv : ∀ x, (asfTask c unitSide (oneWeights c) c.nadir).value x = some (F (c.evaluate x)) := by
    intro x; rw [asfTask_value hw, hF]
  have hex : Solves x0 (asfTask c unitSide (oneWeights c) c.nadir) := by
    refine ⟨hx0, fun y _ b hb => ⟨_, hv x0, ?_⟩⟩
    rw [hv] at hb
    cases hb
    rcases hmin y with h | h
    · rw [h]
    · exact h.le
  obtain ⟨h1, h2⟩ := pick_solves ⟨x0, hex⟩
  obtain ⟨a, ha, hle⟩ := h2 x0 hx0 _ (hv x0)
  rw [hv] at ha
  cases ha
  rcases hmin (pick (asfTask c unitSide (oneWeights c) c.nadir)) with h | h
  · exact h
  · exact absurd hle (not_le.2 h)

theorem four_found : oneFound fourCfg (orcOf fourCfg unitSide pick) = ![2 / 5, 3 / 10] := by
  have e : fourCfg.evaluate (fun _ => 2 / 3) = ![2 / 5, 3 / 10] := by
    simp only [fourCfg, fourPoints]
    norm_num
  rw [← e]
  refine pick_found (mu := fun _ => 1 / (1 + 1 / 1000000)) ?_ _ ⟨by norm_num, by norm_num⟩ rfl fun y => ?_
  · intro i
    fin_cases i <;> norm_num [oneWeights, rankFactor, fdiv, fourCfg, utopianOf]
  · rw [e]
    show fourPoints y = _ ∨ _ < refPointASF _ _ _ _ _ (fourPoints y)
    rcases four_cases y with h | h | h | h <;> rw [h]
    · right
      norm_num [refPointASF_two, fourCfg, utopianOf]
    · right
      norm_num [refPointASF_two, fourCfg, utopianOf]
    · left; rfl
    · right
      norm_num [refPointASF_two, fourCfg, utopianOf]

/-- The problem in the other unit. -/
noncomputable def fourOther : Cfg 2 1 ℝ := dataOf (rescale millionth millionth_pos) (1 / 1000000) fourCfg

theorem four_found_other :
    oneFound fourOther (orcOf fourOther unitSide pick) = ![1 / 5000000, 1 / 2] := by
  have hc : ∀ v : Vec 2 ℝ, (rescale millionth millionth_pos).conv v = ![1 / 1000000 * v 0, v 1] := by
    intro v
    funext j
    fin_cases j <;> simp [Recast.conv, rescale, millionth]
  have e : fourOther.evaluate (fun _ => 1 / 3) = ![1 / 5000000, 1 / 2] := by
    simp only [fourOther, dataOf, cfgOf, hc, fourCfg, fourPoints]
    norm_num
  rw [← e]
  refine pick_found (mu := ![500000, 1 / (1 + 1 / 1000000)]) ?_ _ ⟨by norm_num, by norm_num⟩ rfl
    fun y => ?_
  · intro i
    fin_cases i <;> norm_num [oneWeights, rankFactor, fdiv, fourOther, dataOf, cfgOf, hc, fourCfg, utopianOf]
  · rw [e]
    have hy : fourOther.evaluate y = ![1 / 1000000 * fourPoints y 0, fourPoints y 1] := by
      simp only [fourOther, dataOf, cfgOf, hc]; rfl
    rw [hy]
    rcases four_cases y with h | h | h | h <;> rw [h]
    · right
      norm_num [refPointASF_two, fourOther, dataOf, cfgOf, hc, fourCfg, utopianOf]
    · left; norm_num
    · right
      norm_num [refPointASF_two, fourOther, dataOf, cfgOf, hc, fourCfg, utopianOf]
    · right
      norm_num [refPointASF_two, fourOther, dataOf, cfgOf, hc, fourCfg, utopianOf]

/-- **C122 fails.** With the default `epsilon = 1e-6`, which is a number and not a share of the range, and the
first objective measured in a unit that is a million times as large, the same ranks lead to a different
solution: `(0.2, 0.5)` instead of `(0.4, 0.3)`, with exact minimizers. -/
theorem C122_fails : fourCfg.utopian = utopianOf (1 / 1000000) fourCfg.ideal ∧
    (∀ j, fourCfg.ideal j < fourCfg.nadir j) ∧ ¬ UnitsFree fourCfg (1 / 1000000) unitSide := by
  refine ⟨rfl, fun j => by fin_cases j <;> norm_num [fourCfg], fun h => ?_⟩
  have hnz : NonzeroPref 2 (oneRank 1 1) := by
    intro l hl i hi x hx
    simp only [oneRank, Option.some.injEq] at hl
    subst hl
    match i with
    | 0 => simp at hx; rw [← hx]; norm_num
    | 1 => simp at hx; rw [← hx]; norm_num
  have h1 := h millionth millionth_pos _ _ (sameUse_exists (rescale millionth millionth_pos) fourCfg
    (dataOf (rescale millionth millionth_pos) (1 / 1000000) fourCfg) unitSide [(0, oneRank 1 1)]
    (by simpa using hnz))
  simp only [List.map_cons, List.map_nil] at h1
  rw [respOf_same (u := rescale millionth millionth_pos) rfl] at h1
  rw [show dataOf (rescale millionth millionth_pos) (1 / 1000000) fourCfg = fourOther from rfl, use_one, use_one,
    four_found, four_found_other] at h1
  simp only [List.map_cons, List.map_nil, resultOf, resNoDist, Except.map, Option.map_some, reqOf, noDist,
    List.cons.injEq, Except.ok.injEq, Option.some.injEq, Req.nav.injEq] at h1
  have h2 := congrFun h1.1.1 1
  norm_num [Recast.conv, rescale, millionth] at h2

/-- Two iterations with ranks, then on with the same preference, then the same response once more to the
older request. -/
def fourResps : List (Nat × Resp ℝ) :=
  [(0, { nIterations := some (.int 2), method := some 1, info := some [1, 2] }), (0, keepResp), (1, keepResp)]

theorem fourResps_nonzero : ∀ p ∈ fourResps, NonzeroPref 2 p.2 := by
  intro p hp l hl i hi x hx
  simp only [fourResps, List.mem_cons, List.not_mem_nil, or_false] at hp
  rcases hp with rfl | rfl | rfl
  · simp only [Option.some.injEq] at hl
    subst hl
    match i with
    | 0 => simp at hx; rw [← hx]; norm_num
    | 1 => simp at hx; rw [← hx]; norm_num
  · simp [keepResp] at hl
  · simp [keepResp] at hl

theorem fourCfg_range : ∀ j, fourCfg.nadir j ≠ fourCfg.utopian j := by
  intro j
  fin_cases j <;> norm_num [fourCfg, utopianOf]

/-- The responses with exact minimizers. -/
noncomputable def fourSteps : List (Nat × Resp ℝ × Oracle 2 1 ℝ) :=
  fourResps.map fun p => (p.1, p.2, orcOf fourCfg unitSide pick)

/-- The responses presented anew with exact minimizers. -/
noncomputable def fourSteps' (u : Recast 2 ℝ) (c' : Cfg 2 1 ℝ) : List (Nat × Resp ℝ × Oracle 2 1 ℝ) :=
  fourResps.map fun p => (p.1, respOf u p.2, orcOf c' unitSide pick)

/-- The two objectives exchanged. -/
noncomputable def fourSwapped : Cfg 2 1 ℝ := dataOf (reorder (Equiv.swap 0 1)) (1 / 1000000) fourCfg

example : use fourSwapped (fourSteps' (reorder (Equiv.swap 0 1)) fourSwapped) =
    (use fourCfg fourSteps).map (resultOf (reorder (Equiv.swap 0 1)) id) :=
  C120_order rfl fourCfg_range (Equiv.swap 0 1) (fun v => Verif.Navigator.euclid_perm _ v)
    (sameUse_exists _ _ _ unitSide fourResps fourResps_nonzero)

/-- Other origins. -/
noncomputable def fourOrigin : Vec 2 ℝ := ![1000, -3]

example : use (dataOf (shift fourOrigin) (1 / 1000000) fourCfg)
      (fourSteps' (shift fourOrigin) (dataOf (shift fourOrigin) (1 / 1000000) fourCfg)) =
    (use fourCfg fourSteps).map (resultOf (shift fourOrigin) id) :=
  C121_origins rfl fourCfg_range fourOrigin (sameUse_exists _ _ _ unitSide fourResps fourResps_nonzero)

example : UnitsFree { fourCfg with utopian := fourCfg.ideal } 0 unitSide :=
  C122_units_partial rfl (fun j => by fin_cases j <;> norm_num [fourCfg]) unitSide

example : use (dataOf (rescale (fun _ => 1000) fun _ => by norm_num) (1000 * (1 / 1000000)) fourCfg)
      (fourSteps' (rescale (fun _ => 1000) fun _ => by norm_num)
        (dataOf (rescale (fun _ => 1000) fun _ => by norm_num) (1000 * (1 / 1000000)) fourCfg)) =
    (use fourCfg fourSteps).map (resultOf (rescale (fun _ => 1000) fun _ => by norm_num) id) :=
  C122_common_unit_partial rfl fourCfg_range euclid_spec 1000 (by norm_num)
    (sameUse_exists _ _ _ unitSide fourResps fourResps_nonzero)

end Verif.Nautilus
