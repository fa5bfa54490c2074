import Verif.NautilusV2.Recast
import Verif.NautilusV2.ExampleData

/-!
# NAUTILUS 2: order, origins and units of the objectives, length of the direction (C126, C127, C128, C129)
-/

set_option linter.unusedSectionVars false

namespace Verif.NautilusV2

open Verif.Navigator (Recast reorder shift rescale)
open Verif.ENautilus (fdiv_common)
open Verif.Nautilus (Steady pick pick_steady pick_solves refPointASF_two unitSide sameRecast sameRecast_conv)

variable {K : Type} [Field K] [LinearOrder K] [IsStrictOrderedRing K] {k m : Nat}

/-- Specification: the same problem presented anew. -/
def dataOf (u : Recast k K) (c : Cfg k m K) : Cfg k m K := cfgOf u c.nrm c

/-- Specification: the same use of the method in two presentations: the same responses in the same order
to the same requests, the minimizers steady; `e` and `e'` are the arguments `epsilon`. -/
def SameUse (u : Recast (k + 1) K) (c c' : Cfg (k + 1) m K) (e e' : K) (P : Side m K)
    (steps steps' : List (Nat × Resp K × Oracle (k + 1) m K)) : Prop :=
  List.Forall₂ (SameStep u c c' e e' P) steps steps'

/-- The minimizers of one call when `solver` is used. -/
def orcOf (c : Cfg (k + 1) m K) (P : Side m K) (e : K) (solver : Task m K → Vec m K) :
    Oracle (k + 1) m K where
  asf := fun w q => solver (asfTask c P e w q)
  eps := fun i z => solver (epsTask c P i z)

theorem orcOf_uses (c : Cfg (k + 1) m K) (P : Side m K) (e : K) (solver : Task m K → Vec m K) :
    Uses c P e solver (orcOf c P e solver) := ⟨fun _ _ _ => rfl, fun _ _ => rfl⟩

/-- For any responses there are such uses of the method, with exact minimizers. -/
theorem sameUse_exists (u : Recast (k + 1) K) (c c' : Cfg (k + 1) m K) (e e' : K) (P : Side m K)
    (l : List (Nat × Resp K)) :
    SameUse u c c' e e' P (l.map fun p => (p.1, p.2, orcOf c P e pick))
      (l.map fun p => (p.1, respOf u p.2, orcOf c' P e' pick)) := by
  unfold SameUse
  induction l with
  | nil => exact .nil
  | cons p l ih =>
    exact .cons ⟨rfl, rfl, pick, pick_steady, orcOf_uses _ _ _ _, orcOf_uses _ _ _ _⟩ ih

/-! ### Order -/

/-- Specification of the full claim: the order of the objectives does not matter. -/
def OrderFree (c : Cfg (k + 1) m K) (e : K) (P : Side m K) : Prop :=
  ∀ (σ : Equiv.Perm (Fin (k + 1))) (steps steps' : List (Nat × Resp K × Oracle (k + 1) m K)),
    SameUse (reorder σ) c (dataOf (reorder σ) c) e e P steps steps' →
    use (dataOf (reorder σ) c) steps' = (use c steps).map (resultOf (reorder σ) id)

/-- **C126**, partial. List the objectives in another order (in the problem, the points, the preferences and the
numbers in the pairs): whatever is answered, in whatever order and to whichever request, every request, stop
result, `None` and exception is the same with the objectives listed in that order, if no preference is given
by pairs or the first objective stays the first. Missing: otherwise it is false, see `C126_fails`. -/
theorem C126_order_partial {c : Cfg (k + 1) m K} {e : K} (σ : Equiv.Perm (Fin (k + 1)))
    (hn : ∀ v, c.nrm (fun j => v (σ j)) = c.nrm v) {P : Side m K}
    {steps steps' : List (Nat × Resp K × Oracle (k + 1) m K)}
    (h : SameUse (reorder σ) c (dataOf (reorder σ) c) e e P steps steps')
    (hp : σ 0 = 0 ∨ ∀ p ∈ steps, ∀ l, p.2.1.info ≠ some (.pairs l)) :
    use (dataOf (reorder σ) c) steps' = (use c steps).map (resultOf (reorder σ) id) := by
  have e1 : ∀ v : Vec (k + 1) K, (reorder σ).conv v = fun j => v (σ j) := by
    intro v; funext j; simp [Recast.conv, reorder]
  unfold dataOf at h ⊢
  refine use_recast ?_ (fun z f => ?_) h fun p hpm => ⟨fun _ _ => rfl, fun l hl => ?_⟩
  · rw [e1]; funext j; simp only [utopianOf, cfgOf, e1]
  · simp only [distance, cfgOf, e1, id]
    rw [hn fun j => z j - c.start j, hn fun j => f j - c.start j]
  · rcases hp with hp | hp
    · exact ⟨hp, rfl⟩
    · exact absurd hl (hp p hpm l)

/-- **C126**, what holds for pairs in any order: the direction of improvement found is the same up to a
positive factor (and it is found, or the search never ends, in both orders). -/
theorem C126_direction_partial (σ : Equiv.Perm (Fin (k + 1))) {l : List (Pair K)}
    (h : validatePairs (k + 1) l = .ok ()) {d : Vec (k + 1) K} (hd : doi (k + 1) l = .ok d) :
    validatePairs (k + 1) (l.map (pairOf (reorder σ))) = .ok () ∧
      ∃ a, 0 < a ∧ doi (k + 1) (l.map (pairOf (reorder σ))) = .ok fun j => a * d (σ j) := by
  have hc : Connected k l := by
    obtain ⟨n1, hn1, hl', -⟩ := validatePairs_ok h
    obtain rfl : k = n1 := by omega
    exact (C41_terminates_iff h).1.1 ⟨d, (doi_returns hl').1 hd⟩
  obtain ⟨d', hd', h0, hpos, -⟩ := C41_direction_partial h hc
  rw [hd] at hd'
  cases hd'
  refine ⟨by rw [validatePairs_recast]; exact h, (d (σ 0))⁻¹, inv_pos.2 (hpos _), ?_⟩
  rw [doi_recast _ h, hd]
  simp only [Except.map, reorder, one_mul]
  congr 1
  funext j
  rw [div_eq_inv_mul]

/-! ### Origins -/

/-- **C127.** Measure the objectives from other origins: every request, stop result, `None` and exception
is the same, in the new origins. -/
theorem C127_origins {c : Cfg (k + 1) m K} {e : K} (o : Vec (k + 1) K) {P : Side m K}
    {steps steps' : List (Nat × Resp K × Oracle (k + 1) m K)}
    (h : SameUse (shift o) c (dataOf (shift o) c) e e P steps steps') :
    use (dataOf (shift o) c) steps' = (use c steps).map (resultOf (shift o) id) := by
  have e1 : ∀ v : Vec (k + 1) K, (shift o).conv v = fun j => v j + o j := by
    intro v; funext j; simp [Recast.conv, shift]
  unfold dataOf at h ⊢
  refine use_recast ?_ (fun z f => ?_) h fun p hpm => ⟨fun _ _ => rfl, fun l hl => ⟨rfl, rfl⟩⟩
  · rw [e1]
    funext j
    simp only [utopianOf, cfgOf, e1]
    ring
  · simp only [distance, cfgOf, e1, id, add_sub_add_right_eq_sub]

/-! ### Units -/

/-- Specification: a request without the distance. -/
def noDist : Req k m K → Req k m K
  | .initial => .initial
  | .nav z lo up _ => .nav z lo up .nan
  | .stop x f => .stop x f

/-- Specification: a result without the distance. -/
def resNoDist (o : Except Err (Option (Req k m K))) : Except Err (Option (Req k m K)) :=
  o.map fun q => q.map noDist

theorem resultOf_same (o : Except Err (Option (Req k m K))) :
    resultOf sameRecast (fun _ => .nan) o = resNoDist o := by
  have e : (sameRecast : Recast k K).conv = id := funext sameRecast_conv
  rcases o with _ | _ | q
  · rfl
  · rfl
  · cases q <;> simp [resultOf, resNoDist, Except.map, reqOf, noDist, e]

theorem resultOf_nan (u : Recast k K) (o : Except Err (Option (Req k m K))) :
    resultOf u (fun _ => .nan) o = resNoDist (resultOf u id o) := by
  rcases o with _ | _ | q
  · rfl
  · rfl
  · cases q <;> rfl

theorem distance_zero (c : Cfg k m K) (z f : Vec k K) :
    distance { c with nrm := fun _ => 0 } z f = .nan := by
  simp [distance, fdiv, Fl.scalePos]

theorem Uses.norm {c : Cfg (k + 1) m K} {P : Side m K} {e : K} {solver : Task m K → Vec m K}
    {orc : Oracle (k + 1) m K} (h : Uses c P e solver orc) (nrm : Vec (k + 1) K → K) :
    Uses { c with nrm := nrm } P e solver orc := ⟨h.asf, h.eps⟩

theorem infoOf_same {u : Recast k K} (hp : u.perm = 1) (hs : ∀ j, u.scale j = 1) (l : List K) : infoOf u l = l := by
  unfold infoOf
  split
  · rename_i h
    conv_rhs => rw [← List.take_append_drop k l]
    congr 1
    apply List.ext_getElem
    · simp [h]
    · intro i h1 h2
      simp only [List.length_ofFn] at h1
      have : i < l.length := by omega
      simp [hp, hs, this]
  · rfl

theorem pairOf_same {u : Recast k K} (hp : u.perm = 1) (hs : ∀ j, u.scale j = 1) (p : Pair K) : pairOf u p = p := by
  have h1 : ∀ v, indexOf u v = v := by
    intro v
    unfold indexOf
    cases objective k v with
    | none => rfl
    | some i =>
      have : u.perm.symm i = i := by rw [hp]; rfl
      simp only [this, if_true]
  have h2 : ∀ v, unitOf u v = 1 := by
    intro v
    unfold unitOf
    cases objective k v with
    | none => rfl
    | some i => exact hs _
  unfold pairOf
  simp [h1, h2]

theorem respOf_same {u : Recast k K} (hp : u.perm = 1) (hs : ∀ j, u.scale j = 1) (r : Resp K) : respOf u r = r := by
  unfold respOf
  have : prefOf u = id := by
    funext x
    cases x with
    | arr l => simp only [prefOf, infoOf_same hp hs, id]
    | list l => rfl
    | pairs l =>
      have : pairOf u = id := funext fun p => pairOf_same hp hs p
      simp only [prefOf, this, List.map_id, id]
  rw [this, Option.map_id]
  rfl

/-- Two uses of the method on the same problem with different norms differ only in the distances. -/
theorem use_noDist {c : Cfg (k + 1) m K} {P : Side m K} {e : K}
    {steps : List (Nat × Resp K × Oracle (k + 1) m K)}
    (h : ∀ p ∈ steps, ∃ solver, Steady solver ∧ Uses c P e solver p.2.2) :
    use { c with nrm := fun _ => 0 } steps = (use c steps).map resNoDist := by
  have e0 : cfgOf sameRecast (fun _ => 0) c = { c with nrm := fun _ => 0 } := by
    simp only [cfgOf, sameRecast_conv]
  have h1 : List.Forall₂ (SameStep sameRecast c (cfgOf sameRecast (fun _ => 0) c) e e P) steps steps := by
    rw [List.forall₂_same]
    intro p hp
    obtain ⟨solver, h1, h2⟩ := h p hp
    refine ⟨rfl, (respOf_same rfl (fun _ => rfl) _).symm, solver, h1, h2, ?_⟩
    rw [e0]
    exact h2.norm _
  have h2 := use_recast (δ := fun _ => .nan) (by rw [e0, sameRecast_conv]; rfl) (fun z f => by
    rw [e0]; exact distance_zero c _ _) h1 fun p _ => ⟨fun _ _ => rfl, fun _ _ => ⟨rfl, rfl⟩⟩
  rw [e0] at h2
  rw [h2]
  exact List.map_congr_left fun o _ => resultOf_same o

theorem sameUse_right {u : Recast (k + 1) K} {c c' : Cfg (k + 1) m K} {e e' : K} {P : Side m K}
    {steps steps' : List (Nat × Resp K × Oracle (k + 1) m K)} (h : SameUse u c c' e e' P steps steps') :
    ∀ p ∈ steps', ∃ solver, Steady solver ∧ Uses c' P e' solver p.2.2 := by
  unfold SameUse at h
  induction h with
  | nil => simp
  | @cons p q l l' hpq _ ih =>
    intro x hx
    rcases List.mem_cons.1 hx with rfl | hx
    · obtain ⟨_, h2, solver, h4, _, h6⟩ := hpq
      exact ⟨solver, h4, h6⟩
    · exact ih x hx

/-- Specification: the improvements are given directly. -/
def Direct (r : Resp K) : Prop := r.method ≠ some 2 ∧ ∀ l, r.info ≠ some (.pairs l)

/-- Specification: the improvements are given directly or by pairs. -/
def NotRelative (r : Resp K) : Prop := r.method ≠ some 2

/-- Specification of the full claim: the units of the objectives do not matter, if `epsilon` stays the
same and the improvements asked for are converted, except for the distances. (Improvements relative to an
objective whose improvement is 1 need not have an objective whose improvement is 1 in other units.) -/
def UnitsFree (c : Cfg (k + 1) m K) (e : K) (P : Side m K) : Prop :=
  ∀ (w : Vec (k + 1) K) (hw : ∀ j, 0 < w j) (steps steps' : List (Nat × Resp K × Oracle (k + 1) m K)),
    SameUse (rescale w hw) c (dataOf (rescale w hw) c) e e P steps steps' →
    (∀ p ∈ steps, NotRelative p.2.1) →
    (use (dataOf (rescale w hw) c) steps').map resNoDist =
      ((use c steps).map (resultOf (rescale w hw) id)).map resNoDist

/-- **C128**, partial. With `epsilon = 0` (the utopian point is the ideal point) the units of the objectives
do not matter, if the improvements are given directly, or if they are given by pairs and the first objective
keeps its unit: everything but the distances is the same, in the new units. Missing: with any other `epsilon`,
or with a new unit of the first objective and pairs, it is false, see `C128_fails` and `C128_fails_pairs`. -/
theorem C128_units_partial (c : Cfg (k + 1) m K) (P : Side m K) (w : Vec (k + 1) K) (hw : ∀ j, 0 < w j)
    {steps steps' : List (Nat × Resp K × Oracle (k + 1) m K)}
    (h : SameUse (rescale w hw) c (dataOf (rescale w hw) c) 0 0 P steps steps')
    (hr : ∀ p ∈ steps, Direct p.2.1 ∨ NotRelative p.2.1 ∧ w 0 = 1) :
    (use (dataOf (rescale w hw) c) steps').map resNoDist =
      ((use c steps).map (resultOf (rescale w hw) id)).map resNoDist := by
  rw [← use_noDist (sameUse_right h)]
  have hd : ({ dataOf (rescale w hw) c with nrm := fun _ => 0 } : Cfg (k + 1) m K) =
      cfgOf (rescale w hw) (fun _ => 0) c := rfl
  rw [hd]
  rw [use_recast (P := P) (e := 0) (e' := 0) (δ := fun _ => .nan) ?_ (fun z f => ?_) ?_ ?_, List.map_map]
  · exact List.map_congr_left fun o _ => resultOf_nan _ o
  · funext j
    simp [utopianOf, cfgOf, Recast.conv]
  · refine List.Forall₂.imp ?_ h
    rintro p p' ⟨h1, h2, solver, h4, h5, h6⟩
    refine ⟨h1, h2, solver, h4, h5, ?_⟩
    rw [← hd]
    exact h6.norm _
  · intro p hp
    rcases hr p hp with ⟨h1, h2⟩ | ⟨h1, h2⟩
    · exact ⟨fun h => absurd h h1, fun l hl => absurd hl (h2 l)⟩
    · exact ⟨fun h => absurd h h1, fun l hl => ⟨rfl, h2⟩⟩
  · exact distance_zero (cfgOf (rescale w hw) (fun _ => 0) c) _ _

/-- **C128**, partial. If all objectives are measured in a common unit, `epsilon` is too, and the improvements are
given directly, everything is the same in another unit, including the distances. -/
theorem C128_common_unit_partial {c : Cfg (k + 1) m K} {e : K} (hn : NormSpec c.nrm) (a : K) (ha : 0 < a)
    {P : Side m K} {steps steps' : List (Nat × Resp K × Oracle (k + 1) m K)}
    (h : SameUse (rescale (fun _ => a) fun _ => ha) c (dataOf (rescale (fun _ => a) fun _ => ha) c)
      e (a * e) P steps steps') (hr : ∀ p ∈ steps, Direct p.2.1) :
    use (dataOf (rescale (fun _ => a) fun _ => ha) c) steps' =
      (use c steps).map (resultOf (rescale (fun _ => a) fun _ => ha) id) := by
  have e1 : ∀ v : Vec (k + 1) K, (rescale (fun _ => a) fun _ => ha).conv v = fun j => a * v j := by
    intro v; funext j; simp [Recast.conv, rescale]
  unfold dataOf at h ⊢
  refine use_recast ?_ (fun z f => ?_) h fun p hp =>
    ⟨fun h => absurd h (hr p hp).1, fun l hl => absurd hl ((hr p hp).2 l)⟩
  · rw [e1]
    funext j
    simp only [utopianOf, cfgOf, e1]
    ring
  · simp only [distance, cfgOf, e1, id, ← mul_sub]
    rw [hn.homog a fun j => z j - c.start j, hn.homog a fun j => f j - c.start j, abs_of_pos ha,
      fdiv_common ha]

/-! ### The length of the direction -/

/-- Specification: the improvements given directly, all multiplied by `a`. -/
def longer (a : K) (r : Resp K) : Resp K :=
  match r.info with
  | some (.arr l) => if r.method = some 1 then { r with info := some (.arr (l.map (a * ·))) } else r
  | _ => r

/-- Specification: two uses of the method that differ only in the lengths of the directions given directly. -/
def SameDirections (c : Cfg (k + 1) m K) (e : K) (P : Side m K) (a : K)
    (steps steps' : List (Nat × Resp K × Oracle (k + 1) m K)) : Prop :=
  List.Forall₂ (fun p p' => p'.1 = p.1 ∧ p'.2.1 = longer a p.2.1 ∧
    ∃ solver, Steady solver ∧ Uses c P e solver p.2.2 ∧ Uses c P e solver p'.2.2) steps steps'

/-- Specification of the full claim: only the direction of the improvement matters, not its length. -/
def DirectionOnly (c : Cfg (k + 1) m K) (e : K) (P : Side m K) : Prop :=
  ∀ (a : K) (steps steps' : List (Nat × Resp K × Oracle (k + 1) m K)), 0 < a →
    SameDirections c e P a steps steps' → use c steps' = use c steps

theorem vmax_scale {a : K} (ha : 0 < a) (v : Vec (k + 1) K) : vmax (fun j => a * v j) = a * vmax v := by
  apply le_antisymm
  · rw [vmax_le_iff]; exact fun j => mul_le_mul_of_nonneg_left (le_vmax v j) ha.le
  · rw [← le_div_iff₀' ha, vmax_le_iff]
    intro j
    rw [le_div_iff₀' ha]
    exact le_vmax (fun j => a * v j) j

/-- Two minimizers with weights that differ by a factor reach nearly the same largest weighted distance. -/
theorem near_direction {c : Cfg (k + 1) m K} {P : Side m K} {eps : K} {orc orc' : Oracle (k + 1) m K}
    (h' : Exact c P eps orc') (h : Exact c P eps orc) (heps : 0 < eps)
    (hid : ∀ x, P.inBounds x → AtLeastAsGood c.ideal (c.evaluate x))
    (hna : ∀ x, P.inBounds x → AtLeastAsGood (c.evaluate x) c.nadir)
    {mu : Vec (k + 1) K} (hmu : ∀ i, 0 < mu i) {a : K} (ha : 0 < a) (q : Vec (k + 1) K) :
    vmax (fun i => mu i * (c.evaluate (orc'.asf (fun i => a⁻¹ * mu i) q) i - q i)) ≤
      vmax (fun i => mu i * (c.evaluate (orc.asf mu q) i - q i)) + a * (((k : K) + 1) / 100000) := by
  obtain ⟨b1, _⟩ := h.best q hmu
  obtain ⟨b1', b2'⟩ := h'.best (mu := fun i => a⁻¹ * mu i) q fun i => mul_pos (inv_pos.2 ha) (hmu i)
  have h1 := b2' _ b1
  have hi := hid _ b1'
  have hi2 := hid _ b1
  have hn := hna _ b1
  generalize c.evaluate (orc.asf mu q) = f at h1 hi2 hn ⊢
  generalize c.evaluate (orc'.asf (fun i => a⁻¹ * mu i) q) = f' at h1 hi ⊢
  unfold refPointASF at h1
  have e : ∀ g : Vec (k + 1) K, vmax (fun i => a⁻¹ * mu i * (g i - q i)) =
      a⁻¹ * vmax (fun i => mu i * (g i - q i)) := by
    intro g
    rw [← vmax_scale (inv_pos.2 ha)]
    simp only [mul_assoc]
  rw [e f, e f'] at h1
  have hR : ∀ j, 0 < c.nadir j - utopianOf eps c j := fun j => by
    unfold utopianOf; have := hn j; have := hi2 j; linarith
  have h2 : ∑ j, (f j - q j) / (c.nadir j - utopianOf eps c j) -
      ∑ j, (f' j - q j) / (c.nadir j - utopianOf eps c j) ≤ (k : K) + 1 := by
    rw [← Finset.sum_sub_distrib]
    calc ∑ j, ((f j - q j) / (c.nadir j - utopianOf eps c j) - (f' j - q j) / (c.nadir j - utopianOf eps c j))
        ≤ ∑ _j : Fin (k + 1), (1 : K) := by
          apply Finset.sum_le_sum
          intro j _
          rw [← sub_div, div_le_one (hR j)]
          unfold utopianOf
          have := hn j
          have := hi j
          linarith
      _ = k + 1 := by simp
  have h3 := mul_le_mul_of_nonneg_left h1 ha.le
  rw [mul_add, mul_add, mul_inv_cancel_left₀ ha.ne', mul_inv_cancel_left₀ ha.ne'] at h3
  have h4 := mul_le_mul_of_nonneg_left h2 ha.le
  linarith

theorem factors_direct (d : Vec (k + 1) K) : factors (k + 1) 1 (.arr (List.ofFn d)) = .ok d := by
  simp only [factors, List.length_ofFn, if_true]
  congr 1
  funext i
  rw [List.getElem?_ofFn, dif_pos i.2]
  rfl

/-- **C129**, partial. Multiplying the improvements `d` given directly in the first response by `a` changes the
first point shown only a little (with exact minimizers, and the values between the ideal and nadir points): if
the first point shown improves (or worsens) every objective on the starting point by at least (at most) `t`
times `d / N`, then the one shown for `a * d` does so, with `t` increased by `a * k / 100000` for `k` objectives.
(Apply it with `1 / a` for the other direction.) Missing: the points need not be equal, see `C129_fails`. -/
theorem C129_first_partial {c : Cfg (k + 1) m K} {P : Side m K} {eps : K} {orc orc' : Oracle (k + 1) m K}
    (h : Exact c P eps orc) (h' : Exact c P eps orc') (heps : 0 < eps)
    (hid : ∀ x, P.inBounds x → AtLeastAsGood c.ideal (c.evaluate x))
    (hna : ∀ x, P.inBounds x → AtLeastAsGood (c.evaluate x) c.nadir)
    {r : Resp K} {N : PyVal} {d : Vec (k + 1) K} (hN : r.nIterations = some N) (hm : r.method = some 1)
    (hi : r.info = some (.arr (List.ofFn d))) {a : K} (ha : 0 < a)
    {s s' s1 s1' : St (k + 1) m K} {z lo up z' lo' up' : Vec (k + 1) K} {dist dist' : Fl K}
    (h0 : s.step = 1) (h0' : s'.step = 1)
    (hans : answer c s .initial r orc = (s1, .ok (some (.nav z lo up dist))))
    (hans' : answer c s' .initial (longer a r) orc' = (s1', .ok (some (.nav z' lo' up' dist')))) {t : K}
    (ht : ∀ i, (N.asInt : K) * (z i - c.start i) ≤ t * d i) :
    ∀ i, (N.asInt : K) * (z' i - c.start i) ≤ (t + a * (((k : K) + 1) / 100000)) * d i := by
  have hl : longer a r = { r with info := some (.arr (List.ofFn fun i => a * d i)) } := by
    unfold longer
    rw [hi]
    simp only [hm, if_true, List.map_ofFn]
    rfl
  have hval : validateInitial (k + 1) r = .ok () := by
    by_contra hc
    obtain ⟨_, e, he⟩ := answer_refused hans (by simpa [validate] using hc)
    cases he
  obtain ⟨_, _, _, _, _, _, hpref⟩ := validateInitial_ok hval
  have hpos := fun i => (C43_factors_positive hpref hm hi (factors_direct d) i)
  obtain ⟨N1, x, meth, info, w, h1, h2, h3, h4, h5, h6, h7, h8, h9, _⟩ := C64_first h0 hans
  obtain ⟨N1', x', meth', info', w', h1', h2', h3', h4', h5', h6', h7', h8', h9', _⟩ := C64_first h0' hans'
  rw [hl] at h1' h4' h5'
  simp only at h1' h4' h5'
  rw [hN] at h1 h1'
  rw [hm] at h4 h4'
  rw [hi] at h5
  cases h1; cases h1'; cases h4; cases h4'; cases h5; cases h5'
  rw [factors_direct] at h6 h6'
  cases h6; cases h6'
  have hw : weights (fun i => a * d i) = fun i => a⁻¹ * weights d i := by
    funext i
    simp only [weights, one_div, mul_inv]
  rw [hw] at h7'
  subst h7 h7'
  have hnear := near_direction h' h heps hid hna (fun i => (hpos i).2.2) ha c.start
  have hM : vmax (fun i => weights d i * (c.evaluate (orc.asf (weights d) c.start) i - c.start i)) ≤ t := by
    rw [vmax_le_iff]
    intro i
    have h10 := h9 i
    have h11 := ht i
    have h12 := (hpos i).1
    rw [(hpos i).2.1, one_div, inv_mul_le_iff₀ h12, mul_comm]
    linarith
  intro i
  have h10 := h9' i
  have h12 := (hpos i).1
  have h13 := (le_vmax (fun i => weights d i *
    (c.evaluate (orc'.asf (fun i => a⁻¹ * weights d i) c.start) i - c.start i)) i).trans
      (hnear.trans (add_le_add_left hM _))
  rw [(hpos i).2.1, one_div, inv_mul_le_iff₀ h12, mul_comm] at h13
  linarith

/-! ### Examples -/

/-- What is shown after one response with only one iteration. -/
theorem use_one {c : Cfg 2 m ℝ} {orc : Oracle 2 m ℝ} {r : Resp ℝ} {meth : Int} {info : Pref ℝ} {w : Vec 2 ℝ}
    (hv : validate c (.initial : Req 2 m ℝ) r = .ok ()) (hn : r.nIterations = some (.int 1))
    (hm : r.method = some meth) (hi : r.info = some info) (hw : factors 2 meth info = .ok w)
    {f : Vec 2 ℝ} (hf : c.evaluate (orc.asf (weights w) c.start) = f) :
    use c [(0, r, orc)] = [.ok (some (.nav f (bounds c orc f) f (distance c f f)))] := by
  simp only [use, replay, List.getElem?_cons_zero, answer, hv, iterate, handleInitial, hn, hm, hi, hw]
  have h : ∀ f, c.evaluate (orc.asf (weights w) c.start) = f →
      (.nav (iterationPoint 1 c.start f) (bounds c orc (iterationPoint 1 c.start f)) (iterationPoint 1 c.start f)
        (distance c (iterationPoint 1 c.start f) f) : Req 2 m ℝ) = .nav f (bounds c orc f) f (distance c f f) := by
    intro f hf
    have hz : iterationPoint 1 c.start f = f := by
      funext j; simp [iterationPoint]
    rw [hz]
  rw [← h f hf, ← hf]
  rfl

/-- If the value at one solution is the least, an exact minimizer finds it. -/
theorem pick_found {c : Cfg 2 1 ℝ} {e : ℝ} {w : Vec 2 ℝ} (x0 : Vec 1 ℝ) (hx0 : unitSide.inBounds x0)
    {F : Vec 2 ℝ → ℝ}
    (hF : F = fun f => refPointASF (weights w) c.nadir (utopianOf e c) (1 / 100000) c.start f)
    (hmin : ∀ y, c.evaluate y = c.evaluate x0 ∨ F (c.evaluate x0) < F (c.evaluate y)) :
    c.evaluate ((orcOf c unitSide e pick).asf (weights w) c.start) = c.evaluate x0 := by
  have hv : ∀ x, (asfTask c unitSide e (weights w) c.start).value x = some (F (c.evaluate x)) := by
    intro x; rw [hF]; rfl
  have hex : Solves x0 (asfTask c unitSide e (weights w) c.start) := by
    refine ⟨hx0, fun y _ b hb => ⟨_, hv x0, ?_⟩⟩
    rw [hv] at hb
    cases hb
    rcases hmin y with h | h
    · rw [h]
    · exact h.le
  obtain ⟨h1, h2⟩ := pick_solves ⟨x0, hex⟩
  obtain ⟨a, ha, hle⟩ := h2 x0 hx0 _ (hv x0)
  rw [hv] at ha
  cases ha
  rcases hmin (pick (asfTask c unitSide e (weights w) c.start)) with h | h
  · exact h
  · exact absurd hle (not_le.2 h)

/-- Four solutions: `x ≤ 1/4`, `1/4 < x ≤ 1/2`, `1/2 < x ≤ 3/4`, `3/4 < x`. -/
noncomputable def fourOf (A B : Vec 2 ℝ) (x : Vec 1 ℝ) : Vec 2 ℝ :=
  if x 0 ≤ 1 / 4 then ![0, 1] else if x 0 ≤ 1 / 2 then A else if x 0 ≤ 3 / 4 then B else ![1, 0]

/-- A problem with four Pareto optimal objective vectors, with its ideal and nadir points; the iterations
start at the nadir point. -/
noncomputable def fourCfg (A B : Vec 2 ℝ) : Cfg 2 1 ℝ where
  start := ![1, 1]
  ideal := ![0, 0]
  nadir := ![1, 1]
  evaluate := fourOf A B
  nrm := euclid

theorem fourOf_cases (A B : Vec 2 ℝ) (x : Vec 1 ℝ) :
    fourOf A B x = ![0, 1] ∨ fourOf A B x = A ∨ fourOf A B x = B ∨ fourOf A B x = ![1, 0] := by
  unfold fourOf
  split_ifs <;> simp

theorem fourOf_A (A B : Vec 2 ℝ) : fourOf A B (fun _ => 1 / 3) = A := by
  unfold fourOf; norm_num

theorem fourOf_B (A B : Vec 2 ℝ) : fourOf A B (fun _ => 2 / 3) = B := by
  unfold fourOf; norm_num

/-- The ratio of the pair: improve the second objective by a millionth of the improvement of the first. -/
noncomputable def tiny : ℝ := 1 / 1000000

/-- The problem used for pairs. -/
noncomputable def pairCfg : Cfg 2 1 ℝ := fourCfg ![1 / 2, 9 / 10] ![6 / 10, 1 / 10]

/-- One iteration, the improvements given by a pair. -/
noncomputable def pairResp : Resp ℝ :=
  { nIterations := some (.int 1), method := some 3, info := some (.pairs [⟨.int 1, .int 2, tiny⟩]) }

/-- One iteration, the improvements given directly. -/
def directResp (a b : ℝ) : Resp ℝ :=
  { nIterations := some (.int 1), method := some 1, info := some (.arr [a, b]) }

theorem directResp_valid {a b : ℝ} (ha : 0 < a) (hb : 0 < b) (c : Cfg 2 m ℝ) :
    validate c (.initial : Req 2 m ℝ) (directResp a b) = .ok () := by
  simp [validate, validateInitial, validatePreferences, directResp, validateN, PyVal.isInstanceInt, PyVal.asInt,
    not_le.2 ha, not_le.2 hb]

theorem directResp_factors (a b : ℝ) : factors 2 1 (.arr [a, b]) = .ok ![a, b] := by
  unfold factors
  simp only
  rw [if_pos (show [a, b].length = 2 from rfl)]
  congr 1
  funext i
  fin_cases i <;> rfl

theorem weights_two (a b : ℝ) : weights ![a, b] = ![1 / a, 1 / b] := by
  funext i
  fin_cases i <;> rfl

/-- With improvements `(1, 1/1000000)`, the second solution is found. -/
theorem pair_found (e : ℝ) (he : e = 0 ∨ e = 1 / 1000000) :
    pairCfg.evaluate ((orcOf pairCfg unitSide e pick).asf (weights ![1, tiny]) pairCfg.start) =
      ![1 / 2, 9 / 10] := by
  refine (pick_found (fun _ => 1 / 3) ⟨by norm_num, by norm_num⟩ rfl fun y => ?_).trans (fourOf_A _ _)
  have e0 : pairCfg.evaluate (fun _ => 1 / 3) = ![1 / 2, 9 / 10] := fourOf_A _ _
  rw [e0, weights_two]
  rcases fourOf_cases ![1 / 2, 9 / 10] ![6 / 10, 1 / 10] y with h | h | h | h <;>
    rw [show pairCfg.evaluate y = _ from h]
  · right
    rcases he with rfl | rfl <;> norm_num [refPointASF_two, pairCfg, fourCfg, utopianOf, tiny]
  · left; rfl
  · right
    rcases he with rfl | rfl <;> norm_num [refPointASF_two, pairCfg, fourCfg, utopianOf, tiny]
  · right
    rcases he with rfl | rfl <;> norm_num [refPointASF_two, pairCfg, fourCfg, utopianOf, tiny]

/-- With improvements `(1000000, 1)`, the third one. -/
theorem long_found :
    pairCfg.evaluate ((orcOf pairCfg unitSide (1 / 1000000) pick).asf (weights ![1000000, 1]) pairCfg.start) =
      ![6 / 10, 1 / 10] := by
  refine (pick_found (fun _ => 2 / 3) ⟨by norm_num, by norm_num⟩ rfl fun y => ?_).trans (fourOf_B _ _)
  have e0 : pairCfg.evaluate (fun _ => 2 / 3) = ![6 / 10, 1 / 10] := fourOf_B _ _
  rw [e0, weights_two]
  rcases fourOf_cases ![1 / 2, 9 / 10] ![6 / 10, 1 / 10] y with h | h | h | h <;>
    rw [show pairCfg.evaluate y = _ from h]
  · right
    norm_num [refPointASF_two, pairCfg, fourCfg, utopianOf]
  · right
    norm_num [refPointASF_two, pairCfg, fourCfg, utopianOf]
  · left; rfl
  · right
    norm_num [refPointASF_two, pairCfg, fourCfg, utopianOf]

/-- **C129 fails.** Improvements `(1, 10^-6)` lead to `(0.5, 0.9)`, improvements `(10^6, 1)`, in the same
direction, to `(0.6, 0.1)`, with exact minimizers and the default `epsilon`. -/
theorem C129_fails : (∀ j, pairCfg.ideal j < pairCfg.nadir j) ∧ ¬ DirectionOnly pairCfg (1 / 1000000) unitSide := by
  refine ⟨fun j => by fin_cases j <;> norm_num [pairCfg, fourCfg], fun h => ?_⟩
  have hl : longer 1000000 (directResp 1 tiny) = directResp 1000000 1 := by
    simp only [longer, directResp, if_true]
    norm_num [tiny]
  have h1 := h 1000000 [(0, directResp 1 tiny, orcOf pairCfg unitSide (1 / 1000000) pick)]
    [(0, directResp 1000000 1, orcOf pairCfg unitSide (1 / 1000000) pick)] (by norm_num)
    (.cons ⟨rfl, hl.symm, pick, pick_steady, orcOf_uses _ _ _ _, orcOf_uses _ _ _ _⟩ .nil)
  rw [use_one (directResp_valid (by norm_num) (by norm_num) _) rfl rfl rfl (directResp_factors _ _) long_found,
    use_one (directResp_valid (by norm_num) (by norm_num [tiny]) _) rfl rfl rfl (directResp_factors _ _)
      (pair_found _ (.inr rfl))] at h1
  simp only [List.cons.injEq, Except.ok.injEq, Option.some.injEq, Req.nav.injEq] at h1
  have h2 := congrFun h1.1.1 1
  norm_num at h2

/-- The pair alone. -/
noncomputable def onePair : List (Pair ℝ) := [⟨.int 1, .int 2, tiny⟩]

theorem onePair_valid : validatePairs 2 onePair = .ok () := by
  have h : validPair 2 (⟨.int 1, .int 2, tiny⟩ : Pair ℝ) = true := by
    norm_num [validPair, validIndex, PyVal.isInstanceInt, PyVal.asInt, tiny]
  have h2 : (List.range 2).all (included onePair) = true := by
    simp [included, onePair, List.range_succ, PyVal.asInt]
  unfold validatePairs
  simp [onePair, h] at h2 ⊢
  exact h2

theorem onePair_doi : doi 2 onePair = .ok ![1, tiny] := by
  have hrel : Relates (n := 1) (⟨.int 1, .int 2, tiny⟩ : Pair ℝ) 0 1 := ⟨rfl, rfl⟩
  have hc : Connected 1 onePair := by
    intro i
    fin_cases i
    · exact .refl
    · exact .single ⟨_, by simp [onePair], .inl hrel⟩
  obtain ⟨d, hd, h0, _, h1⟩ := C41_direction_partial (n := 1) onePair_valid hc
  rw [hd]
  congr 1
  have := h1 _ (by simp [onePair]) 0 1 hrel.1 hrel.2
  funext i
  fin_cases i
  · exact h0
  · simp only [h0, mul_one] at this
    exact this

theorem onePair_factors : factors 2 3 (.pairs onePair) = .ok ![1, tiny] := by
  simp only [factors, if_true]
  exact onePair_doi

/-- The pair presented anew. -/
noncomputable def otherPair (u : Recast 2 ℝ) : List (Pair ℝ) := onePair.map (pairOf u)

theorem otherPair_factors (u : Recast 2 ℝ) : factors 2 3 (.pairs (otherPair u)) =
    .ok fun j => u.scale j * (![1, tiny] : Vec 2 ℝ) (u.perm j) / (u.scale 0 * (![1, tiny] : Vec 2 ℝ) (u.perm 0)) := by
  simp only [factors, if_true]
  rw [otherPair, doi_recast (n := 1) u onePair_valid, onePair_doi]
  rfl

theorem otherPair_valid (u : Recast 2 ℝ) : validatePairs 2 (otherPair u) = .ok () := by
  rw [otherPair, validatePairs_recast]
  exact onePair_valid

theorem pairs_valid {c : Cfg 2 m ℝ} {l : List (Pair ℝ)} (h : validatePairs 2 l = .ok ()) :
    validate c (.initial : Req 2 m ℝ) { nIterations := some (.int 1), method := some 3, info := some (.pairs l) } =
      .ok () := by
  simp [validate, validateInitial, validatePreferences, h, validateN, PyVal.isInstanceInt, PyVal.asInt]

/-- The two objectives exchanged. -/
noncomputable def swap2 : Recast 2 ℝ := reorder (Equiv.swap 0 1)

theorem swap2_conv (v : Vec 2 ℝ) : swap2.conv v = ![v 1, v 0] := by
  funext j
  fin_cases j <;> simp [swap2, Recast.conv, reorder]

theorem swap_factors : factors 2 3 (.pairs (otherPair swap2)) = .ok ![1, 1000000] := by
  rw [otherPair_factors]
  congr 1
  funext j
  fin_cases j <;> norm_num [swap2, reorder, tiny]

/-- In the other order, the third solution is found. -/
theorem swap_found : (dataOf swap2 pairCfg).evaluate
      ((orcOf (dataOf swap2 pairCfg) unitSide (1 / 1000000) pick).asf (weights ![1, 1000000])
        (dataOf swap2 pairCfg).start) = ![1 / 10, 6 / 10] := by
  have e0 : (dataOf swap2 pairCfg).evaluate (fun _ => 2 / 3) = ![1 / 10, 6 / 10] := by
    simp only [dataOf, cfgOf, swap2_conv, pairCfg, fourCfg, fourOf_B]
    rfl
  refine (pick_found (fun _ => 2 / 3) ⟨by norm_num, by norm_num⟩ rfl fun y => ?_).trans e0
  rw [e0, weights_two]
  have hy : (dataOf swap2 pairCfg).evaluate y =
      ![fourOf ![1 / 2, 9 / 10] ![6 / 10, 1 / 10] y 1, fourOf ![1 / 2, 9 / 10] ![6 / 10, 1 / 10] y 0] := by
    simp only [dataOf, cfgOf, swap2_conv]; rfl
  rw [hy]
  rcases fourOf_cases ![1 / 2, 9 / 10] ![6 / 10, 1 / 10] y with h | h | h | h <;> rw [h]
  · right
    norm_num [refPointASF_two, dataOf, cfgOf, swap2_conv, pairCfg, fourCfg, utopianOf]
  · right
    norm_num [refPointASF_two, dataOf, cfgOf, swap2_conv, pairCfg, fourCfg, utopianOf]
  · left; norm_num
  · right
    norm_num [refPointASF_two, dataOf, cfgOf, swap2_conv, pairCfg, fourCfg, utopianOf]

/-- **C126 fails.** The improvements given by the pair `((1, 2), 10^-6)` lead to `(0.5, 0.9)`; with the two
objectives listed in the other order, the same pair, now `((2, 1), 10^-6)`, leads to `(0.6, 0.1)` (in the
original order), with exact minimizers and the default `epsilon`. -/
theorem C126_fails : (∀ (σ : Equiv.Perm (Fin 2)) v, pairCfg.nrm (fun j => v (σ j)) = pairCfg.nrm v) ∧
    (∀ j, pairCfg.ideal j < pairCfg.nadir j) ∧ ¬ OrderFree pairCfg (1 / 1000000) unitSide := by
  refine ⟨fun σ v => Verif.Navigator.euclid_perm σ v,
    fun j => by fin_cases j <;> norm_num [pairCfg, fourCfg], fun h => ?_⟩
  have h1 := h (Equiv.swap 0 1) _ _ (sameUse_exists (reorder (Equiv.swap 0 1)) pairCfg
    (dataOf (reorder (Equiv.swap 0 1)) pairCfg) (1 / 1000000) (1 / 1000000) unitSide [(0, pairResp)])
  simp only [List.map_cons, List.map_nil] at h1
  change use (dataOf swap2 pairCfg) [(0, { nIterations := some (.int 1), method := some 3, info := some (.pairs (otherPair swap2)) }, orcOf (dataOf swap2 pairCfg) unitSide (1 / 1000000) pick)] = List.map (resultOf swap2 id) (use pairCfg [(0, { nIterations := some (.int 1), method := some 3, info := some (.pairs onePair) }, orcOf pairCfg unitSide (1 / 1000000) pick)]) at h1
  rw [use_one (pairs_valid (otherPair_valid _)) rfl rfl rfl swap_factors swap_found,
    use_one (pairs_valid onePair_valid) rfl rfl rfl onePair_factors (pair_found _ (.inr rfl))] at h1
  simp only [List.map_cons, List.map_nil, resultOf, Except.map, Option.map_some, reqOf,
    List.cons.injEq, Except.ok.injEq, Option.some.injEq, Req.nav.injEq] at h1
  have h2 := congrFun h1.1.1 0
  rw [swap2_conv] at h2
  norm_num at h2

/-- The first objective in a unit that is a million times as large. -/
noncomputable def million : Recast 2 ℝ := rescale Nautilus.millionth Nautilus.millionth_pos

theorem million_conv (v : Vec 2 ℝ) : million.conv v = ![1 / 1000000 * v 0, v 1] := by
  funext j
  fin_cases j <;> simp [million, Recast.conv, rescale, Nautilus.millionth]

theorem million_factors : factors 2 3 (.pairs (otherPair million)) = .ok ![1, 1] := by
  rw [otherPair_factors]
  congr 1
  funext j
  fin_cases j <;> norm_num [million, rescale, tiny, Nautilus.millionth]

/-- In the other unit, the third solution is found. -/
theorem million_found : (dataOf million pairCfg).evaluate
      ((orcOf (dataOf million pairCfg) unitSide 0 pick).asf (weights ![1, 1])
        (dataOf million pairCfg).start) = ![6 / 10000000, 1 / 10] := by
  have e0 : (dataOf million pairCfg).evaluate (fun _ => 2 / 3) = ![6 / 10000000, 1 / 10] := by
    simp only [dataOf, cfgOf, million_conv, pairCfg, fourCfg, fourOf_B]
    norm_num
  refine (pick_found (fun _ => 2 / 3) ⟨by norm_num, by norm_num⟩ rfl fun y => ?_).trans e0
  rw [e0, weights_two]
  have hy : (dataOf million pairCfg).evaluate y =
      ![1 / 1000000 * fourOf ![1 / 2, 9 / 10] ![6 / 10, 1 / 10] y 0, fourOf ![1 / 2, 9 / 10] ![6 / 10, 1 / 10] y 1] := by
    simp only [dataOf, cfgOf, million_conv]; rfl
  rw [hy]
  rcases fourOf_cases ![1 / 2, 9 / 10] ![6 / 10, 1 / 10] y with h | h | h | h <;> rw [h]
  · right
    norm_num [refPointASF_two, dataOf, cfgOf, million_conv, pairCfg, fourCfg, utopianOf]
  · right
    norm_num [refPointASF_two, dataOf, cfgOf, million_conv, pairCfg, fourCfg, utopianOf]
  · left; norm_num
  · right
    norm_num [refPointASF_two, dataOf, cfgOf, million_conv, pairCfg, fourCfg, utopianOf]

/-- **C128 fails** for pairs, even with `epsilon = 0`: measuring the first objective in a unit that is a million
times as large leads to a different solution. -/
theorem C128_fails_pairs : ¬ UnitsFree pairCfg 0 unitSide := by
  intro h
  have h1 := h Nautilus.millionth Nautilus.millionth_pos _ _ (sameUse_exists million pairCfg
    (dataOf million pairCfg) 0 0 unitSide [(0, pairResp)]) (by simp [NotRelative, pairResp])
  simp only [List.map_cons, List.map_nil] at h1
  change List.map resNoDist (use (dataOf million pairCfg) [(0, { nIterations := some (.int 1), method := some 3, info := some (.pairs (otherPair million)) }, orcOf (dataOf million pairCfg) unitSide 0 pick)]) = List.map resNoDist (List.map (resultOf million id) (use pairCfg [(0, { nIterations := some (.int 1), method := some 3, info := some (.pairs onePair) }, orcOf pairCfg unitSide 0 pick)])) at h1
  rw [use_one (pairs_valid (otherPair_valid _)) rfl rfl rfl million_factors million_found,
    use_one (pairs_valid onePair_valid) rfl rfl rfl onePair_factors (pair_found _ (.inl rfl))] at h1
  simp only [List.map_cons, List.map_nil, resultOf, resNoDist, Except.map, Option.map_some, reqOf, noDist,
    List.cons.injEq, Except.ok.injEq, Option.some.injEq, Req.nav.injEq] at h1
  have h2 := congrFun h1.1.1 1
  rw [million_conv] at h2
  norm_num at h2

/-- The problem used for `epsilon`. -/
noncomputable def epsCfg : Cfg 2 1 ℝ := fourCfg ![1 / 2, 1 / 10] ![1 / 100, 1 / 2]

theorem eps_found :
    epsCfg.evaluate ((orcOf epsCfg unitSide (1 / 1000000) pick).asf (weights ![1, 1]) epsCfg.start) =
      ![1 / 100, 1 / 2] := by
  refine (pick_found (fun _ => 2 / 3) ⟨by norm_num, by norm_num⟩ rfl fun y => ?_).trans (fourOf_B _ _)
  have e0 : epsCfg.evaluate (fun _ => 2 / 3) = ![1 / 100, 1 / 2] := fourOf_B _ _
  rw [e0, weights_two]
  rcases fourOf_cases ![1 / 2, 1 / 10] ![1 / 100, 1 / 2] y with h | h | h | h <;>
    rw [show epsCfg.evaluate y = _ from h]
  · right
    norm_num [refPointASF_two, epsCfg, fourCfg, utopianOf]
  · right
    norm_num [refPointASF_two, epsCfg, fourCfg, utopianOf]
  · left; rfl
  · right
    norm_num [refPointASF_two, epsCfg, fourCfg, utopianOf]

theorem eps_found_other : (dataOf million epsCfg).evaluate
      ((orcOf (dataOf million epsCfg) unitSide (1 / 1000000) pick).asf (weights ![1 / 1000000, 1])
        (dataOf million epsCfg).start) = ![1 / 2000000, 1 / 10] := by
  have e0 : (dataOf million epsCfg).evaluate (fun _ => 1 / 3) = ![1 / 2000000, 1 / 10] := by
    simp only [dataOf, cfgOf, million_conv, epsCfg, fourCfg, fourOf_A]
    norm_num
  refine (pick_found (fun _ => 1 / 3) ⟨by norm_num, by norm_num⟩ rfl fun y => ?_).trans e0
  rw [e0, weights_two]
  have hy : (dataOf million epsCfg).evaluate y =
      ![1 / 1000000 * fourOf ![1 / 2, 1 / 10] ![1 / 100, 1 / 2] y 0, fourOf ![1 / 2, 1 / 10] ![1 / 100, 1 / 2] y 1] := by
    simp only [dataOf, cfgOf, million_conv]; rfl
  rw [hy]
  rcases fourOf_cases ![1 / 2, 1 / 10] ![1 / 100, 1 / 2] y with h | h | h | h <;> rw [h]
  · right
    norm_num [refPointASF_two, dataOf, cfgOf, million_conv, epsCfg, fourCfg, utopianOf]
  · left; norm_num
  · right
    norm_num [refPointASF_two, dataOf, cfgOf, million_conv, epsCfg, fourCfg, utopianOf]
  · right
    norm_num [refPointASF_two, dataOf, cfgOf, million_conv, epsCfg, fourCfg, utopianOf]

/-- **C128 fails** with the default `epsilon = 1e-6`, which is a number and not a share of the range, also if the
improvements are given directly: with the first objective measured in a unit that is a million times as large,
the same improvements lead to a different solution: `(0.5, 0.1)` instead of `(0.01, 0.5)`. -/
theorem C128_fails : (∀ j, epsCfg.ideal j < epsCfg.nadir j) ∧
    ∃ (w : Vec 2 ℝ) (hw : ∀ j, 0 < w j) (steps steps' : List (Nat × Resp ℝ × Oracle 2 1 ℝ)),
      SameUse (rescale w hw) epsCfg (dataOf (rescale w hw) epsCfg) (1 / 1000000) (1 / 1000000) unitSide steps steps' ∧
      (∀ p ∈ steps, Direct p.2.1) ∧
      (use (dataOf (rescale w hw) epsCfg) steps').map resNoDist ≠
        ((use epsCfg steps).map (resultOf (rescale w hw) id)).map resNoDist := by
  have hr : directResp (1 / 1000000) 1 = respOf million (directResp 1 1) := by
    simp [respOf, directResp, prefOf, infoOf, million, rescale, Nautilus.millionth]
  refine ⟨fun j => by fin_cases j <;> norm_num [epsCfg, fourCfg], Nautilus.millionth, Nautilus.millionth_pos,
    [(0, directResp 1 1, orcOf epsCfg unitSide (1 / 1000000) pick)],
    [(0, directResp (1 / 1000000) 1, orcOf (dataOf million epsCfg) unitSide (1 / 1000000) pick)],
    .cons ⟨rfl, hr, pick, pick_steady, orcOf_uses _ _ _ _, orcOf_uses _ _ _ _⟩ .nil,
    by simp [directResp, Direct], fun h1 => ?_⟩
  · change List.map resNoDist (use (dataOf million epsCfg) _) = List.map resNoDist (List.map (resultOf million id) _) at h1
    rw [use_one (directResp_valid (by norm_num) (by norm_num) _) rfl rfl rfl (directResp_factors _ _) eps_found_other,
      use_one (directResp_valid (by norm_num) (by norm_num) _) rfl rfl rfl (directResp_factors _ _) eps_found] at h1
    simp only [List.map_cons, List.map_nil, resultOf, resNoDist, Except.map, Option.map_some, reqOf, noDist,
      List.cons.injEq, Except.ok.injEq, Option.some.injEq, Req.nav.injEq] at h1
    have h2 := congrFun h1.1.1 1
    rw [million_conv] at h2
    norm_num at h2

/-- So the full claim is false of this problem. -/
theorem C128_fails_units : ¬ UnitsFree epsCfg (1 / 1000000) unitSide := by
  intro h
  obtain ⟨_, w, hw, steps, steps', h1, h2, h3⟩ := C128_fails
  exact h3 (h w hw steps steps' h1 fun p hp => (h2 p hp).1)

/-! ### The hypotheses are met -/

/-- Two iterations, with improvements given directly, by a pair, and relative to one objective, answered to
different requests. -/
noncomputable def mixedResps : List (Nat × Resp ℝ) :=
  [(0, { nIterations := some (.int 3), method := some 1, info := some (.arr [1, 2]) }),
   (0, { stepBack := some false, usePrevious := some false, method := some 2, info := some (.arr [3, 1]) }),
   (1, keepResp)]

/-- The same, with a pair. -/
noncomputable def mixedPairs : List (Nat × Resp ℝ) :=
  mixedResps ++ [(0, { stepBack := some false, usePrevious := some false, method := some 3, info := some (.pairs onePair) })]

/-- The responses with exact minimizers. -/
noncomputable def stepsOf (c : Cfg 2 1 ℝ) (e : ℝ) (l : List (Nat × Resp ℝ)) : List (Nat × Resp ℝ × Oracle 2 1 ℝ) :=
  l.map fun p => (p.1, p.2, orcOf c unitSide e pick)

/-- The responses presented anew with exact minimizers. -/
noncomputable def stepsOf' (u : Recast 2 ℝ) (c' : Cfg 2 1 ℝ) (e : ℝ) (l : List (Nat × Resp ℝ)) :
    List (Nat × Resp ℝ × Oracle 2 1 ℝ) := l.map fun p => (p.1, respOf u p.2, orcOf c' unitSide e pick)

example : use (dataOf swap2 epsCfg) (stepsOf' swap2 (dataOf swap2 epsCfg) (1 / 1000000) mixedResps) =
    (use epsCfg (stepsOf epsCfg (1 / 1000000) mixedResps)).map (resultOf swap2 id) :=
  C126_order_partial (Equiv.swap 0 1) (fun v => Verif.Navigator.euclid_perm _ v)
    (sameUse_exists _ _ _ _ _ unitSide mixedResps)
    (.inr (by simp [stepsOf, mixedResps, keepResp]))

example := C126_direction_partial (k := 1) (Equiv.swap 0 1) onePair_valid onePair_doi

example : use (dataOf (shift Nautilus.fourOrigin) epsCfg)
      (stepsOf' (shift Nautilus.fourOrigin) (dataOf (shift Nautilus.fourOrigin) epsCfg) (1 / 1000000) mixedPairs) =
    (use epsCfg (stepsOf epsCfg (1 / 1000000) mixedPairs)).map (resultOf (shift Nautilus.fourOrigin) id) :=
  C127_origins Nautilus.fourOrigin (sameUse_exists _ _ _ _ _ unitSide mixedPairs)

/-- Improvements given directly, twice. -/
noncomputable def directResps : List (Nat × Resp ℝ) :=
  [(0, { nIterations := some (.int 3), method := some 1, info := some (.arr [1, 2]) }), (0, keepResp), (1, keepResp)]

theorem directResps_direct (c : Cfg 2 1 ℝ) (e : ℝ) : ∀ p ∈ stepsOf c e directResps, Direct p.2.1 := by
  simp [stepsOf, directResps, Direct, keepResp]

example : (use (dataOf million epsCfg) (stepsOf' million (dataOf million epsCfg) 0 directResps)).map resNoDist =
    ((use epsCfg (stepsOf epsCfg 0 directResps)).map (resultOf million id)).map resNoDist :=
  C128_units_partial epsCfg unitSide Nautilus.millionth Nautilus.millionth_pos
    (sameUse_exists _ _ _ _ _ unitSide directResps) fun p hp => .inl (directResps_direct _ _ p hp)

example : use (dataOf (rescale (fun _ => 1000) fun _ => by norm_num) epsCfg)
      (stepsOf' (rescale (fun _ => 1000) fun _ => by norm_num) (dataOf (rescale (fun _ => 1000) fun _ => by norm_num)
        epsCfg) (1000 * (1 / 1000000)) directResps) =
    (use epsCfg (stepsOf epsCfg (1 / 1000000) directResps)).map
      (resultOf (rescale (fun _ => 1000) fun _ => by norm_num) id) :=
  C128_common_unit_partial euclid_spec 1000 (by norm_num) (sameUse_exists _ _ _ _ _ unitSide directResps)
    (directResps_direct _ _)

/-- The first response of `exG_first` with improvements a thousand times as large. -/
def exLong : Resp ℚ := { nIterations := some (.int 2), method := some 1, info := some (.arr [1, 1000]) }
def exLongS : St 2 1 ℚ := (answer exCfgG St.init .initial exLong exExactG).1
def exLongQ : Req 2 1 ℚ := getReq (answer exCfgG St.init .initial exLong exExactG).2
theorem exLong_first : answer exCfgG St.init .initial (longer 1000 exG1) exExactG = (exLongS, .ok (some exLongQ)) := by
  have h : longer 1000 exG1 = exLong := by simp [longer, exG1, exLong]
  rw [h]
  exact eq_of_beq (by decide +kernel)
theorem exLongQ_eq : exLongQ = .nav (exGZ exLongQ) (exGL exLongQ) (exGZ exLongQ) (exGD exLongQ) :=
  eq_of_beq (by decide +kernel)

example := C129_first_partial (t := 1) exExactG_exact exExactG_exact (by norm_num) (fun x _ => exG_ideal x)
  (fun x _ => exG_nadir x) (r := exG1) (N := .int 2) (d := ![1/1000, 1]) rfl rfl rfl (a := 1000) (by norm_num)
  (s := .init) (s' := .init) rfl rfl (exG_first.trans (by rw [exGQ1_eq])) (exLong_first.trans (by rw [exLongQ_eq]))
  (by decide +kernel)

end Verif.NautilusV2
