import Verif.Navigator.Recast
import Verif.Nautilus.Task

/-!
# NAUTILUS on the same problem presented differently

The objectives may be listed in another order, measured in other units and from other origins. This file
relates a whole use of the method on the converted problem to the original one; `Units.lean` states the
properties.
-/

namespace Verif.Nautilus

open Verif.Navigator (Recast)
open Verif.ENautilus (fdiv_common)

set_option linter.unusedSectionVars false

variable {K : Type} [Field K] [LinearOrder K] {k m : Nat}

/-! ### Specification -/

/-- Specification: a preference with (at least) one entry per objective, presented anew. Shorter lists,
which are refused, are unchanged. -/
def infoOf (u : Recast k K) (l : List K) : List K :=
  if k ≤ l.length then (List.ofFn fun j : Fin k => l[(u.perm j).val]?.getD 0) ++ l.drop k else l

/-- Specification: the same response, presented anew. Ranks and percentages have no unit. -/
def respOf (u : Recast k K) (r : Resp K) : Resp K := { r with info := r.info.map (infoOf u) }

/-- Specification: the same problem, presented anew, with the utopian point `utopian` and the norm `nrm`. -/
def cfgOf (u : Recast k K) (utopian : Vec k K) (nrm : Vec k K → K) (c : Cfg k m K) : Cfg k m K :=
  { ideal := u.conv c.ideal, nadir := u.conv c.nadir, utopian := utopian,
    evaluate := fun x => u.conv (c.evaluate x), nrm := nrm }

/-- Specification: the same request, presented anew; `δ` is applied to the distance. -/
def reqOf (u : Recast k K) (δ : Fl K → Fl K) : Req k m K → Req k m K
  | .initial => .initial
  | .nav z lo up d => .nav (u.conv z) (u.conv lo) (u.conv up) (δ d)
  | .stop x f => .stop x (f.map u.conv)

/-- Specification: the same result (a request, `None` or an exception), presented anew. -/
def resultOf (u : Recast k K) (δ : Fl K → Fl K) (o : Except Err (Option (Req k m K))) :
    Except Err (Option (Req k m K)) := o.map fun q => q.map (reqOf u δ)

/-- Specification: everything that `iterate` returns (or raises) when the responses are given in turn,
each to any of the requests issued so far (newest first; the number says which one, and a response to a
request that does not exist is skipped). -/
def replay (c : Cfg k m K) (s : St k m K) (reqs : List (Req k m K)) :
    List (Nat × Resp K × Oracle k m K) → List (Except Err (Option (Req k m K)))
  | [] => []
  | (i, r, orc) :: rest =>
    match reqs[i]? with
    | none => replay c s reqs rest
    | some req => (answer c s req r orc).2 ::
        replay c (answer c s req r orc).1 (extend (answer c s req r orc).2 reqs) rest

/-- Specification: a whole use of the method, from the initial request on. -/
def use (c : Cfg k m K) (steps : List (Nat × Resp K × Oracle k m K)) :
    List (Except Err (Option (Req k m K))) := replay c .init [.initial] steps

/-- Specification: a minimizer whose choice depends only on the problem it is given, not on how its values
are measured: for a problem with the same admitted vectors and values that are `a * v + b` of the former
ones (`a > 0`), it returns the same vector. -/
def Steady (solver : Task m K → Vec m K) : Prop :=
  ∀ t t' : Task m K, ∀ a b : K, 0 < a → (∀ x, t'.admits x ↔ t.admits x) →
    (∀ x, t'.value x = (t.value x).map fun v => a * v + b) → solver t' = solver t

/-- Specification: in one call of `iterate` the minimizers are `solver`. If a weight is not a finite
number, anything may be returned. -/
structure Uses (c : Cfg (k + 1) m K) (P : Side m K) (solver : Task m K → Vec m K)
    (orc : Oracle (k + 1) m K) : Prop where
  asf : ∀ w mu q, AreNums w mu → orc.asf w q = solver (asfTask c P w q)
  eps : ∀ i z, orc.eps i z = solver (epsTask c P i z)

/-- Specification: no rank or percentage of an objective is zero. -/
def NonzeroPref (k : Nat) (r : Resp K) : Prop :=
  ∀ l, r.info = some l → ∀ i < k, ∀ x, l[i]? = some x → x ≠ 0

/-- Specification: the same response to the same request, in the two presentations, with the same steady
minimizer. -/
def SameStep (u : Recast (k + 1) K) (c c' : Cfg (k + 1) m K) (P : Side m K)
    (p p' : Nat × Resp K × Oracle (k + 1) m K) : Prop :=
  p'.1 = p.1 ∧ p'.2.1 = respOf u p.2.1 ∧ NonzeroPref (k + 1) p.2.1 ∧
    ∃ solver, Steady solver ∧ Uses c P solver p.2.2 ∧ Uses c' P solver p'.2.2

/-! ### The state -/

/-- The same state, presented anew. -/
def stOf (u : Recast k K) (s : St k m K) : St k m K :=
  { s with zs := s.zs.map (Option.map u.conv), fs := s.fs.map (Option.map u.conv) }

/-- From states satisfying `I`, the second body does on presented states what the first does on the
original ones, and `I` still holds. -/
def Comm {σ α β : Type} (I : σ → Prop) (φ : σ → σ) (g : α → β) (x : Exec σ α) (x' : Exec σ β) : Prop :=
  ∀ s, I s → x' (φ s) = (φ (x s).1, (x s).2.map g) ∧ I (x s).1

section
variable {σ α β γ δ : Type} {I : σ → Prop} {φ : σ → σ}

theorem Comm.bind {g : α → β} {h : γ → δ} {x : Exec σ α} {x' : Exec σ β} {f : α → Exec σ γ}
    {f' : β → Exec σ δ} (hx : Comm I φ g x x') (hf : ∀ a, Comm I φ h (f a) (f' (g a))) :
    Comm I φ h (x >>= f) (x' >>= f') := by
  intro s hs
  have e' : (x' >>= f') (φ s) = Exec.bind x' f' (φ s) := rfl
  have e : (x >>= f) s = Exec.bind x f s := rfl
  rw [e, e']
  unfold Exec.bind
  obtain ⟨h1, h2⟩ := hx s hs
  rw [h1]
  revert h2
  rcases x s with ⟨s1, _ | a⟩
  · exact fun h2 => ⟨rfl, h2⟩
  · exact fun h2 => hf a s1 h2

theorem Comm.get {h : γ → δ} {f : σ → Exec σ γ} {f' : σ → Exec σ δ}
    (hf : ∀ s, I s → f' (φ s) (φ s) = (φ (f s s).1, (f s s).2.map h) ∧ I (f s s).1) :
    Comm I φ h (Exec.get >>= f) (Exec.get >>= f') := fun s hs => hf s hs

theorem Comm.lift {g : α → β} {x : Except Err α} {x' : Except Err β} (h : x' = x.map g) :
    Comm I φ g (Exec.lift x : Exec σ α) (Exec.lift x') := fun s hs => by subst h; exact ⟨rfl, hs⟩

theorem Comm.pure {g : α → β} {a : α} {b : β} (h : b = g a) :
    Comm I φ g (pure a : Exec σ α) (pure b : Exec σ β) := fun s hs => by subst h; exact ⟨rfl, hs⟩

theorem Comm.raise {g : α → β} (e : Err) : Comm I φ g (Exec.raise e : Exec σ α) (Exec.raise e) :=
  fun _ hs => ⟨rfl, hs⟩

end

/-- There are iterations left. -/
def HasLeft (s : St k m K) : Prop := s.left ≠ 0

variable [IsStrictOrderedRing K]

/-! ### Storage -/

theorem slotSet_map {α β : Type} (f : α → β) (l : List (Option α)) (i : Nat) (v : Option α) :
    slotSet (l.map (Option.map f)) i (v.map f) = (slotSet l i v).map (List.map (Option.map f)) := by
  unfold slotSet
  simp only [List.length_map]
  split
  · simp [Except.map, List.map_set]
  · rfl

theorem slotGet_map {α β : Type} (f : α → β) (l : List (Option α)) (i : Nat) :
    slotGet (l.map (Option.map f)) i = (slotGet l i).map f := by
  unfold slotGet
  rw [List.getElem?_map]
  rcases l[i]? with _ | _ | a <;> rfl

theorem slotRead_map {α β : Type} (f : α → β) (l : List (Option α)) (i : Nat) :
    slotRead (l.map (Option.map f)) i = (slotRead l i).map (Option.map f) := by
  unfold slotRead
  rw [List.getElem?_map]
  rcases l[i]? with _ | a <;> rfl

section
variable (u : Recast k K)

theorem comm_setZ (i : Nat) (v : Vec k K) :
    Comm HasLeft (stOf u) id (setZ (m := m) i v) (setZ i (u.conv v)) := by
  intro s hs
  unfold setZ
  have h := slotSet_map u.conv s.zs i (some v)
  simp only [Option.map_some] at h
  rw [show (stOf u s).zs = s.zs.map (Option.map u.conv) from rfl, h]
  cases slotSet s.zs i (some v) <;> exact ⟨rfl, hs⟩

theorem comm_setX (i : Nat) (v : Option (Vec m K)) :
    Comm HasLeft (stOf (m := m) u) id (setX i v) (setX i v) := by
  intro s hs
  unfold setX
  rw [show (stOf u s).xs = s.xs from rfl]
  cases slotSet s.xs i v <;> exact ⟨rfl, hs⟩

theorem comm_setF (i : Nat) (v : Option (Vec k K)) :
    Comm HasLeft (stOf u) id (setF (m := m) i v) (setF i (v.map u.conv)) := by
  intro s hs
  unfold setF
  have h := slotSet_map u.conv s.fs i v
  rw [show (stOf u s).fs = s.fs.map (Option.map u.conv) from rfl, h]
  cases slotSet s.fs i v <;> exact ⟨rfl, hs⟩

theorem comm_getZ (i : Nat) : Comm HasLeft (stOf (m := m) u) u.conv (getZ i) (getZ i) := by
  intro s hs
  unfold getZ
  rw [show (stOf u s).zs = s.zs.map (Option.map u.conv) from rfl, slotGet_map]
  exact ⟨rfl, hs⟩

theorem comm_getF (i : Nat) : Comm HasLeft (stOf (m := m) u) u.conv (getF i) (getF i) := by
  intro s hs
  unfold getF
  rw [show (stOf u s).fs = s.fs.map (Option.map u.conv) from rfl, slotGet_map]
  exact ⟨rfl, hs⟩

theorem comm_readX (i : Nat) : Comm HasLeft (stOf (m := m) u) id (readX i) (readX i) := by
  intro s hs
  unfold readX
  rw [show (stOf u s).xs = s.xs from rfl]
  cases slotRead s.xs i <;> exact ⟨rfl, hs⟩

theorem comm_readF (i : Nat) : Comm HasLeft (stOf (m := m) u) (Option.map u.conv) (readF i) (readF i) := by
  intro s hs
  unfold readF
  rw [show (stOf u s).fs = s.fs.map (Option.map u.conv) from rfl, slotRead_map]
  exact ⟨rfl, hs⟩

end

/-! ### Preferences -/

theorem infoOf_length (u : Recast k K) (l : List K) : (infoOf u l).length = l.length := by
  unfold infoOf
  split
  · rw [List.length_append, List.length_ofFn, List.length_drop]; omega
  · rfl

theorem infoOf_perm (u : Recast k K) (l : List K) : (infoOf u l).Perm l := by
  unfold infoOf
  split
  · rename_i h
    have e : l = (List.ofFn fun j : Fin k => l[j.val]?.getD 0) ++ l.drop k := by
      conv_lhs => rw [← List.take_append_drop k l]
      congr 1
      apply List.ext_getElem
      · simp [h]
      · intro i h1 h2
        simp only [List.length_ofFn] at h2
        have : i < l.length := by omega
        simp [this]
    conv_rhs => rw [e]
    exact List.Perm.append_right _
      (Equiv.Perm.ofFn_comp_perm u.perm fun j : Fin k => l[j.val]?.getD 0)
  · exact List.Perm.refl l

theorem infoOf_get (u : Recast k K) {l : List K} (h : k ≤ l.length) (j : Fin k) :
    ((infoOf u l)[j.val]?).getD 0 = (l[(u.perm j).val]?).getD 0 := by
  unfold infoOf
  rw [if_pos h, List.getElem?_append_left (by simp)]
  simp

theorem npMax_perm {l l' : List K} (h : l'.Perm l) : npMax l' = npMax l := by
  cases hl : npMax l with
  | error e =>
    obtain ⟨rfl, rfl⟩ := (npMax_error_iff _ _).1 hl
    rw [List.perm_nil.1 h]; rfl
  | ok mx =>
    rw [npMax_ok_iff] at hl ⊢
    exact ⟨h.mem_iff.2 hl.1, fun x hx => hl.2 x (h.mem_iff.1 hx)⟩

theorem validatePreferences_recast (u : Recast k K) (r : Resp K) :
    validatePreferences k (respOf u r) = validatePreferences k r := by
  unfold validatePreferences respOf
  cases r.method with
  | none => rfl
  | some meth =>
    cases r.info with
    | none => rfl
    | some l =>
      simp only [Option.map_some, infoOf_length, pyMax, npMax_perm (infoOf_perm u l),
        (infoOf_perm u l).sum_eq]

/-- How the preferential factors are presented anew. -/
def weightOf (u : Recast k K) (w : Fin k → Fl K) : Fin k → Fl K :=
  fun j => (w (u.perm j)).scalePos (u.scale j)⁻¹

theorem rankFactor_recast (u : Recast k K) (j : Fin k) (r n p : K) :
    rankFactor r (u.scale j * n + u.origin j) (u.scale j * p + u.origin j) =
      (rankFactor r n p).scalePos (u.scale j)⁻¹ := by
  have hs := u.pos j
  unfold rankFactor fdiv
  have e : r * (u.scale j * n + u.origin j - (u.scale j * p + u.origin j)) =
      u.scale j * (r * (n - p)) := by ring
  rw [e]
  by_cases h : r * (n - p) = 0
  · simp [h, Fl.scalePos]
  · rw [if_neg (by simp [hs.ne', h]), if_neg h]
    simp only [Fl.scalePos]
    congr 1
    rw [one_div, mul_inv, one_div, mul_comm]

theorem factors_recast (u : Recast k K) (c : Cfg k m K) (nrm : Vec k K → K) (meth : Int) {info : List K}
    (h : k ≤ info.length) (a : Bool) :
    factors (cfgOf u (u.conv c.utopian) nrm c) meth (infoOf u info) a =
      (factors c meth info a).map (weightOf u) := by
  unfold factors
  split
  · simp only [Except.map]
    congr 1
    funext j
    rw [infoOf_get u h]
    exact rankFactor_recast u j _ _ _
  · split
    · simp only [Except.map]
      congr 1
      funext j
      rw [infoOf_get u h]
      exact rankFactor_recast u j _ _ _
    · rfl

/-! ### What the minimizers are asked -/

theorem vmax_perm (σ : Equiv.Perm (Fin (k + 1))) (v : Vec (k + 1) K) :
    vmax (fun j => v (σ j)) = vmax v := by
  apply le_antisymm
  · rw [vmax_le_iff]; exact fun j => le_vmax v _
  · rw [vmax_le_iff]
    intro j
    have := le_vmax (fun j => v (σ j)) (σ.symm j)
    simpa using this

theorem refPointASF_recast (u : Recast (k + 1) K) (mu nadir utopian : Vec (k + 1) K) (rho : K)
    (q f : Vec (k + 1) K) :
    refPointASF (fun j => mu (u.perm j) * (u.scale j)⁻¹) (u.conv nadir) (u.conv utopian) rho (u.conv q)
      (u.conv f) = refPointASF mu nadir utopian rho q f := by
  have hs : ∀ j, u.scale j ≠ 0 := fun j => (u.pos j).ne'
  unfold refPointASF
  have e1 : ∀ j, mu (u.perm j) * (u.scale j)⁻¹ * (u.conv f j - u.conv q j) =
      mu (u.perm j) * (f (u.perm j) - q (u.perm j)) := by
    intro j
    have := hs j
    unfold Recast.conv
    field_simp
    ring
  have e2 : ∀ j, (u.conv f j - u.conv q j) / (u.conv nadir j - u.conv utopian j) =
      (f (u.perm j) - q (u.perm j)) / (nadir (u.perm j) - utopian (u.perm j)) := by
    intro j
    unfold Recast.conv
    rw [add_sub_add_right_eq_sub, add_sub_add_right_eq_sub, ← mul_sub, ← mul_sub,
      mul_div_mul_left _ _ (hs j)]
  simp only [e1, e2]
  rw [vmax_perm u.perm fun j => mu j * (f j - q j),
    Equiv.sum_comp u.perm fun j => (f j - q j) / (nadir j - utopian j)]

theorem AreNums.weightOf (u : Recast k K) {w : Fin k → Fl K} {mu : Vec k K} (h : AreNums w mu) :
    AreNums (weightOf u w) fun j => mu (u.perm j) * (u.scale j)⁻¹ := by
  intro j
  unfold Nautilus.weightOf
  rw [h]
  rfl

theorem asfTask_value {c : Cfg (k + 1) m K} {P : Side m K} {w : Fin (k + 1) → Fl K} {mu : Vec (k + 1) K}
    (h : AreNums w mu) (q : Vec (k + 1) K) (x : Vec m K) :
    (asfTask c P w q).value x =
      some (refPointASF mu c.nadir c.utopian (1 / 1000000) q (c.evaluate x)) := by
  have hex : ∃ mu, AreNums w mu := ⟨mu, h⟩
  simp only [asfTask]
  rw [dif_pos hex, hex.choose_spec.unique h]

/-- What the minimizers of the two presentations have in common. -/
structure SameOrc (u : Recast k K) (orc orc' : Oracle k m K) (W : (Fin k → Fl K) → Prop) : Prop where
  asf : ∀ w q, W w → orc'.asf (weightOf u w) (u.conv q) = orc.asf w q
  eps : ∀ i z, orc'.eps i (u.conv z) = orc.eps (u.perm i) z

theorem Uses.same {u : Recast (k + 1) K} {c : Cfg (k + 1) m K} {P : Side m K} {nrm : Vec (k + 1) K → K}
    {solver : Task m K → Vec m K} {orc orc' : Oracle (k + 1) m K} (hs : Steady solver)
    (h : Uses c P solver orc) (h' : Uses (cfgOf u (u.conv c.utopian) nrm c) P solver orc') :
    SameOrc u orc orc' fun w => ∃ mu, AreNums w mu where
  asf := by
    rintro w q ⟨mu, hw⟩
    rw [h.asf w mu q hw, h'.asf _ _ _ (hw.weightOf u)]
    refine hs _ _ 1 0 one_pos (fun x => Iff.rfl) fun x => ?_
    rw [asfTask_value hw, asfTask_value (hw.weightOf u)]
    simp only [Option.map_some, one_mul, add_zero]
    congr 1
    exact refPointASF_recast u mu c.nadir c.utopian _ q (c.evaluate x)
  eps := by
    intro i z
    rw [h.eps, h'.eps]
    refine hs _ _ (u.scale i) (u.origin i) (u.pos i) (fun x => ?_) fun x => rfl
    simp only [epsTask, cfgOf, Recast.conv, u.le_iff]
    refine and_congr_right fun _ => and_congr_right fun _ => ?_
    rw [← u.perm.forall_congr_right (q := fun j => j ≠ u.perm i → c.evaluate x j ≤ z j)]
    simp

/-! ### The handlers -/

theorem iterationPoint_recast (u : Recast k K) (t : Int) (z f : Vec k K) (ht : (t : K) ≠ 0) :
    iterationPoint t (u.conv z) (u.conv f) = u.conv (iterationPoint t z f) := by
  funext j
  simp only [iterationPoint, Recast.conv]
  field_simp
  ring

theorem distance_eq {u : Recast k K} {c : Cfg k m K} {nrm : Vec k K → K} {δ : Fl K → Fl K}
    (hd : ∀ z f, distance (cfgOf u (u.conv c.utopian) nrm c) (u.conv z) (u.conv f) = δ (distance c z f))
    (orc orc' : Oracle k m K) (W : (Fin k → Fl K) → Prop) (ho : SameOrc u orc orc' W) (z f : Vec k K) :
    Req.nav (m := m) (u.conv z) (bounds (cfgOf u (u.conv c.utopian) nrm c) orc' (u.conv z)) (u.conv z)
        (distance (cfgOf u (u.conv c.utopian) nrm c) (u.conv z) (u.conv f)) =
      reqOf u δ (.nav z (bounds c orc z) z (distance c z f)) := by
  rw [hd]
  simp only [reqOf, Req.nav.injEq, true_and, and_true]
  funext i
  simp only [bounds, ho.eps, cfgOf, Recast.conv]

section
variable {u : Recast k K} {c : Cfg k m K} {nrm : Vec k K → K} {δ : Fl K → Fl K} {orc orc' : Oracle k m K}
  {W : (Fin k → Fl K) → Prop}

theorem comm_solveNew (ho : SameOrc u orc orc' W) (meth : Int) {info : List K} (hl : k ≤ info.length)
    (a : Bool) (hW : ∀ w, factors c meth info a = .ok w → W w) :
    Comm HasLeft (stOf u) id (solveNew c orc meth info a)
      (solveNew (cfgOf u (u.conv c.utopian) nrm c) orc' meth (infoOf u info) a) := by
  unfold solveNew
  rw [factors_recast u c nrm meth hl a]
  cases hw : factors c meth info a with
  | error e => exact fun s hs => ⟨rfl, hs⟩
  | ok w =>
    show Comm HasLeft (stOf u) id (Exec.get >>= _) (Exec.get >>= _)
    refine Comm.get fun s hs => ?_
    refine Comm.bind (g := u.conv) (comm_getZ u _) (fun q => ?_) s hs
    rw [ho.asf w q (hW w hw)]
    exact Comm.bind (comm_setX u _ _) fun _ => comm_setF u _ (some (c.evaluate (orc.asf w q)))

variable (hd : ∀ z f, distance (cfgOf u (u.conv c.utopian) nrm c) (u.conv z) (u.conv f) = δ (distance c z f))
include hd

theorem comm_movePoint (ho : SameOrc u orc orc' W) :
    Comm HasLeft (stOf u) (Option.map (reqOf u δ)) (movePoint c orc)
      (movePoint (cfgOf u (u.conv c.utopian) nrm c) orc') := by
  unfold movePoint
  refine Comm.get fun s hs => ?_
  refine Comm.bind (g := u.conv) (comm_getZ u _) (fun z => ?_) s hs
  refine Comm.bind (g := u.conv) (comm_getF u _) fun f => ?_
  have e : (stOf u s).left = s.left := rfl
  rw [e, iterationPoint_recast u s.left z f (Int.cast_ne_zero.2 hs)]
  refine Comm.bind (g := id) (comm_setZ u _ _) fun _ => Comm.pure ?_
  rw [distance_eq hd orc orc' W ho]
  rfl

theorem comm_new (ho : SameOrc u orc orc' W) (meth : Int) {info : List K} (hl : k ≤ info.length)
    (a : Bool) (hW : ∀ w, factors c meth info a = .ok w → W w) :
    Comm HasLeft (stOf u) (Option.map (reqOf u δ))
      (solveNew c orc meth info a >>= fun _ => movePoint c orc)
      (solveNew (cfgOf u (u.conv c.utopian) nrm c) orc' meth (infoOf u info) a >>=
        fun _ => movePoint (cfgOf u (u.conv c.utopian) nrm c) orc') :=
  Comm.bind (comm_solveNew ho meth hl a hW) fun _ => comm_movePoint hd ho

theorem comm_shortStep (ho : SameOrc u orc orc' W) :
    Comm HasLeft (stOf u) (Option.map (reqOf u δ)) (shortStep c orc)
      (shortStep (cfgOf u (u.conv c.utopian) nrm c) orc') := by
  unfold shortStep
  refine Comm.get fun s hs => ?_
  refine Comm.bind (g := u.conv) (comm_getZ u _) (fun z0 => ?_) s hs
  refine Comm.bind (g := u.conv) (comm_getZ u _) fun z => ?_
  have e : (fun j => 1 / 2 * u.conv z0 j + 1 / 2 * u.conv z j) =
      u.conv fun j => 1 / 2 * z0 j + 1 / 2 * z j := by
    funext j; simp only [Recast.conv]; ring
  simp only [e]
  refine Comm.bind (g := id) (comm_setZ u _ _) fun _ => ?_
  refine Comm.bind (g := u.conv) (comm_getF u _) fun f => Comm.pure ?_
  rw [distance_eq hd orc orc' W ho]
  rfl

theorem comm_goBack (ho : SameOrc u orc orc' W) {r : Resp K}
    (hl : r.usePrevious = some false → ∀ l, r.info = some l → k ≤ l.length)
    (hW : r.usePrevious = some false → ∀ meth info w, r.info = some info →
      factors c meth info r.isArray = .ok w → W w) :
    Comm HasLeft (stOf u) (Option.map (reqOf u δ)) (goBack c r orc)
      (goBack (cfgOf u (u.conv c.utopian) nrm c) (respOf u r) orc') := by
  unfold goBack
  have e1 : (respOf u r).shortStep = r.shortStep := rfl
  have e2 : (respOf u r).usePrevious = r.usePrevious := rfl
  have e3 : (respOf u r).method = r.method := rfl
  have e4 : (respOf u r).info = r.info.map (infoOf u) := rfl
  have e5 : (respOf u r).isArray = r.isArray := rfl
  rw [e1, e2, e3, e4, e5]
  cases h1 : r.shortStep with
  | none => exact Comm.raise _
  | some b =>
    cases b with
    | true => exact comm_shortStep hd ho
    | false =>
      cases h2 : r.usePrevious with
      | none => exact Comm.raise _
      | some b =>
        cases b with
        | true => exact Comm.pure rfl
        | false =>
          cases h3 : r.method with
          | none => exact Comm.raise _
          | some meth =>
            cases h4 : r.info with
            | none => exact Comm.raise _
            | some info => exact comm_new hd ho meth (hl h2 _ h4) _ fun w => hW h2 _ _ w h4

theorem forward_recast (ho : SameOrc u orc orc' W) {r : Resp K}
    (hl : r.usePrevious = some false → ∀ l, r.info = some l → k ≤ l.length)
    (hW : r.usePrevious = some false → ∀ meth info w, r.info = some info →
      factors c meth info r.isArray = .ok w → W w)
    (s : St k m K) (hs : s.left ≠ 1) :
    forward (cfgOf u (u.conv c.utopian) nrm c) (respOf u r) orc' (stOf u s) =
      (stOf u (forward c r orc s).1, (forward c r orc s).2.map (Option.map (reqOf u δ))) := by
  unfold forward
  have e2 : (respOf u r).usePrevious = r.usePrevious := rfl
  have e3 : (respOf u r).method = r.method := rfl
  have e4 : (respOf u r).info = r.info.map (infoOf u) := rfl
  have e5 : (respOf u r).isArray = r.isArray := rfl
  rw [e2, e3, e4, e5]
  have hs1 : HasLeft { s with left := s.left - 1, step := s.step + 1 } := by
    show s.left - 1 ≠ 0
    omega
  have hgen : ∀ {x x' : Exec (St k m K) (Option (Req k m K))},
      Comm HasLeft (stOf u) (Option.map (reqOf u δ)) x x' →
      (Exec.modify (fun s : St k m K => { s with left := s.left - 1, step := s.step + 1 }) >>= fun _ => x')
        (stOf u s) =
      (stOf u ((Exec.modify (fun s : St k m K => { s with left := s.left - 1, step := s.step + 1 }) >>=
          fun _ => x) s).1,
        ((Exec.modify (fun s : St k m K => { s with left := s.left - 1, step := s.step + 1 }) >>=
          fun _ => x) s).2.map (Option.map (reqOf u δ))) := fun h => (h _ hs1).1
  cases h2 : r.usePrevious with
  | none => exact hgen (Comm.raise _)
  | some b =>
    cases b with
    | true =>
      refine hgen ?_
      refine Comm.get fun s hs => ?_
      refine Comm.bind (g := id) (comm_readX u _) (fun x => ?_) s hs
      refine Comm.bind (g := id) (comm_setX u _ _) fun _ => ?_
      refine Comm.bind (g := Option.map u.conv) (comm_readF u _) fun f => ?_
      exact Comm.bind (g := id) (comm_setF u _ _) fun _ => comm_movePoint hd ho
    | false =>
      cases h3 : r.method with
      | none => exact hgen (Comm.raise _)
      | some meth =>
        cases h4 : r.info with
        | none => exact hgen (Comm.raise _)
        | some info => exact hgen (comm_new hd ho meth (hl h2 _ h4) _ fun w => hW h2 _ _ w h4)

theorem handleInitial_recast (ho : SameOrc u orc orc' W) {r : Resp K}
    (hn : ∀ v, r.nIterations = some v → 1 ≤ v.asInt)
    (hl : ∀ l, r.info = some l → k ≤ l.length)
    (hW : ∀ meth info w, r.info = some info → factors c meth info r.isArray = .ok w → W w)
    (s : St k m K) :
    handleInitial (cfgOf u (u.conv c.utopian) nrm c) (respOf u r) orc' (stOf u s) =
      (stOf u (handleInitial c r orc s).1,
        (handleInitial c r orc s).2.map (Option.map (reqOf u δ))) := by
  unfold handleInitial
  have e2 : (respOf u r).nIterations = r.nIterations := rfl
  have e3 : (respOf u r).method = r.method := rfl
  have e4 : (respOf u r).info = r.info.map (infoOf u) := rfl
  have e5 : (respOf u r).isArray = r.isArray := rfl
  rw [e2, e3, e4, e5]
  cases h2 : r.nIterations with
  | none => rfl
  | some n =>
    cases h3 : r.method with
    | none => rfl
    | some meth =>
      cases h4 : r.info with
      | none => rfl
      | some info =>
        simp only [Option.map_some, Exec.modify_bind, Exec.get_bind]
        have hs1 : HasLeft (⟨s.step, n.asInt, n.asInt, slots (Vec k K) (n.asInt + 2).toNat,
            slots (Vec m K) (n.asInt + 2).toNat, slots (Vec k K) (n.asInt + 2).toNat⟩ : St k m K) := by
          show n.asInt ≠ 0
          have := hn n h2
          omega
        have hn1 := comm_new hd ho meth (hl _ h4) r.isArray fun w => hW _ _ w h4
        have hc := Comm.bind (f := fun _ => _) (f' := fun _ => _)
          (comm_setZ u (m := m) (s.step - 1) c.nadir) fun _ => hn1
        have := (hc _ hs1).1
        have e6 : stOf u (⟨s.step, n.asInt, n.asInt, slots (Vec k K) (n.asInt + 2).toNat,
            slots (Vec m K) (n.asInt + 2).toNat, slots (Vec k K) (n.asInt + 2).toNat⟩ : St k m K) =
            (⟨s.step, n.asInt, n.asInt, slots (Vec k K) (n.asInt + 2).toNat,
            slots (Vec m K) (n.asInt + 2).toNat, slots (Vec k K) (n.asInt + 2).toNat⟩ : St k m K) := by
          simp [stOf, slots]
        rw [e6] at this
        exact this

theorem handleNav_recast (ho : SameOrc u orc orc' W) {r : Resp K}
    (hl : r.usePrevious = some false → ∀ l, r.info = some l → k ≤ l.length)
    (hW : r.usePrevious = some false → ∀ meth info w, r.info = some info →
      factors c meth info r.isArray = .ok w → W w)
    (s : St k m K) :
    handleNav (cfgOf u (u.conv c.utopian) nrm c) (respOf u r) orc' (stOf u s) =
      (stOf u (handleNav c r orc s).1, (handleNav c r orc s).2.map (Option.map (reqOf u δ))) := by
  unfold handleNav
  have e1 : (respOf u r).stepBack = r.stepBack := rfl
  have e2 : (respOf u r).nIterations = r.nIterations := rfl
  rw [e1, e2]
  simp only [Exec.modify_bind, Exec.get_bind]
  have e3 : changeN (stOf u s) r.nIterations = stOf u (changeN s r.nIterations) := by
    unfold changeN
    cases r.nIterations with
    | none => rfl
    | some v => simp [stOf, slots]
  rw [e3]
  generalize changeN s r.nIterations = s1
  have e4 : (stOf u s1).left = s1.left := rfl
  rw [e4]
  by_cases h : s1.left ≤ 1
  · rw [if_pos h, if_pos h]
    simp only [Exec.modify_bind]
    have h1 : Comm (fun _ => True) (stOf u) (Option.map (reqOf u δ))
        (readX s1.step >>= fun x => readF s1.step >>= fun f => (pure (some (.stop x f)) :
          Exec (St k m K) (Option (Req k m K))))
        (readX s1.step >>= fun x => readF s1.step >>= fun f => (pure (some (.stop x f)) :
          Exec (St k m K) (Option (Req k m K)))) := by
      refine Comm.bind (g := id) (fun s _ => ⟨?_, trivial⟩) fun x =>
        Comm.bind (g := Option.map u.conv) (fun s _ => ⟨?_, trivial⟩) fun f => Comm.pure rfl
      · unfold readX
        rw [show (stOf u s).xs = s.xs from rfl]
        cases slotRead s.xs s1.step <;> rfl
      · unfold readF
        rw [show (stOf u s).fs = s.fs.map (Option.map u.conv) from rfl, slotRead_map]
    exact (h1 { s1 with left := 0 } trivial).1
  · rw [if_neg h, if_neg h]
    cases r.stepBack with
    | none => rfl
    | some b =>
      cases b with
      | false => exact forward_recast hd ho hl hW s1 (by omega)
      | true => exact (comm_goBack hd ho hl hW s1 (by show s1.left ≠ 0; omega)).1

theorem answer_recast (ho : SameOrc u orc orc' W) {r : Resp K}
    (hW : ∀ meth info w, r.info = some info → k ≤ info.length →
      factors c meth info r.isArray = .ok w → W w)
    (s : St k m K) (req : Req k m K) :
    answer (cfgOf u (u.conv c.utopian) nrm c) (stOf u s) (reqOf u δ req) (respOf u r) orc' =
      (stOf u (answer c s req r orc).1, resultOf u δ (answer c s req r orc).2) := by
  have hv : validate (cfgOf u (u.conv c.utopian) nrm c) (reqOf u δ req) (respOf u r) =
      validate c req r := by
    cases req with
    | initial =>
      simp only [validate, reqOf, validateInitial, validatePreferences_recast]
      rfl
    | stop => rfl
    | nav z lo up d =>
      simp only [validate, reqOf, validateNav, validatePreferences_recast]
      have e : (∀ j, u.conv z j = (cfgOf u (u.conv c.utopian) nrm c).nadir j) ↔ ∀ j, z j = c.nadir j := by
        simp only [cfgOf, Recast.conv, add_left_inj, mul_right_inj' (u.pos _).ne']
        exact u.perm.forall_congr_right (q := fun j => z j = c.nadir j)
      simp only [e]
      rfl
  unfold answer
  rw [hv]
  cases hval : validate c req r with
  | error e => rfl
  | ok a =>
    simp only
    cases req with
    | initial =>
      obtain ⟨v, hn, _, hv1, _, _, hp⟩ := validateInitial_ok hval
      obtain ⟨_, info, _, hi, hlen, _⟩ := validatePreferences_ok hp
      have hlen' : ∀ l, r.info = some l → k ≤ l.length := by
        intro l hl
        rw [hi] at hl
        cases hl
        exact hlen
      refine handleInitial_recast hd ho ?_ hlen' (fun _ info w h => hW _ _ w h (hlen' _ h)) s
      intro v' hv'
      rw [hn] at hv'
      cases hv'
      exact hv1
    | stop => rfl
    | nav z lo up d =>
      obtain ⟨back, prev, hb, hp, _, hpref, _⟩ := validateNav_ok hval
      have hlen : r.usePrevious = some false → ∀ l, r.info = some l → k ≤ l.length := by
        intro h l hl
        rw [hp] at h
        cases h
        obtain ⟨_, info, _, hi, hlen, _⟩ := validatePreferences_ok (hpref rfl)
        rw [hi] at hl
        cases hl
        exact hlen
      exact handleNav_recast hd ho hlen (fun hpf _ info w h => hW _ _ w h (hlen hpf _ h)) s

end

/-! ### A whole use -/

theorem factors_nums {c : Cfg k m K} (hR : ∀ j, c.nadir j ≠ c.utopian j) {r : Resp K}
    (hr : NonzeroPref k r) {meth : Int} {info : List K} (hi : r.info = some info) (hl : k ≤ info.length)
    {a : Bool} {w : Fin k → Fl K} (h : factors c meth info a = .ok w) : ∃ mu, AreNums w mu := by
  have hx : ∀ i : Fin k, (info[i.val]?).getD 0 ≠ 0 := by
    intro i
    have : i.val < info.length := by omega
    refine hr info hi i.val i.isLt _ ?_
    simp [this]
  have hd : ∀ i, c.nadir i - c.utopian i ≠ 0 := fun i => sub_ne_zero.2 (hR i)
  unfold factors at h
  split at h
  · cases h
    refine ⟨fun i => 1 / ((info[i.val]?).getD 0 * (c.nadir i - c.utopian i)), fun i => ?_⟩
    unfold rankFactor fdiv
    exact if_neg (mul_ne_zero (hx i) (hd i))
  · split at h
    · cases h
      refine ⟨fun i => 1 / ((info[i.val]?).getD 0 / 100 * (c.nadir i - c.utopian i)), fun i => ?_⟩
      unfold rankFactor fdiv
      exact if_neg (mul_ne_zero (div_ne_zero (hx i) (by norm_num)) (hd i))
    · cases h

theorem extend_recast (u : Recast k K) (δ : Fl K → Fl K) (o : Except Err (Option (Req k m K)))
    (reqs : List (Req k m K)) :
    extend (resultOf u δ o) (reqs.map (reqOf u δ)) = (extend o reqs).map (reqOf u δ) := by
  rcases o with e | _ | q <;> rfl

theorem replay_recast {u : Recast (k + 1) K} {c : Cfg (k + 1) m K} {P : Side m K}
    {nrm : Vec (k + 1) K → K} {δ : Fl K → Fl K} (hR : ∀ j, c.nadir j ≠ c.utopian j)
    (hd : ∀ z f, distance (cfgOf u (u.conv c.utopian) nrm c) (u.conv z) (u.conv f) = δ (distance c z f))
    {steps steps' : List (Nat × Resp K × Oracle (k + 1) m K)}
    (h : List.Forall₂ (SameStep u c (cfgOf u (u.conv c.utopian) nrm c) P) steps steps')
    (s : St (k + 1) m K) (reqs : List (Req (k + 1) m K)) :
    replay (cfgOf u (u.conv c.utopian) nrm c) (stOf u s) (reqs.map (reqOf u δ)) steps' =
      (replay c s reqs steps).map (resultOf u δ) := by
  induction h generalizing s reqs with
  | nil => rfl
  | @cons p p' l l' hp _ ih =>
    obtain ⟨i, r, orc⟩ := p
    obtain ⟨i', r', orc'⟩ := p'
    obtain ⟨e1, e2, hr, solver, hs, h1, h2⟩ := hp
    simp only at e1 e2 hr h1 h2
    subst e1 e2
    unfold replay
    simp only [List.getElem?_map]
    cases reqs[i']? with
    | none => exact ih s reqs
    | some req =>
      simp only [Option.map_some, List.map_cons]
      have ha := answer_recast hd (h1.same hs h2)
        (fun meth info w hi hl hw => factors_nums hR hr hi hl hw) s req
      rw [ha]
      simp only
      rw [extend_recast, ih]

theorem use_recast {u : Recast (k + 1) K} {c : Cfg (k + 1) m K} {P : Side m K}
    {nrm : Vec (k + 1) K → K} {δ : Fl K → Fl K} (hR : ∀ j, c.nadir j ≠ c.utopian j)
    (hd : ∀ z f, distance (cfgOf u (u.conv c.utopian) nrm c) (u.conv z) (u.conv f) = δ (distance c z f))
    {steps steps' : List (Nat × Resp K × Oracle (k + 1) m K)}
    (h : List.Forall₂ (SameStep u c (cfgOf u (u.conv c.utopian) nrm c) P) steps steps') :
    use (cfgOf u (u.conv c.utopian) nrm c) steps' = (use c steps).map (resultOf u δ) :=
  replay_recast hR hd h .init [.initial]

end Verif.Nautilus
