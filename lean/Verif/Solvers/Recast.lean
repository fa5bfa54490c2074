import Verif.Solvers.Rounded
import Verif.Navigator.Units

set_option linter.unusedSectionVars false

/-!
# Payoff tables and front representations: order, origins and units of the objectives, C146 to C148
-/

namespace Verif.Solvers

open Navigator (pointAsf Recast reorder shift rescale pointAsf_reorder pointAsf_shift)

variable {K : Type} [Field K] [LinearOrder K] [IsStrictOrderedRing K] {k : Nat} {X : Type}

/-- Specification: the minimizer goes by how the candidates rank: functions that rank them alike are minimized alike. -/
def RankOnly (solve : Solver X K) : Prop :=
  ∀ n c (g g' : X → K), (∀ x y, g x ≤ g y ↔ g' x ≤ g' y) → solve n c g = solve n c g'

/-- Specification: the minimizer does not depend on how often it was called. -/
def Repeatable (solve : Solver X K) : Prop := ∀ n m c g, solve n c g = solve m c g

/-! ### The payoff table -/

theorem vmax_conv (a o : K) (ha : 0 < a) (σ : Equiv.Perm (Fin (k + 1))) (v : Vec (k + 1) K) :
    (vmax fun i => a * v (σ i) + o) = a * vmax v + o := by
  apply le_antisymm
  · rw [vmax_le_iff]
    intro i
    have := mul_le_mul_of_nonneg_left (le_vmax v (σ i)) ha.le
    linarith
  · obtain ⟨i, _, hi⟩ := Finset.exists_mem_eq_sup' Finset.univ_nonempty v
    have h := le_vmax (fun i => a * v (σ i) + o) (σ.symm i)
    simp only [Equiv.apply_symm_apply] at h
    show a * (Finset.univ.sup' Finset.univ_nonempty v) + o ≤ _
    rw [hi]
    exact h

theorem payoff_conv (u : Recast (k + 1) K) {obj : X → Vec (k + 1) K} {cons : Option (X → List K)} {solve : Solver X K}
    (hr : RankOnly solve) (hp : u.perm = 1 ∨ Repeatable solve) :
    payoffGeneral (fun x => u.conv (obj x)) cons solve =
      (u.conv (payoffGeneral obj cons solve).1, u.conv (payoffGeneral obj cons solve).2) := by
  have hsol : ∀ i : Fin (k + 1), (solve i cons fun x => weightedScalarizer (u.conv (obj x)) fun j => if i = j then 1 else 0) =
      solve (u.perm i) cons fun x => weightedScalarizer (obj x) fun j => if u.perm i = j then 1 else 0 := by
    intro i
    simp only [weighted_unit]
    have h1 : (solve i cons fun x => u.conv (obj x) i) = solve i cons fun x => obj x (u.perm i) := by
      apply hr
      intro x y
      exact u.le_iff _ _ i
    rw [h1]
    rcases hp with h | h
    · rw [h]; rfl
    · exact h _ _ _ _
  have ht : ∀ i, payoffTable (fun x => u.conv (obj x)) cons solve i = u.conv (payoffTable obj cons solve (u.perm i)) := by
    intro i
    unfold payoffTable
    rw [hsol]
  unfold payoffGeneral
  simp only [ht]
  refine Prod.ext rfl (funext fun j => ?_)
  exact vmax_conv (u.scale j) (u.origin j) (u.pos j) u.perm fun i => payoffTable obj cons solve i (u.perm j)

/-! ### Presenting the arguments anew -/

/-- Specification: ideal or nadir in another presentation. -/
def convBound (u : Recast (k + 1) K) : Bound (k + 1) K → Bound (k + 1) K
  | .missing => .missing
  | .infinite => .infinite
  | .given v => .given (u.conv v)

/-- Specification: the steps in another order. -/
def orderStep (σ : Equiv.Perm (Fin (k + 1))) : StepArg K → StepArg K
  | .float x => .float x
  | .array l => .array (if l.length = k + 1 then List.ofFn fun j => l.getD (σ j).val 0 else l)
  | .other => .other

theorem resolve_conv (u : Recast (k + 1) K) {obj : X → Vec (k + 1) K} {cons : Option (X → List K)} {solve : Solver X K}
    (hr : RankOnly solve) (hp : u.perm = 1 ∨ Repeatable solve) (ideal nadir : Bound (k + 1) K) :
    resolveBounds (fun x => u.conv (obj x)) cons solve (convBound u ideal) (convBound u nadir) =
      (resolveBounds obj cons solve ideal nadir).map fun p => (u.conv p.1, u.conv p.2) := by
  have h := payoff_conv u (obj := obj) (cons := cons) hr hp
  cases ideal with
  | missing => rfl
  | infinite => exact congrArg Except.ok h
  | given v =>
    cases nadir with
    | missing => rfl
    | infinite => exact congrArg Except.ok h
    | given w => rfl

variable [FloorRing K]

/-! ### Origins -/

theorem axis_shift (a b s o : K) : axis (a + o) (b + o) s = (axis a b s).map (List.map fun x => x + o) := by
  unfold axis
  rw [show b + o - (a + o) = b - a by ring]
  by_cases h : s = 0
  · rw [if_pos h, if_pos h]; rfl
  · rw [if_neg h, if_neg h]
    by_cases h2 : ⌈(b - a) / s⌉ < 0
    · rw [if_pos h2, if_pos h2]; rfl
    · rw [if_neg h2, if_neg h2]
      simp only [Except.map, List.map_map]
      refine congrArg Except.ok (List.map_congr_left fun i _ => ?_)
      simp only [Function.comp_apply]
      ring

theorem axesOf_shift : ∀ (m : Nat) (a b s o : Vec m K),
    axesOf m (fun i => a i + o i) (fun i => b i + o i) s =
      (axesOf m a b s).map fun axes i => (axes i).map fun x => x + o i := by
  intro m
  induction m with
  | zero =>
    intro a b s o
    exact congrArg Except.ok (funext fun i => i.elim0)
  | succ m ih =>
    intro a b s o
    unfold axesOf
    rw [axis_shift, ih (fun i => a i.succ) (fun i => b i.succ) (fun i => s i.succ) (fun i => o i.succ)]
    cases axis (a 0) (b 0) (s 0) with
    | error e => rfl
    | ok l =>
      cases axesOf m (fun i => a i.succ) (fun i => b i.succ) (fun i => s i.succ) with
      | error e => rfl
      | ok as =>
        refine congrArg Except.ok (funext fun i => ?_)
        refine Fin.cases ?_ (fun j => ?_) i <;> simp

theorem meshOf_shift : ∀ (m : Nat) (axes : Fin m → List K) (o : Vec m K),
    meshOf m (fun i => (axes i).map fun x => x + o i) = (meshOf m axes).map fun v i => v i + o i := by
  intro m
  induction m with
  | zero =>
    intro axes o
    simp only [meshOf, List.map_cons, List.map_nil]
    exact congrArg (· :: []) (funext fun i => i.elim0)
  | succ m ih =>
    intro axes o
    simp only [meshOf]
    rw [ih (fun i => axes i.succ) (fun i => o i.succ), List.map_flatMap, List.flatMap_map]
    refine List.flatMap_congr fun x _ => ?_
    rw [List.map_map, List.map_map]
    refine List.map_congr_left fun v _ => ?_
    funext i
    refine Fin.cases ?_ (fun j => ?_) i <;> simp

theorem shift_conv (o v : Vec k K) : (shift o).conv v = fun j => v j + o j := by
  funext j; simp [Recast.conv, shift]

theorem referencePoints_shift (o lo hi : Vec (k + 1) K) (eps : K) (step : StepArg K) :
    referencePoints ((shift o).conv lo) ((shift o).conv hi) eps step =
      (referencePoints lo hi eps step).map (List.map (shift o).conv) := by
  unfold referencePoints
  cases stepsOf (k := k) step with
  | error e => rfl
  | ok s =>
    simp only []
    have h1 : (fun i => min ((shift o).conv lo i) ((shift o).conv hi i)) = fun i => min (lo i) (hi i) + o i := by
      funext i; rw [shift_conv, shift_conv, min_add_add_right]
    have h2 : (fun i => max ((shift o).conv lo i) ((shift o).conv hi i) + eps) = fun i => (max (lo i) (hi i) + eps) + o i := by
      funext i; rw [shift_conv, shift_conv, max_add_add_right]; ring
    rw [h1, h2, axesOf_shift]
    cases axesOf (k + 1) (fun i => min (lo i) (hi i)) (fun i => max (lo i) (hi i) + eps) s with
    | error e => rfl
    | ok axes =>
      simp only [Except.map]
      rw [meshOf_shift]
      exact congrArg Except.ok (List.map_congr_left fun v _ => (shift_conv o v).symm)

theorem accepts_conv (u : Recast (k + 1) K) (prev : List (Option (Vec (k + 1) K))) (i : Nat) (f : Vec (k + 1) K) :
    accepts (prev.map (Option.map u.conv)) i (u.conv f) = accepts prev i f := by
  unfold accepts
  rw [filterMap_map_option, List.all_map]
  have h : ∀ p : Vec (k + 1) K, (∀ j, u.conv p j < u.conv f j) ↔ ∀ j, p j < f j := by
    intro p
    constructor
    · intro h j
      have := h (u.perm.symm j)
      simp only [Recast.conv, Equiv.apply_symm_apply] at this
      exact (u.lt_iff _ _ _).1 this
    · intro h j
      exact (u.lt_iff _ _ _).2 (h _)
  simp only [Function.comp_def, h]

theorem frontLoop_conv (u : Recast (k + 1) K) {obj : X → Vec (k + 1) K}
    {asf asf' : Vec (k + 1) K → Vec (k + 1) K → K} {solve : Nat → (X → K) → X × Bool} :
    ∀ (zs : List (Vec (k + 1) K))
      (_ : ∀ z ∈ zs, ∀ i, (solve i fun x => asf' (u.conv z) (u.conv (obj x))) = solve i fun x => asf z (obj x))
      (i : Nat) (xs : List (Option X)) (fs : List (Option (Vec (k + 1) K))),
      frontLoop (fun x => u.conv (obj x)) asf' solve i (zs.map u.conv) xs (fs.map (Option.map u.conv)) =
        ((frontLoop obj asf solve i zs xs fs).1, (frontLoop obj asf solve i zs xs fs).2.map (Option.map u.conv)) := by
  intro zs
  induction zs with
  | nil => intro _ i xs fs; rfl
  | cons z zs ih =>
    intro hs i xs fs
    replace ih := ih fun z hz => hs z (List.mem_cons_of_mem _ hz)
    unfold frontLoop
    simp only [List.map_cons, hs z List.mem_cons_self, accepts_conv]
    by_cases h : (solve i fun x => asf z (obj x)).2 = false
    · rw [if_pos h, if_pos h, ← ih]
      simp
    · rw [if_neg h, if_neg h]
      by_cases h2 : accepts fs i (obj (solve i fun x => asf z (obj x)).1) = true
      · rw [if_pos h2, if_pos h2, ← ih]
        simp
      · rw [if_neg h2, if_neg h2, ← ih]
        simp

/-- **C146.** Measure the objectives from other origins: ideal and nadir of the payoff table are measured from these
origins, and a front representation returns the same solutions in the same order, with their objective vectors measured
from the new origins; the exceptions are the same. -/
theorem C146_origins (o : Vec (k + 1) K) {obj : X → Vec (k + 1) K} {cons : Option (X → List K)}
    {table front : Solver X K} (ht : RankOnly table) (hf : RankOnly front) (step : StepArg K) (eps : K)
    (ideal nadir : Bound (k + 1) K) :
    payoffGeneral (fun x => (shift o).conv (obj x)) cons table =
      ((shift o).conv (payoffGeneral obj cons table).1, (shift o).conv (payoffGeneral obj cons table).2) ∧
    frontGeneral (fun x => (shift o).conv (obj x)) step eps (convBound (shift o) ideal) (convBound (shift o) nadir) cons
        table front =
      (frontGeneral obj step eps ideal nadir cons table front).map fun r => (r.1, r.2.map (shift o).conv) := by
  refine ⟨payoff_conv _ ht (.inl rfl), ?_⟩
  unfold frontGeneral
  rw [resolve_conv _ ht (.inl rfl)]
  cases resolveBounds obj cons table ideal nadir with
  | error e => rfl
  | ok p =>
    obtain ⟨lo, hi⟩ := p
    simp only [Except.map]
    rw [referencePoints_shift]
    cases referencePoints lo hi eps step with
    | error e => rfl
    | ok zs =>
      simp only [Except.map]
      have h := frontLoop_conv (shift o) (obj := obj) (asf := pointAsf lo hi)
        (asf' := pointAsf ((shift o).conv lo) ((shift o).conv hi)) (solve := fun i g => front i none g) zs
        (fun z _ i => by
          apply hf
          intro x y
          rw [pointAsf_shift, pointAsf_shift]
          exact add_le_add_iff_right _) 0 [] []
      simp only [List.map_nil] at h
      rw [h]
      simp only [filterMap_map_option]

/-! ### Order -/

theorem axesOf_axis : ∀ (m : Nat) (a b s : Vec m K) (axes : Fin m → List K), axesOf m a b s = .ok axes →
    ∀ i, axis (a i) (b i) (s i) = .ok (axes i) := by
  intro m
  induction m with
  | zero => intro a b s axes _ i; exact i.elim0
  | succ m ih =>
    intro a b s axes h
    unfold axesOf at h
    cases h1 : axis (a 0) (b 0) (s 0) with
    | error e => simp only [h1] at h; cases h
    | ok l =>
      cases h2 : axesOf m (fun i => a i.succ) (fun i => b i.succ) (fun i => s i.succ) with
      | error e => simp only [h1, h2] at h; cases h
      | ok as =>
        simp only [h1, h2, Except.ok.injEq] at h
        subst h
        intro i
        refine Fin.cases ?_ (fun j => ?_) i
        · simpa using h1
        · simpa using ih _ _ _ _ h2 j

theorem axis_head {a b s x : K} {l : List K} (h : axis a b s = .ok (x :: l)) : x = a := by
  unfold axis at h
  by_cases h1 : s = 0
  · rw [if_pos h1] at h; cases h
  · rw [if_neg h1] at h
    by_cases h2 : ⌈(b - a) / s⌉ < 0
    · rw [if_pos h2] at h; cases h
    · rw [if_neg h2] at h
      cases hn : ⌈(b - a) / s⌉.toNat with
      | zero => rw [hn] at h; simp at h
      | succ n =>
        rw [hn, List.range_succ_eq_map] at h
        simp only [List.map_cons, Except.ok.injEq, List.cons.injEq] at h
        rw [← h.1]
        simp

theorem meshOf_head : ∀ (m : Nat) (axes : Fin m → List K) (z : Vec m K) (zs : List (Vec m K)),
    meshOf m axes = z :: zs → ∀ i, ∃ l, axes i = z i :: l := by
  intro m
  induction m with
  | zero => intro axes z zs _ i; exact i.elim0
  | succ m ih =>
    intro axes z zs h
    simp only [meshOf] at h
    cases h0 : axes 0 with
    | nil => rw [h0] at h; simp at h
    | cons x l =>
      cases h1 : meshOf m (fun i => axes i.succ) with
      | nil =>
        have hne : z ∈ meshOf (m + 1) axes := by simp only [meshOf]; rw [h]; simp
        simp only [meshOf, h1] at hne
        simp at hne
      | cons v vs =>
        rw [h0, h1] at h
        simp only [List.flatMap_cons, List.map_cons, List.cons_append, List.cons.injEq] at h
        rw [← h.1]
        intro i
        refine Fin.cases ?_ (fun j => ?_) i
        · exact ⟨l, by simpa using h0⟩
        · simpa using ih _ _ _ h1 j

/-- The first reference point is the ideal (the smaller bounds). -/
theorem referencePoints_head {lo hi z : Vec (k + 1) K} {eps : K} {step : StepArg K} {zs : List (Vec (k + 1) K)}
    (h : referencePoints lo hi eps step = .ok (z :: zs)) : z = fun j => min (lo j) (hi j) := by
  unfold referencePoints at h
  cases h1 : stepsOf (k := k) step with
  | error e => simp only [h1] at h; cases h
  | ok s =>
    simp only [h1] at h
    cases h2 : axesOf (k + 1) (fun i => min (lo i) (hi i)) (fun i => max (lo i) (hi i) + eps) s with
    | error e => simp only [h2] at h; cases h
    | ok axes =>
      simp only [h2, Except.ok.injEq] at h
      funext j
      obtain ⟨l, hl⟩ := meshOf_head _ _ _ _ h j
      have := axesOf_axis _ _ _ _ _ h2 j
      rw [hl] at this
      exact axis_head this

theorem orderStep_good (σ : Equiv.Perm (Fin (k + 1))) {step : StepArg K} (hb : ¬ BadStep k step) :
    ¬ BadStep k (orderStep σ step) ∧ ∀ j : Fin (k + 1), stepFor (orderStep σ step) j.val = stepFor step (σ j).val := by
  cases step with
  | float x => exact ⟨by simp [orderStep, BadStep], fun j => rfl⟩
  | array l =>
    have hl : l.length = k + 1 := by simpa [BadStep] using hb
    refine ⟨by simp [orderStep, BadStep, hl], fun j => ?_⟩
    have hj : j.val < k + 1 := j.isLt
    simp only [orderStep, hl, if_true, stepFor, List.getD_eq_getElem?_getD]
    rw [List.getElem?_eq_getElem (by rw [List.length_ofFn]; exact hj), List.getElem_ofFn, Option.getD_some]
  | other => exact absurd trivial hb

theorem reorder_conv (σ : Equiv.Perm (Fin k)) (v : Vec k K) : (reorder σ).conv v = fun j => v (σ j) := by
  funext j; simp [Recast.conv, reorder]

/-- The reference points in another order are, in some order, the reordered reference points. -/
theorem referencePoints_perm (σ : Equiv.Perm (Fin (k + 1))) (lo hi : Vec (k + 1) K) {eps : K} {step : StepArg K}
    (hb : ¬ BadStep k step) (hpos : ∀ j : Fin (k + 1), 0 < stepFor step j.val) (heps : 0 ≤ eps) :
    ∃ zs zs', referencePoints lo hi eps step = .ok zs ∧
      referencePoints ((reorder σ).conv lo) ((reorder σ).conv hi) eps (orderStep σ step) = .ok zs' ∧
      zs'.Perm (zs.map (reorder σ).conv) := by
  obtain ⟨hb', hst⟩ := orderStep_good σ hb
  obtain ⟨zs, h1, n1, m1, _⟩ := (C63_grid (fun _ : Unit => lo) step eps lo hi none (fun _ _ _ => ((), true))
    (fun _ _ _ => ((), true))).2 hb hpos heps
  obtain ⟨zs', h2, n2, m2, _⟩ := (C63_grid (fun _ : Unit => lo) (orderStep σ step) eps ((reorder σ).conv lo)
    ((reorder σ).conv hi) none (fun _ _ _ => ((), true)) (fun _ _ _ => ((), true))).2 hb'
    (fun j => by rw [hst]; exact hpos _) heps
  refine ⟨zs, zs', h1, h2, ?_⟩
  have inj : Function.Injective ((reorder σ).conv : Vec (k + 1) K → Vec (k + 1) K) := by
    intro v w h
    rw [reorder_conv, reorder_conv] at h
    funext j
    have := congrFun h (σ.symm j)
    simpa using this
  rw [List.perm_ext_iff_of_nodup n2 (n1.map inj)]
  intro z
  rw [m2, List.mem_map]
  constructor
  · intro h
    refine ⟨fun j => z (σ.symm j), ?_, ?_⟩
    · rw [m1]
      intro j
      have := h (σ.symm j)
      simp only [hst, reorder_conv, Equiv.apply_symm_apply] at this
      exact this
    · rw [reorder_conv]; funext j; simp
  · rintro ⟨v, hv, rfl⟩ j
    rw [m1] at hv
    have := hv (σ j)
    simp only [hst, reorder_conv]
    exact this

/-- The solutions of all successful optimizations of a repeatable minimizer. -/
theorem allSuccesses_eq {obj : X → Vec (k + 1) K} {lo hi : Vec (k + 1) K} {front : Solver X K} (hn : Repeatable front)
    (zs : List (Vec (k + 1) K)) :
    AllSuccesses obj lo hi front zs = zs.filterMap fun z =>
      if (front 0 none fun x => pointAsf lo hi z (obj x)).2 then some (front 0 none fun x => pointAsf lo hi z (obj x)).1
      else none := by
  unfold AllSuccesses
  rw [← successes_eq]
  suffices h : ∀ i, successes obj (pointAsf lo hi) (fun i g => front i none g) i zs = zs.filterMap fun z =>
      if (front 0 none fun x => pointAsf lo hi z (obj x)).2 then some (front 0 none fun x => pointAsf lo hi z (obj x)).1
      else none from h 0
  induction zs with
  | nil => intro i; rfl
  | cons z zs ih =>
    intro i
    unfold successes
    rw [List.filterMap_cons]
    rw [hn i 0, ih (i + 1)]
    by_cases h : (front 0 none fun x => pointAsf lo hi z (obj x)).2 = true
    · simp only [h, if_true]
    · simp only [h]; rfl

/-- **C147.** List the objectives in another order (and the steps, if there is one for each): ideal and nadir of the
payoff table come in this order, and a front representation returns the same solutions, possibly in another order, with
objective vectors in the new order. The minimizers are repeatable and go by how the candidates rank, and a success of the
second one is a global minimum. -/
theorem C147_order (σ : Equiv.Perm (Fin (k + 1))) {obj : X → Vec (k + 1) K} {cons : Option (X → List K)}
    {table front : Solver X K} (ht : RankOnly table) (hn : Repeatable table) (hnf : Repeatable front) (htr : Trusty front)
    {step : StepArg K} (hb : ¬ BadStep k step) (hpos : ∀ j : Fin (k + 1), 0 < stepFor step j.val) {eps : K} (heps : 0 ≤ eps)
    {ideal nadir : Bound (k + 1) K} (ho : Ordered ideal nadir) :
    payoffGeneral (fun x => (reorder σ).conv (obj x)) cons table =
      ((reorder σ).conv (payoffGeneral obj cons table).1, (reorder σ).conv (payoffGeneral obj cons table).2) ∧
    ∀ xs fs, frontGeneral obj step eps ideal nadir cons table front = .ok (xs, fs) →
      ∃ xs', xs'.Perm xs ∧
        frontGeneral (fun x => (reorder σ).conv (obj x)) (orderStep σ step) eps (convBound (reorder σ) ideal)
          (convBound (reorder σ) nadir) cons table front = .ok (xs', xs'.map fun x => (reorder σ).conv (obj x)) := by
  refine ⟨payoff_conv _ ht (.inr hn), fun xs fs h => ?_⟩
  obtain ⟨lo, hi, zs, h1, h2, h3⟩ := frontGeneral_ok h
  have hl := resolve_ordered ho h1
  have hl' : AtLeastAsGood ((reorder σ).conv lo) ((reorder σ).conv hi) := by
    rw [reorder_conv, reorder_conv]; exact fun j => hl (σ j)
  obtain ⟨zs0, zs', h4, h5, hperm⟩ := referencePoints_perm σ lo hi hb hpos heps
  rw [h2] at h4
  cases h4
  have hr : resolveBounds (fun x => (reorder σ).conv (obj x)) cons table (convBound (reorder σ) ideal)
      (convBound (reorder σ) nadir) = .ok ((reorder σ).conv lo, (reorder σ).conv hi) := by
    rw [resolve_conv _ ht (.inr hn), h1]; rfl
  obtain ⟨r, hF⟩ : ∃ r, frontGeneral (fun x => (reorder σ).conv (obj x)) (orderStep σ step) eps (convBound (reorder σ) ideal)
      (convBound (reorder σ) nadir) cons table front = .ok r := by
    unfold frontGeneral
    rw [hr]
    simp only [h5]
    exact ⟨_, rfl⟩
  obtain ⟨xs', fs'⟩ := r
  have hal := (C62_aligned_partial hF).1
  refine ⟨xs', ?_, by rw [hF, hal]⟩
  -- the same calls with given bounds
  have hG : frontGeneral obj step eps (.given lo) (.given hi) cons table front = .ok (xs, fs) := by
    rw [← h]; unfold frontGeneral; rw [h1]; rfl
  have hG' : frontGeneral (fun x => (reorder σ).conv (obj x)) (orderStep σ step) eps (.given ((reorder σ).conv lo))
      (.given ((reorder σ).conv hi)) cons table front = .ok (xs', fs') := by
    rw [← hF]; unfold frontGeneral; rw [hr]; rfl
  have hasf : ∀ z : Vec (k + 1) K, (fun x => pointAsf ((reorder σ).conv lo) ((reorder σ).conv hi) ((reorder σ).conv z)
      ((reorder σ).conv (obj x))) = fun x => pointAsf lo hi z (obj x) :=
    fun z => funext fun x => pointAsf_reorder σ lo hi z (obj x)
  cases zs with
  | nil =>
    have : zs' = [] := by simpa using hperm
    subst this
    have e1 : xs = [] := (Prod.mk.inj h3).1
    obtain ⟨lo', hi', zs2, g1, g2, g3⟩ := frontGeneral_ok hG'
    cases g1
    rw [h5] at g2
    cases g2
    have e2 : xs' = [] := (Prod.mk.inj g3).1
    rw [e1, e2]
  | cons z zs =>
    cases zs' with
    | nil => exact absurd hperm.length_eq (by simp)
    | cons z' zs' =>
      have hz := referencePoints_head h2
      have hz' := referencePoints_head h5
      have hzz : z' = (reorder σ).conv z := by rw [hz', hz, reorder_conv, reorder_conv, reorder_conv]
      have c1 := C79_successes_partial h2 hG
      have c2 := C79_successes_partial h5 hG'
      rw [hzz, hasf] at c2
      by_cases hs : (front 0 none fun x => pointAsf lo hi z (obj x)).2 = true
      · rw [c1.1 hl htr hs, c2.1 hl' htr hs, allSuccesses_eq hnf, allSuccesses_eq hnf, ← hzz]
        have := hperm.filterMap fun z => if (front 0 none fun x => pointAsf ((reorder σ).conv lo) ((reorder σ).conv hi) z
            ((reorder σ).conv (obj x))).2 then some (front 0 none fun x => pointAsf ((reorder σ).conv lo) ((reorder σ).conv hi) z
            ((reorder σ).conv (obj x))).1 else none
        rw [List.filterMap_map] at this
        simp only [Function.comp_def, hasf] at this
        exact this
      · rw [(c1.2 (by simpa using hs)).1, (c2.2 (by simpa using hs)).1]

/-- The minimizer of the example tries both solutions. -/
theorem rSolver_rankOnly : RankOnly rSolver := by
  intro n c g g' h
  unfold rSolver
  simp only [h false true]

theorem rSolver_repeatable : Repeatable rSolver := fun _ _ _ _ => rfl

/-- C146 applies: two solutions, computed ideal and nadir. -/
example := C146_origins (![100, -5] : Vec 2 ℚ) (obj := fun b : Bool => if b then ![(0 : ℚ), 1] else ![1, 0]) (cons := none)
  rSolver_rankOnly rSolver_rankOnly (.array [1 / 2, 1 / 3]) (1 / 10 ^ 6) .infinite .infinite

/-- C147 applies: two solutions, given ideal and nadir, the objectives exchanged. -/
example := C147_order (Equiv.swap 0 1) (obj := fun b : Bool => if b then ![(0 : ℚ), 1] else ![1, 0]) (cons := none)
  rSolver_rankOnly rSolver_repeatable rSolver_repeatable rSolver_trusty (step := .array [1 / 2, 1 / 3])
  (by simp [BadStep]) (by intro j; fin_cases j <;> norm_num [stepFor]) (eps := 1 / 10 ^ 6) (by norm_num)
  (ideal := .given ![0, 0]) (nadir := .given ![1, 1]) (by rintro _ _ ⟨⟩ ⟨⟩ j; fin_cases j <;> norm_num)

/-! ### Units -/

/-- **C148**, the payoff table: measure the objectives in other units, and ideal and nadir are measured in these units. -/
theorem C148_payoff_partial (w : Vec (k + 1) K) (hw : ∀ j, 0 < w j) {obj : X → Vec (k + 1) K} {cons : Option (X → List K)}
    {table : Solver X K} (ht : RankOnly table) :
    payoffGeneral (fun x => (rescale w hw).conv (obj x)) cons table =
      ((rescale w hw).conv (payoffGeneral obj cons table).1, (rescale w hw).conv (payoffGeneral obj cons table).2) :=
  payoff_conv _ ht (.inl rfl)

example := C148_payoff_partial (![1000, 1 / 10] : Vec 2 ℚ) (by intro j; fin_cases j <;> norm_num)
  (obj := fun b : Bool => if b then ![(0 : ℚ), 1] else ![1, 0]) (cons := none) rSolver_rankOnly

theorem axis_scale {w a b b' s : K} (hw : 0 < w) (h : ⌈(b' - w * a) / (w * s)⌉ = ⌈(b - a) / s⌉) :
    axis (w * a) b' (w * s) = (axis a b s).map (List.map fun x => w * x) := by
  unfold axis
  rw [h]
  by_cases hs : s = 0
  · rw [if_pos hs, if_pos (by rw [hs, mul_zero])]; rfl
  · rw [if_neg hs, if_neg (mul_ne_zero hw.ne' hs)]
    by_cases h2 : ⌈(b - a) / s⌉ < 0
    · rw [if_pos h2, if_pos h2]; rfl
    · rw [if_neg h2, if_neg h2]
      simp only [Except.map, List.map_map]
      refine congrArg Except.ok (List.map_congr_left fun i _ => ?_)
      simp only [Function.comp_apply]
      ring

theorem axesOf_scale : ∀ (m : Nat) (w a b b' s : Vec m K) (_ : ∀ i, 0 < w i)
    (_ : ∀ i, ⌈(b' i - w i * a i) / (w i * s i)⌉ = ⌈(b i - a i) / s i⌉),
    axesOf m (fun i => w i * a i) b' (fun i => w i * s i) =
      (axesOf m a b s).map fun axes i => (axes i).map fun x => w i * x := by
  intro m
  induction m with
  | zero =>
    intro w a b b' s _ _
    exact congrArg Except.ok (funext fun i => i.elim0)
  | succ m ih =>
    intro w a b b' s hw h
    unfold axesOf
    rw [axis_scale (hw 0) (h 0), ih (fun i => w i.succ) (fun i => a i.succ) (fun i => b i.succ) (fun i => b' i.succ)
      (fun i => s i.succ) (fun i => hw i.succ) (fun i => h i.succ)]
    cases axis (a 0) (b 0) (s 0) with
    | error e => rfl
    | ok l =>
      cases axesOf m (fun i => a i.succ) (fun i => b i.succ) (fun i => s i.succ) with
      | error e => rfl
      | ok as =>
        refine congrArg Except.ok (funext fun i => ?_)
        refine Fin.cases ?_ (fun j => ?_) i <;> simp

theorem meshOf_scale : ∀ (m : Nat) (axes : Fin m → List K) (w : Vec m K),
    meshOf m (fun i => (axes i).map fun x => w i * x) = (meshOf m axes).map fun v i => w i * v i := by
  intro m
  induction m with
  | zero =>
    intro axes w
    simp only [meshOf, List.map_cons, List.map_nil]
    exact congrArg (· :: []) (funext fun i => i.elim0)
  | succ m ih =>
    intro axes w
    simp only [meshOf]
    rw [ih (fun i => axes i.succ) (fun i => w i.succ), List.map_flatMap, List.flatMap_map]
    refine List.flatMap_congr fun x _ => ?_
    rw [List.map_map, List.map_map]
    refine List.map_congr_left fun v _ => ?_
    funext i
    refine Fin.cases ?_ (fun j => ?_) i <;> simp

theorem rescale_conv (w : Vec k K) (hw : ∀ j, 0 < w j) (v : Vec k K) : (rescale w hw).conv v = fun j => w j * v j := by
  funext j; simp [Recast.conv, rescale]

theorem ceil_congr {x y : K} (hx : 0 ≤ x) (hy : 0 ≤ y) (h : ∀ n : ℕ, (n : K) < x ↔ (n : K) < y) : ⌈x⌉ = ⌈y⌉ := by
  have key : ∀ {x y : K}, 0 ≤ x → (∀ n : ℕ, (n : K) < y → (n : K) < x) → ⌈y⌉ ≤ ⌈x⌉ := by
    intro x y hx h
    by_contra hc
    have hc := not_le.1 hc
    have h0 : 0 ≤ ⌈x⌉ := Int.ceil_nonneg hx
    obtain ⟨m, hm⟩ := Int.eq_ofNat_of_zero_le h0
    rw [hm, Int.lt_ceil] at hc
    have h1 := h m (by exact_mod_cast hc)
    have h2 := Int.le_ceil x
    rw [hm] at h2
    push_cast at h2
    exact absurd h1 (not_lt.2 h2)
  exact le_antisymm (key hy fun n => (h n).1) (key hx fun n => (h n).2)

/-- The grid in other units, if every axis has the same number of values in both units. -/
theorem referencePoints_scale {w : Vec (k + 1) K} (hw : ∀ j, 0 < w j) {lo hi : Vec (k + 1) K} (hl : AtLeastAsGood lo hi)
    {eps : K} (heps : 0 ≤ eps) {step step' : StepArg K} (hb : ¬ BadStep k step) (hb' : ¬ BadStep k step')
    (hpos : ∀ j : Fin (k + 1), 0 < stepFor step j.val)
    (hstep : ∀ j : Fin (k + 1), stepFor step' j.val = w j * stepFor step j.val)
    (hgrid : ∀ (j : Fin (k + 1)) (n : ℕ), n * stepFor step j.val < hi j - lo j + eps ↔
      n * stepFor step j.val < hi j - lo j + eps / w j) :
    referencePoints ((rescale w hw).conv lo) ((rescale w hw).conv hi) eps step' =
      (referencePoints lo hi eps step).map (List.map (rescale w hw).conv) := by
  unfold referencePoints
  rw [stepsOf_good hb, stepsOf_good hb']
  simp only [hstep]
  have h1 : (fun i => min ((rescale w hw).conv lo i) ((rescale w hw).conv hi i)) = fun i => w i * min (lo i) (hi i) := by
    funext i; rw [rescale_conv, rescale_conv, mul_min_of_nonneg _ _ (hw i).le]
  rw [h1, axesOf_scale (k + 1) w (fun i => min (lo i) (hi i)) (fun i => max (lo i) (hi i) + eps)
    (fun i => max ((rescale w hw).conv lo i) ((rescale w hw).conv hi i) + eps) (fun i => stepFor step i.val) hw]
  · cases axesOf (k + 1) (fun i => min (lo i) (hi i)) (fun i => max (lo i) (hi i) + eps) (fun i => stepFor step i.val) with
    | error e => rfl
    | ok axes =>
      simp only [Except.map]
      rw [meshOf_scale]
      exact congrArg Except.ok (List.map_congr_left fun v _ => (rescale_conv w hw v).symm)
  · intro i
    have hs := hpos i
    have hwi := hw i
    have hli : lo i ≤ hi i := hl i
    have e0 : max ((rescale w hw).conv lo i) ((rescale w hw).conv hi i) = w i * hi i := by
      rw [rescale_conv, rescale_conv]; exact max_eq_right (mul_le_mul_of_nonneg_left hli hwi.le)
    have e1 : (w i * hi i + eps - w i * lo i) / (w i * stepFor step i.val) = (hi i - lo i + eps / w i) / stepFor step i.val := by
      field_simp
      ring
    rw [e0, min_eq_left hli, max_eq_right hli, e1, show hi i + eps - lo i = hi i - lo i + eps by ring]
    have hR : 0 ≤ hi i - lo i := by linarith
    have he : 0 ≤ eps / w i := div_nonneg heps hwi.le
    refine ceil_congr (div_nonneg (by linarith) hs.le) (div_nonneg (by linarith) hs.le) fun n => ?_
    rw [lt_div_iff₀ hs, lt_div_iff₀ hs]
    exact (hgrid i n).symm

/-- **C148**, partial. Measure the objectives in other units, the steps too: a front representation between given ideal and
nadir returns the same solutions in the same order, their objective vectors in the new units, if (`eps` being the same
number in both units) no grid value lies between the two ends `nadir + eps`, and if the achievement function of the library
ranks the solutions alike in both units for all reference points. Missing: neither holds in all units, see
`C148_fails`. -/
theorem C148_units_partial {w : Vec (k + 1) K} (hw : ∀ j, 0 < w j) {obj : X → Vec (k + 1) K} {cons : Option (X → List K)}
    {table front : Solver X K} (hf : RankOnly front) {lo hi : Vec (k + 1) K} (hl : AtLeastAsGood lo hi)
    {eps : K} (heps : 0 ≤ eps) {step step' : StepArg K} (hb : ¬ BadStep k step) (hb' : ¬ BadStep k step')
    (hpos : ∀ j : Fin (k + 1), 0 < stepFor step j.val)
    (hstep : ∀ j : Fin (k + 1), stepFor step' j.val = w j * stepFor step j.val)
    (hgrid : ∀ (j : Fin (k + 1)) (n : ℕ), n * stepFor step j.val < hi j - lo j + eps ↔
      n * stepFor step j.val < hi j - lo j + eps / w j)
    (hrank : ∀ z : Vec (k + 1) K,
      (∀ j, ∃ n : ℕ, z j = lo j + n * stepFor step j.val ∧ z j < hi j + eps) → ∀ x y,
      (pointAsf ((rescale w hw).conv lo) ((rescale w hw).conv hi) ((rescale w hw).conv z) ((rescale w hw).conv (obj x)) ≤
        pointAsf ((rescale w hw).conv lo) ((rescale w hw).conv hi) ((rescale w hw).conv z) ((rescale w hw).conv (obj y)) ↔
        pointAsf lo hi z (obj x) ≤ pointAsf lo hi z (obj y))) :
    frontGeneral (fun x => (rescale w hw).conv (obj x)) step' eps (.given ((rescale w hw).conv lo))
        (.given ((rescale w hw).conv hi)) cons table front =
      (frontGeneral obj step eps (.given lo) (.given hi) cons table front).map
        fun r => (r.1, r.2.map (rescale w hw).conv) := by
  unfold frontGeneral
  simp only [resolveBounds]
  rw [referencePoints_scale hw hl heps hb hb' hpos hstep hgrid]
  obtain ⟨zs, h1, _, m1, _⟩ := (C63_grid (fun _ : Unit => lo) step eps lo hi none (fun _ _ _ => ((), true))
    (fun _ _ _ => ((), true))).2 hb hpos heps
  rw [h1]
  simp only [Except.map]
  have h := frontLoop_conv (rescale w hw) (obj := obj) (asf := pointAsf lo hi)
    (asf' := pointAsf ((rescale w hw).conv lo) ((rescale w hw).conv hi)) (solve := fun i g => front i none g) zs
    (fun z hz i => by
      apply hf
      intro x y
      refine hrank z (fun j => ?_) x y
      obtain ⟨n, e1, e2⟩ := (m1 z).1 hz j
      rw [min_eq_left (hl j)] at e1
      rw [max_eq_right (hl j)] at e2
      exact ⟨n, e1, e2⟩) 0 [] []
  simp only [List.map_nil] at h
  rw [h]
  simp only [filterMap_map_option]

theorem ok_of_count {e : Except Err (List Bool × List (Vec 2 ℚ))} {n : Nat}
    (h : e.toOption.map (fun r => r.1.length) = some n) : ∃ xs fs, e = .ok (xs, fs) ∧ xs.length = n := by
  cases e with
  | error e => cases h
  | ok r => exact ⟨r.1, r.2, rfl, by simpa [Except.toOption] using h⟩

/-- **C148 fails**: two solutions, ideal `(0, 0)` and nadir `(1, 1)`, steps of one. The representation has four rows, one
for each reference point. In the unit in which the nadir is `(1e-7, 1e-7)` and the step `1e-7` it has 121. The minimizer
tries both solutions. -/
theorem C148_fails :
    (∃ xs fs, frontGeneral (k := 1) (fun b : Bool => if b then ![(0 : ℚ), 1] else ![1, 0]) (.float 1) (1 / 10 ^ 6)
        (.given ![0, 0]) (.given ![1, 1]) none rSolver rSolver = .ok (xs, fs) ∧ xs.length = 4) ∧
    ∃ xs fs, frontGeneral (k := 1) (fun b : Bool => (rescale (fun _ => 1 / 10 ^ 7) (fun _ => by norm_num)).conv
          (if b then ![(0 : ℚ), 1] else ![1, 0])) (.float (1 / 10 ^ 7)) (1 / 10 ^ 6)
        (.given ((rescale (fun _ => 1 / 10 ^ 7) (fun _ => by norm_num)).conv ![0, 0]))
        (.given ((rescale (fun _ => 1 / 10 ^ 7) (fun _ => by norm_num)).conv ![1, 1])) none rSolver rSolver = .ok (xs, fs) ∧
      xs.length = 121 :=
  ⟨ok_of_count (by decide +kernel), ok_of_count (by decide +kernel)⟩

/-- C148 applies: steps of one, and thousandfold values of the first objective. -/
example := C148_units_partial (w := (![1000, 10] : Vec 2 ℚ)) (by intro j; fin_cases j <;> norm_num)
  (obj := fun b : Bool => if b then ![(0 : ℚ), 1 / 2] else ![1, 0]) (cons := none) (table := rSolver) rSolver_rankOnly
  (lo := ![0, 0]) (hi := ![1, 1]) (by intro j; fin_cases j <;> norm_num) (eps := 1 / 10 ^ 6) (by norm_num)
  (step := .float 1) (step' := .array [1000, 10]) (by simp [BadStep]) (by simp [BadStep])
  (by intro j; norm_num [stepFor]) (by intro j; fin_cases j <;> norm_num [stepFor]) (by
    intro j n
    have h : ∀ e : ℚ, 0 < e → e ≤ 1 → ((n : ℚ) * 1 < 1 - 0 + e ↔ n ≤ 1) := by
      intro e h1 h2
      constructor
      · intro h
        have : (n : ℚ) < 2 := by linarith
        have : n < 2 := by exact_mod_cast this
        omega
      · intro h
        have : (n : ℚ) ≤ 1 := by exact_mod_cast h
        linarith
    fin_cases j
    · exact (h _ (by norm_num) (by norm_num)).trans (h _ (by norm_num) (by norm_num)).symm
    · exact (h _ (by norm_num) (by norm_num)).trans (h _ (by norm_num) (by norm_num)).symm) (by
    intro z hz
    have h01 : ∀ j : Fin 2, z j = 0 ∨ z j = 1 := by
      intro j
      obtain ⟨n, h1, h2⟩ := hz j
      have e : ((![0, 0] : Vec 2 ℚ) j) = 0 ∧ ((![1, 1] : Vec 2 ℚ) j) = 1 := by fin_cases j <;> simp
      rw [e.1] at h1
      rw [e.2] at h2
      simp only [stepFor, zero_add, mul_one] at h1
      rw [h1] at h2
      have h3 : (n : ℚ) < 2 := by linarith
      have h4 : n < 2 := by exact_mod_cast h3
      rcases (by omega : n = 0 ∨ n = 1) with h | h
      · left; rw [h1, h]; rfl
      · right; rw [h1, h]; norm_num
    have hz' : z = ![z 0, z 1] := by funext j; fin_cases j <;> rfl
    rw [hz']
    rcases h01 0 with h | h <;> rcases h01 1 with h' | h' <;> rw [h, h'] <;> intro x y <;> cases x <;> cases y <;>
      decide +kernel)

end Verif.Solvers
