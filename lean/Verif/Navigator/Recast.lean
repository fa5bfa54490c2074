import Verif.Navigator.Monotone
import Verif.Navigator.Props3
import Verif.ENautilus.Units

/-!
# NAUTILUS Navigator on the same data presented differently

The objectives may be listed in another order (`perm`), measured in other units (`scale`) and from
another origin (`origin`). This file relates a whole use of the method on the converted data to the
original one; `Units.lean` states the properties.
-/

namespace Verif.Navigator

open Verif.ENautilus (npMin_map npMax_map fdiv_common)

set_option linter.unusedSectionVars false

variable {K V : Type} [Field K] [LinearOrder K] {n k : Nat}

/-! ### Specification -/

/-- Specification: objective `j` of the new presentation is objective `perm j` of the old one, in new
units (`scale j > 0`) and from a new origin. -/
structure Recast (k : Nat) (K : Type) [Field K] [LinearOrder K] where
  perm : Equiv.Perm (Fin k)
  scale : Vec k K
  origin : Vec k K
  pos : ∀ j, 0 < scale j

/-- Specification: only the order of the objectives differs. -/
def Recast.Plain (u : Recast k K) : Prop := ∀ j, u.scale j = 1 ∧ u.origin j = 0

/-- Specification: an objective vector, presented anew. -/
def Recast.conv (u : Recast k K) (v : Vec k K) : Vec k K :=
  fun j => u.scale j * v (u.perm j) + u.origin j

/-- Specification: a vector of numbers or missing values, presented anew. -/
def Recast.convB (u : Recast k K) (v : Vec k (Option K)) : Vec k (Option K) :=
  fun j => (v (u.perm j)).map fun x => u.scale j * x + u.origin j

/-- Specification: a list with one entry per objective, presented anew (other lists are unchanged). -/
def Recast.list (u : Recast k K) (l : List (Option K)) : List (Option K) :=
  if l.length = k then List.ofFn fun j => (l[(u.perm j).val]?.getD none).map
    fun x => u.scale j * x + u.origin j
  else l

/-- Specification: the same data, presented anew, with the norm `nrm` and achievement function `asf`. -/
def Recast.cfg (u : Recast k K) (nrm : Vec k K → K) (asf : (ref f : Vec k K) → K) (c : Cfg n k K V) :
    Cfg n k K V :=
  { front := fun i => u.conv (c.front i), ideal := u.conv c.ideal, nadir := u.conv c.nadir,
    vars := c.vars, nrm := nrm, asf := asf }

/-- Specification: the same request, presented anew. -/
def Recast.content (u : Recast k K) (ct : Content n k K) : Content n k K :=
  { ct with lb := u.conv ct.lb, ub := u.conv ct.ub, nav := u.conv ct.nav,
            userBounds := u.convB ct.userBounds }

/-- Specification: the same response, presented anew. -/
def Recast.resp (u : Recast k K) (r : Resp K) : Resp K :=
  { r with ref := r.ref.map u.list, userBounds := r.userBounds.map u.list }

/-- Specification: the same returned request, presented anew. -/
def Recast.out (u : Recast k K) : Out n k K V → Out n k K V
  | .nav ct => .nav (u.content ct)
  | .stop idx objs ds => .stop idx (objs.map u.conv) ds

/-- Specification: everything that `iterate` returns (or raises) when the responses are given in turn,
each to any of the requests issued so far (`issued`, newest first; the number says which one, and a
response to a request that does not exist is skipped). -/
def replay (c : Cfg n k K V) (s : St n k K) (reqs : List (Content n k K)) :
    List (Nat × Resp K) → List (Except Err (Out n k K V))
  | [] => []
  | (i, r) :: rest =>
    match reqs[i]? with
    | none => replay c s reqs rest
    | some ct =>
      (answer c s ct r).2 ::
        replay c (answer c s ct r).1 (match (answer c s ct r).2 with
          | .ok (.nav ct') => ct' :: reqs
          | _ => reqs) rest

/-- Specification: a whole use of the method. -/
def use (c : Cfg n k K V) (steps : List (Nat × Resp K)) : List (Except Err (Out n k K V)) :=
  replay c (initSt c) [start (initSt c)] steps

/-! ### The state -/

/-- The same state, presented anew. -/
def Recast.st (u : Recast k K) (s : St n k K) : St n k K :=
  { s with lb := u.conv s.lb, ub := u.conv s.ub, nav := u.conv s.nav,
           userBounds := u.convB s.userBounds, ref := s.ref.map u.convB }

/-- The same outcome, presented anew. -/
def Recast.res (u : Recast k K) (x : St n k K × Except Err (Out n k K V)) :
    St n k K × Except Err (Out n k K V) := (u.st x.1, x.2.map u.out)

variable [IsStrictOrderedRing K]

theorem Recast.le_iff (u : Recast k K) (x y : K) (j : Fin k) :
    u.scale j * x + u.origin j ≤ u.scale j * y + u.origin j ↔ x ≤ y := by
  rw [add_le_add_iff_right, mul_le_mul_iff_right₀ (u.pos j)]

theorem Recast.lt_iff (u : Recast k K) (x y : K) (j : Fin k) :
    u.scale j * x + u.origin j < u.scale j * y + u.origin j ↔ x < y := by
  rw [← not_le, u.le_iff, not_le]

theorem Recast.all_le (u : Recast k K) (v w : Vec k K) :
    (∀ j, u.conv v j ≤ u.conv w j) ↔ ∀ j, v j ≤ w j := by
  simp only [Recast.conv, u.le_iff]
  exact u.perm.forall_congr_right (q := fun j => v j ≤ w j)

theorem Recast.respects (u : Recast k K) (b : Vec k (Option K)) (f : Vec k K) :
    Respects (u.convB b) (u.conv f) ↔ Respects b f := by
  unfold Respects Recast.convB
  rw [← u.perm.forall_congr_right (q := fun j => ∀ x, b j = some x → f j ≤ x)]
  refine forall_congr' fun j => ?_
  cases hb : b (u.perm j) with
  | none => simp
  | some x =>
    simp only [Option.map_some, Option.some.injEq, forall_eq', Recast.conv, u.le_iff]

theorem Recast.exceeds (u : Recast k K) (b : Vec k (Option K)) (f : Vec k K) :
    exceeds (u.convB b) (u.conv f) = exceeds b f := by
  have := u.respects b f
  rw [← exceeds_false_iff, ← exceeds_false_iff] at this
  cases h1 : Navigator.exceeds b f <;> cases h2 : Navigator.exceeds (u.convB b) (u.conv f) <;>
    simp_all

theorem Recast.convB_map (u : Recast k K) (v : Vec k K) :
    (u.convB fun j => some (v j)) = fun j => some (u.conv v j) := rfl

omit [IsStrictOrderedRing K] in
theorem any_finRange {p : Fin k → Bool} : (List.finRange k).any p = true ↔ ∃ j, p j = true := by
  rw [List.any_eq_true]
  exact ⟨fun ⟨j, _, h⟩ => ⟨j, h⟩, fun ⟨j, h⟩ => ⟨j, List.mem_finRange j, h⟩⟩

omit [IsStrictOrderedRing K] in
theorem Recast.list_broadcast (u : Recast k K) {l : List (Option K)} (hl : l.length = 1 → k = 1 ∨ u.Plain) :
    broadcast k (u.list l) = (broadcast k l).map u.convB := by
  unfold Recast.list
  by_cases h : l.length = k
  · rw [if_pos h]
    unfold broadcast
    rw [dif_pos (by simp), dif_pos h]
    simp only [Except.map]
    congr 1
    funext j
    have hj : (u.perm j).val < l.length := by rw [h]; exact (u.perm j).2
    simp only [List.getElem_ofFn, Recast.convB, List.getElem?_eq_getElem hj, Option.getD_some]
  · rw [if_neg h]
    unfold broadcast
    rw [dif_neg h]
    split
    · rename_i a h
      rcases hl rfl with h1 | h1
      · exact absurd h1.symm h
      · simp only [Except.map]
        congr 1
        funext j
        cases a with
        | none => rfl
        | some x => simp [Recast.convB, (h1 j).1, (h1 j).2]
    · rfl

theorem Recast.toBounds (u : Recast k K) {l : List (Option K)} (hl : l.length = k) :
    toBounds k (u.list l) = u.convB (toBounds k l) := by
  funext j
  unfold Recast.list Navigator.toBounds Recast.convB
  rw [if_pos hl, List.getElem?_eq_getElem (by simp)]
  simp

omit [IsStrictOrderedRing K] in
theorem Recast.list_length (u : Recast k K) (l : List (Option K)) :
    (u.list l).length = l.length := by
  unfold Recast.list
  split
  · rename_i h; simp [h]
  · rfl

theorem nanLt_conv (u : Recast k K) (q : Vec k (Option K)) (v : Vec k K) (j : Fin k) :
    nanLt (u.convB q j) (u.conv v j) = nanLt (q (u.perm j)) (v (u.perm j)) := by
  unfold nanLt Recast.convB Recast.conv
  cases q (u.perm j) <;> simp [u.lt_iff]

theorem nanGt_conv (u : Recast k K) (q : Vec k (Option K)) (v : Vec k K) (j : Fin k) :
    nanGt (u.convB q j) (u.conv v j) = nanGt (q (u.perm j)) (v (u.perm j)) := by
  unfold nanGt Recast.convB Recast.conv
  cases q (u.perm j) <;> simp [u.lt_iff]

theorem any_perm (σ : Equiv.Perm (Fin k)) (p : Fin k → Bool) :
    ((List.finRange k).any fun j => p (σ j)) = (List.finRange k).any p := by
  rw [Bool.eq_iff_iff, any_finRange, any_finRange]
  exact σ.exists_congr_right (q := fun j => p j = true)

variable {c : Cfg n k K V} {nrm' : Vec k K → K} {asf' : (ref f : Vec k K) → K}

theorem validateRef_recast (u : Recast k K) {l : List (Option K)} (hl : l.length = 1 → k = 1 ∨ u.Plain) :
    validateRef (u.cfg nrm' asf' c) (u.list l) = validateRef c l := by
  unfold validateRef
  rw [u.list_broadcast hl]
  cases broadcast k l with
  | error e => rfl
  | ok q =>
    simp only [Except.map, Recast.cfg, nanLt_conv, nanGt_conv]
    rw [any_perm u.perm fun j => nanLt (q j) (c.ideal j), any_perm u.perm fun j => nanGt (q j) (c.nadir j)]

theorem validate_recast (u : Recast k K) {r : Resp K}
    (hl : ∀ l, r.ref = some l → l.length = 1 → k = 1 ∨ u.Plain) :
    validate (u.cfg nrm' asf' c) (u.resp r) = validate c r := by
  unfold validate Recast.resp
  cases hq : r.ref with
  | none => rfl
  | some l =>
    cases r.speed with
    | none => rfl
    | some v =>
      cases r.goToPrevious with
      | none => rfl
      | some g =>
        cases r.userBounds with
        | none => rfl
        | some b =>
          cases r.stop with
          | none => rfl
          | some st =>
            simp only [Option.map_some, validateRef_recast u (hl l hq), u.list_length]

theorem Recast.navPoint (u : Recast k K) (p nav : Vec k K) {rem : Int} (hr : rem ≠ 0) :
    navPoint (u.conv p) (u.conv nav) rem = u.conv (navPoint p nav rem) := by
  funext j
  have : (rem : K) ≠ 0 := by exact_mod_cast hr
  simp only [Navigator.navPoint, Recast.conv]
  field_simp
  ring

theorem Recast.candidates (u : Recast k K) (front : Fin n → Vec k K) (reach : List (Fin n))
    (nav : Vec k K) (b : Vec k (Option K)) (r : Fin k) :
    candidates (fun i => u.conv (front i)) reach (u.conv nav) (u.convB b) r =
      (candidates front reach nav b (u.perm r)).map fun x => u.scale r * x + u.origin r := by
  have key : ∀ i, (∀ j, j ≠ r → u.conv (front i) j ≤ u.conv nav j) ↔
      ∀ j, j ≠ u.perm r → front i j ≤ nav j := by
    intro i
    rw [← u.perm.forall_congr_right (q := fun j => j ≠ u.perm r → front i j ≤ nav j)]
    simp only [Recast.conv, u.le_iff, ne_eq, EmbeddingLike.apply_eq_iff_eq]
  unfold Navigator.candidates
  simp only [u.exceeds, key, List.map_map]
  rfl

theorem minOr_map (f : K → K) (hf : ∀ x y, f x ≤ f y ↔ x ≤ y) (l : List K) (p : K) :
    minOr (l.map f) (f p) = f (minOr l p) := by
  unfold minOr
  rw [npMin_map f hf]
  cases npMin l <;> rfl

theorem maxOr_map (f : K → K) (hf : ∀ x y, f x ≤ f y ↔ x ≤ y) (l : List K) (p : K) :
    maxOr (l.map f) (f p) = f (maxOr l p) := by
  unfold maxOr
  rw [npMax_map f hf]
  cases npMax l <;> rfl

theorem Recast.lowerBounds (u : Recast k K) (front : Fin n → Vec k K) (reach : List (Fin n))
    (nav : Vec k K) (b : Vec k (Option K)) (prev : Vec k K) :
    lowerBounds (fun i => u.conv (front i)) reach (u.conv nav) (u.convB b) (u.conv prev) =
      u.conv (lowerBounds front reach nav b prev) := by
  funext r
  simp only [Navigator.lowerBounds, u.candidates]
  exact minOr_map _ (fun x y => u.le_iff x y r) _ _

theorem Recast.upperBounds (u : Recast k K) (front : Fin n → Vec k K) (reach : List (Fin n))
    (nav : Vec k K) (b : Vec k (Option K)) (prev : Vec k K) :
    upperBounds (fun i => u.conv (front i)) reach (u.conv nav) (u.convB b) (u.conv prev) =
      u.conv (upperBounds front reach nav b prev) := by
  funext r
  simp only [Navigator.upperBounds, u.candidates]
  exact maxOr_map _ (fun x y => u.le_iff x y r) _ _

theorem Recast.reachable (u : Recast k K) (front : Fin n → Vec k K) (lb ub : Vec k K) :
    reachable (fun i => u.conv (front i)) (u.conv lb) (u.conv ub) = reachable front lb ub := by
  unfold Navigator.reachable
  simp only [u.all_le]

/-- What relates the norms of a difference in the two presentations. -/
def Recast.Similar (u : Recast k K) (nrm' nrm : Vec k K → K) : Prop :=
  ∃ g, 0 < g ∧ ∀ v, nrm' (fun j => u.scale j * v (u.perm j)) = g * nrm v

theorem Recast.distance (u : Recast k K) {nrm : Vec k K → K} (hs : u.Similar nrm' nrm)
    (nav p nadir : Vec k K) :
    distance nrm' (u.conv nav) (u.conv p) (u.conv nadir) = distance nrm nav p nadir := by
  obtain ⟨g, hg, hn⟩ := hs
  have e : ∀ v w : Vec k K, nrm' (fun j => u.conv v j - u.conv w j) = g * nrm fun i => v i - w i := by
    intro v w
    rw [← hn]
    congr 1
    funext j
    simp only [Recast.conv]
    ring
  unfold Navigator.distance
  rw [e, e, fdiv_common hg]

theorem move_recast (u : Recast k K) (hs : u.Similar nrm' c.nrm) (s : St n k K) (p : Fin n)
    (b : Vec k (Option K)) (hr : s.rem ≠ 0) :
    move (u.cfg nrm' asf' c) (u.st s) p (u.convB b) = u.st (move c s p b) := by
  unfold move
  simp only [Recast.cfg, Recast.st, u.navPoint _ _ hr, u.lowerBounds, u.upperBounds, u.reachable,
    u.distance hs]
  rfl

theorem advance_recast (u : Recast k K) (hs : u.Similar nrm' c.nrm) (s : St n k K)
    (b : Vec k (Option K)) :
    advance (u.cfg nrm' asf' c) (u.st s) (u.convB b) = u.res (advance c s b) := by
  unfold advance
  have hp : (u.st s).proj = s.proj := rfl
  have hm : (u.st s).rem = s.rem := rfl
  rw [hp, hm]
  cases s.proj with
  | none => rfl
  | some p =>
    by_cases hr : s.rem = 0
    · simp only [if_pos hr]; rfl
    · simp only [if_neg hr, move_recast u hs s p b hr]; rfl

/-! ### The projection -/

/-- `nanargmin` only depends on the order of the entries. -/
theorem nanArgminGo_order {α : Type} (g g' : α → Option K)
    (hsome : ∀ i, (g i).isSome = (g' i).isSome)
    (hlt : ∀ i j x y x' y', g i = some x → g j = some y → g' i = some x' → g' j = some y' →
      (x < y ↔ x' < y')) (l : List α) :
    ∀ (off : Nat) (b b' : Option (K × Nat)),
      ((b = none ∧ b' = none) ∨ ∃ i x x' m, g i = some x ∧ g' i = some x' ∧ b = some (x, m) ∧
        b' = some (x', m)) →
      (nanArgminGo b off (l.map g)).map Prod.snd = (nanArgminGo b' off (l.map g')).map Prod.snd := by
  induction l with
  | nil =>
    intro off b b' h
    rcases h with ⟨rfl, rfl⟩ | ⟨i, x, x', m, _, _, rfl, rfl⟩ <;> rfl
  | cons a l ih =>
    intro off b b' h
    have hs := hsome a
    simp only [List.map_cons]
    cases ha : g a with
    | none =>
      rw [ha] at hs
      cases ha' : g' a with
      | none => exact ih _ _ _ h
      | some y => simp [ha'] at hs
    | some y =>
      rw [ha] at hs
      cases ha' : g' a with
      | none => simp [ha'] at hs
      | some y' =>
        rcases h with ⟨rfl, rfl⟩ | ⟨i, x, x', m, hi, hi', rfl, rfl⟩
        · exact ih _ _ _ (.inr ⟨a, y, y', off, ha, ha', rfl, rfl⟩)
        · simp only [nanArgminGo]
          have := hlt a i y x y' x' ha hi ha' hi'
          by_cases hyx : y < x
          · rw [if_pos hyx, if_pos (this.1 hyx)]
            exact ih _ _ _ (.inr ⟨a, y, y', off, ha, ha', rfl, rfl⟩)
          · rw [if_neg hyx, if_neg (fun h => hyx (this.2 h))]
            exact ih _ _ _ (.inr ⟨i, x, x', m, hi, hi', rfl, rfl⟩)

theorem npNanArgmin_order {α : Type} (g g' : α → Option K)
    (hsome : ∀ i, (g i).isSome = (g' i).isSome)
    (hlt : ∀ i j x y x' y', g i = some x → g j = some y → g' i = some x' → g' j = some y' →
      (x < y ↔ x' < y')) (l : List α) : npNanArgmin (l.map g) = npNanArgmin (l.map g') := by
  have := nanArgminGo_order g g' hsome hlt l 0 none none (.inl ⟨rfl, rfl⟩)
  unfold npNanArgmin
  cases h1 : nanArgminGo none 0 (l.map g) with
  | none =>
    cases h2 : nanArgminGo none 0 (l.map g') with
    | none => rfl
    | some p => simp [h1, h2] at this
  | some p =>
    cases h2 : nanArgminGo none 0 (l.map g') with
    | none => simp [h1, h2] at this
    | some p' =>
      simp only [h1, h2, Option.map_some, Option.some.injEq] at this
      simp only [this]

/-- The rows are ranked in the same way for the reference point `q`. -/
def Recast.SameRank (u : Recast k K) (asf' : (ref f : Vec k K) → K) (c : Cfg n k K V)
    (q : Vec k K) : Prop :=
  ∀ i j, asf' (u.conv q) (u.conv (c.front i)) < asf' (u.conv q) (u.conv (c.front j)) ↔
    c.asf q (c.front i) < c.asf q (c.front j)

theorem solve_recast (u : Recast k K) (reach : List (Fin n)) (q b : Vec k (Option K))
    (hrank : ∀ qv : Vec k K, q = (fun j => some (qv j)) → u.SameRank asf' c qv) :
    solve (u.cfg nrm' asf' c) reach (u.convB q) (u.convB b) = solve c reach q b := by
  by_cases hq : ∃ qv : Vec k K, q = fun j => some (qv j)
  · obtain ⟨qv, rfl⟩ := hq
    have hr := hrank qv rfl
    unfold solve
    simp only [Recast.cfg, u.exceeds, u.convB_map]
    have e : ∀ i, asfValue (u.cfg nrm' asf' c) (fun j => some (u.conv qv j)) (u.conv (c.front i)) =
        some (asf' (u.conv qv) (u.conv (c.front i))) := fun i => asfValue_num _ _ _
    simp only [Recast.cfg] at e
    rw [npNanArgmin_order _
      (fun i => if decide (i ∈ reach) && !Navigator.exceeds b (c.front i) then
        asfValue c (fun j => some (qv j)) (c.front i) else none)]
    · intro i
      simp only [e, asfValue_num]
      split <;> rfl
    · intro i j x y x' y' h1 h2 h3 h4
      simp only [e] at h1 h2
      simp only [asfValue_num] at h3 h4
      split at h1
      · split at h2
        · simp only [Option.some.injEq] at h1 h2
          rename_i hi hj
          rw [if_pos hi] at h3
          rw [if_pos hj] at h4
          simp only [Option.some.injEq] at h3 h4
          subst h1 h2 h3 h4
          exact hr i j
        · simp at h2
      · simp at h1
  · have h1 : ∀ f, asfValue c q f = none := by
      intro f
      cases h : asfValue c q f with
      | none => rfl
      | some x =>
        obtain ⟨qv, h, _⟩ := asfValue_some h
        exact absurd ⟨qv, h⟩ hq
    have h2 : ∀ f, asfValue (u.cfg nrm' asf' c) (u.convB q) f = none := by
      intro f
      cases h : asfValue (u.cfg nrm' asf' c) (u.convB q) f with
      | none => rfl
      | some x =>
        obtain ⟨qv, h, _⟩ := asfValue_some h
        exfalso
        apply hq
        have : ∀ j, ∃ x, q j = some x := by
          intro j
          have := congrFun h (u.perm.symm j)
          simp only [Recast.convB, Equiv.apply_symm_apply] at this
          cases hj : q j with
          | none => simp [hj] at this
          | some x => exact ⟨x, rfl⟩
        choose qv hqv using this
        exact ⟨qv, funext hqv⟩
    unfold solve
    simp only [h1, h2, ite_self]

/-- Whether a reference point counts as changed is decided in the same way. -/
def Recast.SameClose (u : Recast k K) (q q0 : Vec k (Option K)) : Prop :=
  Close (u.convB q) (u.convB q0) ↔ Close q q0

theorem needsProjection_recast (u : Recast k K) (s : St n k K) (q : Vec k (Option K))
    (hc : ∀ q0, s.ref = some q0 → u.SameClose q q0) :
    needsProjection (u.st s) (u.convB q) = needsProjection s q := by
  unfold needsProjection
  have h1 : (u.st s).step = s.step := rfl
  have h2 : (u.st s).ref = s.ref.map u.convB := rfl
  rw [h1, h2]
  split
  · rfl
  · cases hr : s.ref with
    | none => rfl
    | some q0 =>
      have := hc q0 hr
      unfold Recast.SameClose at this
      rw [← allclose_iff, ← allclose_iff] at this
      simp only [Option.map_some]
      congr 2
      exact Bool.eq_iff_iff.2 this

theorem forward_recast (u : Recast k K) (hs : u.Similar nrm' c.nrm) (s : St n k K)
    (q b : Vec k (Option K)) (v : PyVal) (hc : ∀ q0, s.ref = some q0 → u.SameClose q q0)
    (hrank : ∀ qv : Vec k K, q = (fun j => some (qv j)) → u.SameRank asf' c qv) :
    forward (u.cfg nrm' asf' c) (u.st s) (u.convB q) v (u.convB b) = u.res (forward c s q v b) := by
  unfold forward
  rw [needsProjection_recast u s q hc]
  cases needsProjection s q with
  | error e => rfl
  | ok need =>
    cases need with
    | false => exact advance_recast u hs s b
    | true =>
      have h1 : (u.st s).reach = s.reach := rfl
      have h2 : (u.st s).userBounds = u.convB s.userBounds := rfl
      simp only [h1, h2, solve_recast (nrm' := nrm') u s.reach q s.userBounds hrank]
      cases solve c s.reach q s.userBounds with
      | error e => rfl
      | ok p =>
        exact advance_recast u hs
          { s with speed := if s.step = 1 then some v else s.speed, ref := some q, proj := some p } b

theorem handle_recast (u : Recast k K) (hs : u.Similar nrm' c.nrm) (s : St n k K)
    (ct : Content n k K) {r : Resp K} (hv : validate c r = .ok ())
    (hl : ∀ l, r.ref = some l → l.length = 1 → k = 1 ∨ u.Plain)
    (hc : ∀ l q q0, r.ref = some l → Denotes l q → s.ref = some q0 → u.SameClose q q0)
    (hrank : ∀ l, ∀ qv : Vec k K, r.ref = some l → Denotes l (fun j => some (qv j)) →
      InBox c.ideal c.nadir qv → u.SameRank asf' c qv) :
    handle (u.cfg nrm' asf' c) (u.st s) (u.content ct) (u.resp r) = u.res (handle c s ct r) := by
  unfold handle Recast.resp
  cases hq : r.ref with
  | none => rfl
  | some l =>
    cases h1 : r.speed with
    | none => rfl
    | some v =>
      cases h2 : r.goToPrevious with
      | none => rfl
      | some g =>
        cases h3 : r.userBounds with
        | none => rfl
        | some b =>
          cases h4 : r.stop with
          | none => rfl
          | some st =>
            obtain ⟨⟨ql, q1, hq1, hbr1, hbox⟩, _, _, ⟨ul, hul, hulk⟩, _⟩ := validate_ok_iff.1 hv
            rw [hq, Option.some.injEq] at hq1
            rw [h3, Option.some.injEq] at hul
            subst hq1 hul
            have hb := hulk
            simp only [Option.map_some, u.toBounds hb]
            by_cases hst : st = .bool true
            · rw [if_pos hst, if_pos hst]
              simp only [stopRequest, Recast.res, Except.map, Recast.out, Recast.cfg, Recast.content,
                List.map_map]
              rfl
            · rw [if_neg hst, if_neg hst]
              by_cases hg : g = .bool true
              · rw [if_pos hg, if_pos hg]; rfl
              · rw [if_neg hg, if_neg hg, u.list_broadcast (hl l hq)]
                cases hbr : broadcast k l with
                | error e => rfl
                | ok q =>
                  have hd := denotes_of_broadcast hbr
                  exact forward_recast u hs s q _ v (fun q0 h0 => hc l q q0 hq hd h0)
                    (fun qv h => hrank l qv hq (h ▸ hd) fun j => by
                      rw [hbr, Except.ok.injEq] at hbr1
                      exact hbox j (qv j) (by rw [← hbr1, h]))

theorem answer_recast (u : Recast k K) (hs : u.Similar nrm' c.nrm) (s : St n k K)
    (ct : Content n k K) {r : Resp K}
    (hl : ∀ l, r.ref = some l → l.length = 1 → k = 1 ∨ u.Plain)
    (hc : ∀ l q q0, r.ref = some l → Denotes l q → s.ref = some q0 → u.SameClose q q0)
    (hrank : ∀ l, ∀ qv : Vec k K, r.ref = some l → Denotes l (fun j => some (qv j)) →
      InBox c.ideal c.nadir qv → u.SameRank asf' c qv) :
    answer (u.cfg nrm' asf' c) (u.st s) (u.content ct) (u.resp r) = u.res (answer c s ct r) := by
  unfold answer
  rw [validate_recast u hl]
  cases hv : validate c r with
  | error e => rfl
  | ok x => exact handle_recast u hs s ct hv hl hc hrank

omit [IsStrictOrderedRing K] in
/-- The stored reference point is the old one or the given one. -/
theorem answer_ref {c : Cfg n k K V} {s : St n k K} {ct : Content n k K} {r : Resp K}
    {q : Vec k (Option K)} (h : (answer c s ct r).1.ref = some q) :
    s.ref = some q ∨ ∃ l, r.ref = some l ∧ Denotes l q := by
  have hadv : ∀ (s : St n k K) b, (advance c s b).1.ref = s.ref := by
    intro s b
    unfold advance
    cases s.proj with
    | none => rfl
    | some p =>
      simp only
      split <;> rfl
  unfold answer at h
  cases hv : validate c r with
  | error e => rw [hv] at h; exact .inl h
  | ok x =>
    rw [hv] at h
    simp only at h
    unfold handle at h
    cases hq : r.ref with
    | none => simp only [hq] at h; exact .inl h
    | some l =>
      cases h1 : r.speed with
      | none => simp only [hq, h1] at h; exact .inl h
      | some v =>
        cases h2 : r.goToPrevious with
        | none => simp only [hq, h1, h2] at h; exact .inl h
        | some g =>
          cases h3 : r.userBounds with
          | none => simp only [hq, h1, h2, h3] at h; exact .inl h
          | some b =>
            cases h4 : r.stop with
            | none => simp only [hq, h1, h2, h3, h4] at h; exact .inl h
            | some st =>
              simp only [hq, h1, h2, h3, h4] at h
              by_cases hst : st = .bool true
              · rw [if_pos hst] at h; exact .inl h
              · rw [if_neg hst] at h
                by_cases hg : g = .bool true
                · rw [if_pos hg] at h; exact .inl h
                · rw [if_neg hg] at h
                  cases hbr : broadcast k l with
                  | error e => rw [hbr] at h; exact .inl h
                  | ok q1 =>
                    rw [hbr] at h
                    simp only at h
                    unfold forward at h
                    cases hnp : needsProjection s q1 with
                    | error e => rw [hnp] at h; exact .inl h
                    | ok need =>
                      rw [hnp] at h
                      cases need with
                      | false => rw [hadv] at h; exact .inl h
                      | true =>
                        simp only at h
                        cases hso : solve c s.reach q1 s.userBounds with
                        | error e => rw [hso] at h; exact .inl h
                        | ok p =>
                          rw [hso] at h
                          simp only [hadv, Option.some.injEq] at h
                          subst h
                          exact .inr ⟨l, rfl, denotes_of_broadcast hbr⟩

/-- Specification: `q` is one of the reference points given in these responses. -/
def Asked (steps : List (Nat × Resp K)) (q : Vec k (Option K)) : Prop :=
  ∃ p ∈ steps, ∃ l, p.2.ref = some l ∧ Denotes l q

theorem replay_recast (u : Recast k K) (hs : u.Similar nrm' c.nrm) (A : Vec k (Option K) → Prop)
    (hc : ∀ q q0, A q → A q0 → u.SameClose q q0)
    (hrank : ∀ qv : Vec k K, A (fun j => some (qv j)) → InBox c.ideal c.nadir qv →
      u.SameRank asf' c qv)
    (steps : List (Nat × Resp K)) (hA : ∀ q, Asked steps q → A q)
    (hl : ∀ p ∈ steps, ∀ l, p.2.ref = some l → l.length = 1 → k = 1 ∨ u.Plain)
    (s : St n k K) (hsA : ∀ q, s.ref = some q → A q) (reqs : List (Content n k K)) :
    replay (u.cfg nrm' asf' c) (u.st s) (reqs.map u.content)
        (steps.map fun p => (p.1, u.resp p.2)) =
      (replay c s reqs steps).map fun o => o.map u.out := by
  induction steps generalizing s reqs with
  | nil => rfl
  | cons p rest ih =>
    obtain ⟨i, r⟩ := p
    have hA' : ∀ q, Asked rest q → A q := fun q ⟨p, hp, h⟩ => hA q ⟨p, List.mem_cons_of_mem _ hp, h⟩
    have hl' : ∀ p ∈ rest, ∀ l, p.2.ref = some l → l.length = 1 → k = 1 ∨ u.Plain :=
      fun p hp => hl p (List.mem_cons_of_mem _ hp)
    simp only [List.map_cons, replay, List.getElem?_map]
    cases hi : reqs[i]? with
    | none => exact ih hA' hl' s hsA reqs
    | some ct =>
      have hr : ∀ l q, r.ref = some l → Denotes l q → A q := fun l q h1 h2 =>
        hA q ⟨(i, r), by simp, l, h1, h2⟩
      have ha := answer_recast (asf' := asf') u hs s ct (r := r) (hl (i, r) (by simp))
        (fun l q q0 h1 h2 h3 => hc q q0 (hr l q h1 h2) (hsA q0 h3))
        (fun l qv h1 h2 h3 => hrank qv (hr l _ h1 h2) h3)
      have hs' : ∀ q, (answer c s ct r).1.ref = some q → A q := by
        intro q hq
        rcases answer_ref hq with h | ⟨l, h1, h2⟩
        · exact hsA q h
        · exact hr l q h1 h2
      simp only [Option.map_some, ha, List.map_cons, Recast.res]
      congr 1
      have := ih hA' hl' (answer c s ct r).1 hs' (match (answer c s ct r).2 with
          | .ok (.nav ct') => ct' :: reqs
          | _ => reqs)
      rw [← this]
      congr 1
      cases (answer c s ct r).2 with
      | error e => rfl
      | ok o => cases o <;> rfl

/-- The whole use of the method on the data presented anew. -/
theorem use_recast (u : Recast k K) (hs : u.Similar nrm' c.nrm) (steps : List (Nat × Resp K))
    (hc : ∀ q q0, Asked steps q → Asked steps q0 → u.SameClose q q0)
    (hrank : ∀ qv : Vec k K, Asked steps (fun j => some (qv j)) → InBox c.ideal c.nadir qv →
      u.SameRank asf' c qv)
    (hl : ∀ p ∈ steps, ∀ l, p.2.ref = some l → l.length = 1 → k = 1 ∨ u.Plain) :
    use (u.cfg nrm' asf' c) (steps.map fun p => (p.1, u.resp p.2)) =
      (use c steps).map fun o => o.map u.out :=
  replay_recast u hs (Asked steps) hc hrank steps (fun _ h => h) hl (initSt c)
    (by intro q h; simp [initSt] at h) [start (initSt c)]

end Verif.Navigator
