import Verif.ParetoNav.Approach
import Verif.Approx

set_option linter.unusedSectionVars false

/-!
# Pareto Navigator with rounded arithmetic: property C158

Every float operation of ParetoNavigator.py (speed, weights, matrix of the linear problem, direction, moved reference
point) is rounded. Negation, absolute value, minimum and maximum are exact. Qhull and `linprog` are parameters, as in
the exact model. Without rounding this is the exact model (`rAnswer_exact`, `rConstruct_exact`).
-/

namespace Verif.ParetoNav

open Exec

variable {K : Type} [Field K] [LinearOrder K] {k : Nat} {X D : Type}

/-! ### Model -/

/-- ParetoNavigator.py:600. Rounded. -/
def rCalcSpeed (rnd : K → K) (v : PyVal) : Except Err K :=
  match v with
  | .int z => .ok (rnd (rnd ((z : K) / 5) / 10))
  | .bool b => .ok (rnd (rnd ((if b then 1 else 0) / 5) / 10))
  | .float q => .ok (rnd (rnd ((q.num : K) / (q.den : K) / 5) / 10))
  | .str _ => .error .typeError
  | .none => .error .typeError

/-- ParetoNavigator.py:613. Rounded. -/
def rWeights (rnd : K → K) (ideal nadir : Vec k K) : Vec k K := fun i => rnd (1 / rnd (nadir i - ideal i))

/-- ParetoNavigator.py:633-656. Rounded; ideal and nadir agreeing in a component as in `lppMatrix`. -/
def rLppMatrix (rnd : K → K) (w : Vec k K) (A : List (Vec k K)) : List (Vec (k + 1) K) :=
  List.ofFn (fun i : Fin k => (Fin.cons (rnd (-1 / w i)) (fun j => if j = i then 1 else 0) : Vec (k + 1) K)) ++
    A.map fun a => (Fin.cons 0 a : Vec (k + 1) K)

/-- ParetoNavigator.py:669, 724-728. Rounded. -/
def rMoved (rnd : K → K) (k : Nat) (ref : Option (List K)) (cur : Option (Cur K)) (a : K) : Except Err (Vec k K) :=
  match ref, cur with
  | none, _ => .error .typeError
  | _, none => .error .typeError
  | _, some (.scalar _) => .error .typeError
  | some r, some (.vec l) =>
    if l.length ≠ k then .error .valueError
    else if r.length = k then .ok fun i => rnd (toVec k l i + rnd (a * rnd (toVec k r i - toVec k l i)))
    else if r.length = 1 then .ok fun i => rnd (toVec k l i + rnd (a * rnd ((r[0]?).getD 0 - toVec k l i)))
    else .error .valueError

/-- ParetoNavigator.py:428-451. Rounded. -/
def rHandleInitial (rnd : K → K) (P : Prob k X D K) (r : Resp K) (orc : Oracle k D K) :
    Exec (St k X K) (Req k X K) := do
  let p ← startingPoint P r orc
  Exec.modify fun s => { s with cur := some p }
  match r.speed with
  | none => Exec.raise .keyError
  | some v =>
    let a ← Exec.lift (rCalcSpeed rnd v)
    Exec.modify fun s => { s with speed := some a }
    let s ← Exec.get
    pure (navReq s)

/-- ParetoNavigator.py:491-492. Rounded. -/
def rSetSpeed (rnd : K → K) (r : Resp K) : Exec (St k X K) Unit :=
  match r.speed with
  | none => pure ()
  | some v => do
    let a ← Exec.lift (rCalcSpeed rnd v)
    Exec.modify fun s => { s with speed := some a }

/-- ParetoNavigator.py:510-526 and 698-737. Rounded. -/
def rStep (rnd : K → K) (orc : Oracle k D K) (a : K) : Exec (St k X K) (Req k X K) := do
  let s ← Exec.get
  let m ← Exec.lift (rMoved rnd k s.ref s.cur a)
  let x ← Exec.lift (orc.lp s.lppA (List.ofFn m ++ s.b) s.ideal s.nadir)
  Exec.modify fun s => { s with cur := some (.vec (List.ofFn fun i : Fin k => x i.succ)) }
  let s ← Exec.get
  pure (navReq s)

/-- ParetoNavigator.py:453-526. Rounded; the change of sign and the absolute value are exact. -/
def rHandleNav (rnd : K → K) (P : Prob k X D K) (r : Option (Resp K)) (orc : Oracle k D K) :
    Exec (St k X K) (Req k X K) :=
  let r := r.getD {}
  if r.showSolution = some true then handleShow P orc
  else do
    rSetSpeed rnd r
    let a ← setSign r
    setRef r
    rStep rnd orc a

/-- ParetoNavigator.py:549-570. Rounded. -/
def rAddSolution (rnd : K → K) (orc : Oracle k D K) : Exec (St k X K) (Req k X K) := do
  let s ← Exec.get
  match s.poF with
  | none => Exec.raise .typeError
  | some f =>
    Exec.modify fun s => { s with sols := s.sols ++ [f] }
    let s ← Exec.get
    let eqs ← Exec.lift (orc.hull s.sols)
    Exec.modify fun s => { s with b := eqs.map fun e => -e.2 }
    let (hi, lo) ← Exec.lift (extremes s.sols)
    Exec.modify fun s => { s with
      nadir := fun i => max (hi i) (s.nadir i)
      ideal := fun i => min (lo i) (s.ideal i) }
    Exec.modify fun s => { s with lppA := rLppMatrix rnd (rWeights rnd s.ideal s.nadir) (eqs.map Prod.fst) }
    let s ← Exec.get
    pure (navReq s)

/-- ParetoNavigator.py:528-570. Rounded. -/
def rHandleSolution (rnd : K → K) (r : Option (Resp K)) (orc : Oracle k D K) : Exec (St k X K) (Req k X K) :=
  if (r.getD {}).satisfied = some true then do
    let s ← Exec.get
    pure (.stop s.cur s.poX s.poF)
  else rAddSolution rnd orc

/-- ParetoNavigator.py:392-426. Rounded. -/
def rIterate (rnd : K → K) (P : Prob k X D K) (req : Req k X K) (r : Option (Resp K)) (orc : Oracle k D K) :
    Exec (St k X K) (Req k X K) :=
  match req with
  | .initial .. =>
    (match r with
    | none => Exec.raise .typeError
    | some r => rHandleInitial rnd P r orc)
  | .nav .. => rHandleNav rnd P r orc
  | .solution .. => rHandleSolution rnd r orc
  | .stop c x f => pure (.stop c x f)

/-- Setting the response of a request (unless it is answered without one), then calling `iterate`. Rounded. -/
def rAnswer (rnd : K → K) (P : Prob k X D K) (s : St k X K) (req : Req k X K) (r : Option (Resp K))
    (orc : Oracle k D K) : St k X K × Except Err (Req k X K) :=
  match (match r with | none => .ok () | some r => validate req r : Except Err Unit) with
  | .error e => (s, .error e)
  | .ok _ => rIterate rnd P req r orc s

/-- ParetoNavigator.py:337-381. Rounded: only the matrix is computed. -/
def rConstruct (rnd : K → K) (P : Prob k X D K) (supplied : Option (List (Vec k K))) (orc : Oracle k D K) :
    Except Err (St k X K) :=
  match (match P.table, supplied with
    | some t, _ => .ok t
    | none, some l => .ok l
    | none, none => .error .refused : Except Err (List (Vec k K))) with
  | .error e => .error e
  | .ok sols =>
    match (match P.bounds with
      | some (ideal, nadir) => .ok (nadir, ideal)
      | none => extremes sols : Except Err (Vec k K × Vec k K)) with
    | .error e => .error e
    | .ok (nadir, ideal) =>
      match orc.hull sols with
      | .error e => .error e
      | .ok eqs => .ok
          { sols := sols, ideal := ideal, nadir := nadir
            lppA := rLppMatrix rnd (rWeights rnd ideal nadir) (eqs.map Prod.fst)
            b := eqs.map fun e => -e.2 }

/-- Exact arithmetic: the constructor. -/
theorem rConstruct_exact (P : Prob k X D K) (sup : Option (List (Vec k K))) (orc : Oracle k D K) :
    rConstruct id P sup orc = construct P sup orc := rfl

/-- Exact arithmetic. -/
theorem rAnswer_exact (P : Prob k X D K) (s : St k X K) (req : Req k X K) (r : Option (Resp K)) (orc : Oracle k D K) :
    rAnswer id P s req r orc = answer P s req r orc := by
  have hc : ∀ v, (rCalcSpeed id v : Except Err K) = calcSpeed v := by
    intro v
    cases v <;> rfl
  have hm : ∀ ref cur (a : K), rMoved id k ref cur a = moved k ref cur a := by
    intro ref cur a
    unfold rMoved moved
    cases ref with
    | none => rfl
    | some r =>
      cases cur with
      | none => rfl
      | some c => cases c <;> rfl
  have h1 : ∀ r, rHandleInitial id P r orc = handleInitial P r orc := by
    intro r
    unfold rHandleInitial handleInitial
    simp only [hc]
    cases r.speed <;> rfl
  have h2 : ∀ r, rHandleNav id P r orc = handleNav P r orc := by
    intro r
    unfold rHandleNav handleNav rSetSpeed setSpeed rStep step
    simp only [hc, hm]
    cases (r.getD {}).speed <;> rfl
  have h3 : ∀ r, rHandleSolution id r orc = (handleSolution r orc : Exec (St k X K) (Req k X K)) := fun r => rfl
  unfold rAnswer answer
  have h4 : rIterate id P req r orc = iterate P req r orc := by
    unfold rIterate iterate
    simp only [h1, h2, h3]
    cases req <;> cases r <;> rfl
  rw [h4]
  cases r <;> rfl

/-- Every possible history of an object whose arithmetic is rounded. -/
inductive RReached (rnd : K → K) (P : Prob k X D K) (supplied : Option (List (Vec k K))) (G : Oracle k D K → Prop) :
    St k X K → List (Req k X K) → Prop
  | init {s orc} : G orc → rConstruct rnd P supplied orc = .ok s → RReached rnd P supplied G s []
  | start {s iss} : RReached rnd P supplied G s iss → RReached rnd P supplied G s (start s :: iss)
  | next {s iss req r orc s' o} : RReached rnd P supplied G s iss → req ∈ iss → G orc →
      rAnswer rnd P s req r orc = (s', o) → RReached rnd P supplied G s' (extend o iss)

/-! ### Specification -/

/-- `x` is between `p` and `q`. -/
def Between (p q x : K) : Prop := min p q ≤ x ∧ x ≤ max p q

/-- `z` minimizes the largest of the differences to `m`, each measured in units of `R`, over the points inside the
facets and the box. -/
def NearestBy (R lo hi m : Vec k K) (eqs : List (Vec k K × K)) (z : Vec k K) : Prop :=
  Inside eqs z ∧ InBox lo hi z ∧ ∀ z', Inside eqs z' → InBox lo hi z' →
    ∀ t, (∀ i, z' i - m i ≤ t * R i) → ∀ i, z i - m i ≤ t * R i

/-! ### Numbers -/

section
variable [IsStrictOrderedRing K] {u : K} {rnd : K → K}

/-- The step length is positive and at most 6/50, up to two roundings. -/
def RShort (u : K) (o : Option K) : Prop := ∀ a, o = some a → |a| ≤ (1 + u) ^ 2 * (6 / 50)

theorem rCalcSpeed_approx (hr : IsRounding u rnd) (hu : 0 ≤ u) {v : PyVal} {a : K}
    (h : rCalcSpeed rnd v = .ok a) : ∃ b : K, calcSpeed v = .ok b ∧ Approx u 2 a b ∧ (0 ≤ b → 0 ≤ a) := by
  have key : ∀ x : K, Approx u 2 (rnd (rnd (x / 5) / 10)) (x / 5 / 10) ∧
      (0 ≤ x / 5 / 10 → 0 ≤ rnd (rnd (x / 5) / 10)) := by
    intro x
    constructor
    · have := (((approx_refl (x / 5)).round hr hu).mul_left (1 / 10)).round hr hu
      rwa [one_div_mul_eq_div, one_div_mul_eq_div] at this
    · intro h
      exact hr.nonneg (div_nonneg (hr.nonneg (by linarith)) (by norm_num))
  cases v with
  | int z => cases h; exact ⟨_, rfl, key _⟩
  | bool b => cases h; exact ⟨_, rfl, key _⟩
  | float q => cases h; exact ⟨_, rfl, key _⟩
  | str t => cases h
  | none => cases h

theorem rCalcSpeed_short (hr : IsRounding u rnd) (hu : 0 ≤ u) {v : PyVal} {a : K} (hv : validateSpeed v = .ok ())
    (h : rCalcSpeed rnd v = .ok a) : |a| ≤ (1 + u) ^ 2 * (6 / 50) := by
  obtain ⟨b, hb, h1, _⟩ := rCalcSpeed_approx hr hu h
  exact h1.abs_le.trans (mul_le_mul_of_nonneg_left (calcSpeed_short hv hb).2.le (by positivity))

/-- One component of the moved reference point. -/
theorem rMoved_spec (hr : IsRounding u rnd) (hu : 0 ≤ u) (hu2 : u ≤ 1 / 2) {a x y : K} (hx : Machine rnd x)
    (hy : Machine rnd y) (ha : |a| ≤ (1 + u) ^ 2 * (6 / 50)) :
    (0 ≤ a → Between x y (rnd (x + rnd (a * rnd (y - x))))) ∧
    (a ≤ 0 → (x ≤ y → rnd (x + rnd (a * rnd (y - x))) ≤ x) ∧ (y ≤ x → x ≤ rnd (x + rnd (a * rnd (y - x))))) ∧
    |rnd (x + rnd (a * rnd (y - x))) - (x + a * (y - x))| ≤ ((1 + u) ^ 3 - 1) * (|x| + |a * (y - x)|) := by
  have h1 : Approx u 2 (rnd (a * rnd (y - x))) (a * (y - x)) :=
    (((approx_refl _).round hr hu).mul_left a).round hr hu
  have hs1 : 0 ≤ a → x ≤ y → 0 ≤ rnd (a * rnd (y - x)) := fun h h' =>
    hr.nonneg (mul_nonneg h (hr.nonneg (by linarith)))
  have hs2 : 0 ≤ a → y ≤ x → rnd (a * rnd (y - x)) ≤ 0 := fun h h' =>
    hr.nonpos (mul_nonpos_of_nonneg_of_nonpos h (hr.nonpos (by linarith)))
  have hs3 : a ≤ 0 → x ≤ y → rnd (a * rnd (y - x)) ≤ 0 := fun h h' =>
    hr.nonpos (mul_nonpos_of_nonpos_of_nonneg h (hr.nonneg (by linarith)))
  have hs4 : a ≤ 0 → y ≤ x → 0 ≤ rnd (a * rnd (y - x)) := fun h h' =>
    hr.nonneg (mul_nonneg_of_nonpos_of_nonpos h (hr.nonpos (by linarith)))
  set e := rnd (a * rnd (y - x))
  have h2 := h1.abs_le
  have h3 : |e| ≤ |y - x| := by
    refine h2.trans ?_
    rw [abs_mul, ← mul_assoc]
    refine mul_le_of_le_one_left (abs_nonneg _) ?_
    have h4 : (1 + u) ^ 2 ≤ (3 / 2) ^ 2 := pow_le_pow_left₀ (by linarith) (by linarith) 2
    have h5 : |a| ≤ (3 / 2) ^ 2 * (6 / 50) := ha.trans (mul_le_mul_of_nonneg_right h4 (by norm_num))
    calc (1 + u) ^ 2 * |a| ≤ (3 / 2) ^ 2 * ((3 / 2) ^ 2 * (6 / 50)) :=
          mul_le_mul h4 h5 (abs_nonneg _) (by positivity)
      _ ≤ 1 := by norm_num
  refine ⟨fun h => ?_, fun h => ⟨fun hxy => ?_, fun hxy => ?_⟩, ?_⟩
  · rcases le_total x y with hxy | hxy
    · have h6 := hs1 h hxy
      rw [abs_of_nonneg h6, abs_of_nonneg (by linarith)] at h3
      unfold Between
      rw [min_eq_left hxy, max_eq_right hxy]
      exact ⟨(le_of_eq hx.symm).trans (hr.mono x (x + e) (by linarith)),
        (hr.mono (x + e) y (by linarith)).trans (le_of_eq hy)⟩
    · have h6 := hs2 h hxy
      rw [abs_of_nonpos h6, abs_of_nonpos (by linarith)] at h3
      unfold Between
      rw [min_eq_right hxy, max_eq_left hxy]
      exact ⟨(le_of_eq hy.symm).trans (hr.mono y (x + e) (by linarith)),
        (hr.mono (x + e) x (by linarith)).trans (le_of_eq hx)⟩
  · exact (hr.mono (x + e) x (by linarith [hs3 h hxy])).trans (le_of_eq hx)
  · exact (le_of_eq hx.symm).trans (hr.mono x (x + e) (by linarith [hs4 h hxy]))
  · have h4 := hr.close (x + e)
    have h5 : |rnd (x + e) - (x + a * (y - x))| ≤ |rnd (x + e) - (x + e)| + |x + e - (x + a * (y - x))| :=
      abs_sub_le _ _ _
    rw [show x + e - (x + a * (y - x)) = e - a * (y - x) by ring] at h5
    have h6 := abs_add_le x e
    unfold Approx at h1
    set d := a * (y - x)
    have h7 : u * |x + e| ≤ u * (|x| + (1 + u) ^ 2 * |d|) := mul_le_mul_of_nonneg_left (by linarith) hu
    have h8 : (1 : K) ≤ (1 + u) ^ 2 := one_le_pow₀ (by linarith)
    have h9 : u * |x| ≤ ((1 + u) ^ 3 - 1) * |x| := by
      refine mul_le_mul_of_nonneg_right ?_ (abs_nonneg _)
      rw [pow_succ]
      nlinarith
    have h10 : u * ((1 + u) ^ 2 * |d|) + ((1 + u) ^ 2 - 1) * |d| = ((1 + u) ^ 3 - 1) * |d| := by ring
    nlinarith

/-- The unit in which the solver measures a component: positive and three roundings from the range. -/
theorem range_spec (hr : IsRounding u rnd) (hu1 : u < 1) {lo hi : K} (h : lo < hi) :
    ∃ R, 0 < R ∧ rnd (-1 / rnd (1 / rnd (hi - lo))) = -R ∧ (1 - u) ^ 2 * (hi - lo) ≤ (1 + u) * R ∧
      (1 - u) * R ≤ (1 + u) ^ 2 * (hi - lo) := by
  have hpos : ∀ x, 0 < x → 0 < rnd x := fun x hx =>
    lt_of_le_of_ne (hr.nonneg hx.le) fun h0 => hx.ne' (IsRounding.eq_zero hr hu1 h0.symm)
  have hD : 0 < hi - lo := sub_pos.2 h
  have hE := hpos _ hD
  have hw := hpos _ (one_div_pos.2 hE)
  set D := hi - lo
  have c1 := abs_le.1 (hr.close D)
  set E := rnd D
  have c2 := abs_le.1 (hr.close (1 / E))
  set w := rnd (1 / E)
  have c3 := abs_le.1 (hr.close (-1 / w))
  have hq : 0 < 1 / w := one_div_pos.2 hw
  have hne : rnd (-1 / w) ≠ 0 := fun h0 => by
    have := IsRounding.eq_zero hr hu1 h0
    rw [neg_div] at this
    linarith
  have hle : rnd (-1 / w) ≤ 0 := hr.nonpos (by rw [neg_div]; linarith)
  refine ⟨-rnd (-1 / w), by rcases lt_or_eq_of_le hle with h | h; linarith; exact absurd h hne, by ring, ?_, ?_⟩
  all_goals
    rw [neg_div, abs_neg, abs_of_pos hq] at c3
    rw [neg_div]
    rw [abs_of_pos hD] at c1
    rw [abs_of_pos (one_div_pos.2 hE)] at c2
    set R := rnd (-(1 / w))
    set v := 1 / w with hv
    set y := 1 / E with hy
    have e1 : w * v = 1 := by rw [hv]; field_simp
    have e2 : E * y = 1 := by rw [hy]; field_simp
    obtain ⟨a1, a2⟩ := c1
    obtain ⟨b1, b2⟩ := c2
    obtain ⟨d1, d2⟩ := c3
    have hy0 : 0 < y := one_div_pos.2 hE
    have hEv1 : E ≤ (1 + u) * v := by
      have : w * (E * v) ≤ (1 + u) * y * (E * v) := mul_le_mul_of_nonneg_right (by linarith) (by positivity)
      nlinarith [mul_pos hE hq]
    have hEv2 : (1 - u) * v ≤ E := by
      have : (1 - u) * y * (E * v) ≤ w * (E * v) := mul_le_mul_of_nonneg_right (by linarith) (by positivity)
      nlinarith [mul_pos hE hq]
  · have f1 : (1 - u) * v ≤ -R := by linarith
    have f2 : (1 - u) * D ≤ E := by linarith
    have f3 : (1 - u) * ((1 - u) * D) ≤ (1 - u) * E := mul_le_mul_of_nonneg_left f2 (by linarith)
    have f4 : (1 - u) * E ≤ (1 - u) * ((1 + u) * v) := mul_le_mul_of_nonneg_left hEv1 (by linarith)
    have hu0 : 0 ≤ 1 + u := by
      by_contra hc
      push Not at hc
      nlinarith [mul_pos hD hE]
    have f5 : (1 + u) * ((1 - u) * v) ≤ (1 + u) * (-R) := mul_le_mul_of_nonneg_left f1 hu0
    nlinarith
  · have f1 : -R ≤ (1 + u) * v := by linarith
    have f2 : E ≤ (1 + u) * D := by linarith
    have hu0 : 0 ≤ 1 + u := by
      by_contra hc
      push Not at hc
      nlinarith [mul_pos hD hE]
    have f3 : (1 - u) * -R ≤ (1 - u) * ((1 + u) * v) := mul_le_mul_of_nonneg_left f1 (by linarith)
    have f4 : (1 + u) * ((1 - u) * v) ≤ (1 + u) * E := mul_le_mul_of_nonneg_left hEv2 hu0
    have f5 : (1 + u) * E ≤ (1 + u) * ((1 + u) * D) := mul_le_mul_of_nonneg_left f2 hu0
    nlinarith

/-! ### Histories -/

/-- The matrix and right-hand side stored belong to these facets and to the box stored. -/
structure REncodes (rnd : K → K) (s : St k X K) (eqs : List (Vec k K × K)) : Prop where
  A : s.lppA = rLppMatrix rnd (rWeights rnd s.ideal s.nadir) (eqs.map Prod.fst)
  b : s.b = eqs.map fun e => -e.2

/-- What every computation but the addition of a solution keeps. -/
def Quiet (u : K) (s s' : St k X K) : Prop := Frame s s' ∧ (RShort u s.speed → RShort u s'.speed)

theorem Quiet.refl (s : St k X K) : Quiet u s s := ⟨Frame.refl s, id⟩

theorem quiet_bind {α β : Type} {x : Exec (St k X K) α} {f : α → Exec (St k X K) β}
    (hx : ∀ s, Quiet u s (x s).1) (hf : ∀ a s, Quiet u s (f a s).1) (s : St k X K) :
    Quiet u s ((x >>= f) s).1 := by
  show Quiet u s (Exec.bind x f s).1
  unfold Exec.bind
  split
  · have h1 := hx s
    exact ⟨h1.1.trans (hf _ _).1, fun h => (hf _ _).2 (h1.2 h)⟩
  · exact hx s

theorem quiet_same {α : Type} {x : Exec (St k X K) α} (h : ∀ s, Frame s (x s).1) (h' : ∀ s, (x s).1.speed = s.speed)
    (s : St k X K) : Quiet u s (x s).1 := ⟨h s, fun hs => by rw [h' s]; exact hs⟩

theorem quiet_refl {α : Type} {x : Exec (St k X K) α} (h : ∀ s, (x s).1 = s) (s : St k X K) : Quiet u s (x s).1 := by
  rw [h]
  exact Quiet.refl s

/-- Setting a new speed. -/
theorem quiet_set {β : Type} (hr : IsRounding u rnd) (hu : 0 ≤ u) {v : PyVal} (hv : validateSpeed v = .ok ())
    {f : Exec (St k X K) β} (hf : ∀ s, Quiet u s (f s).1) (s : St k X K) :
    Quiet u s ((Exec.lift (rCalcSpeed rnd v) >>= fun a =>
      Exec.modify (fun s : St k X K => { s with speed := some a }) >>= fun _ => f) s).1 := by
  cases hc : (rCalcSpeed rnd v : Except Err K) with
  | error e => rw [lift_error_bind]; exact Quiet.refl s
  | ok a =>
    rw [lift_ok_bind, modify_bind]
    have h1 := hf { s with speed := some a }
    have h0 : Frame s { s with speed := some a } := ⟨rfl, rfl, rfl, rfl, rfl, rfl, rfl⟩
    refine ⟨h0.trans h1.1, fun _ => h1.2 ?_⟩
    intro b hb
    cases hb
    exact rCalcSpeed_short hr hu hv hc

theorem quiet_setSpeed (hr : IsRounding u rnd) (hu : 0 ≤ u) {r : Resp K}
    (hv : ∀ v, r.speed = some v → validateSpeed v = .ok ()) (s : St k X K) : Quiet u s (rSetSpeed rnd r s).1 := by
  unfold rSetSpeed
  cases h : r.speed with
  | none => exact Quiet.refl s
  | some v => exact quiet_set (f := pure ()) hr hu (hv v h) (fun s => Quiet.refl s) s

theorem quiet_setSign (r : Resp K) (s : St k X K) : Quiet u s (setSign r s).1 := by
  refine ⟨frame_setSign r s, fun hs => ?_⟩
  rcases setSign_cases r s with ⟨_, h⟩ | ⟨a, ha, h⟩
  · rw [h]; exact hs
  · rw [h]
    intro b hb
    have hb : some (if r.stepBack = some true then a * (-1) else |a|) = some b := hb
    have h1 := hs a ha
    have : |b| = |a| := by
      cases hb
      split
      · rw [mul_neg_one, abs_neg]
      · exact abs_abs a
    rw [this]
    exact h1

theorem quiet_setRef (r : Resp K) : ∀ s : St k X K, Quiet u s (setRef r s).1 := by
  refine quiet_same (frame_setRef r) fun s => ?_
  unfold setRef
  cases r.ref with
  | some l => rfl
  | none =>
    cases r.classes with
    | none => rfl
    | some cs =>
      simp only [get_bind]
      cases mapClasses s.ideal s.nadir s.cur 0 cs with
      | error e => rw [lift_error_bind]
      | ok l => rw [lift_ok_bind]; rfl

theorem quiet_step (orc : Oracle k D K) (a : K) (s : St k X K) : Quiet u s (rStep rnd orc a s).1 := by
  unfold rStep
  refine quiet_bind (quiet_refl fun _ => rfl) (fun t => quiet_bind (quiet_refl fun _ => rfl) fun m =>
    quiet_bind (quiet_refl fun _ => rfl) fun x => quiet_bind (quiet_same (fun s => ?_) fun _ => rfl) fun _ =>
    quiet_bind (quiet_refl fun _ => rfl) fun t s => Quiet.refl s) s
  exact ⟨rfl, rfl, rfl, rfl, rfl, rfl, rfl⟩

theorem quiet_start (P : Prob k X D K) (r : Resp K) (orc : Oracle k D K) :
    ∀ s : St k X K, Quiet u s (startingPoint P r orc s).1 := by
  refine quiet_same (frame_start P r orc) fun s => ?_
  unfold startingPoint
  cases r.ref with
  | some l =>
    simp only [modify_bind]
    cases orc.asf l with
    | error e => rw [lift_error_bind]
    | ok d => rw [lift_ok_bind]; rfl
  | none =>
    cases r.preferred with
    | none => rfl
    | some i =>
      simp only [get_bind]
      cases pyGet s.sols i with
      | error e => rw [lift_error_bind]
      | ok d => rw [lift_ok_bind]; rfl

theorem quiet_initial (hr : IsRounding u rnd) (hu : 0 ≤ u) (P : Prob k X D K) (orc : Oracle k D K) {r : Resp K}
    (hv : ∀ v, r.speed = some v → validateSpeed v = .ok ()) (s : St k X K) :
    Quiet u s (rHandleInitial rnd P r orc s).1 := by
  unfold rHandleInitial
  refine quiet_bind (quiet_start P r orc) (fun p => quiet_bind (quiet_same (fun s => ?_) fun _ => rfl) fun _ s => ?_) s
  · exact ⟨rfl, rfl, rfl, rfl, rfl, rfl, rfl⟩
  · cases h : r.speed with
    | none => exact Quiet.refl s
    | some v =>
      exact quiet_set hr hu (hv v h) (fun s => quiet_bind (quiet_refl fun _ => rfl) (fun t s => Quiet.refl s) s) s

/-- The state after a rejected solution was added. -/
def rAddedSt (rnd : K → K) (s : St k X K) (f : Vec k K) (eqs : List (Vec k K × K)) (hi lo : Vec k K) : St k X K :=
  { s with
    sols := s.sols ++ [f]
    b := eqs.map fun e => -e.2
    nadir := fun i => max (hi i) (s.nadir i)
    ideal := fun i => min (lo i) (s.ideal i)
    lppA := rLppMatrix rnd (rWeights rnd (fun i => min (lo i) (s.ideal i)) (fun i => max (hi i) (s.nadir i)))
      (eqs.map Prod.fst) }

theorem rAdd_cases (orc : Oracle k D K) (s : St k X K) :
    (s.poF = none ∧ rAddSolution rnd orc s = (s, .error .typeError)) ∨
    ∃ f, s.poF = some f ∧ ((∃ e, orc.hull (s.sols ++ [f]) = .error e ∧
        rAddSolution rnd orc s = ({ s with sols := s.sols ++ [f] }, .error e)) ∨
      ∃ eqs hi lo, orc.hull (s.sols ++ [f]) = .ok eqs ∧ extremes (s.sols ++ [f]) = .ok (hi, lo) ∧
        rAddSolution rnd orc s = (rAddedSt rnd s f eqs hi lo, .ok (navReq (rAddedSt rnd s f eqs hi lo)))) := by
  have hf : s.poF = none ∨ ∃ f, s.poF = some f := by cases s.poF <;> simp
  rcases hf with hf | ⟨f, hf⟩
  · left
    refine ⟨hf, ?_⟩
    unfold rAddSolution
    rw [get_bind, hf]
    rfl
  · right
    refine ⟨f, hf, ?_⟩
    cases hh : orc.hull (s.sols ++ [f]) with
    | error e =>
      left
      refine ⟨e, rfl, ?_⟩
      unfold rAddSolution
      rw [get_bind]
      simp only [hf, modify_bind, get_bind, hh, lift_error_bind]
    | ok eqs =>
      right
      obtain ⟨hi, lo, he⟩ := extremes_append s.sols f
      refine ⟨eqs, hi, lo, rfl, he, ?_⟩
      unfold rAddSolution
      rw [get_bind]
      simp only [hf, modify_bind, get_bind, hh, lift_ok_bind, he, pure_run, rAddedSt]

/-- What holds in every history: the facets in use, and the step length. -/
structure RInv (rnd : K → K) (u : K) (G : Oracle k D K → Prop) (s : St k X K) : Prop where
  approx : ∃ pts eqs orc, G orc ∧ orc.hull pts = .ok eqs ∧ pts <+: s.sols ∧ (HullWorks G → pts = s.sols) ∧
      REncodes rnd s eqs
  short : RShort u s.speed

theorem RInv.quiet {G : Oracle k D K → Prop} {s s' : St k X K} (h : RInv rnd u G s) (hq : Quiet u s s') :
    RInv rnd u G s' := by
  obtain ⟨⟨pts, eqs, orc, h1, h2, h3, h4, h5⟩, h6⟩ := h
  obtain ⟨hf, hs⟩ := hq
  exact ⟨⟨pts, eqs, orc, h1, h2, by rw [hf.sols]; exact h3, by rw [hf.sols]; exact h4,
    ⟨by rw [hf.lppA, hf.ideal, hf.nadir]; exact h5.A, by rw [hf.b]; exact h5.b⟩⟩, hs h6⟩

theorem rAnswer_inv (hr : IsRounding u rnd) (hu : 0 ≤ u) {P : Prob k X D K} {G : Oracle k D K → Prop}
    {s s' : St k X K} {req : Req k X K} {r : Option (Resp K)} {orc : Oracle k D K} {o : Except Err (Req k X K)}
    (hI : RInv rnd u G s) (hG : G orc) (h : rAnswer rnd P s req r orc = (s', o)) : RInv rnd u G s' := by
  have h : (rAnswer rnd P s req r orc).1 = s' := by rw [h]
  subst h
  unfold rAnswer
  split
  · exact hI
  · rename_i w hv
    cases req with
    | initial lo hi l =>
      cases r with
      | none => exact hI
      | some r =>
        exact hI.quiet (quiet_initial hr hu P orc (fun v h => validateInitial_speed (nadir := hi) hv h) s)
    | nav c lo hi =>
      show RInv rnd u G (rHandleNav rnd P r orc s).1
      by_cases hsh : (r.getD {}).showSolution = some true
      · simp only [rHandleNav, hsh, if_true]
        rcases show_cases P orc s with ⟨e, he⟩ | ⟨p, d, _, _, he⟩ <;> rw [he]
        · exact hI
        · obtain ⟨⟨pts, eqs, orc, h1, h2, h3, h4, h5⟩, h6⟩ := hI
          exact ⟨⟨pts, eqs, orc, h1, h2, h3, h4, h5.A, h5.b⟩, h6⟩
      · simp only [rHandleNav]
        rw [if_neg hsh]
        refine hI.quiet (quiet_bind (quiet_setSpeed hr hu fun v h => ?_) (fun _ => quiet_bind (quiet_setSign _) fun a =>
          quiet_bind (quiet_setRef _) fun _ => quiet_step orc a) s)
        cases r with
        | none => simp at h
        | some r => exact validateNav_speed (nadir := hi) hv hsh h
    | solution c x f =>
      show RInv rnd u G (rHandleSolution rnd r orc s).1
      unfold rHandleSolution
      split
      · exact hI
      · obtain ⟨⟨pts, eqs, orc0, h1, h2, h3, h4, h5⟩, h6⟩ := hI
        rcases rAdd_cases (rnd := rnd) orc s with ⟨hf, he⟩ | ⟨f', hf, ⟨e, hh, he⟩ | ⟨eqs', hi, lo, hh, hex, he⟩⟩ <;> rw [he]
        · exact ⟨⟨pts, eqs, orc0, h1, h2, h3, h4, h5⟩, h6⟩
        · exact ⟨⟨pts, eqs, orc0, h1, h2, h3.trans (List.prefix_append _ _), fun hw => absurd hh (hw _ hG _ _),
            h5.A, h5.b⟩, h6⟩
        · exact ⟨⟨_, eqs', orc, hG, hh, List.prefix_refl _, fun _ => rfl, rfl, rfl⟩, h6⟩
    | stop => exact hI

theorem RReached.inv (hr : IsRounding u rnd) (hu : 0 ≤ u) {P : Prob k X D K} {sup} {G : Oracle k D K → Prop}
    {s : St k X K} {iss} (h : RReached rnd P sup G s iss) : RInv rnd u G s := by
  induction h with
  | init hG hc =>
    unfold rConstruct at hc
    split at hc
    · cases hc
    · split at hc
      · cases hc
      · split at hc
        · cases hc
        · rename_i eqs he
          cases hc
          exact ⟨⟨_, eqs, _, hG, he, List.prefix_refl _, fun _ => rfl, rfl, rfl⟩, fun a ha => by cases ha⟩
  | start _ ih => exact ih
  | next _ _ hG ha ih => exact rAnswer_inv hr hu ih hG ha

/-! ### C158 -/

/-- The constraints of the rounded linear problem. -/
theorem rFeasible_iff (w m lo hi z : Vec k K) (t : K) (eqs : List (Vec k K × K)) :
    Feasible (rLppMatrix rnd w (eqs.map Prod.fst)) (List.ofFn m ++ eqs.map fun e => -e.2) lo hi (Fin.cons t z) ↔
      (∀ i, rnd (-1 / w i) * t + z i ≤ m i) ∧ (∀ e ∈ eqs, dot e.1 z ≤ -e.2) ∧ InBox lo hi z := by
  unfold Feasible rLppMatrix
  rw [List.zip_append (by simp), zip_ofFn, List.map_map, List.zip_map']
  simp only [List.forall_mem_append, List.forall_mem_ofFn_iff, List.forall_mem_map, dot_cons, dot_unit, zero_mul,
    zero_add, Function.comp, Fin.cons_succ, InBox, and_assoc]

theorem rSetSpeed_ok {r : Resp K} {s s1 : St k X K} {w : Unit} (h : rSetSpeed rnd r s = (s1, .ok w)) :
    ∃ o, s1 = { s with speed := o } ∧ (r.speed = none → o = s.speed) ∧
      ∀ v, r.speed = some v → ∃ a, rCalcSpeed rnd v = .ok a ∧ o = some a := by
  unfold rSetSpeed at h
  cases hs : r.speed with
  | none =>
    simp only [hs, pure_run, Prod.mk.injEq] at h
    exact ⟨s.speed, h.1.symm, fun _ => rfl, by simp⟩
  | some v =>
    simp only [hs] at h
    obtain ⟨s2, a, h1, h⟩ := bind_ok.1 h
    simp only [lift_run, Prod.mk.injEq] at h1
    obtain ⟨rfl, h1⟩ := h1
    simp only [modify_run, Prod.mk.injEq] at h
    exact ⟨some a, h.1.symm, by simp, by rintro v' ⟨⟩; exact ⟨a, h1, rfl⟩⟩

theorem rMove_ok {orc : Oracle k D K} {r : Resp K} {s s' : St k X K} {q : Req k X K}
    (h : (do
      rSetSpeed rnd r
      let a ← setSign r
      setRef r
      rStep rnd orc a : Exec (St k X K) (Req k X K)) s = (s', .ok q)) :
    ∃ a0 a l m x, ((r.speed = none ∧ s.speed = some a0) ∨ ∃ v, r.speed = some v ∧ rCalcSpeed rnd v = .ok a0) ∧
      a = (if r.stepBack = some true then a0 * (-1) else |a0|) ∧
      newRef s r = .ok l ∧ rMoved rnd k l s.cur a = .ok m ∧
      orc.lp s.lppA (List.ofFn m ++ s.b) s.ideal s.nadir = .ok x ∧
      s' = stepped s a l x ∧ q = navReq s' := by
  obtain ⟨s1, u1, h1, h⟩ := bind_ok.1 h
  obtain ⟨o, rfl, ho, ho'⟩ := rSetSpeed_ok h1
  obtain ⟨s2, a, h2, h⟩ := bind_ok.1 h
  rcases setSign_cases r { s with speed := o } with ⟨_, he⟩ | ⟨a0, ha0, he⟩
  · rw [he] at h2; simp at h2
  rw [he] at h2
  simp only [Prod.mk.injEq, Except.ok.injEq] at h2
  obtain ⟨rfl, ha⟩ := h2
  obtain ⟨s3, u3, h3, h⟩ := bind_ok.1 h
  obtain ⟨l, hl, rfl⟩ := setRef_ok h3
  unfold rStep at h
  rw [get_bind] at h
  obtain ⟨s4, m, h4, h⟩ := bind_ok.1 h
  simp only [lift_run, Prod.mk.injEq] at h4
  obtain ⟨rfl, h4⟩ := h4
  obtain ⟨s5, x, h5, h⟩ := bind_ok.1 h
  simp only [lift_run, Prod.mk.injEq] at h5
  obtain ⟨rfl, h5⟩ := h5
  rw [modify_bind, get_bind] at h
  simp only [pure_run, Prod.mk.injEq, Except.ok.injEq] at h
  obtain ⟨rfl, rfl⟩ := h
  refine ⟨a0, a, l, m, x, ?_, ha.symm, hl, h4, h5, ?_, rfl⟩
  · have ha0 : o = some a0 := ha0
    cases hv : r.speed with
    | none => exact .inl ⟨rfl, by rw [← ho hv]; exact ha0⟩
    | some v =>
      obtain ⟨a1, h6, h7⟩ := ho' v hv
      rw [ha0] at h7
      cases h7
      exact .inr ⟨v, rfl, h6⟩
  · simp only [stepped, ← ha]

/-- **C158**. In floating-point arithmetic, with a linear solver that is exact on the problems it is given, in every
history: when navigation goes on, the new solution is inside the approximation and the box, and nearest to a point `m`
there (each objective measured by a positive unit three roundings from its range; so no point of the approximation is
better in every objective, `C158_weak`). If the current solution `cur` and the reference point `ref` are floats, `m` is
in every objective between them when stepping forward, on the other side of `cur` when stepping backward, and three
roundings from where exact arithmetic puts it for the step length `a`. A step length given with the answer is two
roundings from a fiftieth of the speed. -/
theorem C158_navigation (hr : IsRounding u rnd) (hu : 0 ≤ u) (hu2 : u ≤ 1 / 2) {P : Prob k X D K} {sup}
    {G : Oracle k D K → Prop} {s s' : St k X K} {iss : List (Req k X K)} {c : Option (Cur K)} {lo hi : Vec k K}
    {r : Option (Resp K)} {orc : Oracle k D K} {c' : Option (Cur K)} {lo' hi' : Vec k K}
    (hR : RReached rnd P sup G s iss) (hG : G orc) (hlp : LpExact orc.lp) (hlt : ∀ i, s.ideal i < s.nadir i)
    (ha : rAnswer rnd P s (.nav c lo hi) r orc = (s', .ok (.nav c' lo' hi'))) :
    ∃ (pts : List (Vec k K)) (eqs : List (Vec k K × K)) (orc0 : Oracle k D K) (m z R : Vec k K) (a : K)
      (ref cur : List K),
      G orc0 ∧ pts <+: s.sols ∧ (HullWorks G → pts = s.sols) ∧ orc0.hull pts = .ok eqs ∧
      s.cur = some (.vec cur) ∧ cur.length = k ∧ s'.ref = some ref ∧ s'.speed = some a ∧
      (∀ l, (r.getD {}).ref = some l → ref = l) ∧
      ((r.getD {}).ref = none → (r.getD {}).classes = none → s.ref = some ref) ∧
      c' = some (.vec (List.ofFn z)) ∧ s'.cur = c' ∧
      NearestBy R s.ideal s.nadir m eqs z ∧
      (∀ i, 0 < R i ∧ (1 - u) ^ 2 * (s.nadir i - s.ideal i) ≤ (1 + u) * R i ∧
        (1 - u) * R i ≤ (1 + u) ^ 2 * (s.nadir i - s.ideal i)) ∧
      (ref.length = k → (∀ x ∈ cur, Machine rnd x) → (∀ x ∈ ref, Machine rnd x) →
        ∀ (i : Fin k) x y, cur[i.val]? = some x → ref[i.val]? = some y →
          (0 ≤ a → Between x y (m i)) ∧ (a ≤ 0 → (x ≤ y → m i ≤ x) ∧ (y ≤ x → x ≤ m i)) ∧
          |m i - (x + a * (y - x))| ≤ ((1 + u) ^ 3 - 1) * (|x| + |a * (y - x)|)) ∧
      |a| ≤ (1 + u) ^ 2 * (6 / 50) ∧ ((r.getD {}).stepBack ≠ some true → 0 ≤ a) ∧
      (∀ v b, (r.getD {}).speed = some v → calcSpeed v = .ok b → Approx u 2 |a| |b| ∧
        ((r.getD {}).stepBack = some true → 0 ≤ b → a ≤ 0)) := by
  have hI := hR.inv hr hu
  obtain ⟨pts, eqs, orc0, hG0, hh, hp, hpe, hE⟩ := hI.approx
  have hI' : RInv rnd u G s' := rAnswer_inv hr hu hI hG ha
  have hs : (r.getD {}).showSolution ≠ some true := by
    intro hs
    unfold rAnswer at ha
    split at ha
    · cases (Prod.mk.inj ha).2
    · simp only [rIterate, rHandleNav, hs, if_true] at ha
      rcases show_cases P orc s with ⟨e, he⟩ | ⟨p, d, hp, hd, he⟩
      · rw [he] at ha; cases (Prod.mk.inj ha).2
      · rw [he] at ha; cases (Prod.mk.inj ha).2
  unfold rAnswer at ha
  split at ha
  · cases (Prod.mk.inj ha).2
  simp only [rIterate, rHandleNav] at ha
  rw [if_neg hs] at ha
  obtain ⟨a0, a, l, m, x, h1, h2, h3, h4, h5, rfl, h7⟩ := rMove_ok ha
  simp only [navReq, stepped, Req.nav.injEq] at h7
  obtain ⟨rfl, rfl, rfl⟩ := h7
  have hu1 : u < 1 := by linarith
  choose R hR0 hRe hR1 hR2 using fun i => range_spec hr hu1 (hlt i)
  have hcon : ∀ z t, Feasible s.lppA (List.ofFn m ++ s.b) s.ideal s.nadir (Fin.cons t z) ↔
      (∀ i, z i - m i ≤ t * R i) ∧ Inside eqs z ∧ InBox s.ideal s.nadir z := by
    intro z t
    rw [hE.A, hE.b, rFeasible_iff, inside_iff]
    refine and_congr (forall_congr' fun i => ?_) Iff.rfl
    have : rnd (-1 / rWeights rnd s.ideal s.nadir i) = -R i := hRe i
    rw [this]
    constructor <;> intro h <;> linarith
  obtain ⟨hf, hmin⟩ := hlp _ _ _ _ _ h5
  have hxc : x = (Fin.cons (x 0) (fun i => x i.succ) : Vec (k + 1) K) := (Fin.cons_self_tail x).symm
  rw [hxc, hcon] at hf
  have hshort : |a| ≤ (1 + u) ^ 2 * (6 / 50) := hI'.short a rfl
  have hm' : ∃ ref cur, l = some ref ∧ s.cur = some (.vec cur) ∧ cur.length = k ∧
      (ref.length = k → ∀ (i : Fin k) x y, cur[i.val]? = some x → ref[i.val]? = some y →
        m i = rnd (x + rnd (a * rnd (y - x)))) := by
    unfold rMoved at h4
    split at h4
    · simp at h4
    · simp at h4
    · simp at h4
    · rename_i ref cur hcur
      split_ifs at h4 with h1 h2 h3
      · cases h4
        refine ⟨ref, cur, rfl, hcur, not_not.1 h1, fun _ i x y hx hy => ?_⟩
        simp [toVec, hx, hy]
      · cases h4
        exact ⟨ref, cur, rfl, hcur, not_not.1 h1, fun h => absurd h h2⟩
  obtain ⟨ref, cur, rfl, hc, hcl, hmm⟩ := hm'
  have hr1 : ∀ l, (r.getD {}).ref = some l → ref = l := by
    intro l hl
    simpa [newRef, hl] using h3.symm
  have hr2 : (r.getD {}).ref = none → (r.getD {}).classes = none → s.ref = some ref := by
    intro h1 h2
    simpa [newRef, h1, h2] using h3
  refine ⟨pts, eqs, orc0, m, fun i => x i.succ, R, a, ref, cur, hG0, hp, hpe, hh, hc, hcl, rfl, rfl, hr1, hr2, rfl, rfl,
    ⟨hf.2.1, hf.2.2, ?_⟩, fun i => ⟨hR0 i, hR1 i, hR2 i⟩, ?_, hshort, ?_, ?_⟩
  · intro z' g1 g2 t ht i
    have g3 := hmin (Fin.cons t z') ((hcon _ _).2 ⟨ht, g1, g2⟩)
    exact (hf.1 i).trans (mul_le_mul_of_nonneg_right g3 (hR0 i).le)
  · intro hlen hmc hmr i x y hx hy
    rw [hmm hlen i x y hx hy]
    exact rMoved_spec hr hu hu2 (hmc x (List.mem_of_getElem? hx)) (hmr y (List.mem_of_getElem? hy)) hshort
  · intro hb
    rw [h2, if_neg hb]
    exact abs_nonneg _
  · intro v b hv hb
    rcases h1 with ⟨h1, _⟩ | ⟨v', h1, h1'⟩
    · rw [hv] at h1; cases h1
    · rw [hv] at h1
      cases h1
      obtain ⟨b', hb', ha1, ha2⟩ := rCalcSpeed_approx hr hu h1'
      rw [hb] at hb'
      cases hb'
      constructor
      · have : |a| = |a0| := by
          rw [h2]
          split
          · rw [mul_neg_one, abs_neg]
          · exact abs_abs _
        rw [this]
        unfold Approx at ha1 ⊢
        rw [abs_abs]
        exact (abs_abs_sub_abs_le _ _).trans ha1
      · intro hsb hb0
        rw [h2, if_pos hsb]
        have := ha2 hb0
        linarith

/-- **C158**: no point inside the facets and the box is better in every objective than a nearest one. -/
theorem C158_weak {k : Nat} {R lo hi m : Vec (k + 1) K} {eqs : List (Vec (k + 1) K × K)} {z : Vec (k + 1) K}
    (hR : ∀ i, 0 < R i) (h : NearestBy R lo hi m eqs z) :
    ∀ z', Inside eqs z' → InBox lo hi z' → ¬ StrictlyBetter z' z := by
  intro z' h1 h2 hb
  obtain ⟨i0, hi0⟩ := Finite.exists_max fun i => (z' i - m i) / R i
  have h3 := h.2.2 z' h1 h2 ((z' i0 - m i0) / R i0) (fun i => by
    rw [← div_le_iff₀ (hR i)]
    exact hi0 i) i0
  rw [div_mul_cancel₀ _ (hR i0).ne'] at h3
  have h5 := hb i0
  linarith

end

/-! ### Example: double precision -/

/-- `linprog` on the triangle, exact, for moved reference points near the line between the first two solutions. -/
def exLpR (A : List (Vec 3 ℚ)) (b : List ℚ) (lo hi : Vec 2 ℚ) : Except Err (Vec 3 ℚ) :=
  match b with
  | m0 :: m1 :: rest =>
    if A = lppMatrix (weights ![0, 0] ![1, 1]) (exEqs.map Prod.fst) ∧ rest = exEqs.map (fun e => -e.2) ∧
      lo = ![0, 0] ∧ hi = ![1, 1] ∧ 0 ≤ m0 + (1 - m0 - m1) / 2 ∧ m0 + (1 - m0 - m1) / 2 ≤ 1 then
      .ok ![(1 - m0 - m1) / 2, m0 + (1 - m0 - m1) / 2, m1 + (1 - m0 - m1) / 2] else .error .refused
  | _ => .error .refused

theorem exLpR_exact : LpExact (k := 2) exLpR := by
  intro A b lo hi x h
  unfold exLpR at h
  split at h
  · rename_i m0 m1 rest
    split_ifs at h with hc
    obtain ⟨rfl, rfl, rfl, rfl, h0, h1⟩ := hc
    cases h
    have e : (m0 :: m1 :: exEqs.map fun e => -e.2) = List.ofFn ![m0, m1] ++ exEqs.map fun e => -e.2 := by
      simp [List.ofFn_succ]
    rw [e]
    have hx : (![(1 - m0 - m1) / 2, m0 + (1 - m0 - m1) / 2, m1 + (1 - m0 - m1) / 2] : Vec 3 ℚ) =
      (Fin.cons ((1 - m0 - m1) / 2) ![m0 + (1 - m0 - m1) / 2, m1 + (1 - m0 - m1) / 2] : Vec 3 ℚ) := rfl
    constructor
    · rw [hx, feasible_iff]
      refine ⟨?_, ?_, ?_⟩
      · intro i; fin_cases i <;> simp [weights]
      · simp [exEqs, dot, Fin.sum_univ_two]
        refine ⟨by linarith, by linarith, by linarith⟩
      · intro i
        fin_cases i
        · exact ⟨h0, h1⟩
        · simp only [Fin.mk_one, Matrix.cons_val_one, Matrix.cons_val_fin_one]
          constructor <;> linarith
    · intro y hy
      have hy' : y = (Fin.cons (y 0) (fun i => y i.succ) : Vec 3 ℚ) := (Fin.cons_self_tail y).symm
      rw [hy', feasible_iff] at hy
      obtain ⟨a1, a2, _⟩ := hy
      have b0 := a1 0
      have b1 := a1 1
      have b2 := a2 (![-1, -1], 1) (by simp [exEqs])
      simp [weights, dot, Fin.sum_univ_two] at b0 b1 b2 ⊢
      linarith
  · simp at h

def exOrcR : Oracle 2 ℚ ℚ := { exOrc with lp := exLpR }

def exRS0 : St 2 ℚ ℚ := getSt (rConstruct double exProb (some exSols) exOrcR)
def exRS1 : St 2 ℚ ℚ := (rAnswer double exProb exRS0 (start exRS0) (some exFirst) exOrcR).1
def exRR1 : Req 2 ℚ ℚ := getReq (rAnswer double exProb exRS0 (start exRS0) (some exFirst) exOrcR).2
def exRRef : Resp ℚ := { ref := some [double (3 / 10), double (7 / 10)], speed := some (.int 3) }
def exRS2 : St 2 ℚ ℚ := (rAnswer double exProb exRS1 exRR1 (some exRRef) exOrcR).1
def exRR2 : Req 2 ℚ ℚ := getReq (rAnswer double exProb exRS1 exRR1 (some exRRef) exOrcR).2

theorem exR_reached : RReached double exProb (some exSols) (fun o => o = exOrcR) exRS1 [exRR1, start exRS0] :=
  .next (o := .ok exRR1) (.start (.init (orc := exOrcR) rfl (eq_of_beq (by decide +kernel)))) List.mem_cons_self rfl
    (eq_of_beq (by decide +kernel) : rAnswer double exProb exRS0 (start exRS0) (some exFirst) exOrcR = _)

/-- The components of a `nav` request. -/
def navCur : Req 2 ℚ ℚ → Option (Cur ℚ)
  | .nav c _ _ => c
  | _ => none

/-- From (0, 1) towards (0.3, 0.7) with speed 3, in double precision. -/
example := C158_navigation isRounding_double (by norm_num) (by norm_num) exR_reached rfl exLpR_exact
  (by decide +kernel) (c := some (.vec [0, 1])) (lo := ![0, 0]) (hi := ![1, 1]) (c' := navCur exRR2) (lo' := ![0, 0])
  (hi' := ![1, 1])
  (eq_of_beq (by decide +kernel) : rAnswer double exProb exRS1 (.nav (some (.vec [0, 1])) ![0, 0] ![1, 1]) (some exRRef)
    exOrcR = (exRS2, _))

end Verif.ParetoNav
