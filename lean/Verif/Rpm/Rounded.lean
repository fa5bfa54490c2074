import Verif.Rpm.Props
import Verif.Approx

set_option linter.unusedSectionVars false

/-!
# The reference point method with rounded arithmetic: property C157

The float operations of ReferencePointMethod.py outside the achievement function are the weights (364, 468) and the
perturbed reference points (528-552). Here every operation is rounded. `Cfg.nrm` is the norm as computed. Without
rounding this is the exact model (`rAnswer_exact`).
-/

namespace Verif.Rpm

open Exec

variable {K : Type} [Field K] [LinearOrder K] {k : Nat} {X D : Type}

/-! ### Model -/

/-- A division of arrays, rounded; division by zero gives infinities or NaN. -/
def rFdiv (rnd : K → K) (a b : K) : Fl K :=
  match fdiv a b with
  | .num x => .num (rnd x)
  | w => w

/-- ReferencePointMethod.py:364, 468: the weights. Rounded. -/
def rWeights (rnd : K → K) (c : Cfg k X D K) (q : Vec k K) : Fin k → Fl K := fun i =>
  rFdiv rnd (q i) (rnd (c.utopian i - c.nadir i))

/-- ReferencePointMethod.py:528-552: the perturbed reference points. Rounded. -/
def rPrp (rnd : K → K) (c : Cfg k X D K) (q f : Vec k K) : Fin k → Vec k K := fun i j =>
  rnd (q j + rnd (c.nrm (fun j => rnd (q j - f j)) * unit i j))

/-- ReferencePointMethod.py:360-423 and 463-526. Rounded. -/
def rSolve (rnd : K → K) (c : Cfg k X D K) (orc : Oracle k D K) (l : List K) :
    Exec (St k X K) (Option (Req k X K)) := do
  let s ← Exec.get
  put St.qs (fun s l => { s with qs := l }) s.h (toVec k l)
  let q ← take St.qs s.h
  let w := rWeights rnd c q
  put St.xs (fun s l => { s with xs := l }) s.h (c.vars (orc.main w q))
  put St.fs (fun s l => { s with fs := l }) s.h (c.obj (orc.main w q))
  let f ← take St.fs s.h
  put St.pqs (fun s l => { s with pqs := l }) s.h (rPrp rnd c q f)
  let p ← take St.pqs s.h
  put St.axs (fun s l => { s with axs := l }) s.h (fun i => c.vars (orc.add i w (p i)))
  put St.afs (fun s l => { s with afs := l }) s.h (fun i => c.obj (orc.add i w (p i)))
  let a ← take St.afs s.h
  pure (some (.nav f a))

/-- ReferencePointMethod.py:348-423. Rounded. -/
def rHandleInitial (rnd : K → K) (c : Cfg k X D K) (r : Resp K) (orc : Oracle k D K) :
    Exec (St k X K) (Option (Req k X K)) :=
  match r.ref with
  | none => Exec.raise .keyError
  | some l => rSolve rnd c orc l

/-- ReferencePointMethod.py:425-526. Rounded. -/
def rHandleNav (rnd : K → K) (c : Cfg k X D K) (r : Resp K) (orc : Oracle k D K) :
    Exec (St k X K) (Option (Req k X K)) :=
  if r.satisfied = some true then
    match r.index with
    | none => Exec.raise .keyError
    | some v => choose v
  else do
    Exec.modify fun s => { s with h := s.h + 1 }
    Exec.modify expand
    match r.ref with
    | none => Exec.raise .keyError
    | some l => rSolve rnd c orc l

/-- ReferencePointMethod.py:325-346. Rounded. -/
def rIterate (rnd : K → K) (c : Cfg k X D K) (req : Req k X K) (r : Resp K) (orc : Oracle k D K) :
    Exec (St k X K) (Option (Req k X K)) :=
  match req with
  | .initial => rHandleInitial rnd c r orc
  | .nav .. => rHandleNav rnd c r orc
  | .stop x f => pure (some (.stop x f))

/-- Setting the response of a request, then calling `iterate`. Rounded. -/
def rAnswer (rnd : K → K) (c : Cfg k X D K) (s : St k X K) (req : Req k X K) (r : Resp K) (orc : Oracle k D K) :
    St k X K × Except Err (Option (Req k X K)) :=
  match validate c req r with
  | .error e => (s, .error e)
  | .ok _ => rIterate rnd c req r orc s

/-- Exact arithmetic. -/
theorem rAnswer_exact (c : Cfg k X D K) (s : St k X K) (req : Req k X K) (r : Resp K) (orc : Oracle k D K) :
    rAnswer id c s req r orc = answer c s req r orc := by
  have hd : ∀ a b : K, rFdiv id a b = fdiv a b := by
    intro a b
    unfold rFdiv
    cases fdiv a b <;> rfl
  have hw : ∀ q, rWeights id c q = weights c q := fun q => funext fun i => hd _ _
  have hs : ∀ l, rSolve id c orc l = solve c orc l := by
    intro l
    unfold rSolve solve
    simp only [hw]
    rfl
  unfold rAnswer answer
  cases validate c req r with
  | error e => rfl
  | ok u =>
    cases req with
    | initial =>
      simp only [rIterate, iterate, rHandleInitial, handleInitial]
      cases r.ref with
      | none => rfl
      | some l => simp only [hs]
    | stop x f => rfl
    | nav f a =>
      simp only [rIterate, iterate, rHandleNav, handleNav]
      by_cases h : r.satisfied = some true
      · rw [if_pos h, if_pos h]
        cases r.index <;> rfl
      · rw [if_neg h, if_neg h]
        cases r.ref with
        | none => rfl
        | some l => simp only [hs]

/-- Everything that can happen to an instance whose arithmetic is rounded: any issued request can be answered, with
any response and any results of the minimizers satisfying `G`. -/
inductive RReached (rnd : K → K) (c : Cfg k X D K) (G : Oracle k D K → Prop) : St k X K → List (Req k X K) → Prop
  | init : RReached rnd c G St.init [.initial]
  | next {s iss req r orc s' o} : RReached rnd c G s iss → req ∈ iss → G orc →
      rAnswer rnd c s req r orc = (s', o) → RReached rnd c G s' (extend o iss)

/-! ### The outcome of an answer -/

/-- The state after an iteration with the reference point `q`. -/
def rSolved (rnd : K → K) (c : Cfg k X D K) (orc : Oracle k D K) (q : Vec k K) (s : St k X K) : St k X K :=
  { h := s.h
    qs := s.qs.set s.h (some q)
    xs := s.xs.set s.h (some (c.vars (orc.main (rWeights rnd c q) q)))
    fs := s.fs.set s.h (some (c.obj (orc.main (rWeights rnd c q) q)))
    pqs := s.pqs.set s.h (some (rPrp rnd c q (c.obj (orc.main (rWeights rnd c q) q))))
    axs := s.axs.set s.h (some fun i => c.vars (orc.add i (rWeights rnd c q)
      (rPrp rnd c q (c.obj (orc.main (rWeights rnd c q) q)) i)))
    afs := s.afs.set s.h (some fun i => c.obj (orc.add i (rWeights rnd c q)
      (rPrp rnd c q (c.obj (orc.main (rWeights rnd c q) q)) i))) }

/-- The request shown after an iteration with the reference point `q`. -/
def rShown (rnd : K → K) (c : Cfg k X D K) (orc : Oracle k D K) (q : Vec k K) : Req k X K :=
  .nav (c.obj (orc.main (rWeights rnd c q) q)) fun i => c.obj (orc.add i (rWeights rnd c q)
      (rPrp rnd c q (c.obj (orc.main (rWeights rnd c q) q)) i))

theorem rSolve_eq {rnd : K → K} {c : Cfg k X D K} {orc : Oracle k D K} {l : List K} {s : St k X K} (hs : Store s) :
    rSolve rnd c orc l s = (rSolved rnd c orc (toVec k l) s, .ok (some (rShown rnd c orc (toVec k l)))) := by
  have hr := hs.room
  have h0 : s.h < s.qs.length := by omega
  have h1 : s.h < s.xs.length := by have := hs.x; omega
  have h2 : s.h < s.fs.length := by have := hs.f; omega
  have h3 : s.h < s.pqs.length := by have := hs.p; omega
  have h4 : s.h < s.axs.length := by have := hs.ax; omega
  have h5 : s.h < s.afs.length := by have := hs.af; omega
  unfold rSolve
  rw [get_bind]
  refine bind_ok.2 ⟨_, (), put_ok.2 ⟨h0, rfl⟩, ?_⟩
  refine bind_ok.2 ⟨_, toVec k l, take_ok.2 ⟨rfl, set_get h0⟩, ?_⟩
  refine bind_ok.2 ⟨_, (), put_ok.2 ⟨h1, rfl⟩, ?_⟩
  refine bind_ok.2 ⟨_, (), put_ok.2 ⟨h2, rfl⟩, ?_⟩
  refine bind_ok.2 ⟨_, c.obj (orc.main (rWeights rnd c (toVec k l)) (toVec k l)),
    take_ok.2 ⟨rfl, set_get h2⟩, ?_⟩
  refine bind_ok.2 ⟨_, (), put_ok.2 ⟨h3, rfl⟩, ?_⟩
  refine bind_ok.2 ⟨_, _, take_ok.2 ⟨rfl, set_get h3⟩, ?_⟩
  refine bind_ok.2 ⟨_, (), put_ok.2 ⟨h4, rfl⟩, ?_⟩
  refine bind_ok.2 ⟨_, (), put_ok.2 ⟨h5, rfl⟩, ?_⟩
  exact bind_ok.2 ⟨_, _, take_ok.2 ⟨rfl, set_get h5⟩, rfl⟩

theorem rSolved_store {rnd : K → K} {c : Cfg k X D K} {orc : Oracle k D K} {q : Vec k K} {s : St k X K}
    (hs : Store s) : Store (rSolved rnd c orc q s) := by
  obtain ⟨a, b, d, e, f, g, h⟩ := hs
  refine ⟨a, ?_, ?_, ?_, ?_, ?_, ?_⟩ <;> simpa [rSolved]

/-- An answer leaves the state with storage; if it shows new solutions, they come from one iteration. -/
theorem rAnswer_cases {rnd : K → K} {c : Cfg k X D K} {orc : Oracle k D K} {s s' : St k X K} {req : Req k X K}
    {r : Resp K} {o : Except Err (Option (Req k X K))} (hs : Store s) (h : rAnswer rnd c s req r orc = (s', o)) :
    Store s' ∧ ∀ f a, o = .ok (some (.nav f a)) → ∃ t l, Store t ∧ r.ref = some l ∧ l.length = k ∧
      (.nav f a : Req k X K) = rShown rnd c orc (toVec k l) ∧ s' = rSolved rnd c orc (toVec k l) t := by
  unfold rAnswer at h
  split at h
  · cases h
    exact ⟨hs, by simp⟩
  · rename_i u hv
    cases req with
    | initial =>
      simp only [rIterate, rHandleInitial, validate] at h hv
      unfold validateInitial at hv
      split at hv
      · simp at hv
      · rename_i l hl
        simp only [hl] at h
        rw [rSolve_eq hs] at h
        cases h
        refine ⟨rSolved_store hs, fun f a e => ⟨s, l, hs, hl, (validateRef_ok hv).1, by simpa using e.symm, rfl⟩⟩
    | stop x f =>
      simp only [rIterate, pure_run] at h
      cases h
      exact ⟨hs, by simp⟩
    | nav f a =>
      simp only [rIterate, rHandleNav, validate] at h hv
      by_cases hsat : r.satisfied = some true
      · rw [if_pos hsat] at h
        cases hi : r.index with
        | none => simp [validateNav, hsat, hi, validateIndex] at hv
        | some v =>
          simp only [hi] at h
          have : s' = s := by rw [← choose_state v s, h]
          subst this
          refine ⟨hs, fun f a e => ?_⟩
          subst e
          obtain ⟨x, f', h'⟩ := choose_result h
          simp at h'
      · rw [if_neg hsat] at h
        unfold validateNav at hv
        rw [if_neg hsat] at hv
        split at hv
        · simp at hv
        · rename_i l hl
          simp only [hl] at h
          rw [modify_bind, modify_bind, rSolve_eq (expand_store hs)] at h
          cases h
          exact ⟨rSolved_store (expand_store hs), fun f a e => ⟨_, l, expand_store hs, hl, (validateRef_ok hv).1,
            by simpa using e.symm, rfl⟩⟩

theorem RReached.store {rnd : K → K} {c : Cfg k X D K} {G : Oracle k D K → Prop} {s : St k X K}
    {iss : List (Req k X K)} (h : RReached rnd c G s iss) : Store s := by
  induction h with
  | init => exact init_store
  | next _ _ _ ha ih => exact (rAnswer_cases ih ha).1

/-! ### C157 -/

section
variable [IsStrictOrderedRing K] {u : K} {rnd : K → K}

theorem rWeights_num (hr : IsRounding u rnd) (hu1 : u < 1) {c : Cfg k X D K} (q : Vec k K) (i : Fin k)
    (h : c.utopian i ≠ c.nadir i) :
    rWeights rnd c q i = .num (rnd (q i / rnd (c.utopian i - c.nadir i))) := by
  unfold rWeights rFdiv fdiv
  rw [if_neg fun h0 => sub_ne_zero.2 h (IsRounding.eq_zero hr hu1 h0)]

theorem rWeights_spec (hr : IsRounding u rnd) (hu1 : u < 1) {c : Cfg k X D K} (q : Vec k K) (i : Fin k)
    (h : c.utopian i < c.nadir i) : ∃ x, rWeights rnd c q i = .num x ∧ (q i ≤ 0 → 0 ≤ x) ∧ (0 ≤ q i → x ≤ 0) ∧
      (1 - u) * |q i| ≤ (1 + u) * (|x| * (c.nadir i - c.utopian i)) ∧
      (1 - u) * (|x| * (c.nadir i - c.utopian i)) ≤ (1 + u) * |q i| := by
  have hneg : rnd (c.utopian i - c.nadir i) ≤ 0 := hr.nonpos (by linarith)
  have hne : rnd (c.utopian i - c.nadir i) ≠ 0 := fun h0 => sub_ne_zero.2 h.ne (IsRounding.eq_zero hr hu1 h0)
  refine ⟨_, rWeights_num hr hu1 q i h.ne, fun h0 => hr.nonneg (div_nonneg_of_nonpos h0 hneg),
    fun h0 => hr.nonpos (div_nonpos_of_nonneg_of_nonpos h0 hneg), ?_⟩
  set D := c.nadir i - c.utopian i with hD
  have hD0 : 0 < D := by linarith
  set E := rnd (c.utopian i - c.nadir i) with hE
  have h1 := hr.close (c.utopian i - c.nadir i)
  rw [← hE, show c.utopian i - c.nadir i = -D by rw [hD]; ring, abs_neg, abs_of_pos hD0, sub_neg_eq_add] at h1
  have hEp : 0 < |E| := abs_pos.2 hne
  have hEa : |E| = -E := abs_of_nonpos hneg
  obtain ⟨h2, h3⟩ := abs_le.1 h1
  have h4 := hr.close (q i / E)
  set x := rnd (q i / E)
  have h5 : |q i / E| * |E| = |q i| := by rw [← abs_mul, div_mul_cancel₀ _ hne]
  set y := |q i / E|
  have hy : 0 ≤ y := abs_nonneg _
  have h6 : |x| ≤ (1 + u) * y := by
    have := abs_sub_abs_le_abs_sub x (q i / E)
    linarith
  have h7 : (1 - u) * y ≤ |x| := by
    have := abs_sub_abs_le_abs_sub (q i / E) x
    rw [abs_sub_comm] at this
    linarith
  rw [← h5, hEa]
  have a1 : -E ≤ (1 + u) * D := by linarith
  have a2 : (1 - u) * D ≤ -E := by linarith
  constructor
  · have b1 : (1 - u) * y * (-E) ≤ |x| * (-E) := mul_le_mul_of_nonneg_right h7 (by linarith)
    have b2 : |x| * (-E) ≤ |x| * ((1 + u) * D) := mul_le_mul_of_nonneg_left a1 (abs_nonneg _)
    linarith
  · have b1 : |x| * ((1 - u) * D) ≤ |x| * (-E) := mul_le_mul_of_nonneg_left a2 (abs_nonneg _)
    have b2 : |x| * (-E) ≤ (1 + u) * y * (-E) := mul_le_mul_of_nonneg_right h6 (by linarith)
    linarith

/-- **C157** (perturbed reference points). In floating-point arithmetic: for every answer that shows new solutions `f`
and `a` for a reference point `q` of floats, the weights are those of exact arithmetic up to two roundings, with the
same signs; the `i`-th additional solution is the one found for the reference point
`p i` that is exactly `q` in all components but the `i`-th, where it is not better than `q` and within two roundings of
`q` plus the distance; if `f` is `q`, all perturbed points are `q`. Missing: that they are not `q` if `f` is not `q`,
see `C157_fails`. -/
theorem C157_perturbed_partial (hr : IsRounding u rnd) (hu : 0 ≤ u) (hu1 : u < 1) {c : Cfg k X D K}
    (hnrm : Definite c.nrm) {G : Oracle k D K → Prop} {s s' : St k X K} {iss : List (Req k X K)} {req : Req k X K}
    {r : Resp K} {orc : Oracle k D K} {f : Vec k K} {a : Fin k → Vec k K} (hR : RReached rnd c G s iss)
    {l : List K} (hl : r.ref = some l) (hm : ∀ x ∈ l, Machine rnd x)
    (ha : rAnswer rnd c s req r orc = (s', .ok (some (.nav f a)))) :
    ∃ (q : Vec k K) (w : Fin k → Fl K) (p : Fin k → Vec k K) (d : K),
      l.length = k ∧ (∀ i, l[i.val]? = some (q i)) ∧ f = c.obj (orc.main w q) ∧
      (∀ i, c.utopian i < c.nadir i → ∃ x, w i = .num x ∧ (q i ≤ 0 → 0 ≤ x) ∧ (0 ≤ q i → x ≤ 0) ∧
        (1 - u) * |q i| ≤ (1 + u) * (|x| * (c.nadir i - c.utopian i)) ∧
        (1 - u) * (|x| * (c.nadir i - c.utopian i)) ≤ (1 + u) * |q i|) ∧
      s'.pqs[s'.h]? = some (some p) ∧
      (∀ i, a i = c.obj (orc.add i w (p i))) ∧
      (∀ i j, j ≠ i → p i j = q j) ∧ (∀ i, q i ≤ p i i) ∧ (∀ i, Machine rnd (p i i)) ∧
      (∃ v : Vec k K, d = c.nrm v ∧ ∀ j, |v j - (q j - f j)| ≤ u * |q j - f j|) ∧
      (∀ i, |p i i - (q i + d)| ≤ ((1 + u) ^ 2 - 1) * (|q i| + d)) ∧
      (f = q → ∀ i, p i = q) := by
  obtain ⟨t, l', ht, hl', hk, hsh, hs'⟩ := (rAnswer_cases hR.store ha).2 f a rfl
  rw [hl] at hl'
  cases hl'
  subst hs'
  simp only [rShown, Req.nav.injEq] at hsh
  obtain ⟨rfl, rfl⟩ := hsh
  set q := toVec k l with hq
  have hget : ∀ i : Fin k, l[i.val]? = some (q i) := by
    intro i
    have : i.val < l.length := by omega
    simp [hq, toVec, this]
  have hqm : ∀ i, Machine rnd (q i) := fun i => hm _ (List.mem_of_getElem? (hget i))
  set f := c.obj (orc.main (rWeights rnd c q) q)
  set d := c.nrm fun j => rnd (q j - f j) with hd
  have hd0 : 0 ≤ d := hnrm.nonneg _
  have hsame : ∀ i j, j ≠ i → rPrp rnd c q f i j = q j := by
    intro i j hj
    simp only [rPrp, unit, hj, if_false, mul_zero, hr.zero, add_zero]
    exact hqm j
  have hown : ∀ i, rPrp rnd c q f i i = rnd (q i + rnd d) := by
    intro i
    simp only [rPrp, unit, if_true, mul_one, ← hd]
  refine ⟨q, rWeights rnd c q, rPrp rnd c q f, d, hk, hget, rfl,
    fun i hi => rWeights_spec hr hu1 q i hi, ?_, fun _ => rfl, hsame, fun i => ?_, fun i => ?_,
    ⟨_, hd, fun j => hr.close _⟩, fun i => ?_, fun hf i => ?_⟩
  · obtain ⟨b1, b2, b3, b4, b5, b6, b7⟩ := ht
    exact set_get (by omega)
  · rw [hown]
    have h1 : 0 ≤ rnd d := hr.nonneg hd0
    exact (le_of_eq (hqm i).symm).trans (hr.mono _ _ (by linarith))
  · rw [hown]
    exact hr.idem _
  · rw [hown]
    have h1 := (approx_refl (u := u) d).round hr hu
    have h2 := h1.abs_le
    unfold Approx at h1
    have h3 := hr.close (q i + rnd d)
    have h4 : |rnd (q i + rnd d) - (q i + d)| ≤ |rnd (q i + rnd d) - (q i + rnd d)| + |q i + rnd d - (q i + d)| :=
      abs_sub_le _ _ _
    have e : q i + rnd d - (q i + d) = rnd d - d := by ring
    rw [e] at h4
    have h5 := abs_add_le (q i) (rnd d)
    rw [abs_of_nonneg hd0, zero_add, pow_one] at h1 h2
    have h6 : u * |q i + rnd d| ≤ u * (|q i| + (1 + u) * d) := by
      refine mul_le_mul_of_nonneg_left ?_ hu
      linarith
    have h7 : 0 ≤ u * (1 + u) * |q i| := by positivity
    nlinarith
  · funext j
    by_cases hj : j = i
    · subst hj
      have h0 : d = 0 := by
        rw [hd, hnrm.eq_zero]
        intro j
        rw [hf, sub_self, hr.zero]
      rw [hown, h0, hr.zero, add_zero]
      exact hqm j
    · exact hsame i j hj

/-- **C157** (optimality). With minimizers that solve the achievement problems exactly for the rounded weights and the
rounded perturbed points, and a reference point without positive components, all solutions shown are Pareto optimal. -/
theorem C157_optimal (hr : IsRounding u rnd) (hu : 0 ≤ u) (hu1 : u < 1) {k : Nat} {c : Cfg (k + 1) X D K}
    (hnrm : Definite c.nrm) {G : Oracle (k + 1) D K → Prop} {s s' : St (k + 1) X K} {iss : List (Req (k + 1) X K)}
    {req : Req (k + 1) X K} {r : Resp K} {orc : Oracle (k + 1) D K} {f : Vec (k + 1) K}
    {a : Fin (k + 1) → Vec (k + 1) K} {l : List K} (hR : RReached rnd c G s iss) (hE : Exact c orc)
    (hlt : ∀ i, c.utopian i < c.nadir i) (hl : r.ref = some l) (hm : ∀ x ∈ l, Machine rnd x) (hneg : ∀ x ∈ l, x ≤ 0)
    (ha : rAnswer rnd c s req r orc = (s', .ok (some (.nav f a)))) :
    ParetoOptimal c f ∧ ∀ i, ParetoOptimal c (a i) := by
  obtain ⟨q, w, p, d, hk, hq, hf, hw, hp, ha', _⟩ := C157_perturbed_partial hr hu hu1 hnrm hR hl hm ha
  choose mu hmu hpos hneg' hrest using fun i => hw i (hlt i)
  have hw' : w = fun i => .num (mu i) := funext hmu
  subst hw'
  have hmu : ∀ i, 0 ≤ mu i := fun i => hpos i (hneg _ (List.mem_of_getElem? (hq i)))
  constructor
  · intro e he
    have h1 := refPointASF_strict (q := q) (rho := 1/10000) hmu hlt (by norm_num) he
    have h2 := hE.main mu q e
    rw [← hf] at h2
    exact absurd h1 (not_lt.2 h2)
  · intro i e he
    have h1 := refPointASF_strict (q := p i) (rho := 1/10000) hmu hlt (by norm_num) he
    have h2 := hE.add i mu (p i) e
    rw [← ha' i] at h2
    exact absurd h1 (not_lt.2 h2)

end

/-! ### Examples -/

theorem exCfg_definite : Definite exCfg.nrm := ⟨supNorm_spec.nonneg, supNorm_spec.eq_zero⟩

/-- The reference point (-3.1, -2), as doubles. -/
def exRound : Resp ℚ := { ref := some [double (-31/10), -2] }

theorem exRound_machine : ∀ x ∈ [double (-31/10), -2], Machine double x := by
  intro x hx
  simp only [List.mem_cons, List.not_mem_nil, or_false] at hx
  rcases hx with rfl | rfl
  · exact double_idem _
  · exact eq_of_beq (by decide +kernel)

/-- One request after another: the second answer of a session. -/
theorem exRound_reached : RReached double exCfg (Exact exCfg) (rAnswer double exCfg St.init .initial exRound exOrc).1
    (extend (rAnswer double exCfg St.init .initial exRound exOrc).2 [.initial]) :=
  .next .init (by simp) exOrc_exact rfl

example := C157_perturbed_partial (r := exRound) (orc := exOrc) isRounding_double (by norm_num) (by norm_num) exCfg_definite
  exRound_reached (req := .initial) rfl exRound_machine
  (f := ![-3, -2]) (a := ![![-3, -2], ![-3, -2]]) (eq_of_beq (by decide +kernel) : rAnswer double exCfg
    (rAnswer double exCfg St.init .initial exRound exOrc).1 .initial exRound exOrc =
      ((rAnswer double exCfg (rAnswer double exCfg St.init .initial exRound exOrc).1 .initial exRound exOrc).1, _))

example := C157_optimal (r := exRound) (orc := exOrc) isRounding_double (by norm_num) (by norm_num) exCfg_definite
  exRound_reached (req := .initial) exOrc_exact (by decide) rfl exRound_machine (by decide +kernel)
  (f := ![-3, -2]) (a := ![![-3, -2], ![-3, -2]]) (eq_of_beq (by decide +kernel) : rAnswer double exCfg
    (rAnswer double exCfg St.init .initial exRound exOrc).1 .initial exRound exOrc =
      ((rAnswer double exCfg (rAnswer double exCfg St.init .initial exRound exOrc).1 .initial exRound exOrc).1, _))

/-- One solution, one unit below the reference point `2^53` in the first objective. -/
def exBig : Cfg 2 ℚ Unit ℚ where
  ideal := ![0, 0]
  nadir := ![2 ^ 54, 2 ^ 54]
  utopian := ![-1, -1]
  vars := fun _ => 0
  obj := fun _ => ![2 ^ 53 - 1, 2 ^ 53]
  nrm := supNorm

/-- C157 fails in full: the solution found differs from the reference point, but the distance is lost when it is added,
and all "perturbed" reference points are the reference point itself. -/
theorem C157_fails :
    ∃ s', rAnswer double exBig St.init .initial { ref := some [2 ^ 53, 2 ^ 53] } ⟨fun _ _ => (), fun _ _ _ => ()⟩ =
      (s', .ok (some (.nav ![2 ^ 53 - 1, 2 ^ 53] fun _ => ![2 ^ 53 - 1, 2 ^ 53]))) ∧
    s'.qs[s'.h]? = some (some ![2 ^ 53, 2 ^ 53]) ∧ s'.pqs[s'.h]? = some (some fun _ => ![2 ^ 53, 2 ^ 53]) ∧
    Definite exBig.nrm :=
  ⟨(rAnswer double exBig St.init .initial { ref := some [2 ^ 53, 2 ^ 53] } ⟨fun _ _ => (), fun _ _ _ => ()⟩).1,
    eq_of_beq (by decide +kernel), eq_of_beq (by decide +kernel), eq_of_beq (by decide +kernel),
    ⟨supNorm_spec.nonneg, supNorm_spec.eq_zero⟩⟩

end Verif.Rpm
