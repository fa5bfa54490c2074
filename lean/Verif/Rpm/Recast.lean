import Verif.Nautilus.Recast
import Verif.Rpm.Props

/-!
# The reference point method on the same problem presented differently

The objectives may be listed in another order, measured in other units and from other origins. This file
relates a whole use of the method on the converted problem to the original one; `Units.lean` states the
properties.
-/

namespace Verif.Rpm

open Verif.Navigator (Recast)
open Verif.Nautilus (Comm slotSet_map slotGet_map slotRead_map vmax_perm refPointASF_recast)

set_option linter.unusedSectionVars false

variable {K : Type} [Field K] [LinearOrder K] {k : Nat} {X D : Type}

/-! ### Specification -/

/-- Specification: a reference point with one entry per objective, presented anew. Other lists, which are
refused, are unchanged. -/
def refOf (u : Recast k K) (l : List K) : List K :=
  if l.length = k then List.ofFn (u.conv fun j => l[j.val]?.getD 0) else l

/-- Specification: the choice of an additional solution, presented anew: there is one additional solution
for every objective, listed in the order of the objectives and counted from 1. Everything else (the
current solution, 0, and whatever is refused) is unchanged. -/
def choiceOf (u : Recast k K) (v : PyVal) : PyVal :=
  if h : v.isInstanceInt = true ∧ 1 ≤ v.asInt ∧ v.asInt ≤ k then
    .int ((u.perm.symm ⟨(v.asInt - 1).toNat, by omega⟩).val + 1)
  else v

/-- Specification: the same response, presented anew. -/
def respOf (u : Recast k K) (r : Resp K) : Resp K :=
  { r with ref := r.ref.map (refOf u), index := r.index.map (choiceOf u) }

/-- Specification: the same problem, presented anew, with the utopian point `utopian` and the norm `nrm`. -/
def cfgOf (u : Recast k K) (utopian : Vec k K) (nrm : Vec k K → K) (c : Cfg k X D K) : Cfg k X D K :=
  { ideal := u.conv c.ideal, nadir := u.conv c.nadir, utopian := utopian, vars := c.vars,
    obj := fun d => u.conv (c.obj d), nrm := nrm }

/-- Specification: one objective vector for every objective, presented anew. -/
def manyOf (u : Recast k K) (a : Fin k → Vec k K) : Fin k → Vec k K := fun i => u.conv (a (u.perm i))

/-- Specification: the same request, presented anew. -/
def reqOf (u : Recast k K) : Req k X K → Req k X K
  | .initial => .initial
  | .nav f a => .nav (u.conv f) (manyOf u a)
  | .stop x f => .stop x (f.map u.conv)

/-- Specification: the same result (a request or an exception), presented anew. -/
def resultOf (u : Recast k K) (o : Except Err (Option (Req k X K))) : Except Err (Option (Req k X K)) :=
  o.map fun q => q.map (reqOf u)

/-- Specification: everything that `iterate` returns (or raises) when the responses are given in turn,
each to any of the requests issued so far (newest first; the number says which one, and a response to a
request that does not exist is skipped). -/
def replay (c : Cfg k X D K) (s : St k X K) (reqs : List (Req k X K)) :
    List (Nat × Resp K × Oracle k D K) → List (Except Err (Option (Req k X K)))
  | [] => []
  | (i, r, orc) :: rest =>
    match reqs[i]? with
    | none => replay c s reqs rest
    | some req => (answer c s req r orc).2 ::
        replay c (answer c s req r orc).1 (extend (answer c s req r orc).2 reqs) rest

/-- Specification: a whole use of the method, from the initial request on. -/
def use (c : Cfg k X D K) (steps : List (Nat × Resp K × Oracle k D K)) :
    List (Except Err (Option (Req k X K))) := replay c .init [.initial] steps

/-- Specification: in one call of `iterate` the minimizer is `solver`, which is given the function to be
minimized. If a weight is not a finite number, anything may be returned. -/
structure Uses (c : Cfg (k + 1) X D K) (solver : (D → K) → D) (orc : Oracle (k + 1) D K) : Prop where
  main : ∀ mu q, orc.main (fun i => .num (mu i)) q =
    solver fun d => refPointASF mu c.nadir c.utopian (1 / 10000) q (c.obj d)
  add : ∀ i mu q, orc.add i (fun i => .num (mu i)) q =
    solver fun d => refPointASF mu c.nadir c.utopian (1 / 10000) q (c.obj d)

/-- Specification: in two presentations the minimizers find the same solutions (for the weights and
reference points of the method). -/
structure SameFound (u : Recast k K) (c c' : Cfg k X D K) (orc orc' : Oracle k D K) : Prop where
  main : ∀ q, orc'.main (weights c' (u.conv q)) (u.conv q) = orc.main (weights c q) q
  add : ∀ i q p, orc'.add i (weights c' (u.conv q)) (u.conv p) = orc.add (u.perm i) (weights c q) p

/-- Specification: the same response to the same request, in the two presentations, the minimizers finding
the same solutions. -/
def SameStep (u : Recast k K) (c c' : Cfg k X D K) (p p' : Nat × Resp K × Oracle k D K) : Prop :=
  p'.1 = p.1 ∧ p'.2.1 = respOf u p.2.1 ∧ SameFound u c c' p.2.2 p'.2.2

/-! ### The state -/

/-- The same state, presented anew. -/
def stOf (u : Recast k K) (s : St k X K) : St k X K :=
  { s with qs := s.qs.map (Option.map u.conv), fs := s.fs.map (Option.map u.conv),
           pqs := s.pqs.map (Option.map (manyOf u)), axs := s.axs.map (Option.map fun a i => a (u.perm i)),
           afs := s.afs.map (Option.map (manyOf u)) }

/-- No condition on the state. -/
def Any (_ : St k X K) : Prop := True

variable [IsStrictOrderedRing K]

theorem comm_put {α : Type} {u : Recast k K} {rd : St k X K → List (Option α)}
    {wr : St k X K → List (Option α) → St k X K} {g : α → α}
    (h1 : ∀ s, rd (stOf u s) = (rd s).map (Option.map g))
    (h2 : ∀ s l, wr (stOf u s) (l.map (Option.map g)) = stOf u (wr s l)) (i : Nat) (v : α) :
    Comm Any (stOf u) id (put rd wr i v) (put rd wr i (g v)) := by
  intro s _
  refine ⟨?_, trivial⟩
  unfold put
  have h := slotSet_map g (rd s) i (some v)
  simp only [Option.map_some] at h
  rw [h1, h]
  cases slotSet (rd s) i (some v) with
  | error e => rfl
  | ok l =>
    simp only [Except.map]
    rw [h2]

theorem comm_take {α : Type} {u : Recast k K} {rd : St k X K → List (Option α)} {g : α → α}
    (h1 : ∀ s, rd (stOf u s) = (rd s).map (Option.map g)) (i : Nat) :
    Comm Any (stOf u) g (take rd i) (take rd i) := by
  intro s _
  refine ⟨?_, trivial⟩
  unfold take
  rw [h1, slotGet_map]

theorem comm_look {α : Type} {u : Recast k K} {rd : St k X K → List (Option α)} {g : α → α}
    (h1 : ∀ s, rd (stOf u s) = (rd s).map (Option.map g)) (i : Nat) :
    Comm Any (stOf u) (Option.map g) (look rd i) (look rd i) := by
  intro s _
  refine ⟨?_, trivial⟩
  unfold look
  rw [h1, slotRead_map]

theorem Comm.any {α β : Type} {u : Recast k K} {g : α → β} {x : Exec (St k X K) α}
    {x' : Exec (St k X K) β} (h : Comm Any (stOf u) g x x') (s : St k X K) :
    x' (stOf u s) = (stOf u (x s).1, (x s).2.map g) := (h s trivial).1

theorem toVec_refOf {u : Recast k K} {l : List K} (h : l.length = k) :
    toVec k (refOf u l) = u.conv (toVec k l) := by
  funext j
  unfold refOf toVec
  rw [if_pos h]
  simp

theorem refOf_length (u : Recast k K) (l : List K) : (refOf u l).length = l.length := by
  unfold refOf
  split
  · rename_i h; simp [h]
  · rfl

/-! ### Validators -/

theorem validateRef_recast (u : Recast k K) (c : Cfg k X D K) (ut : Vec k K) (nrm : Vec k K → K)
    (l : List K) : validateRef (cfgOf u ut nrm c) (refOf u l) = validateRef c l := by
  unfold validateRef
  rw [refOf_length]
  by_cases h : l.length = k
  · rw [toVec_refOf h]
    have e : (∀ i, (cfgOf u ut nrm c).nadir i < u.conv (toVec k l) i) ↔ ∀ i, c.nadir i < toVec k l i := by
      simp only [cfgOf, Recast.conv, u.lt_iff]
      exact u.perm.forall_congr_right (q := fun j => c.nadir j < toVec k l j)
    simp only [e]
  · simp [h]

theorem choiceOf_num (u : Recast k K) (v : PyVal) : numVal (choiceOf u v) = some 0 ↔ numVal v = some 0 := by
  unfold choiceOf
  split
  · rename_i h
    obtain ⟨h1, h2, h3⟩ := h
    constructor
    · intro h0
      simp only [numVal, Option.some.injEq] at h0
      have : ((u.perm.symm ⟨(v.asInt - 1).toNat, by omega⟩ : Fin k).val : ℤ) + 1 = 0 := by exact_mod_cast h0
      omega
    · intro h0
      exfalso
      cases v <;> simp [numVal, PyVal.isInstanceInt, PyVal.asInt] at *
      · omega
      · rename_i b
        cases b <;> simp at *
  · rfl

theorem validateIndex_int {z : ℤ} (h1 : 0 ≤ z) (h2 : z ≤ k) : validateIndex k (some (.int z)) = .ok () :=
  if_pos (show (0 : ℚ) ≤ z ∧ (z : ℚ) ≤ k from ⟨by exact_mod_cast h1, by exact_mod_cast h2⟩)

theorem validateIndex_int_ok {z : ℤ} (h : validateIndex k (some (.int z)) = .ok ()) : 0 ≤ z ∧ z ≤ k := by
  by_contra hne
  have : validateIndex k (some (.int z)) = .error .refused :=
    if_neg (show ¬ ((0 : ℚ) ≤ z ∧ (z : ℚ) ≤ k) from fun h => hne ⟨by exact_mod_cast h.1, by exact_mod_cast h.2⟩)
  rw [this] at h
  cases h

theorem validateIndex_true (h : 1 ≤ k) : validateIndex k (some (.bool true)) = .ok () :=
  if_pos (show (0 : ℚ) ≤ 1 ∧ (1 : ℚ) ≤ k from ⟨by norm_num, by exact_mod_cast h⟩)

theorem validateIndex_true_ok (h : validateIndex k (some (.bool true)) = .ok ()) : 1 ≤ k := by
  by_contra hne
  have : validateIndex k (some (.bool true)) = .error .refused :=
    if_neg (show ¬ ((0 : ℚ) ≤ 1 ∧ (1 : ℚ) ≤ k) from fun h => hne (by exact_mod_cast h.2))
  rw [this] at h
  cases h

theorem validateIndex_recast (u : Recast k K) (i : Option PyVal) :
    validateIndex k (i.map (choiceOf u)) = validateIndex k i := by
  cases i with
  | none => rfl
  | some v =>
    simp only [Option.map_some]
    unfold choiceOf
    split
    · rename_i h
      obtain ⟨h1, h2, h3⟩ := h
      have hp := (u.perm.symm ⟨(v.asInt - 1).toNat, by omega⟩ : Fin k).isLt
      rw [validateIndex_int (by omega) (by omega)]
      cases v with
      | int z =>
        simp only [PyVal.asInt] at h2 h3
        rw [validateIndex_int (by omega) (by omega)]
      | bool b =>
        cases b
        · simp [PyVal.asInt] at h2
        · rw [validateIndex_true]
          simpa [PyVal.asInt] using h3
      | _ => simp [PyVal.isInstanceInt] at h1
    · rfl

theorem validate_recast (u : Recast k K) (c : Cfg k X D K) (ut : Vec k K) (nrm : Vec k K → K)
    (req : Req k X K) (r : Resp K) :
    validate (cfgOf u ut nrm c) (reqOf u req) (respOf u r) = validate c req r := by
  have e1 : (respOf u r).ref = r.ref.map (refOf u) := rfl
  have e2 : (respOf u r).index = r.index.map (choiceOf u) := rfl
  have e3 : (respOf u r).satisfied = r.satisfied := rfl
  cases req with
  | initial =>
    simp only [reqOf, validate, validateInitial, e1]
    cases r.ref with
    | none => rfl
    | some l => exact validateRef_recast u c ut nrm l
  | stop => rfl
  | nav f a =>
    simp only [reqOf, validate, validateNav, e1, e2, e3, validateIndex_recast]
    cases r.ref with
    | none => rfl
    | some l => simp only [Option.map_some, validateRef_recast]

/-! ### The handlers -/

section
variable {u : Recast k K} {c : Cfg k X D K} {ut : Vec k K} {nrm : Vec k K → K} {orc orc' : Oracle k D K}
  (hn : ∀ v i, nrm (fun j => u.scale j * v (u.perm j)) = u.scale i * c.nrm v)
include hn

theorem prp_recast (q f : Vec k K) :
    prp (cfgOf u ut nrm c) (u.conv q) (u.conv f) = manyOf u (prp c q f) := by
  funext i j
  have e : (fun j => u.conv q j - u.conv f j) =
      fun j => u.scale j * (q (u.perm j) - f (u.perm j)) := by
    funext j; simp only [Recast.conv]; ring
  simp only [prp, manyOf, cfgOf]
  have h := hn (fun j => q j - f j) j
  rw [e, h]
  have e2 : unit (u.perm i) (u.perm j) = (unit i j : K) := by simp [unit]
  simp only [Recast.conv, prp, e2]
  ring

theorem comm_solve (ho : SameFound u c (cfgOf u ut nrm c) orc orc') {l : List K} (hl : l.length = k) :
    Comm Any (stOf u) (Option.map (reqOf u)) (solve c orc l)
      (solve (cfgOf u ut nrm c) orc' (refOf u l)) := by
  unfold solve
  refine Comm.get fun s hs => ?_
  rw [toVec_refOf hl, show (stOf u s).h = s.h from rfl]
  refine (Comm.bind (g := id) (comm_put (g := u.conv) (fun _ => rfl) (fun _ _ => rfl) _ _) fun _ => ?_) s hs
  refine Comm.bind (g := u.conv) (comm_take (fun _ => rfl) _) fun q => ?_
  dsimp only
  rw [ho.main q]
  refine Comm.bind (g := id) ?_ fun _ => ?_
  · have := comm_put (u := u) (rd := St.xs) (wr := fun s l => { s with xs := l }) (g := id)
      (fun s => by simp [stOf]) (fun s l => by simp [stOf]) s.h (c.vars (orc.main (weights c q) q))
    exact this
  refine Comm.bind (g := id) (comm_put (g := u.conv) (fun _ => rfl) (fun _ _ => rfl) _ _) fun _ => ?_
  refine Comm.bind (g := u.conv) (comm_take (fun _ => rfl) _) fun f => ?_
  rw [prp_recast hn]
  refine Comm.bind (g := id) (comm_put (g := manyOf u) (fun _ => rfl) (fun _ _ => rfl) _ _) fun _ => ?_
  refine Comm.bind (g := manyOf u) (comm_take (fun _ => rfl) _) fun p => ?_
  have hadd : ∀ i, orc'.add i (weights (cfgOf u ut nrm c) (u.conv q)) (manyOf u p i) =
      orc.add (u.perm i) (weights c q) (p (u.perm i)) := fun i => ho.add i q _
  simp only [hadd]
  refine Comm.bind (g := id) (comm_put (g := fun a i => a (u.perm i)) (fun _ => rfl) (fun _ _ => rfl) _
    (fun i => c.vars (orc.add i (weights c q) (p i)))) fun _ => ?_
  refine Comm.bind (g := id) (comm_put (g := manyOf u) (fun _ => rfl) (fun _ _ => rfl) _
    (fun i => c.obj (orc.add i (weights c q) (p i)))) fun _ => ?_
  exact Comm.bind (g := manyOf u) (comm_take (fun _ => rfl) _) fun a => Comm.pure rfl

end

theorem pyGet_ofFn {α : Type} (a : Fin k → α) (i : Fin k) {z : ℤ} (hz : z = (i.val : ℤ)) :
    pyGet (List.ofFn a) z = .ok (a i) := by
  subst hz
  unfold pyGet
  have h : ¬ ((i.val : ℤ) < 0) := by omega
  simp [h]

theorem entry_recast {α : Type} (u : Recast k K) (g : α → α) (a : Fin k → α) {v : PyVal}
    (hv : validateIndex k (some v) = .ok ()) (h0 : numVal v ≠ some 0) :
    entry (fun i => g (a (u.perm i))) (choiceOf u v) = (entry a v).map g := by
  unfold entry
  by_cases hi : v.isInstanceInt = true
  · have hr : 1 ≤ v.asInt ∧ v.asInt ≤ k := by
      cases v with
      | int z =>
        obtain ⟨h1, h2⟩ := validateIndex_int_ok hv
        have h3 : z ≠ 0 := by
          rintro rfl
          exact h0 (by simp [numVal])
        simp only [PyVal.asInt]
        omega
      | bool b =>
        cases b
        · exact absurd (by simp [numVal]) h0
        · have := validateIndex_true_ok hv
          simp only [PyVal.asInt]
          simpa using this
      | _ => simp [PyVal.isInstanceInt] at hi
    have hc : choiceOf u v = .int ((u.perm.symm ⟨(v.asInt - 1).toNat, by omega⟩).val + 1) := by
      unfold choiceOf
      rw [dif_pos ⟨hi, hr⟩]
    rw [hc, if_pos hi, if_pos (show PyVal.isInstanceInt (.int _) = true from rfl)]
    obtain ⟨h1, h2⟩ := hr
    rw [pyGet_ofFn (fun i => g (a (u.perm i))) (u.perm.symm ⟨(v.asInt - 1).toNat, by omega⟩)
        (by simp [PyVal.asInt]),
      pyGet_ofFn a ⟨(v.asInt - 1).toNat, by omega⟩ (by show v.asInt - 1 = ((v.asInt - 1).toNat : ℤ); omega)]
    simp [Except.map]
  · have hc : choiceOf u v = v := by
      unfold choiceOf
      rw [dif_neg fun h => hi h.1]
    rw [hc, if_neg hi, if_neg hi]
    rfl

theorem comm_choose (u : Recast k K) {v : PyVal} (hv : validateIndex k (some v) = .ok ()) :
    Comm Any (stOf u) (Option.map (reqOf u)) (choose (X := X) v) (choose (choiceOf u v)) := by
  unfold choose
  refine Comm.get fun s hs => ?_
  rw [show (stOf u s).h = s.h from rfl]
  by_cases h0 : numVal v = some 0
  · rw [if_pos h0, if_pos ((choiceOf_num u v).2 h0)]
    refine (Comm.bind (g := Option.map id) (comm_look (fun s => by simp [stOf]) _) fun x => ?_) s hs
    refine Comm.bind (g := Option.map u.conv) (comm_look (fun _ => rfl) _) fun f => Comm.pure ?_
    simp [reqOf]
  · rw [if_neg h0, if_neg fun h => h0 ((choiceOf_num u v).1 h)]
    refine (Comm.bind (g := fun a i => a (u.perm i)) (comm_take (fun _ => rfl) _) fun ax => ?_) s hs
    refine Comm.bind (g := id) (Comm.lift (entry_recast u id ax hv h0)) fun x => ?_
    refine Comm.bind (g := manyOf u) (comm_take (fun _ => rfl) _) fun af => ?_
    exact Comm.bind (g := u.conv) (Comm.lift (entry_recast u u.conv af hv h0)) fun f => Comm.pure rfl

theorem expand_recast (u : Recast k K) (s : St k X K) : expand (stOf u s) = stOf u (expand s) := by
  unfold expand
  simp only [stOf, List.length_map]
  split <;> simp [slots]

section
variable {u : Recast k K} {c : Cfg k X D K} {ut : Vec k K} {nrm : Vec k K → K} {orc orc' : Oracle k D K}
  (hn : ∀ v i, nrm (fun j => u.scale j * v (u.perm j)) = u.scale i * c.nrm v)
include hn

theorem answer_recast (ho : SameFound u c (cfgOf u ut nrm c) orc orc') (s : St k X K) (req : Req k X K)
    (r : Resp K) :
    answer (cfgOf u ut nrm c) (stOf u s) (reqOf u req) (respOf u r) orc' =
      (stOf u (answer c s req r orc).1, resultOf u (answer c s req r orc).2) := by
  unfold answer
  rw [validate_recast]
  cases hv : validate c req r with
  | error e => rfl
  | ok _ =>
    simp only
    have e1 : (respOf u r).ref = r.ref.map (refOf u) := rfl
    have e2 : (respOf u r).index = r.index.map (choiceOf u) := rfl
    have e3 : (respOf u r).satisfied = r.satisfied := rfl
    have hlen : ∀ {l : List K}, validateRef c l = .ok () → l.length = k := by
      intro l h
      unfold validateRef at h
      by_contra hne
      rw [if_pos hne] at h
      cases h
    cases req with
    | initial =>
      simp only [iterate, reqOf, handleInitial, e1]
      simp only [validate, validateInitial] at hv
      cases hr : r.ref with
      | none => rfl
      | some l =>
        rw [hr] at hv
        exact Comm.any (comm_solve hn ho (hlen hv)) s
    | stop => rfl
    | nav f a =>
      simp only [iterate, reqOf, handleNav, e1, e2, e3]
      simp only [validate, validateNav] at hv
      by_cases hs : r.satisfied = some true
      · rw [if_pos hs] at hv ⊢
        rw [if_pos hs]
        cases hi : r.index with
        | none => rfl
        | some v =>
          rw [hi] at hv
          exact Comm.any (comm_choose u hv) s
      · rw [if_neg hs] at hv ⊢
        rw [if_neg hs]
        cases hr : r.ref with
        | none =>
          rw [hr] at hv
          cases hv
        | some l =>
          rw [hr] at hv
          have h := Comm.any (comm_solve hn ho (hlen hv)) (expand { s with h := s.h + 1 })
          rw [← expand_recast] at h
          exact h

theorem replay_recast {steps steps' : List (Nat × Resp K × Oracle k D K)}
    (h : List.Forall₂ (SameStep u c (cfgOf u ut nrm c)) steps steps') (s : St k X K)
    (reqs : List (Req k X K)) :
    replay (cfgOf u ut nrm c) (stOf u s) (reqs.map (reqOf u)) steps' =
      (replay c s reqs steps).map (resultOf u) := by
  induction h generalizing s reqs with
  | nil => rfl
  | @cons p p' l l' hp _ ih =>
    obtain ⟨i, r, orc⟩ := p
    obtain ⟨i', r', orc'⟩ := p'
    obtain ⟨h1, h2, h3⟩ := hp
    simp only at h1 h2 h3
    subst h1 h2
    unfold replay
    simp only [List.getElem?_map]
    cases reqs[i']? with
    | none => exact ih s reqs
    | some req =>
      simp only [Option.map_some, List.map_cons]
      rw [answer_recast hn h3 s req r]
      simp only
      have e : extend (resultOf u (answer c s req r orc).2) (reqs.map (reqOf u)) =
          (extend (answer c s req r orc).2 reqs).map (reqOf u) := by
        rcases (answer c s req r orc).2 with _ | _ | q <;> rfl
      rw [e, ih]

/-- If the minimizers find the same solutions, the whole uses correspond. -/
theorem use_recast {steps steps' : List (Nat × Resp K × Oracle k D K)}
    (h : List.Forall₂ (SameStep u c (cfgOf u ut nrm c)) steps steps') :
    use (cfgOf u ut nrm c) steps' = (use c steps).map (resultOf u) := by
  have h0 := replay_recast hn h .init [.initial]
  have e : stOf u (St.init : St k X K) = St.init := by simp [stOf, St.init, slots]
  rw [e] at h0
  exact h0

end

end Verif.Rpm
