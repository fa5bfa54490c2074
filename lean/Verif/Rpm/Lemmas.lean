import Verif.Rpm.Model
import Verif.BaseLemmas

set_option linter.unusedSectionVars false

/-! What one answer of the reference point method does, and its histories. -/

namespace Verif.Rpm

open Exec

variable {K : Type} [Field K] [LinearOrder K] {k : Nat} {X D : Type}

theorem put_ok {α : Type} {rd : St k X K → List (Option α)} {wr : St k X K → List (Option α) → St k X K}
    {i : Nat} {v : α} {s s' : St k X K} {u : Unit} :
    put rd wr i v s = (s', .ok u) ↔ i < (rd s).length ∧ s' = wr s ((rd s).set i (some v)) := by
  unfold put
  rcases h : slotSet (rd s) i (some v) with e | l
  · rw [slotSet_error_iff] at h
    simp; omega
  · rw [slotSet_ok_iff] at h
    obtain ⟨h1, rfl⟩ := h
    simp [h1, eq_comm]

theorem take_ok {α : Type} {rd : St k X K → List (Option α)} {i : Nat} {v : α} {s s' : St k X K} :
    take rd i s = (s', .ok v) ↔ s' = s ∧ (rd s)[i]? = some (some v) := by
  unfold take
  simp only [Prod.mk.injEq, slotGet_ok_iff]
  tauto

theorem look_ok {α : Type} {rd : St k X K → List (Option α)} {i : Nat} {v : Option α} {s s' : St k X K} :
    look rd i s = (s', .ok v) ↔ s' = s ∧ (rd s)[i]? = some v := by
  unfold look
  simp only [Prod.mk.injEq, slotRead_ok_iff]
  tauto

/-- All lists have the same length, and there are at least two places after the current one. -/
structure Store (s : St k X K) : Prop where
  pos : 1 ≤ s.h
  x : s.xs.length = s.qs.length
  f : s.fs.length = s.qs.length
  p : s.pqs.length = s.qs.length
  ax : s.axs.length = s.qs.length
  af : s.afs.length = s.qs.length
  room : s.h + 2 < s.qs.length

/-- The state after an iteration with the reference point `q`. -/
def solved (c : Cfg k X D K) (orc : Oracle k D K) (q : Vec k K) (s : St k X K) : St k X K :=
  { h := s.h
    qs := s.qs.set s.h (some q)
    xs := s.xs.set s.h (some (c.vars (orc.main (weights c q) q)))
    fs := s.fs.set s.h (some (c.obj (orc.main (weights c q) q)))
    pqs := s.pqs.set s.h (some (prp c q (c.obj (orc.main (weights c q) q))))
    axs := s.axs.set s.h (some fun i => c.vars (orc.add i (weights c q)
      (prp c q (c.obj (orc.main (weights c q) q)) i)))
    afs := s.afs.set s.h (some fun i => c.obj (orc.add i (weights c q)
      (prp c q (c.obj (orc.main (weights c q) q)) i))) }

/-- The request shown after an iteration with the reference point `q`. -/
def shown (c : Cfg k X D K) (orc : Oracle k D K) (q : Vec k K) : Req k X K :=
  .nav (c.obj (orc.main (weights c q) q)) fun i => c.obj (orc.add i (weights c q)
      (prp c q (c.obj (orc.main (weights c q) q)) i))

theorem set_get {α : Type} {l : List (Option α)} {i : Nat} {v : Option α} (h : i < l.length) :
    (l.set i v)[i]? = some v := by simp [h]

theorem solve_eq {c : Cfg k X D K} {orc : Oracle k D K} {l : List K} {s : St k X K} (hs : Store s) :
    solve c orc l s = (solved c orc (toVec k l) s, .ok (some (shown c orc (toVec k l)))) := by
  have hr := hs.room
  have h0 : s.h < s.qs.length := by omega
  have h1 : s.h < s.xs.length := by have := hs.x; omega
  have h2 : s.h < s.fs.length := by have := hs.f; omega
  have h3 : s.h < s.pqs.length := by have := hs.p; omega
  have h4 : s.h < s.axs.length := by have := hs.ax; omega
  have h5 : s.h < s.afs.length := by have := hs.af; omega
  unfold solve
  rw [get_bind]
  refine bind_ok.2 ⟨_, (), put_ok.2 ⟨h0, rfl⟩, ?_⟩
  refine bind_ok.2 ⟨_, toVec k l, take_ok.2 ⟨rfl, set_get h0⟩, ?_⟩
  refine bind_ok.2 ⟨_, (), put_ok.2 ⟨h1, rfl⟩, ?_⟩
  refine bind_ok.2 ⟨_, (), put_ok.2 ⟨h2, rfl⟩, ?_⟩
  refine bind_ok.2 ⟨_, c.obj (orc.main (weights c (toVec k l)) (toVec k l)),
    take_ok.2 ⟨rfl, set_get h2⟩, ?_⟩
  refine bind_ok.2 ⟨_, (), put_ok.2 ⟨h3, rfl⟩, ?_⟩
  refine bind_ok.2 ⟨_, _, take_ok.2 ⟨rfl, set_get h3⟩, ?_⟩
  refine bind_ok.2 ⟨_, (), put_ok.2 ⟨h4, rfl⟩, ?_⟩
  refine bind_ok.2 ⟨_, (), put_ok.2 ⟨h5, rfl⟩, ?_⟩
  exact bind_ok.2 ⟨_, _, take_ok.2 ⟨rfl, set_get h5⟩, rfl⟩

theorem solved_store {c : Cfg k X D K} {orc : Oracle k D K} {q : Vec k K} {s : St k X K} (hs : Store s) :
    Store (solved c orc q s) := by
  obtain ⟨a, b, d, e, f, g, h⟩ := hs
  refine ⟨a, ?_, ?_, ?_, ?_, ?_, ?_⟩ <;> simpa [solved]

theorem expand_store {s : St k X K} (hs : Store s) : Store (expand { s with h := s.h + 1 }) := by
  obtain ⟨a, b, d, e, f, g, h⟩ := hs
  unfold expand
  split
  · refine ⟨?_, ?_, ?_, ?_, ?_, ?_, ?_⟩ <;> (simp_all; try omega)
  · rename_i hn
    dsimp only at hn
    exact ⟨by dsimp only; omega, b, d, e, f, g, by dsimp only; omega⟩

theorem init_store : Store (St.init : St k X K) := by
  refine ⟨?_, ?_, ?_, ?_, ?_, ?_, ?_⟩ <;> simp [St.init]

/-- What an answer can do, in a state with enough storage. -/
inductive Step (c : Cfg k X D K) (orc : Oracle k D K) (s : St k X K) :
    Req k X K → Resp K → St k X K → Except Err (Option (Req k X K)) → Prop
  | refused {req r e} : validate c req r = .error e → Step c orc s req r s (.error e)
  | ended {x f r} : Step c orc s (.stop x f) r s (.ok (some (.stop x f)))
  | initial {r : Resp K} {l} : validateInitial c r = .ok () → r.ref = some l → l.length = k →
      Step c orc s .initial r (solved c orc (toVec k l) s) (.ok (some (shown c orc (toVec k l))))
  | forward {r : Resp K} {l f a} : validateNav c r = .ok () → r.satisfied ≠ some true → r.ref = some l →
      l.length = k →
      Step c orc s (.nav f a) r (solved c orc (toVec k l) (expand { s with h := s.h + 1 }))
        (.ok (some (shown c orc (toVec k l))))
  | chosen {r : Resp K} {v f a o} : validateNav c r = .ok () → r.satisfied = some true →
      r.index = some v → choose v s = (s, o) → Step c orc s (.nav f a) r s o

theorem validateRef_ok {c : Cfg k X D K} {l : List K} (h : validateRef c l = .ok ()) :
    l.length = k ∧ ∃ i, toVec k l i ≤ c.nadir i := by
  unfold validateRef at h
  split_ifs at h with h1 h2
  push Not at h2
  exact ⟨not_not.1 h1, h2⟩

theorem choose_state (v : PyVal) (s : St k X K) : (choose v s).1 = s := by
  unfold choose
  rw [get_bind]
  split
  · rcases h : slotRead s.xs s.h with e | x <;> rcases h' : slotRead s.fs s.h with e' | f <;>
      simp only [look, Bind.bind, Exec.bind, h, h', pure_run]
  · rcases h : slotGet s.axs s.h with e | x <;> rcases h' : slotGet s.afs s.h with e' | f <;>
      simp only [take, Bind.bind, Exec.bind, Exec.lift, h, h']
    · rcases h2 : entry x v with e | y <;> simp
    · rcases h2 : entry x v with e | y <;> rcases h3 : entry f v with e | z <;> simp

theorem answer_step {c : Cfg k X D K} {orc : Oracle k D K} {s s' : St k X K} {req : Req k X K}
    {r : Resp K} {o : Except Err (Option (Req k X K))} (hs : Store s)
    (h : answer c s req r orc = (s', o)) : Step c orc s req r s' o := by
  unfold answer at h
  split at h
  · rename_i e he
    cases h
    exact .refused he
  · rename_i u hv
    cases req with
    | initial =>
      simp only [iterate, handleInitial, validate] at h hv
      have hv' := hv
      unfold validateInitial at hv'
      split at hv'
      · simp at hv'
      · rename_i l hl
        simp only [hl] at h
        rw [solve_eq hs] at h
        cases h
        exact .initial hv hl (validateRef_ok hv').1
    | stop x f =>
      simp only [iterate, pure_run] at h
      cases h
      exact .ended
    | nav f a =>
      simp only [iterate, handleNav, validate] at h hv
      by_cases hsat : r.satisfied = some true
      · rw [if_pos hsat] at h
        cases hi : r.index with
        | none => simp [validateNav, hsat, hi, validateIndex] at hv
        | some v =>
          simp only [hi] at h
          have : s' = s := by rw [← choose_state v s, h]
          subst this
          exact .chosen hv hsat hi h
      · rw [if_neg hsat] at h
        have hv' := hv
        unfold validateNav at hv'
        rw [if_neg hsat] at hv'
        split at hv'
        · simp at hv'
        · rename_i l hl
          simp only [hl] at h
          rw [modify_bind, modify_bind, solve_eq (expand_store hs)] at h
          cases h
          exact .forward hv hsat hl (validateRef_ok hv').1

theorem Step.store {c : Cfg k X D K} {orc : Oracle k D K} {s s' : St k X K} {req r o} (hs : Store s)
    (h : Step c orc s req r s' o) : Store s' := by
  cases h with
  | refused => exact hs
  | ended => exact hs
  | initial => exact solved_store hs
  | forward => exact solved_store (expand_store hs)
  | chosen => exact hs

/-! ### Histories -/

/-- The issued requests after an answer, newest first. -/
def extend (o : Except Err (Option (Req k X K))) (iss : List (Req k X K)) : List (Req k X K) :=
  match o with
  | .ok (some r) => r :: iss
  | _ => iss

/-- Every possible history: any request issued so far (the initial one is always available, from `start`)
is answered with any response, and any solver outcome that satisfies `G`; exceptions included. -/
inductive Reached (c : Cfg k X D K) (G : Oracle k D K → Prop) : St k X K → List (Req k X K) → Prop
  | init : Reached c G St.init [.initial]
  | next {s iss req r orc s' o} : Reached c G s iss → req ∈ iss → G orc →
      answer c s req r orc = (s', o) → Reached c G s' (extend o iss)

/-- The solutions shown last: the current and the additional ones. -/
def lastShown : List (Req k X K) → Option (Vec k K × (Fin k → Vec k K))
  | [] => none
  | .nav f a :: _ => some (f, a)
  | _ :: l => lastShown l

/-- The storage holds, at the current place, what was shown last. -/
structure Current (c : Cfg k X D K) (s : St k X K) (iss : List (Req k X K)) : Prop where
  all : ∃ (d : D) (e : Fin k → D), s.xs[s.h]? = some (some (c.vars d)) ∧ s.fs[s.h]? = some (some (c.obj d)) ∧
    s.axs[s.h]? = some (some fun i => c.vars (e i)) ∧ s.afs[s.h]? = some (some fun i => c.obj (e i)) ∧
    lastShown iss = some (c.obj d, fun i => c.obj (e i))

theorem choose_zero {v : PyVal} {s : St k X K} {x : Option X} {f : Option (Vec k K)} (hv : numVal v = some 0)
    (hx : s.xs[s.h]? = some x) (hf : s.fs[s.h]? = some f) : choose v s = (s, .ok (some (.stop x f))) := by
  unfold choose
  rw [get_bind, if_pos hv]
  exact bind_ok.2 ⟨_, _, look_ok.2 ⟨rfl, hx⟩, bind_ok.2 ⟨_, _, look_ok.2 ⟨rfl, hf⟩, rfl⟩⟩

theorem entry_int {α : Type} {a : Fin k → α} {v : PyVal} (hi : v.isInstanceInt = true) {j : Fin k}
    (hj : v.asInt = j.val + 1) : entry a v = .ok (a j) := by
  unfold entry
  rw [if_pos hi, hj, show ((j.val : Int) + 1 - 1) = (j.val : Int) by omega, pyGet_nat]
  simp

theorem choose_int {v : PyVal} {s : St k X K} {ax : Fin k → X} {af : Fin k → Vec k K}
    (hv : numVal v ≠ some 0) (hi : v.isInstanceInt = true) {j : Fin k} (hj : v.asInt = j.val + 1)
    (hx : s.axs[s.h]? = some (some ax)) (hf : s.afs[s.h]? = some (some af)) :
    choose v s = (s, .ok (some (.stop (some (ax j)) (some (af j))))) := by
  unfold choose
  rw [get_bind, if_neg hv]
  refine bind_ok.2 ⟨_, _, take_ok.2 ⟨rfl, hx⟩, ?_⟩
  rw [entry_int hi hj, lift_ok_bind]
  refine bind_ok.2 ⟨_, _, take_ok.2 ⟨rfl, hf⟩, ?_⟩
  rw [entry_int hi hj, lift_ok_bind]
  rfl

theorem choose_other {v : PyVal} {s : St k X K} {ax : Fin k → X} (hv : numVal v ≠ some 0)
    (hi : v.isInstanceInt = false) (hx : s.axs[s.h]? = some (some ax)) :
    choose v s = (s, .error .typeError) := by
  unfold choose
  have h1 : slotGet s.axs s.h = .ok ax := slotGet_ok_iff.2 hx
  have h2 : entry ax v = .error .typeError := by unfold entry; simp [hi]
  rw [get_bind, if_neg hv]
  simp only [take, Bind.bind, Exec.bind, Exec.lift, h1, h2]

/-- What an accepted index can be. -/
theorem validateIndex_ok {i : Option PyVal} (h : validateIndex k i = .ok ()) :
    ∃ v, i = some v ∧ (numVal v = some 0 ∨
      (numVal v ≠ some 0 ∧ v.isInstanceInt = true ∧ ∃ j : Fin k, v.asInt = j.val + 1) ∨
      (numVal v ≠ some 0 ∧ v.isInstanceInt = false ∧ ∃ q, v = .float q)) := by
  unfold validateIndex at h
  split at h
  · simp at h
  · simp at h
  · split_ifs at h
  · rename_i v hs hn
    split_ifs at h with hb
    refine ⟨v, rfl, ?_⟩
    cases v with
    | none => exact absurd rfl hs
    | str s => exact absurd rfl (hn s)
    | int z =>
      simp only [numVal, Option.getD_some] at hb
      have h0 : 0 ≤ z := by exact_mod_cast hb.1
      have hk : z ≤ k := by exact_mod_cast hb.2
      by_cases hz : z = 0
      · left; simp [numVal, hz]
      · right; left
        refine ⟨by simp [numVal, hz], rfl, ⟨z.toNat - 1, by omega⟩, ?_⟩
        simp only [PyVal.asInt]; omega
    | bool b =>
      cases b with
      | false => left; simp [numVal]
      | true =>
        simp only [numVal, if_true, Option.getD_some] at hb
        have hk : 1 ≤ k := by exact_mod_cast hb.2
        right; left
        exact ⟨by simp [numVal], rfl, ⟨0, by omega⟩, by simp [PyVal.asInt]⟩
    | float q =>
      by_cases hz : q = 0
      · left; simp [numVal, hz]
      · right; right
        exact ⟨by simp [numVal, hz], rfl, q, rfl⟩

theorem validateNav_index {c : Cfg k X D K} {r : Resp K} (h : validateNav c r = .ok ())
    (hs : r.satisfied = some true) : validateIndex k r.index = .ok () := by
  unfold validateNav at h
  rwa [if_pos hs] at h

theorem Reached.store {c : Cfg k X D K} {G} {s iss} (h : Reached c G s iss) : Store s := by
  induction h with
  | init => exact init_store
  | next _ _ _ ha ih => exact (answer_step ih ha).store ih

theorem solved_current {c : Cfg k X D K} {orc : Oracle k D K} {q : Vec k K} {s : St k X K} (hs : Store s)
    (iss : List (Req k X K)) : Current c (solved c orc q s) (shown c orc q :: iss) := by
  obtain ⟨a, b, d, e, f, g, h⟩ := hs
  refine ⟨orc.main (weights c q) q, fun i => orc.add i (weights c q)
    (prp c q (c.obj (orc.main (weights c q) q)) i), ?_, ?_, ?_, ?_, rfl⟩ <;>
    exact set_get (by omega)

theorem Current.stop {c : Cfg k X D K} {s : St k X K} {iss : List (Req k X K)} (h : Current c s iss)
    (x f) : Current c s (.stop x f :: iss) := ⟨h.all⟩

theorem choose_result {v : PyVal} {s : St k X K} {q : Option (Req k X K)}
    (h : choose v s = (s, .ok q)) : ∃ x f, q = some (.stop x f) := by
  unfold choose at h
  rw [get_bind] at h
  split at h
  · obtain ⟨s1, x, h1, h⟩ := bind_ok.1 h
    obtain ⟨s2, f, h2, h⟩ := bind_ok.1 h
    simp only [pure_run, Prod.mk.injEq, Except.ok.injEq] at h
    exact ⟨x, f, h.2.symm⟩
  · obtain ⟨s1, ax, h1, h⟩ := bind_ok.1 h
    obtain ⟨s2, x, h2, h⟩ := bind_ok.1 h
    obtain ⟨s3, af, h3, h⟩ := bind_ok.1 h
    obtain ⟨s4, f, h4, h⟩ := bind_ok.1 h
    simp only [pure_run, Prod.mk.injEq, Except.ok.injEq] at h
    exact ⟨some x, some f, h.2.symm⟩

theorem Reached.current {c : Cfg k X D K} {G} {s iss} (h : Reached c G s iss) :
    (∀ q ∈ iss, q = .initial) ∨ Current c s iss := by
  induction h with
  | init => left; simp
  | @next s iss req r orc s' o hs hr hG ha ih =>
    have hst := answer_step hs.store ha
    cases hst with
    | refused => exact ih
    | @ended x f =>
      rcases ih with ih | ih
      · exact absurd (ih _ hr) (by simp)
      · exact .inr (ih.stop _ _)
    | initial => exact .inr (solved_current hs.store _)
    | forward => exact .inr (solved_current (expand_store hs.store) _)
    | chosen hv hsat hi hc =>
      rcases ih with ih | ih
      · exact absurd (ih _ hr) (by simp)
      · rcases o with e | q
        · exact .inr ih
        · obtain ⟨x, f, rfl⟩ := choose_result hc
          exact .inr (ih.stop _ _)

end Verif.Rpm
