import Verif.Navigator.Model
import Verif.BaseLemmas
import Verif.Spec

set_option linter.unusedSectionVars false

namespace Verif.Navigator

variable {K V : Type} [Field K] [LinearOrder K] {n k : Nat}

/-- The row respects the user bounds: no component for which a bound is given exceeds it. -/
def Respects (u : Vec k (Option K)) (f : Vec k K) : Prop := ∀ j b, u j = some b → f j ≤ b

/-- The row respects the user bounds as given in a response (a list with one entry per objective; no
bound, i.e. NaN or None, is `none`). -/
def RespectsList (ul : List (Option K)) (f : Vec k K) : Prop :=
  ∀ (j : Fin k) (b : K), ul[j.val]? = some (some b) → f j ≤ b

/-- The reference point given in a response is `q`: one entry per objective, or a single entry used
for all objectives. -/
def Denotes (ql : List (Option K)) (q : Vec k (Option K)) : Prop :=
  (ql.length = k ∧ ∀ j : Fin k, ql[j.val]? = some (q j)) ∨
  (ql.length = 1 ∧ ∀ j : Fin k, ql[0]? = some (q j))

/-- Two reference points without NaN that differ by at most `1e-8 + 1e-5 |b|` in every component. -/
def Close (a b : Vec k (Option K)) : Prop :=
  ∀ j, ∃ x y, a j = some x ∧ b j = some y ∧ |x - y| ≤ 1 / 10 ^ 8 + |y| / 10 ^ 5

theorem respects_toBounds {ul : List (Option K)} {f : Vec k K} :
    Respects (toBounds k ul) f ↔ RespectsList ul f := by
  unfold Respects RespectsList toBounds
  refine forall_congr' fun j => forall_congr' fun b => ?_
  cases h : ul[j.val]? with
  | none => simp
  | some x => simp

theorem denotes_of_broadcast {ql : List (Option K)} {q : Vec k (Option K)}
    (h : broadcast k ql = .ok q) : Denotes ql q := by
  unfold broadcast at h
  split at h
  · rename_i hl
    simp only [Except.ok.injEq] at h
    subst h
    exact .inl ⟨hl, fun j => by simp⟩
  · split at h
    · simp only [Except.ok.injEq] at h
      subst h
      exact .inr ⟨rfl, fun j => rfl⟩
    · simp at h

theorem broadcast_of_denotes {ql : List (Option K)} {q : Vec k (Option K)}
    (h : Denotes ql q) : broadcast k ql = .ok q := by
  unfold broadcast
  rcases h with ⟨hl, h⟩ | ⟨hl, h⟩
  · rw [dif_pos hl]
    congr 1
    funext j
    have := h j
    rw [List.getElem?_eq_getElem (by rw [hl]; exact j.2)] at this
    simpa using this
  · obtain ⟨a, rfl⟩ := List.length_eq_one_iff.1 hl
    split
    · rename_i hk
      congr 1
      funext j
      have := h j
      have hj : j.val = 0 := by have := j.2; simp only [List.length_singleton] at hk; omega
      simpa [hj] using this
    · dsimp only
      congr 1
      funext j
      simpa using h j

theorem allclose_iff {a b : Vec k (Option K)} : allclose a b = true ↔ Close a b := by
  unfold allclose Close
  rw [List.all_eq_true]
  have e : ∀ y : K, (1 : K) / 100000000 + 1 / 100000 * |y| = 1 / 10 ^ 8 + |y| / 10 ^ 5 := by
    intro y; norm_num [div_eq_mul_inv, mul_comm]
  constructor
  · intro h j
    have := h j (List.mem_finRange j)
    cases ha : a j with
    | none => simp [ha] at this
    | some x =>
      cases hb : b j with
      | none => simp [ha, hb] at this
      | some y =>
        rw [ha, hb] at this
        exact ⟨x, y, rfl, rfl, by rw [← e]; exact of_decide_eq_true this⟩
  · intro h j _
    obtain ⟨x, y, ha, hb, hxy⟩ := h j
    rw [ha, hb]
    rw [← e] at hxy
    exact decide_eq_true hxy

theorem exceeds_false_iff (u : Vec k (Option K)) (f : Vec k K) :
    exceeds u f = false ↔ Respects u f := by
  unfold exceeds Respects
  rw [List.any_eq_false]
  constructor
  · intro h j b hb
    have := h j (List.mem_finRange j)
    rw [hb] at this
    simpa using this
  · intro h j _
    cases hu : u j with
    | none => simp
    | some b => simpa using h j b hu

theorem asfValue_num (c : Cfg n k K V) (q : Vec k K) (f : Vec k K) :
    asfValue c (fun j => some (q j)) f = some (c.asf q f) := by
  simp [asfValue]

theorem asfValue_some {c : Cfg n k K V} {q : Vec k (Option K)} {f : Vec k K} {x : K}
    (h : asfValue c q f = some x) : ∃ qv : Vec k K, q = (fun j => some (qv j)) ∧ x = c.asf qv f := by
  unfold asfValue at h
  split at h
  · rename_i hq
    rw [List.all_eq_true] at hq
    refine ⟨fun j => (q j).getD 0, ?_, by simpa using h.symm⟩
    funext j
    have := hq j (List.mem_finRange j)
    cases hj : q j with
    | none => simp [hj] at this
    | some a => simp [hj]
  · simp at h

/-- What a successful projection is. -/
theorem solve_ok {c : Cfg n k K V} {reach : List (Fin n)} {q u : Vec k (Option K)} {p : Fin n}
    (h : solve c reach q u = .ok p) :
    p ∈ reach ∧ Respects u (c.front p) ∧ ∃ qv : Vec k K, q = (fun j => some (qv j)) ∧
      ∀ i ∈ reach, Respects u (c.front i) → c.asf qv (c.front p) ≤ c.asf qv (c.front i) := by
  unfold solve at h
  split at h
  · simp at h
  · rename_i idx hidx
    split at h
    · rename_i hlt
      simp only [Except.ok.injEq] at h
      subst h
      obtain ⟨m, h1, h2⟩ := npNanArgmin_ok hidx
      simp only [List.getElem?_map, List.getElem?_eq_getElem (l := List.finRange n) (i := idx)
        (by simpa using hlt), List.getElem_finRange, Option.map_some, Option.some.injEq] at h1
      split at h1
      · rename_i hc
        simp only [Bool.and_eq_true, decide_eq_true_eq, Bool.not_eq_true'] at hc
        obtain ⟨qv, hq, hm⟩ := asfValue_some h1
        refine ⟨hc.1, (exceeds_false_iff _ _).1 hc.2, qv, hq, ?_⟩
        intro i hi hr
        have : some (c.asf qv (c.front i)) ∈ ((List.finRange n).map fun i =>
            if decide (i ∈ reach) && !exceeds u (c.front i) then asfValue c q (c.front i) else none) := by
          rw [List.mem_map]
          refine ⟨i, List.mem_finRange i, ?_⟩
          rw [if_pos (by simp [hi, (exceeds_false_iff _ _).2 hr]), hq, asfValue_num]
        have := h2 _ this
        rw [hm] at this
        exact this
      · simp at h1
    · simp at h

/-- When a projection fails. -/
theorem solve_error {c : Cfg n k K V} {reach : List (Fin n)} {q u : Vec k (Option K)} {e : Err}
    (h : solve c reach q u = .error e) :
    e = .valueError ∧ ((∃ j, q j = none) ∨ ∀ i ∈ reach, ¬ Respects u (c.front i)) := by
  unfold solve at h
  split at h
  · rename_i e' he
    simp only [Except.error.injEq] at h
    subst h
    obtain ⟨h1, h2⟩ := npNanArgmin_error he
    refine ⟨h1, ?_⟩
    by_cases hq : ∃ j, q j = none
    · exact .inl hq
    · right
      intro i hi hr
      have hq' : ∃ qv : Vec k K, q = fun j => some (qv j) := by
        refine ⟨fun j => (q j).getD 0, ?_⟩
        funext j
        cases hj : q j with
        | none => exact absurd ⟨j, hj⟩ hq
        | some a => simp [hj]
      obtain ⟨qv, hqv⟩ := hq'
      apply h2 (c.asf qv (c.front i))
      rw [List.mem_map]
      refine ⟨i, List.mem_finRange i, ?_⟩
      rw [if_pos (by simp [hi, (exceeds_false_iff _ _).2 hr]), hqv, asfValue_num]
  · rename_i idx hidx
    split at h
    · simp at h
    · rename_i hlt
      obtain ⟨m, h1, _⟩ := npNanArgmin_ok hidx
      have := (List.getElem?_eq_some_iff.1 h1).1
      simp at this
      omega

theorem mem_candidates (front : Fin n → Vec k K) (reach : List (Fin n)) (nav : Vec k K)
    (u : Vec k (Option K)) (r : Fin k) (x : K) :
    x ∈ candidates front reach nav u r ↔
      ∃ i, i ∈ reach ∧ Respects u (front i) ∧ GoodExcept front nav r i ∧ front i r = x := by
  unfold candidates GoodExcept
  simp only [List.mem_map, List.mem_filter, Bool.and_eq_true, Bool.not_eq_true', decide_eq_true_eq,
    exceeds_false_iff]
  constructor
  · rintro ⟨i, ⟨h1, h2, h3⟩, h4⟩; exact ⟨i, h1, h2, h3, h4⟩
  · rintro ⟨i, h1, h2, h3, h4⟩; exact ⟨i, ⟨h1, h2, h3⟩, h4⟩

theorem minOr_cases (l : List K) (prev : K) :
    (minOr l prev ∈ l ∧ ∀ x ∈ l, minOr l prev ≤ x) ∨ (l = [] ∧ minOr l prev = prev) := by
  unfold minOr
  cases h : npMin l with
  | ok m => exact .inl ((npMin_ok_iff l m).1 h)
  | error e => exact .inr ⟨((npMin_error_iff l e).1 h).1, rfl⟩

theorem maxOr_cases (l : List K) (prev : K) :
    (maxOr l prev ∈ l ∧ ∀ x ∈ l, x ≤ maxOr l prev) ∨ (l = [] ∧ maxOr l prev = prev) := by
  unfold maxOr
  cases h : npMax l with
  | ok m => exact .inl ((npMax_ok_iff l m).1 h)
  | error e => exact .inr ⟨((npMax_error_iff l e).1 h).1, rfl⟩

theorem mem_reachable (front : Fin n → Vec k K) (lb ub : Vec k K) (i : Fin n) :
    i ∈ reachable front lb ub ↔ InBox lb ub (front i) := by
  simp [reachable, InBox, forall_and]

theorem reachable_sorted (front : Fin n → Vec k K) (lb ub : Vec k K) :
    (reachable front lb ub).Pairwise (· < ·) := by
  unfold reachable
  apply List.Pairwise.filter
  exact List.pairwise_lt_finRange n

/-- The part of a forward step before moving: the state `s1` with the projection `p` to move to. -/
def Prepared (c : Cfg n k K V) (s : St n k K) (q : Vec k (Option K)) (v : PyVal)
    (s1 : St n k K) (p : Fin n) : Prop :=
  (needsProjection s q = .ok false ∧ s1 = s ∧ s.proj = some p) ∨
  (needsProjection s q = .ok true ∧ solve c s.reach q s.userBounds = .ok p ∧
    s1 = { s with speed := if s.step = 1 then some v else s.speed, ref := some q, proj := some p })

theorem Prepared.proj {c : Cfg n k K V} {s s1 : St n k K} {q : Vec k (Option K)} {v : PyVal} {p : Fin n}
    (h : Prepared c s q v s1 p) : s1.proj = some p := by
  rcases h with ⟨_, rfl, h⟩ | ⟨_, _, rfl⟩
  · exact h
  · rfl

theorem Prepared.eq {c : Cfg n k K V} {s s1 : St n k K} {q : Vec k (Option K)} {v : PyVal} {p : Fin n}
    (h : Prepared c s q v s1 p) :
    s1.lb = s.lb ∧ s1.ub = s.ub ∧ s1.reach = s.reach ∧ s1.nav = s.nav ∧ s1.rem = s.rem ∧
      s1.step = s.step ∧ s1.dist = s.dist ∧ s1.userBounds = s.userBounds := by
  rcases h with ⟨_, rfl, h⟩ | ⟨_, _, rfl⟩ <;> simp

/-- All outcomes of `forward`. -/
theorem forward_cases {c : Cfg n k K V} {s s' : St n k K} {q u : Vec k (Option K)} {v : PyVal}
    {o : Except Err (Out n k K V)} (h : forward c s q v u = (s', o)) :
    (∃ e, o = .error e ∧
      ((needsProjection s q = .error e ∧ s' = s) ∨
       (needsProjection s q = .ok true ∧ solve c s.reach q s.userBounds = .error e ∧
          s' = { s with speed := if s.step = 1 then some v else s.speed }) ∨
       (needsProjection s q = .ok false ∧ s.proj = none ∧ e = .typeError ∧ s' = s) ∨
       (s.rem = 0 ∧ e = .zeroDivisionError ∧ ∃ p, Prepared c s q v s' p))) ∨
    (∃ s1 p, Prepared c s q v s1 p ∧ s.rem ≠ 0 ∧ s' = move c s1 p u ∧ o = .ok (.nav s'.content)) := by
  unfold forward at h
  split at h
  · rename_i e he
    simp only [Prod.mk.injEq] at h
    exact .inl ⟨e, h.2.symm, .inl ⟨he, h.1.symm⟩⟩
  · rename_i he
    unfold advance at h
    split at h
    · rename_i hp
      simp only [Prod.mk.injEq] at h
      exact .inl ⟨_, h.2.symm, .inr (.inr (.inl ⟨he, hp, rfl, h.1.symm⟩))⟩
    · rename_i p hp
      split at h
      · rename_i hr
        simp only [Prod.mk.injEq] at h
        exact .inl ⟨_, h.2.symm, .inr (.inr (.inr ⟨hr, rfl, p, .inl ⟨he, h.1.symm, hp⟩⟩))⟩
      · rename_i hr
        simp only [Prod.mk.injEq] at h
        refine .inr ⟨s, p, .inl ⟨he, rfl, hp⟩, hr, h.1.symm, ?_⟩
        rw [← h.1, ← h.2]
  · rename_i he
    dsimp only at h
    split at h
    · rename_i e hs
      simp only [Prod.mk.injEq] at h
      exact .inl ⟨e, h.2.symm, .inr (.inl ⟨he, hs, h.1.symm⟩)⟩
    · rename_i p hs
      simp only [advance] at h
      split at h
      · rename_i hr
        simp only [Prod.mk.injEq] at h
        exact .inl ⟨_, h.2.symm, .inr (.inr (.inr ⟨hr, rfl, p, .inr ⟨he, hs, h.1.symm⟩⟩))⟩
      · rename_i hr
        simp only [Prod.mk.injEq] at h
        refine .inr ⟨_, p, .inr ⟨he, hs, rfl⟩, hr, h.1.symm, ?_⟩
        rw [← h.1, ← h.2]

/-- All outcomes of answering a request. -/
theorem answer_cases {c : Cfg n k K V} {s s' : St n k K} {ct : Content n k K} {r : Resp K}
    {o : Except Err (Out n k K V)} (h : answer c s ct r = (s', o)) :
    (∃ e, validate c r = .error e ∧ s' = s ∧ o = .error e) ∨
    (validate c r = .ok () ∧ r.stop = some (.bool true) ∧ s' = s ∧ o = .ok (stopRequest c ct.reach)) ∨
    (∃ ul, validate c r = .ok () ∧ r.stop = some (.bool false) ∧ r.goToPrevious = some (.bool true) ∧
      r.userBounds = some ul ∧ s' = goBack s ct (toBounds k ul) ∧ o = .ok (.nav s'.content)) ∨
    (∃ ql q v ul, validate c r = .ok () ∧ r.stop = some (.bool false) ∧
      r.goToPrevious = some (.bool false) ∧ r.ref = some ql ∧ broadcast k ql = .ok q ∧
      r.speed = some v ∧ r.userBounds = some ul ∧ forward c s q v (toBounds k ul) = (s', o)) := by
  unfold answer at h
  cases hv : validate c r with
  | error e =>
    rw [hv] at h
    simp only [Prod.mk.injEq] at h
    exact .inl ⟨e, rfl, h.1.symm, h.2.symm⟩
  | ok x =>
    rw [hv] at h
    right
    have hv0 := hv
    unfold validate at hv
    split at hv
    · rename_i ql v g ul st hq hsp hg hu hst
      split at hv
      · simp at hv
      · rename_i hvr
        split at hv
        · simp at hv
        · split at hv
          · simp at hv
          · rename_i hg'
            split at hv
            · simp at hv
            · split at hv
              · simp at hv
              · rename_i hst'
                have hgb : ∃ b, g = .bool b := by
                  cases g <;> simp_all [PyVal.typeIsBool]
                have hsb : ∃ b, st = .bool b := by
                  cases st <;> simp_all [PyVal.typeIsBool]
                obtain ⟨gb, rfl⟩ := hgb
                obtain ⟨sb, rfl⟩ := hsb
                simp only [handle, hq, hsp, hg, hu, hst] at h
                cases sb with
                | true =>
                  simp only [if_true, Prod.mk.injEq] at h
                  exact .inl ⟨rfl, hst, h.1.symm, h.2.symm⟩
                | false =>
                  right
                  cases gb with
                  | true =>
                    simp at h
                    refine .inl ⟨ul, rfl, hst, hg, hu, h.1.symm, ?_⟩
                    rw [← h.1, ← h.2]
                  | false =>
                    right
                    unfold validateRef at hvr
                    cases hb : broadcast k ql with
                    | error e => rw [hb] at hvr; simp at hvr
                    | ok q =>
                      rw [hb] at h
                      simp at h
                      exact ⟨ql, q, v, ul, rfl, hst, hg, hq, hb, hsp, hu, h⟩
    · simp at hv

/-- Returned requests: either a return to the answered request, or one move. -/
theorem answer_nav {c : Cfg n k K V} {s s' : St n k K} {ct ct' : Content n k K} {r : Resp K}
    (h : answer c s ct r = (s', .ok (.nav ct'))) :
    ct' = s'.content ∧
    ((∃ ul, r.goToPrevious = some (.bool true) ∧ r.userBounds = some ul ∧
        s' = goBack s ct (toBounds k ul)) ∨
     (∃ ql q v ul s1 p, r.goToPrevious = some (.bool false) ∧ r.ref = some ql ∧
        broadcast k ql = .ok q ∧ r.speed = some v ∧ r.userBounds = some ul ∧
        Prepared c s q v s1 p ∧ s.rem ≠ 0 ∧ s' = move c s1 p (toBounds k ul))) := by
  rcases answer_cases h with ⟨e, _, _, h⟩ | ⟨_, _, _, h⟩ | ⟨ul, _, _, hg, hu, hs, ho⟩ |
    ⟨ql, q, v, ul, _, _, hg, hq, hb, hsp, hu, hf⟩
  · simp at h
  · simp [stopRequest] at h
  · simp only [Except.ok.injEq, Out.nav.injEq] at ho
    exact ⟨ho, .inl ⟨ul, hg, hu, hs⟩⟩
  · rcases forward_cases hf with ⟨e, he, _⟩ | ⟨s1, p, hp, hr, hs, ho⟩
    · simp at he
    · simp only [Except.ok.injEq, Out.nav.injEq] at ho
      exact ⟨ho, .inr ⟨ql, q, v, ul, s1, p, hg, hq, hb, hsp, hu, hp, hr, hs⟩⟩

/-- A returned request to a forward response is one move. -/
theorem answer_forward {c : Cfg n k K V} {s s' : St n k K} {ct ct' : Content n k K} {r : Resp K}
    (hg : r.goToPrevious = some (.bool false)) (h : answer c s ct r = (s', .ok (.nav ct'))) :
    ct' = s'.content ∧ ∃ ql q v ul s1 p, r.ref = some ql ∧
        broadcast k ql = .ok q ∧ r.speed = some v ∧ r.userBounds = some ul ∧
        Prepared c s q v s1 p ∧ s.rem ≠ 0 ∧ s' = move c s1 p (toBounds k ul) := by
  obtain ⟨h1, ⟨ul, hg', _⟩ | ⟨ql, q, v, ul, s1, p, _, h2⟩⟩ := answer_nav h
  · rw [hg] at hg'; simp at hg'
  · exact ⟨h1, ql, q, v, ul, s1, p, h2⟩

/-- Every outcome either changes at most the stored speed / reference point / projection and issues
no request, or issues the request describing the new state. -/
theorem answer_effect {c : Cfg n k K V} {s s' : St n k K} {ct : Content n k K} {r : Resp K}
    {o : Except Err (Out n k K V)} (h : answer c s ct r = (s', o)) :
    ((∀ ct', o ≠ .ok (.nav ct')) ∧ s'.content = { s.content with speed := s'.speed } ∧
      ((s'.proj = s.proj ∧ s'.ref = s.ref) ∨ s.rem = 0)) ∨
    ∃ ct', o = .ok (.nav ct') := by
  rcases answer_cases h with ⟨e, _, rfl, rfl⟩ | ⟨_, _, rfl, rfl⟩ | ⟨ul, _, _, hg, hu, hs, ho⟩ |
    ⟨ql, q, v, ul, _, _, hg, hq, hb, hsp, hu, hf⟩
  · exact .inl ⟨by simp, rfl, .inl ⟨rfl, rfl⟩⟩
  · exact .inl ⟨by simp [stopRequest], rfl, .inl ⟨rfl, rfl⟩⟩
  · exact .inr ⟨_, ho⟩
  · rcases forward_cases hf with ⟨e, he, h1 | h1 | h1 | h1⟩ | ⟨s1, p, hp, hr, hs, ho⟩
    · obtain ⟨_, rfl⟩ := h1
      exact .inl ⟨by simp [he], rfl, .inl ⟨rfl, rfl⟩⟩
    · obtain ⟨_, _, rfl⟩ := h1
      exact .inl ⟨by simp [he], rfl, .inl ⟨rfl, rfl⟩⟩
    · obtain ⟨_, _, _, rfl⟩ := h1
      exact .inl ⟨by simp [he], rfl, .inl ⟨rfl, rfl⟩⟩
    · obtain ⟨h0, _, p, hp⟩ := h1
      refine .inl ⟨by simp [he], ?_, .inr h0⟩
      obtain ⟨a, b, c', d, e', f, g, i⟩ := hp.eq
      simp [St.content, *]
    · exact .inr ⟨_, ho⟩

section
variable [IsStrictOrderedRing K]

theorem navPoint_one (p nav : Vec k K) : navPoint p nav 1 = p := by
  funext j; simp [navPoint]

theorem navPoint_mono {p nav : Vec k K} {rem : Int} (hr : 1 ≤ rem) (h : AtLeastAsGood p nav) :
    AtLeastAsGood (navPoint p nav rem) nav ∧ AtLeastAsGood p (navPoint p nav rem) := by
  have h0 : (0 : K) < (rem : K) := by exact_mod_cast (by omega : (0 : Int) < rem)
  have h1 : (1 : K) ≤ (rem : K) := by exact_mod_cast hr
  constructor <;> intro j <;> have hj := h j <;> unfold navPoint <;>
    rw [← mul_le_mul_iff_right₀ h0] <;> field_simp <;> nlinarith [mul_nonneg (sub_nonneg.2 h1) (sub_nonneg.2 hj)]

theorem navPoint_le_iff {p nav : Vec k K} {rem : Int} (hr : 1 ≤ rem) :
    AtLeastAsGood (navPoint p nav rem) nav ↔ AtLeastAsGood p nav := by
  refine ⟨fun h j => ?_, fun h => (navPoint_mono hr h).1⟩
  have h0 : (0 : K) < (rem : K) := by exact_mod_cast (by omega : (0 : Int) < rem)
  have hj := h j
  unfold navPoint at hj
  rw [← mul_le_mul_iff_right₀ h0] at hj
  field_simp at hj
  linarith

theorem allclose_self (q : Vec k K) :
    allclose (fun j => some (q j)) (fun j => some (q j)) = true := by
  simp only [allclose, List.all_eq_true]
  intro j _
  simp only [sub_self, abs_zero, decide_eq_true_eq]
  positivity

end

end Verif.Navigator
