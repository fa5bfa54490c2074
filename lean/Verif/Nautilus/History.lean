import Verif.Nautilus.Errors
import Verif.Spec

set_option linter.unusedSectionVars false

/-! Histories of NAUTILUS and their invariants. -/

namespace Verif.Nautilus

variable {K : Type} [Field K] [LinearOrder K] {k m : Nat}

/-- The issued requests after an answer, newest first. -/
def extend (o : Except Err (Option (Req k m K))) (iss : List (Req k m K)) : List (Req k m K) :=
  match o with
  | .ok (some r) => r :: iss
  | _ => iss

theorem mem_extend {o : Except Err (Option (Req k m K))} {iss : List (Req k m K)} {q : Req k m K}
    (h : q ∈ iss) : q ∈ extend o iss := by
  unfold extend; split
  · exact List.mem_cons_of_mem _ h
  · exact h

/-- Every possible history: any request issued so far (the initial one is always available, from `start`)
is answered with any response, and any solver outcome; exceptions included. -/
inductive Reached (c : Cfg k m K) : St k m K → List (Req k m K) → Prop
  | init : Reached c St.init [.initial]
  | next {s iss req r orc s' o} : Reached c s iss → req ∈ iss → answer c s req r orc = (s', o) →
      Reached c s' (extend o iss)

/-- The histories of one run: the initial request is answered successfully once, with the iteration
number still 1 (as it is when only failed attempts have been made, `initial_fail_step`); from then on any
issued request is answered with any response, exceptions included. The solver outcomes satisfy `G`. -/
inductive Session (c : Cfg k m K) (G : Oracle k m K → Prop) : St k m K → List (Req k m K) → Prop
  | first {s0 r orc s' q} : s0.step = 1 → G orc → answer c s0 .initial r orc = (s', .ok (some q)) →
      Session c G s' [q]
  | next {s iss req r orc s' o} : Session c G s iss → req ∈ iss → G orc →
      answer c s req r orc = (s', o) → Session c G s' (extend o iss)

/-- The same, when no response that was accepted has raised an exception. -/
inductive Smooth (c : Cfg k m K) (G : Oracle k m K → Prop) : St k m K → List (Req k m K) → Prop
  | first {s0 r orc s' q} : s0.step = 1 → G orc → answer c s0 .initial r orc = (s', .ok (some q)) →
      Smooth c G s' [q]
  | next {s iss req r orc s' o} : Smooth c G s iss → req ∈ iss → G orc →
      answer c s req r orc = (s', o) → (validate c req r = .ok () → ∃ q, o = .ok q) →
      Smooth c G s' (extend o iss)

/-- The point shown last. -/
def lastPoint : List (Req k m K) → Option (Vec k K)
  | [] => none
  | .nav z _ _ _ :: _ => some z
  | _ :: l => lastPoint l

theorem Smooth.session {c : Cfg k m K} {G} {s iss} (h : Smooth c G s iss) : Session c G s iss := by
  induction h with
  | first h0 hG ha => exact .first h0 hG ha
  | next _ hr hG ha _ ih => exact .next ih hr hG ha

theorem Step.ne_initial {c : Cfg k m K} {orc} {s s' : St k m K} {req r o}
    (h : Step c orc s req r s' o) : o ≠ some .initial := by
  cases h <;> simp [navReq]

/-- No request issued later is an initial request. -/
theorem Session.not_initial {c : Cfg k m K} {G} {s iss} (h : Session c G s iss) :
    1 ≤ s.step ∧ Store s ∧ ∀ q ∈ iss, q ≠ .initial := by
  induction h with
  | first h0 hG ha =>
    have hst := answer_ok (by omega) ha
    have hq := hst.ne_initial
    generalize hqq : some _ = q' at hst
    cases hst with
    | initial hv hn hm hi hw hcap hlt h1 hx hf hz =>
      obtain ⟨v', hv', _, hv1, _⟩ := validateInitial_ok hv
      rw [hn] at hv'
      cases hv'
      refine ⟨h1, ⟨?_, ?_, h1, ?_, ?_, ?_⟩, ?_⟩
      · simp
      · simp
      · simp; omega
      · simp; omega
      · simp; omega
      · intro q hq'
        rw [List.mem_singleton.1 hq']
        rintro rfl
        exact hq rfl
  | @next s iss req r orc s' o hs hr hG ha ih =>
    obtain ⟨h1, h2, h3⟩ := ih
    obtain ⟨h4, _⟩ := answer_store h2 (h3 _ hr) ha
    refine ⟨h4.step, h4, ?_⟩
    intro q hq
    unfold extend at hq
    split at hq
    · rename_i r'
      rcases List.mem_cons.1 hq with rfl | hq
      · rintro rfl
        exact (answer_ok h1 ha).ne_initial rfl
      · exact h3 q hq
    · exact h3 q hq

/-- What is stored for the current iteration. -/
structure Inv (c : Cfg k m K) (s : St k m K) (iss : List (Req k m K)) : Prop where
  store : Store s
  prev : ∃ zp, s.zs[s.step - 1]? = some (some zp)
  cur : ∃ z, s.zs[s.step]? = some (some z) ∧ lastPoint iss = some z
  sol : ∃ x, s.xs[s.step]? = some (some x) ∧ s.fs[s.step]? = some (some (c.evaluate x))
  done : s.left = 1 → s.zs[s.step]? = s.fs[s.step]?

theorem append_get {α : Type} {l : List (Option α)} {i n : Nat} {v : α} (h : l[i]? = some (some v)) :
    (l ++ slots α n)[i]? = some (some v) := by
  rw [List.getElem?_append_left (List.getElem?_eq_some_iff.1 h).1]; exact h

/-- Changing the number of iterations keeps what is stored. -/
theorem changeN_get {s : St k m K} (n : Option PyVal) :
    (changeN s n).step = s.step ∧
    (∀ (i : Nat) v, s.zs[i]? = some (some v) → (changeN s n).zs[i]? = some (some v)) ∧
    (∀ (i : Nat) v, s.xs[i]? = some (some v) → (changeN s n).xs[i]? = some (some v)) ∧
    (∀ (i : Nat) v, s.fs[i]? = some (some v) → (changeN s n).fs[i]? = some (some v)) := by
  unfold changeN
  split
  · exact ⟨rfl, fun _ _ h => h, fun _ _ h => h, fun _ _ h => h⟩
  · exact ⟨rfl, fun _ _ h => append_get h, fun _ _ h => append_get h, fun _ _ h => append_get h⟩

theorem iterationPoint_one (z f : Vec k K) : iterationPoint 1 z f = f := by
  funext j; simp [iterationPoint]

theorem Inv.initial {c : Cfg k m K} {s0 s' : St k m K} {r orc q} (h0 : s0.step = 1)
    (ha : answer c s0 .initial r orc = (s', .ok (some q))) : Inv c s' [q] := by
  have hS : Session c (fun _ => True) s' [q] := .first h0 trivial ha
  obtain ⟨h1, hst, _⟩ := hS.not_initial
  have h := answer_ok (by omega) ha
  cases h with
  | @initial _ v w meth info cap x f z hv hn hm hi hw hcap hlt h1' hx hf hz =>
    refine ⟨hst, ⟨c.nadir, ?_⟩, ⟨z, ?_, rfl⟩, ⟨x, ?_, ?_⟩, ?_⟩
    · dsimp only
      rw [getElem?_set_other (by omega), getElem?_set_same (by simp; omega)]
    · dsimp only
      rw [getElem?_set_same (by simpa using hlt)]
    · dsimp only
      rw [getElem?_set_same (by simpa using hlt)]
    · dsimp only
      rw [getElem?_set_same (by simpa using hlt), hf]
    · dsimp only
      intro hl
      rw [getElem?_set_same (by simpa using hlt), getElem?_set_same (by simpa using hlt), hz, hl,
        iterationPoint_one]

theorem Inv.step {c : Cfg k m K} {s s' : St k m K} {iss : List (Req k m K)} {req r orc o}
    (hi : Inv c s iss) (hreq : req ≠ .initial) (ha : answer c s req r orc = (s', .ok o)) :
    Inv c s' (extend (.ok o) iss) := by
  obtain ⟨hst, -⟩ := answer_store hi.store hreq ha
  have h := answer_ok hi.store.step ha
  obtain ⟨zp, hzp⟩ := hi.prev
  obtain ⟨z, hz, hlp⟩ := hi.cur
  obtain ⟨x, hx, hf⟩ := hi.sol
  obtain ⟨e1, e2, e3, e4⟩ := changeN_get (s := s) r.nIterations
  have hzp' := e2 _ _ hzp
  have hz' := e2 _ _ hz
  have hx' := e3 _ _ hx
  have hf' := e4 _ _ hf
  rw [← e1] at hzp' hz' hx' hf'
  cases h with
  | ended =>
    exact ⟨hst, hi.prev, ⟨z, hz, by simpa [extend, lastPoint] using hlp⟩, hi.sol, hi.done⟩
  | initial => exact absurd rfl hreq
  | stop hv hs1 hl hx1 hf1 =>
    subst hs1
    exact ⟨hst, ⟨zp, hzp'⟩, ⟨z, hz', by simpa [extend, lastPoint] using hlp⟩, ⟨x, hx', hf'⟩, by simp⟩
  | keep hv hs1 hl hb hp hzl hxl hfl hx1 hf1 hz1 hz2 =>
    subst hs1
    rw [hx'] at hx1
    rw [hf'] at hf1
    rw [hz'] at hz1
    cases hx1; cases hf1; cases hz1
    refine ⟨hst, ⟨z, ?_⟩, ⟨_, ?_, rfl⟩, ⟨x, ?_, ?_⟩, ?_⟩
    · dsimp only
      rw [Nat.add_sub_cancel, getElem?_set_other (by omega), hz']
    · exact getElem?_set_same hzl
    · exact getElem?_set_same hxl
    · exact getElem?_set_same hfl
    · dsimp only
      intro hl1
      rw [getElem?_set_same hzl, getElem?_set_same hfl, hz2, hl1, iterationPoint_one]
  | @change z0 lo up d _ s1 w meth info x1 f1 zp1 z1 hv hs1 hl hb hp hm hinf hw hzl hxl hfl hz1 hx1 hf1 hz2 =>
    subst hs1
    refine ⟨hst, ⟨z, ?_⟩, ⟨_, ?_, rfl⟩, ⟨x1, ?_, ?_⟩, ?_⟩
    · dsimp only
      rw [Nat.add_sub_cancel, getElem?_set_other (by omega), hz']
    · exact getElem?_set_same hzl
    · exact getElem?_set_same hxl
    · rw [← hf1]; exact getElem?_set_same hfl
    · dsimp only
      intro hl1
      rw [getElem?_set_same hzl, getElem?_set_same hfl, hz2, hl1, iterationPoint_one]
  | short hv hs1 hl hb hsh hz0 hzp1 hf1 hz2 =>
    subst hs1
    have hlen := (List.getElem?_eq_some_iff.1 hz0).1
    refine ⟨hst, ⟨zp, ?_⟩, ⟨_, ?_, rfl⟩, ⟨x, hx', hf'⟩, ?_⟩
    · dsimp only
      have : (changeN s r.nIterations).step ≠ (changeN s r.nIterations).step - 1 := by
        have := hi.store.step; omega
      rw [getElem?_set_other this, hzp']
    · exact getElem?_set_same hlen
    · dsimp only
      intro hl1
      omega
  | @redo z0 lo up d _ s1 w meth info x1 f1 zp1 z1 hv hs1 hl hb hsh hp hm hinf hw hzl hxl hfl hz1 hx1 hf1 hz2 =>
    subst hs1
    refine ⟨hst, ⟨zp, ?_⟩, ⟨_, ?_, rfl⟩, ⟨x1, ?_, ?_⟩, ?_⟩
    · dsimp only
      have : (changeN s r.nIterations).step ≠ (changeN s r.nIterations).step - 1 := by
        have := hi.store.step; omega
      rw [getElem?_set_other this, hzp']
    · exact getElem?_set_same hzl
    · exact getElem?_set_same hxl
    · rw [← hf1]; exact getElem?_set_same hfl
    · dsimp only
      intro hl1
      omega
  | nothing hv hs1 hl hb hsh hp =>
    subst hs1
    exact ⟨hst, ⟨zp, hzp'⟩, ⟨z, hz', by simpa [extend] using hlp⟩, ⟨x, hx', hf'⟩, by omega⟩

theorem answer_refused {c : Cfg k m K} {s s' : St k m K} {req r orc o}
    (ha : answer c s req r orc = (s', o)) (h : validate c req r ≠ .ok ()) :
    s' = s ∧ ∃ e, o = .error e := by
  unfold answer at ha
  split at ha
  · simp only [Prod.mk.injEq] at ha
    exact ⟨ha.1.symm, _, ha.2.symm⟩
  · rename_i u hv
    exact absurd hv h

theorem Smooth.inv {c : Cfg k m K} {G} {s iss} (h : Smooth c G s iss) : Inv c s iss := by
  induction h with
  | first h0 hG ha => exact Inv.initial h0 ha
  | @next s iss req r orc s' o hs hr hG ha hok ih =>
    have hni := hs.session.not_initial.2.2 _ hr
    by_cases hv : validate c req r = .ok ()
    · obtain ⟨q, rfl⟩ := hok hv
      exact ih.step hni ha
    · obtain ⟨rfl, e, rfl⟩ := answer_refused ha hv
      simpa [extend] using ih

/-- A failed attempt to answer the initial request leaves the iteration number as it is. -/
theorem initial_fail_step {c : Cfg k m K} {s s' : St k m K} {r orc o}
    (ha : answer c s .initial r orc = (s', o)) : s'.step = s.step := by
  unfold answer at ha
  split at ha
  · simp only [Prod.mk.injEq] at ha; rw [ha.1]
  rename_i u hv
  have hp : ∀ (t t' : St k m K) (i : Nat) (v : Vec k K) (o : Except Err Unit),
      setZ i v t = (t', o) → t'.step = t.step := by
    intro t t' i v o h
    rcases o with e | a
    · rw [(setZ_error.1 h).2.1]
    · rw [(setZ_ok.1 h).2]
  have T : Exec.Triple (fun t : St k m K => t.step = s.step) (handleInitial c r orc)
      (fun _ t => t.step = s.step) (fun _ t => t.step = s.step) := by
    have tz : ∀ i v, Exec.Triple (fun t : St k m K => t.step = s.step) (setZ i v)
        (fun _ t => t.step = s.step) (fun _ t => t.step = s.step) := by
      intro i v t ht
      refine ⟨fun s' a h => ?_, fun s' e h => ?_⟩
      · rw [(setZ_ok.1 h).2]; exact ht
      · rw [(setZ_error.1 h).2.1]; exact ht
    have tx : ∀ i v, Exec.Triple (fun t : St k m K => t.step = s.step) (setX i v)
        (fun _ t => t.step = s.step) (fun _ t => t.step = s.step) := by
      intro i v t ht
      refine ⟨fun s' a h => ?_, fun s' e h => ?_⟩
      · rw [(setX_ok.1 h).2]; exact ht
      · rw [(setX_error.1 h).2.1]; exact ht
    have tf : ∀ i v, Exec.Triple (fun t : St k m K => t.step = s.step) (setF i v)
        (fun _ t => t.step = s.step) (fun _ t => t.step = s.step) := by
      intro i v t ht
      refine ⟨fun s' a h => ?_, fun s' e h => ?_⟩
      · rw [(setF_ok.1 h).2]; exact ht
      · rw [(setF_error.1 h).2.1]; exact ht
    have gz : ∀ i, Exec.Triple (fun t : St k m K => t.step = s.step) (getZ i)
        (fun _ t => t.step = s.step) (fun _ t => t.step = s.step) := by
      intro i t ht
      refine ⟨fun s' a h => ?_, fun s' e h => ?_⟩
      · rw [(getZ_ok.1 h).1]; exact ht
      · rw [(getZ_error.1 h).1]; exact ht
    have gf : ∀ i, Exec.Triple (fun t : St k m K => t.step = s.step) (getF i)
        (fun _ t => t.step = s.step) (fun _ t => t.step = s.step) := by
      intro i t ht
      refine ⟨fun s' a h => ?_, fun s' e h => ?_⟩
      · rw [(getF_ok.1 h).1]; exact ht
      · rw [(getF_error.1 h).1]; exact ht
    have g : Exec.Triple (fun t : St k m K => t.step = s.step) Exec.get
        (fun _ t => t.step = s.step) (fun _ t => t.step = s.step) :=
      Exec.Triple.get.weaken (fun _ h => h) (fun _ _ h => h.1) (fun _ _ h => h)
    unfold handleInitial
    split
    · refine Exec.Triple.bind (Exec.Triple.modify (Q := fun _ t => t.step = s.step)
        fun t ht => by exact ht) fun _ => ?_
      refine Exec.Triple.bind g fun _ => ?_
      refine Exec.Triple.bind (tz _ _) fun _ => ?_
      refine Exec.Triple.bind (Q := fun _ t => t.step = s.step) ?_ fun _ => ?_
      · unfold solveNew
        refine Exec.Triple.bind (Exec.Triple.lift (Q := fun _ t => t.step = s.step)
          (fun _ h _ _ => h) (fun _ h _ _ => h)) fun _ => ?_
        exact Exec.Triple.bind g fun _ => Exec.Triple.bind (gz _) fun _ =>
          Exec.Triple.bind (tx _ _) fun _ => tf _ _
      · unfold movePoint
        exact Exec.Triple.bind g fun _ => Exec.Triple.bind (gz _) fun _ =>
          Exec.Triple.bind (gf _) fun _ => Exec.Triple.bind (tz _ _) fun _ =>
          Exec.Triple.pure fun _ h => h
    · exact Exec.Triple.raise fun _ h => h
  rcases o with e | a
  · exact (T s rfl).2 s' e ha
  · exact (T s rfl).1 s' a ha

end Verif.Nautilus
