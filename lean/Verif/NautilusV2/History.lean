import Verif.NautilusV2.Errors
import Verif.Spec

set_option linter.unusedSectionVars false

/-! Histories of NAUTILUS 2 and their invariants. -/

namespace Verif.NautilusV2

variable {K : Type} [Field K] [LinearOrder K] {k m : Nat}

/-- The issued requests after an answer, newest first. -/
def extend (o : Except Err (Option (Req k m K))) (iss : List (Req k m K)) : List (Req k m K) :=
  match o with
  | .ok (some r) => r :: iss
  | _ => iss

theorem mem_extend {o : Except Err (Option (Req k m K))} {iss : List (Req k m K)} {q : Req k m K}
    (h : q ∈ iss) : q ∈ extend o iss := by
  unfold extend; split
  · exact List.mem_cons_of_mem _ h
  · exact h

/-- Every possible history: any request issued so far (the initial one is always available, from `start`)
is answered with any response, and any solver outcome; exceptions included. -/
inductive Reached (c : Cfg k m K) : St k m K → List (Req k m K) → Prop
  | init : Reached c St.init [.initial]
  | next {s iss req r orc s' o} : Reached c s iss → req ∈ iss → answer c s req r orc = (s', o) →
      Reached c s' (extend o iss)

/-- The histories of one run in which every new number of iterations fits the plan (`Fits`): the initial
request is answered successfully once, with the iteration number still 1 (as it is when only failed attempts
have been made, `initial_fail_step`); from then on any issued request is answered with any response,
exceptions included. -/
inductive Planned (c : Cfg k m K) : St k m K → List (Req k m K) → Prop
  | first {s0 r orc s' q} : s0.step = 1 → answer c s0 .initial r orc = (s', .ok (some q)) →
      Planned c s' [q]
  | next {s iss req r orc s' o} : Planned c s iss → req ∈ iss → Fits s r.nIterations →
      answer c s req r orc = (s', o) → Planned c s' (extend o iss)

/-- The histories of one run (the solver outcomes satisfy `G`), with any numbers of iterations. -/
inductive Session (c : Cfg k m K) (G : Oracle k m K → Prop) : St k m K → List (Req k m K) → Prop
  | first {s0 r orc s' q} : s0.step = 1 → G orc → answer c s0 .initial r orc = (s', .ok (some q)) →
      Session c G s' [q]
  | next {s iss req r orc s' o} : Session c G s iss → req ∈ iss → G orc →
      answer c s req r orc = (s', o) → Session c G s' (extend o iss)

/-- The same, when no response that was accepted has raised an exception. -/
inductive Smooth (c : Cfg k m K) (G : Oracle k m K → Prop) : St k m K → List (Req k m K) → Prop
  | first {s0 r orc s' q} : s0.step = 1 → G orc → answer c s0 .initial r orc = (s', .ok (some q)) →
      Smooth c G s' [q]
  | next {s iss req r orc s' o} : Smooth c G s iss → req ∈ iss → G orc →
      answer c s req r orc = (s', o) → (validate c req r = .ok () → ∃ q, o = .ok q) →
      Smooth c G s' (extend o iss)

/-- The point shown last. -/
def lastPoint : List (Req k m K) → Option (Vec k K)
  | [] => none
  | .nav z _ _ _ :: _ => some z
  | _ :: l => lastPoint l

theorem Smooth.session {c : Cfg k m K} {G} {s iss} (h : Smooth c G s iss) : Session c G s iss := by
  induction h with
  | first h0 hG ha => exact .first h0 hG ha
  | next _ hr hG ha _ ih => exact .next ih hr hG ha

theorem Step.ne_initial {c : Cfg k m K} {orc} {s s' : St k m K} {req r o}
    (h : Step c orc s req r s' o) : o ≠ some .initial := by
  cases h <;> simp [navReq]

theorem initial_store {c : Cfg k m K} {s0 s' : St k m K} {r orc q} (h0 : s0.step = 1)
    (ha : answer c s0 .initial r orc = (s', .ok (some q))) : Store s' ∧ q ≠ .initial := by
  have hst := answer_ok (by omega) ha
  have hq := hst.ne_initial
  refine ⟨?_, fun h => hq (by rw [h])⟩
  clear hq
  generalize hqq : some q = q' at hst
  cases hst with
  | initial hv hn hm hi hw hcap hlt h1 hx hf hz =>
    obtain ⟨v', hv', _, hv1, _⟩ := validateInitial_ok hv
    rw [hn] at hv'
    cases hv'
    refine ⟨?_, ?_, ?_, h1, ?_, ?_, ?_, ?_⟩ <;> simp <;> omega

/-- No request issued later is an initial request. -/
theorem Planned.not_initial {c : Cfg k m K} {s iss} (h : Planned c s iss) :
    Store s ∧ ∀ q ∈ iss, q ≠ .initial := by
  induction h with
  | first h0 ha =>
    obtain ⟨h1, h2⟩ := initial_store h0 ha
    exact ⟨h1, fun q hq => by rw [List.mem_singleton.1 hq]; exact h2⟩
  | @next s iss req r orc s' o hs hr hn ha ih =>
    obtain ⟨h2, h3⟩ := ih
    obtain ⟨h4, _⟩ := answer_store h2 hn (h3 _ hr) ha
    refine ⟨h4, ?_⟩
    intro q hq
    unfold extend at hq
    split at hq
    · rename_i r'
      rcases List.mem_cons.1 hq with rfl | hq
      · rintro rfl
        exact (answer_ok h2.step ha).ne_initial rfl
      · exact h3 q hq
    · exact h3 q hq

/-- The iteration number is never 0. -/
theorem answer_step {c : Cfg k m K} {orc : Oracle k m K} {s s' : St k m K} {req : Req k m K}
    {r : Resp K} {o : Except Err (Option (Req k m K))} (hs : 1 ≤ s.step)
    (h : answer c s req r orc = (s', o)) : 1 ≤ s'.step := by
  have set1 : ∀ i v, Exec.Triple (fun t : St k m K => 1 ≤ t.step) (setZ i v)
      (fun _ t => 1 ≤ t.step) (fun _ t => 1 ≤ t.step) := by
    intro i v t ht
    refine ⟨fun s' a h => ?_, fun s' e h => ?_⟩
    · rw [(setZ_ok.1 h).2]; exact ht
    · rw [(setZ_error.1 h).2.1]; exact ht
  have set2 : ∀ i v, Exec.Triple (fun t : St k m K => 1 ≤ t.step) (setX i v)
      (fun _ t => 1 ≤ t.step) (fun _ t => 1 ≤ t.step) := by
    intro i v t ht
    refine ⟨fun s' a h => ?_, fun s' e h => ?_⟩
    · rw [(setX_ok.1 h).2]; exact ht
    · rw [(setX_error.1 h).2.1]; exact ht
  have set3 : ∀ i v, Exec.Triple (fun t : St k m K => 1 ≤ t.step) (setF i v)
      (fun _ t => 1 ≤ t.step) (fun _ t => 1 ≤ t.step) := by
    intro i v t ht
    refine ⟨fun s' a h => ?_, fun s' e h => ?_⟩
    · rw [(setF_ok.1 h).2]; exact ht
    · rw [(setF_error.1 h).2.1]; exact ht
  have set4 : ∀ i v, Exec.Triple (fun t : St k m K => 1 ≤ t.step) (setB i v)
      (fun _ t => 1 ≤ t.step) (fun _ t => 1 ≤ t.step) := by
    intro i v t ht
    refine ⟨fun s' a h => ?_, fun s' e h => ?_⟩
    · rw [(setB_ok.1 h).2]; exact ht
    · rw [(setB_error.1 h).2.1]; exact ht
  have get1 : ∀ i, Exec.Triple (fun t : St k m K => 1 ≤ t.step) (getZ i)
      (fun _ t => 1 ≤ t.step) (fun _ t => 1 ≤ t.step) := by
    intro i t ht
    refine ⟨fun s' a h => ?_, fun s' e h => ?_⟩
    · rw [(getZ_ok.1 h).1]; exact ht
    · rw [(getZ_error.1 h).1]; exact ht
  have get2 : ∀ i, Exec.Triple (fun t : St k m K => 1 ≤ t.step) (getF i)
      (fun _ t => 1 ≤ t.step) (fun _ t => 1 ≤ t.step) := by
    intro i t ht
    refine ⟨fun s' a h => ?_, fun s' e h => ?_⟩
    · rw [(getF_ok.1 h).1]; exact ht
    · rw [(getF_error.1 h).1]; exact ht
  have get3 : ∀ i, Exec.Triple (fun t : St k m K => 1 ≤ t.step) (readX i)
      (fun _ t => 1 ≤ t.step) (fun _ t => 1 ≤ t.step) := by
    intro i t ht
    refine ⟨fun s' a h => ?_, fun s' e h => ?_⟩
    · rw [(readX_ok.1 h).1]; exact ht
    · rw [(readX_error.1 h).1]; exact ht
  have get4 : ∀ i, Exec.Triple (fun t : St k m K => 1 ≤ t.step) (readF i)
      (fun _ t => 1 ≤ t.step) (fun _ t => 1 ≤ t.step) := by
    intro i t ht
    refine ⟨fun s' a h => ?_, fun s' e h => ?_⟩
    · rw [(readF_ok.1 h).1]; exact ht
    · rw [(readF_error.1 h).1]; exact ht
  have g : Exec.Triple (fun t : St k m K => 1 ≤ t.step) Exec.get
      (fun _ t => 1 ≤ t.step) (fun _ t => 1 ≤ t.step) :=
    Exec.Triple.get.weaken (fun _ h => h) (fun _ _ h => h.1) (fun _ _ h => h)
  have lf : ∀ x : Except Err (Vec k K), Exec.Triple (fun t : St k m K => 1 ≤ t.step) (Exec.lift x)
      (fun _ t => 1 ≤ t.step) (fun _ t => 1 ≤ t.step) :=
    fun x => Exec.Triple.lift (fun _ h _ _ => h) (fun _ h _ _ => h)
  have solve : ∀ w, Exec.Triple (fun t : St k m K => 1 ≤ t.step) (solveWith c orc w)
      (fun _ t => 1 ≤ t.step) (fun _ t => 1 ≤ t.step) := fun w =>
    Exec.Triple.bind g fun _ => Exec.Triple.bind (get1 _) fun _ =>
      Exec.Triple.bind (set2 _ _) fun _ => set3 _ _
  have move : Exec.Triple (fun t : St k m K => 1 ≤ t.step) (movePoint c orc)
      (fun _ t => 1 ≤ t.step) (fun _ t => 1 ≤ t.step) :=
    Exec.Triple.bind g fun _ => Exec.Triple.bind (get1 _) fun _ =>
      Exec.Triple.bind (get2 _) fun _ => Exec.Triple.bind (set1 _ _) fun _ =>
      Exec.Triple.bind (set4 _ _) fun _ => Exec.Triple.pure fun _ h => h
  have hinit : Exec.Triple (fun t : St k m K => 1 ≤ t.step) (handleInitial c r orc)
      (fun _ t => 1 ≤ t.step) (fun _ t => 1 ≤ t.step) := by
    unfold handleInitial
    split
    · refine Exec.Triple.bind (Exec.Triple.modify (Q := fun _ t => 1 ≤ t.step)
        fun t ht => by exact ht) fun _ => ?_
      exact Exec.Triple.bind g fun _ => Exec.Triple.bind (set1 _ _) fun _ =>
        Exec.Triple.bind (lf _) fun _ => Exec.Triple.bind (set4 _ _) fun _ =>
        Exec.Triple.bind (solve _) fun _ => move
    · exact Exec.Triple.raise fun _ h => h
  have hfwd : Exec.Triple (fun t : St k m K => 1 ≤ t.step) (forward c r orc)
      (fun _ t => 1 ≤ t.step) (fun _ t => 1 ≤ t.step) := by
    unfold forward
    refine Exec.Triple.bind (Exec.Triple.modify (Q := fun _ t => 1 ≤ t.step)
        fun t ht => by simp) fun _ => ?_
    split
    · exact Exec.Triple.raise fun _ h => h
    · exact Exec.Triple.bind g fun _ => Exec.Triple.bind (get3 _) fun _ =>
        Exec.Triple.bind (set2 _ _) fun _ => Exec.Triple.bind (get4 _) fun _ =>
        Exec.Triple.bind (set3 _ _) fun _ => move
    · exact Exec.Triple.bind (lf _) fun _ => Exec.Triple.bind (solve _) fun _ => move
    · exact Exec.Triple.raise fun _ h => h
  have hback : Exec.Triple (fun t : St k m K => 1 ≤ t.step) (goBack c r orc)
      (fun _ t => 1 ≤ t.step) (fun _ t => 1 ≤ t.step) := by
    unfold goBack
    split
    · exact Exec.Triple.raise fun _ h => h
    · unfold shortStep
      exact Exec.Triple.bind g fun _ => Exec.Triple.bind (get1 _) fun _ =>
        Exec.Triple.bind (get1 _) fun _ => Exec.Triple.bind (set1 _ _) fun _ =>
        Exec.Triple.bind (set4 _ _) fun _ => Exec.Triple.bind (get2 _) fun _ =>
        Exec.Triple.pure fun _ h => h
    · split
      · exact Exec.Triple.raise fun _ h => h
      · exact Exec.Triple.pure fun _ h => h
      · exact Exec.Triple.bind (lf _) fun _ => Exec.Triple.bind (solve _) fun _ => move
      · exact Exec.Triple.raise fun _ h => h
  have hnav : Exec.Triple (fun t : St k m K => 1 ≤ t.step) (handleNav c r orc)
      (fun _ t => 1 ≤ t.step) (fun _ t => 1 ≤ t.step) := by
    unfold handleNav
    refine Exec.Triple.bind (Exec.Triple.modify (Q := fun _ t => 1 ≤ t.step) ?_) fun _ => ?_
    · intro t ht
      unfold changeN
      split <;> exact ht
    refine Exec.Triple.bind g fun _ => ?_
    split
    · exact Exec.Triple.bind (Exec.Triple.modify (Q := fun _ t => 1 ≤ t.step) fun t ht => by exact ht)
        fun _ => Exec.Triple.bind (get3 _) fun _ => Exec.Triple.bind (get4 _) fun _ =>
        Exec.Triple.pure fun _ h => h
    · split
      · exact Exec.Triple.raise fun _ h => h
      · exact hfwd
      · exact hback
  have fin : ∀ x : Exec (St k m K) (Option (Req k m K)),
      Exec.Triple (fun t : St k m K => 1 ≤ t.step) x (fun _ t => 1 ≤ t.step) (fun _ t => 1 ≤ t.step) →
      x s = (s', o) → 1 ≤ s'.step := by
    intro x hx h
    rcases o with e | a
    · exact (hx s hs).2 s' e h
    · exact (hx s hs).1 s' a h
  unfold answer at h
  split at h
  · simp only [Prod.mk.injEq] at h; rw [← h.1]; exact hs
  · unfold iterate at h
    split at h
    · exact fin _ hinit h
    · exact fin _ hnav h
    · simp only [Exec.pure_run, Prod.mk.injEq] at h; rw [← h.1]; exact hs

theorem Session.step_pos {c : Cfg k m K} {G} {s iss} (h : Session c G s iss) : 1 ≤ s.step := by
  induction h with
  | first h0 hG ha => exact answer_step (by omega) ha
  | next _ hr hG ha ih => exact answer_step ih ha

theorem Session.not_initial {c : Cfg k m K} {G} {s iss} (h : Session c G s iss) :
    ∀ q ∈ iss, q ≠ .initial := by
  induction h with
  | first h0 hG ha =>
    exact fun q hq => by rw [List.mem_singleton.1 hq]; exact (initial_store h0 ha).2
  | @next s iss req r orc s' o hs hr hG ha ih =>
    intro q hq
    unfold extend at hq
    split at hq
    · rename_i r'
      rcases List.mem_cons.1 hq with rfl | hq
      · rintro rfl
        exact (answer_ok hs.step_pos ha).ne_initial rfl
      · exact ih q hq
    · exact ih q hq

/-- What is stored for the current iteration. -/
structure Inv (c : Cfg k m K) (s : St k m K) (iss : List (Req k m K)) : Prop where
  pos : 1 ≤ s.step
  prev : ∃ zp, s.zs[s.step - 1]? = some (some zp)
  cur : ∃ z, s.zs[s.step]? = some (some z) ∧ lastPoint iss = some z
  sol : ∃ x, s.xs[s.step]? = some (some x) ∧ s.fs[s.step]? = some (some (c.evaluate x))
  done : s.left = 1 → s.zs[s.step]? = s.fs[s.step]?

theorem append_get {α : Type} {l : List (Option α)} {i n : Nat} {v : α} (h : l[i]? = some (some v)) :
    (l ++ slots α n)[i]? = some (some v) := by
  rw [List.getElem?_append_left (List.getElem?_eq_some_iff.1 h).1]; exact h

/-- Changing the number of iterations keeps what is stored. -/
theorem changeN_get {s : St k m K} (n : Option PyVal) :
    (changeN s n).step = s.step ∧
    (∀ (i : Nat) v, s.zs[i]? = some (some v) → (changeN s n).zs[i]? = some (some v)) ∧
    (∀ (i : Nat) v, s.xs[i]? = some (some v) → (changeN s n).xs[i]? = some (some v)) ∧
    (∀ (i : Nat) v, s.fs[i]? = some (some v) → (changeN s n).fs[i]? = some (some v)) := by
  unfold changeN
  split
  · exact ⟨rfl, fun _ _ h => h, fun _ _ h => h, fun _ _ h => h⟩
  · exact ⟨rfl, fun _ _ h => append_get h, fun _ _ h => append_get h, fun _ _ h => append_get h⟩

theorem iterationPoint_one (z f : Vec k K) : iterationPoint 1 z f = f := by
  funext j; simp [iterationPoint]

theorem Inv.initial {c : Cfg k m K} {s0 s' : St k m K} {r orc q} (h0 : s0.step = 1)
    (ha : answer c s0 .initial r orc = (s', .ok (some q))) : Inv c s' [q] := by
  have hst : 1 ≤ s'.step := answer_step (by omega) ha
  have h := answer_ok (by omega) ha
  cases h with
  | @initial _ v w meth info cap x f z hv hn hm hi hw hcap hlt h1' hx hf hz =>
    refine ⟨hst, ⟨c.start, ?_⟩, ⟨z, ?_, rfl⟩, ⟨x, ?_, ?_⟩, ?_⟩
    · dsimp only
      rw [getElem?_set_other (by omega), getElem?_set_same (by simp; omega)]
    · dsimp only
      rw [getElem?_set_same (by simp; omega)]
    · dsimp only
      rw [getElem?_set_same (by simp; omega)]
    · dsimp only
      rw [getElem?_set_same (by simp; omega), hf]
    · dsimp only
      intro hl
      rw [getElem?_set_same (by simp; omega), getElem?_set_same (by simp; omega), hz, hl,
        iterationPoint_one]

theorem Inv.step {c : Cfg k m K} {s s' : St k m K} {iss : List (Req k m K)} {req r orc o}
    (hi : Inv c s iss) (hreq : req ≠ .initial) (ha : answer c s req r orc = (s', .ok o)) :
    Inv c s' (extend (.ok o) iss) := by
  have hst := answer_step hi.pos ha
  have h := answer_ok hi.pos ha
  obtain ⟨zp, hzp⟩ := hi.prev
  obtain ⟨z, hz, hlp⟩ := hi.cur
  obtain ⟨x, hx, hf⟩ := hi.sol
  obtain ⟨e1, e2, e3, e4⟩ := changeN_get (s := s) r.nIterations
  have hzp' := e2 _ _ hzp
  have hz' := e2 _ _ hz
  have hx' := e3 _ _ hx
  have hf' := e4 _ _ hf
  rw [← e1] at hzp' hz' hx' hf'
  cases h with
  | ended =>
    exact ⟨hst, hi.prev, ⟨z, hz, by simpa [extend, lastPoint] using hlp⟩, hi.sol, hi.done⟩
  | initial => exact absurd rfl hreq
  | stop hv hs1 hl hx1 hf1 =>
    subst hs1
    exact ⟨hst, ⟨zp, hzp'⟩, ⟨z, hz', by simpa [extend, lastPoint] using hlp⟩, ⟨x, hx', hf'⟩, by simp⟩
  | keep hv hs1 hl hb hp hzl hxl hfl hbl hx1 hf1 hz1 hz2 =>
    subst hs1
    rw [hx'] at hx1
    rw [hf'] at hf1
    rw [hz'] at hz1
    cases hx1; cases hf1; cases hz1
    refine ⟨hst, ⟨z, ?_⟩, ⟨_, ?_, rfl⟩, ⟨x, ?_, ?_⟩, ?_⟩
    · dsimp only
      rw [Nat.add_sub_cancel, getElem?_set_other (by omega), hz']
    · exact getElem?_set_same hzl
    · exact getElem?_set_same hxl
    · exact getElem?_set_same hfl
    · dsimp only
      intro hl1
      rw [getElem?_set_same hzl, getElem?_set_same hfl, hz2, hl1, iterationPoint_one]
  | @change z0 lo up d _ s1 w meth info x1 f1 zp1 z1 hv hs1 hl hb hp hm hinf hw hzl hxl hfl hbl hz1 hx1 hf1 hz2 =>
    subst hs1
    refine ⟨hst, ⟨z, ?_⟩, ⟨_, ?_, rfl⟩, ⟨x1, ?_, ?_⟩, ?_⟩
    · dsimp only
      rw [Nat.add_sub_cancel, getElem?_set_other (by omega), hz']
    · exact getElem?_set_same hzl
    · exact getElem?_set_same hxl
    · rw [← hf1]; exact getElem?_set_same hfl
    · dsimp only
      intro hl1
      rw [getElem?_set_same hzl, getElem?_set_same hfl, hz2, hl1, iterationPoint_one]
  | short hv hs1 hl hb hsh hz0 hzp1 hf1 hbl hz2 =>
    subst hs1
    have hlen := (List.getElem?_eq_some_iff.1 hz0).1
    refine ⟨hst, ⟨zp, ?_⟩, ⟨_, ?_, rfl⟩, ⟨x, hx', hf'⟩, ?_⟩
    · dsimp only
      have : (changeN s r.nIterations).step ≠ (changeN s r.nIterations).step - 1 := by
        have := hi.pos; omega
      rw [getElem?_set_other this, hzp']
    · exact getElem?_set_same hlen
    · dsimp only
      intro hl1
      omega
  | @redo z0 lo up d _ s1 w meth info x1 f1 zp1 z1 hv hs1 hl hb hsh hp hm hinf hw hzl hxl hfl hbl hz1 hx1 hf1 hz2 =>
    subst hs1
    refine ⟨hst, ⟨zp, ?_⟩, ⟨_, ?_, rfl⟩, ⟨x1, ?_, ?_⟩, ?_⟩
    · dsimp only
      have : (changeN s r.nIterations).step ≠ (changeN s r.nIterations).step - 1 := by
        have := hi.pos; omega
      rw [getElem?_set_other this, hzp']
    · exact getElem?_set_same hzl
    · exact getElem?_set_same hxl
    · rw [← hf1]; exact getElem?_set_same hfl
    · dsimp only
      intro hl1
      omega
  | nothing hv hs1 hl hb hsh hp =>
    subst hs1
    exact ⟨hst, ⟨zp, hzp'⟩, ⟨z, hz', by simpa [extend] using hlp⟩, ⟨x, hx', hf'⟩, by omega⟩

theorem answer_refused {c : Cfg k m K} {s s' : St k m K} {req r orc o}
    (ha : answer c s req r orc = (s', o)) (h : validate c req r ≠ .ok ()) :
    s' = s ∧ ∃ e, o = .error e := by
  unfold answer at ha
  split at ha
  · simp only [Prod.mk.injEq] at ha
    exact ⟨ha.1.symm, _, ha.2.symm⟩
  · rename_i u hv
    exact absurd hv h

theorem Smooth.inv {c : Cfg k m K} {G} {s iss} (h : Smooth c G s iss) : Inv c s iss := by
  induction h with
  | first h0 hG ha => exact Inv.initial h0 ha
  | @next s iss req r orc s' o hs hr hG ha hok ih =>
    have hni := hs.session.not_initial _ hr
    by_cases hv : validate c req r = .ok ()
    · obtain ⟨q, rfl⟩ := hok hv
      exact ih.step hni ha
    · obtain ⟨rfl, e, rfl⟩ := answer_refused ha hv
      simpa [extend] using ih

/-- A failed attempt to answer the initial request leaves the iteration number as it is. -/
theorem initial_fail_step {c : Cfg k m K} {s s' : St k m K} {r orc o}
    (ha : answer c s .initial r orc = (s', o)) : s'.step = s.step := by
  unfold answer at ha
  split at ha
  · simp only [Prod.mk.injEq] at ha; rw [ha.1]
  rename_i u hv
  have hp : ∀ (t t' : St k m K) (i : Nat) (v : Vec k K) (o : Except Err Unit),
      setZ i v t = (t', o) → t'.step = t.step := by
    intro t t' i v o h
    rcases o with e | a
    · rw [(setZ_error.1 h).2.1]
    · rw [(setZ_ok.1 h).2]
  have T : Exec.Triple (fun t : St k m K => t.step = s.step) (handleInitial c r orc)
      (fun _ t => t.step = s.step) (fun _ t => t.step = s.step) := by
    have tz : ∀ i v, Exec.Triple (fun t : St k m K => t.step = s.step) (setZ i v)
        (fun _ t => t.step = s.step) (fun _ t => t.step = s.step) := by
      intro i v t ht
      refine ⟨fun s' a h => ?_, fun s' e h => ?_⟩
      · rw [(setZ_ok.1 h).2]; exact ht
      · rw [(setZ_error.1 h).2.1]; exact ht
    have tx : ∀ i v, Exec.Triple (fun t : St k m K => t.step = s.step) (setX i v)
        (fun _ t => t.step = s.step) (fun _ t => t.step = s.step) := by
      intro i v t ht
      refine ⟨fun s' a h => ?_, fun s' e h => ?_⟩
      · rw [(setX_ok.1 h).2]; exact ht
      · rw [(setX_error.1 h).2.1]; exact ht
    have tf : ∀ i v, Exec.Triple (fun t : St k m K => t.step = s.step) (setF i v)
        (fun _ t => t.step = s.step) (fun _ t => t.step = s.step) := by
      intro i v t ht
      refine ⟨fun s' a h => ?_, fun s' e h => ?_⟩
      · rw [(setF_ok.1 h).2]; exact ht
      · rw [(setF_error.1 h).2.1]; exact ht
    have gz : ∀ i, Exec.Triple (fun t : St k m K => t.step = s.step) (getZ i)
        (fun _ t => t.step = s.step) (fun _ t => t.step = s.step) := by
      intro i t ht
      refine ⟨fun s' a h => ?_, fun s' e h => ?_⟩
      · rw [(getZ_ok.1 h).1]; exact ht
      · rw [(getZ_error.1 h).1]; exact ht
    have gf : ∀ i, Exec.Triple (fun t : St k m K => t.step = s.step) (getF i)
        (fun _ t => t.step = s.step) (fun _ t => t.step = s.step) := by
      intro i t ht
      refine ⟨fun s' a h => ?_, fun s' e h => ?_⟩
      · rw [(getF_ok.1 h).1]; exact ht
      · rw [(getF_error.1 h).1]; exact ht
    have g : Exec.Triple (fun t : St k m K => t.step = s.step) Exec.get
        (fun _ t => t.step = s.step) (fun _ t => t.step = s.step) :=
      Exec.Triple.get.weaken (fun _ h => h) (fun _ _ h => h.1) (fun _ _ h => h)
    have tb : ∀ i v, Exec.Triple (fun t : St k m K => t.step = s.step) (setB i v)
        (fun _ t => t.step = s.step) (fun _ t => t.step = s.step) := by
      intro i v t ht
      refine ⟨fun s' a h => ?_, fun s' e h => ?_⟩
      · rw [(setB_ok.1 h).2]; exact ht
      · rw [(setB_error.1 h).2.1]; exact ht
    unfold handleInitial
    split
    · refine Exec.Triple.bind (Exec.Triple.modify (Q := fun _ t => t.step = s.step)
        fun t ht => by exact ht) fun _ => ?_
      refine Exec.Triple.bind g fun _ => ?_
      refine Exec.Triple.bind (tz _ _) fun _ => ?_
      refine Exec.Triple.bind (Exec.Triple.lift (Q := fun _ t => t.step = s.step)
          (fun _ h _ _ => h) (fun _ h _ _ => h)) fun _ => ?_
      refine Exec.Triple.bind (tb _ _) fun _ => ?_
      refine Exec.Triple.bind (Q := fun _ t => t.step = s.step) ?_ fun _ => ?_
      · unfold solveWith
        exact Exec.Triple.bind g fun _ => Exec.Triple.bind (gz _) fun _ =>
          Exec.Triple.bind (tx _ _) fun _ => tf _ _
      · unfold movePoint
        exact Exec.Triple.bind g fun _ => Exec.Triple.bind (gz _) fun _ =>
          Exec.Triple.bind (gf _) fun _ => Exec.Triple.bind (tz _ _) fun _ =>
          Exec.Triple.bind (tb _ _) fun _ => Exec.Triple.pure fun _ h => h
    · exact Exec.Triple.raise fun _ h => h
  rcases o with e | a
  · exact (T s rfl).2 s' e ha
  · exact (T s rfl).1 s' a ha

end Verif.NautilusV2
