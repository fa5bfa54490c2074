import Verif.Navigator.Props4

set_option linter.unusedSectionVars false

/-!
# NAUTILUS Navigator: C95 (failed calls), C96 (starting over)
-/

namespace Verif.Navigator

variable {K V : Type} [Field K] [LinearOrder K] [IsStrictOrderedRing K] {n k : Nat}

/-! ### C95 -/

/-- **C95** (NAUTILUS Navigator). In every history, a call that raises leaves the method as it was, except
that at step number 1 the speed of the response is kept. Missing from the full claim: that speed is shown
when the decision maker then returns to a request, see `C95_fails_speed`. -/
theorem C95_failed_call_partial {c : Cfg n k K V} {s s' : St n k K} {ct0 : Content n k K}
    {l : List (Content n k K)} (h : Reached c s (ct0 :: l)) {ct : Content n k K} {r : Resp K} {e : Err}
    (ha : answer c s ct r = (s', .error e)) :
    s' = s ∨ (ct0.step = 1 ∧ validate c r = .ok () ∧ s' = { s with speed := r.speed }) := by
  have hh := h.head
  simp only [St.content, Content.mk.injEq] at hh
  obtain ⟨_, _, _, _, hs, _⟩ := hh
  have hrem := h.rem_pos
  rcases answer_cases ha with ⟨e, _, rfl, _⟩ | ⟨_, _, rfl, _⟩ | ⟨_, _, _, _, _, _, h'⟩ |
    ⟨ql, q, v, ul, hv, _, hg, _, _, hsp, _, hf⟩
  · exact .inl rfl
  · exact .inl rfl
  · simp at h'
  · unfold forward at hf
    cases hn : needsProjection s q with
    | error e =>
      rw [hn] at hf
      simp only [Prod.mk.injEq] at hf
      exact .inl hf.1.symm
    | ok b =>
      rw [hn] at hf
      cases b with
      | false =>
        simp only [advance] at hf
        split at hf
        · simp only [Prod.mk.injEq] at hf; exact .inl hf.1.symm
        · split at hf
          · simp only [Prod.mk.injEq] at hf; exact .inl hf.1.symm
          · simp at hf
      | true =>
        simp only at hf
        split at hf
        · simp only [Prod.mk.injEq] at hf
          by_cases h1 : s.step = 1
          · exact .inr ⟨by rw [← hs]; exact h1, hv, by rw [← hf.1, if_pos h1, hsp]⟩
          · left
            rw [← hf.1, if_neg h1]
        · simp only [advance] at hf
          split at hf
          · omega
          · simp at hf

/-- A reference point that is not a number is accepted, and then no row can be projected on. -/
def exNan : Resp ℚ := forwardResp [none, none] (.int 5) noB

def exN : St 3 2 ℚ := (answer exCfg (initSt exCfg) (start (initSt exCfg)) exNan).1
theorem ex_nan : answer exCfg (initSt exCfg) (start (initSt exCfg)) exNan = (exN, .error .valueError) :=
  eq_of_beq (by decide +kernel)

example := C95_failed_call_partial .init ex_nan

/-- **C95 fails** (NAUTILUS Navigator). The same response shows another speed after a failed call. -/
theorem C95_fails_speed : ∃ (s : St 3 2 ℚ) (ct a b : Content 3 2 ℚ) (r : Resp ℚ) (t u : St 3 2 ℚ),
    answer exCfg (initSt exCfg) (start (initSt exCfg)) exNan = (s, .error .valueError) ∧
    ct = start (initSt exCfg) ∧ answer exCfg (initSt exCfg) ct r = (t, .ok (.nav a)) ∧
    answer exCfg s ct r = (u, .ok (.nav b)) ∧ a.speed = none ∧ b.speed = some (.int 5) :=
  ⟨exN, _, (initSt exCfg).content, exN.content, backResp [some 1, some 1] (.int 1) noB, _, _, ex_nan, rfl,
    (eq_of_beq (by decide +kernel) : _ = (initSt exCfg, _)), (eq_of_beq (by decide +kernel) : _ = (exN, _)),
    rfl, eq_of_beq (by decide +kernel)⟩

/-! ### C96 -/

/-- The request that is answered next: the new one, if there is one. -/
def newest (ct : Content n k K) : Except Err (Out n k K V) → Content n k K
  | .ok (.nav ct') => ct'
  | _ => ct

/-- What the decision maker sees who always answers the newest request (apart from the speed that is shown);
after an exception or the end the same request is answered again. -/
def play (c : Cfg n k K V) (s : St n k K) (ct : Content n k K) :
    List (Resp K) → List (Except Err (Out n k K V))
  | [] => []
  | r :: rest =>
    shown (answer c s ct r).2 ::
      play c (answer c s ct r).1
        (newest ct (answer c s ct r).2) rest

/-- Two states with the same bounds, points and counters, and with the same projection unless they are at
the beginning. -/
structure Alike (s t : St n k K) : Prop where
  same : t = { s with speed := t.speed, ref := t.ref, proj := t.proj }
  proj : s.step = 1 ∨ s.ref = t.ref ∧ s.proj = t.proj

/-- The same request up to the speed. -/
def Content.Like (a b : Content n k K) : Prop := b = { a with speed := b.speed }

theorem shown_nav_iff {a b : Content n k K} : a.Like b →
    (shown (.ok (.nav a)) : Except Err (Out n k K V)) = shown (.ok (.nav b)) := by
  intro h
  unfold Content.Like at h
  rw [h]
  rfl

theorem Alike.content {s t : St n k K} (h : Alike s t) : s.content.Like t.content := by
  unfold Content.Like
  have := h.same
  cases s; cases t
  simp only [St.mk.injEq] at this
  simp only [St.content, Content.mk.injEq]
  tauto

theorem advance_alike (c : Cfg n k K V) {s t : St n k K} (h : t = { s with speed := t.speed })
    (u : Vec k (Option K)) :
    shown (advance c s u).2 = shown (advance c t u).2 ∧
    (advance c t u).1 = { (advance c s u).1 with speed := (advance c t u).1.speed } := by
  obtain ⟨sp, h⟩ : ∃ sp, t = { s with speed := sp } := ⟨_, h⟩
  subst h
  unfold advance
  dsimp only
  split
  · exact ⟨rfl, rfl⟩
  · split
    · exact ⟨rfl, rfl⟩
    · exact ⟨rfl, rfl⟩

theorem Alike.of_speed {s t : St n k K} (h : t = { s with speed := t.speed }) : Alike s t := by
  obtain ⟨sp, h⟩ : ∃ sp, t = { s with speed := sp } := ⟨_, h⟩
  subst h
  exact ⟨rfl, .inr ⟨rfl, rfl⟩⟩

theorem forward_alike (c : Cfg n k K V) {s t : St n k K} (h : Alike s t) (q : Vec k (Option K)) (v : PyVal)
    (u : Vec k (Option K)) :
    shown (forward c s q v u).2 = shown (forward c t q v u).2 ∧
    Alike (forward c s q v u).1 (forward c t q v u).1 := by
  obtain ⟨h1, h2⟩ := h
  obtain ⟨sp, rf, pj, h1⟩ : ∃ sp rf pj, t = { s with speed := sp, ref := rf, proj := pj } := ⟨_, _, _, h1⟩
  subst h1
  have hn : needsProjection s q = needsProjection ({ s with speed := sp, ref := rf, proj := pj } : St n k K) q := by
    unfold needsProjection
    rcases h2 with h2 | ⟨h2, _⟩
    · simp [h2]
    · simp only [h2]
  unfold forward
  rw [← hn]
  cases hc : needsProjection s q with
  | error e => exact ⟨rfl, ⟨rfl, h2⟩⟩
  | ok b =>
    cases b with
    | false =>
      rcases h2 with h2 | ⟨h2, h3⟩
      · simp [needsProjection, h2] at hc
      · dsimp only at h2 h3 ⊢
        have := advance_alike c (s := s) (t := { s with speed := sp, ref := rf, proj := pj }) (by
          rw [← h2, ← h3]) u
        exact ⟨this.1, .of_speed this.2⟩
    | true =>
      dsimp only
      cases solve c s.reach q s.userBounds with
      | error e => exact ⟨rfl, ⟨rfl, h2⟩⟩
      | ok p =>
        dsimp only
        have := advance_alike c
          (s := { s with speed := if s.step = 1 then some v else s.speed, ref := some q, proj := some p })
          (t := { s with speed := if s.step = 1 then some v else sp, ref := some q, proj := some p }) rfl u
        exact ⟨this.1, .of_speed this.2⟩

theorem answer_alike (c : Cfg n k K V) {s t : St n k K} {a b : Content n k K} (h : Alike s t) (hc : a.Like b)
    (hs : a.step = s.step) (r : Resp K) :
    shown (answer c s a r).2 = shown (answer c t b r).2 ∧ Alike (answer c s a r).1 (answer c t b r).1 := by
  obtain ⟨sp0, rfl⟩ : ∃ sp, b = { a with speed := sp } := ⟨_, hc⟩
  unfold answer
  cases validate c r with
  | error e => exact ⟨rfl, h⟩
  | ok u =>
    dsimp only
    unfold handle
    split
    · split
      · exact ⟨rfl, h⟩
      · split
        · obtain ⟨h1, h2⟩ := h
          obtain ⟨sp, rf, pj, h1⟩ : ∃ sp rf pj, t = { s with speed := sp, ref := rf, proj := pj } := ⟨_, _, _, h1⟩
          subst h1
          refine ⟨rfl, ⟨rfl, ?_⟩⟩
          rcases h2 with h2 | h2
          · exact .inl (hs.trans h2)
          · exact .inr h2
        · split
          · exact ⟨rfl, h⟩
          · exact forward_alike c h _ _ _
    · exact ⟨rfl, h⟩

theorem play_alike (c : Cfg n k K V) (rs : List (Resp K)) : ∀ {s t : St n k K} {a b : Content n k K},
    Alike s t → a.Like b → a.step = s.step → play c s a rs = play c t b rs := by
  induction rs with
  | nil => intros; rfl
  | cons r rest ih =>
    intro s t a b h hc hs
    obtain ⟨h1, h2⟩ := answer_alike c h hc hs r
    rcases hA : answer c s a r with ⟨s1, o1⟩
    rcases hB : answer c t b r with ⟨t1, o2⟩
    rw [hA, hB] at h1 h2
    dsimp only at h1 h2
    simp only [play, hA, hB]
    rw [h1]
    congr 1
    have hkeep : (∀ ct', o1 ≠ .ok (.nav ct')) → (∀ ct', o2 ≠ .ok (.nav ct')) →
        play c s1 a rest = play c t1 b rest := by
      intro e1 e2
      have es : s1.step = s.step := by
        rcases answer_effect hA with ⟨_, h, _⟩ | ⟨ct', h⟩
        · simp only [St.content, Content.mk.injEq] at h
          tauto
        · exact absurd h (e1 ct')
      exact ih h2 hc (hs.trans es.symm)
    rcases o1 with e1 | (ct1 | ⟨i1, f1, d1⟩) <;> rcases o2 with e2 | (ct2 | ⟨i2, f2, d2⟩)
    · exact hkeep (by simp) (by simp)
    · simp [shown, Except.map] at h1
    · simp [shown, Except.map] at h1
    · simp [shown, Except.map] at h1
    · have n1 := (answer_nav hA).1
      have n2 := (answer_nav hB).1
      subst n1 n2
      exact ih h2 h2.content rfl
    · simp [shown, Except.map, Out.forgetSpeed] at h1
    · simp [shown, Except.map] at h1
    · simp [shown, Except.map, Out.forgetSpeed] at h1
    · exact hkeep (by simp) (by simp)

/-- **C96** (NAUTILUS Navigator). In every history, returning to the first request without user bounds starts
over: whatever the decision maker answers from then on, always answering the newest request, every request and
every exception is the one a newly constructed method gives, apart from the speed that is shown. Missing from
the full claim: `start` itself does not start over, see `C96_fails_start`. -/
theorem C96_restart_partial {c : Cfg n k K V} {s s' : St n k K} {ct : Content n k K} {rb : Resp K}
    (hg : rb.goToPrevious = some (.bool true)) {ul : List (Option K)} (hu : rb.userBounds = some ul)
    (hn : ∀ b ∈ ul, b = none) (hb : answer c s (start (initSt c)) rb = (s', .ok (.nav ct))) (rs : List (Resp K)) :
    play c s' ct rs = play c (initSt c) (start (initSt c)) rs := by
  obtain ⟨h1, ⟨ul', _, hu', hs'⟩ | ⟨ql, q, v, ul', s1, p, hg', _⟩⟩ := answer_nav hb
  · rw [hu, Option.some.injEq] at hu'
    subst hu' h1
    have hz : toBounds k ul = (fun _ => none : Vec k (Option K)) := by
      funext j
      unfold toBounds
      cases h : ul[j.val]? with
      | none => rfl
      | some b => exact hn b (List.mem_of_getElem? h)
    rw [hz] at hs'
    have hA : Alike s' (initSt c) := by
      rw [hs']
      exact ⟨rfl, .inl rfl⟩
    exact play_alike c rs hA hA.content rfl
  · rw [hg] at hg'; simp at hg'

/-- In the example: after two steps, the decision maker returns to the first request. -/
def exHome : Resp ℚ := backResp [some 1, some 1] (.int 1) noB
def exS3 : St 3 2 ℚ := (answer exCfg exS2 (start (initSt exCfg)) exHome).1
theorem ex_home : answer exCfg exS2 (start (initSt exCfg)) exHome = (exS3, .ok (.nav exS3.content)) :=
  eq_of_beq (by decide +kernel)

example := C96_restart_partial (V := String) rfl rfl (by simp [noB]) ex_home [exR2, exR]

/-- **C96 fails** (NAUTILUS Navigator). `start` gives the current request, not the first one. -/
theorem C96_fails_start : ∃ (s : St 3 2 ℚ) (l : List (Content 3 2 ℚ)), Reached exCfg s l ∧
    (start s).step = 2 ∧ (start (initSt exCfg)).step = 1 :=
  ⟨exS1, _, ex_reached1, by decide +kernel, rfl⟩

end Verif.Navigator
