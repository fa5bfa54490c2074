import Verif.Rpm.ExampleData

set_option linter.unusedSectionVars false

/-!
# Properties C45 - C49 and C70 of the reference point method
-/

namespace Verif.Rpm

variable {K : Type} [Field K] [LinearOrder K] {k : Nat} {X D : Type}

/-! ### C45: storage -/

/-- In the six lists of `s'` nothing but the entry `h` differs from `s`; the lists may have grown. -/
structure OnlyEntry (h : Nat) (s s' : St k X K) : Prop where
  q : ∀ j, j < s.qs.length → j ≠ h → s'.qs[j]? = s.qs[j]?
  x : ∀ j, j < s.xs.length → j ≠ h → s'.xs[j]? = s.xs[j]?
  f : ∀ j, j < s.fs.length → j ≠ h → s'.fs[j]? = s.fs[j]?
  p : ∀ j, j < s.pqs.length → j ≠ h → s'.pqs[j]? = s.pqs[j]?
  ax : ∀ j, j < s.axs.length → j ≠ h → s'.axs[j]? = s.axs[j]?
  af : ∀ j, j < s.afs.length → j ≠ h → s'.afs[j]? = s.afs[j]?

theorem solved_only {c : Cfg k X D K} {orc : Oracle k D K} {q : Vec k K} {s : St k X K} :
    OnlyEntry s.h s (solved c orc q s) := by
  constructor <;> intro j _ hj <;> exact List.getElem?_set_ne (Ne.symm hj)

theorem expand_get {s : St k X K} {h : Nat} : OnlyEntry h s (expand s) := by
  constructor <;> intro j hj _ <;> unfold expand <;> split <;>
    first | rfl | exact List.getElem?_append_left hj

theorem expand_h (s : St k X K) : (expand s).h = s.h := by unfold expand; split <;> rfl

theorem expand_len (s : St k X K) : s.qs.length ≤ (expand s).qs.length ∧
    s.xs.length ≤ (expand s).xs.length ∧ s.fs.length ≤ (expand s).fs.length ∧
    s.pqs.length ≤ (expand s).pqs.length ∧ s.axs.length ≤ (expand s).axs.length ∧
    s.afs.length ≤ (expand s).afs.length := by
  unfold expand
  split <;> simp

theorem OnlyEntry.trans {h : Nat} {s s1 s2 : St k X K} (h1 : OnlyEntry h s s1) (h2 : OnlyEntry h s1 s2)
    (hl : s.qs.length ≤ s1.qs.length ∧
    s.xs.length ≤ s1.xs.length ∧ s.fs.length ≤ s1.fs.length ∧
    s.pqs.length ≤ s1.pqs.length ∧ s.axs.length ≤ s1.axs.length ∧
    s.afs.length ≤ s1.afs.length) : OnlyEntry h s s2 := by
  obtain ⟨l1, l2, l3, l4, l5, l6⟩ := hl
  exact ⟨fun j hj hn => (h2.q j (by omega) hn).trans (h1.q j hj hn),
    fun j hj hn => (h2.x j (by omega) hn).trans (h1.x j hj hn),
    fun j hj hn => (h2.f j (by omega) hn).trans (h1.f j hj hn),
    fun j hj hn => (h2.p j (by omega) hn).trans (h1.p j hj hn),
    fun j hj hn => (h2.ax j (by omega) hn).trans (h1.ax j hj hn),
    fun j hj hn => (h2.af j (by omega) hn).trans (h1.af j hj hn)⟩

theorem forward_only {c : Cfg k X D K} {orc : Oracle k D K} {q : Vec k K} {s : St k X K} :
    OnlyEntry (s.h + 1) s (solved c orc q (expand { s with h := s.h + 1 })) := by
  have h1 : OnlyEntry (s.h + 1) s (expand { s with h := s.h + 1 }) :=
    have h := expand_get (s := { s with h := s.h + 1 }) (h := s.h + 1)
    ⟨h.q, h.x, h.f, h.p, h.ax, h.af⟩
  have h2 : OnlyEntry (s.h + 1) (expand { s with h := s.h + 1 })
      (solved c orc q (expand { s with h := s.h + 1 })) := by
    have := solved_only (c := c) (orc := orc) (q := q) (s := expand { s with h := s.h + 1 })
    rwa [expand_h] at this
  exact h1.trans h2 (expand_len { s with h := s.h + 1 })

/-- A stored entry: reference point, current solution and additional solutions of one iteration. -/
structure Entry (s : St k X K) (j : Nat) (q f : Vec k K) (a : Fin k → Vec k K) : Prop where
  q : s.qs[j]? = some (some q)
  f : s.fs[j]? = some (some f)
  a : s.afs[j]? = some (some a)

/-- C45, one answer: whatever has happened before, an answer never runs out of storage; if it shows new
solutions, they are stored together with the reference point given in the entry of the current iteration,
which is a new one after an intermediate request, and no other entry changes. -/
theorem C45_storage {c : Cfg k X D K} {G : Oracle k D K → Prop} {s s' : St k X K} {iss : List (Req k X K)}
    {req : Req k X K} {r : Resp K} {orc : Oracle k D K} {o : Except Err (Option (Req k X K))}
    (hR : Reached c G s iss) (hr : req ∈ iss) (ha : answer c s req r orc = (s', o)) :
    o ≠ .error .indexError ∧
    ∀ f a, o = .ok (some (.nav f a)) →
      (req = .initial → s'.h = s.h) ∧ (req ≠ .initial → s'.h = s.h + 1) ∧
      (∃ l, r.ref = some l ∧ l.length = k ∧ Entry s' s'.h (fun i => (l[i.val]?).getD 0) f a) ∧
      OnlyEntry s'.h s s' := by
  have hs := hR.store
  have h := answer_step hs ha
  have hsol : ∀ {t : St k X K} {q : Vec k K}, Store t → Entry (solved c orc q t) t.h q
      (c.obj (orc.main (weights c q) q)) (fun i => c.obj (orc.add i (weights c q)
      (prp c q (c.obj (orc.main (weights c q) q)) i))) := fun {t q} ht => by
    obtain ⟨a, b, d, e, f, g, h⟩ := ht
    constructor <;> exact set_get (by omega)
  cases h with
  | @refused _ _ e he =>
    refine ⟨?_, by simp⟩
    rintro hc
    cases hc
    cases req with
    | initial =>
      simp only [validate, validateInitial, validateRef] at he
      split at he <;> try split_ifs at he
      all_goals simp at he
    | stop x f => simp [validate] at he
    | nav f a =>
      simp only [validate, validateNav, validateIndex, validateRef] at he
      split_ifs at he
      · split at he <;> try split_ifs at he
        all_goals simp at he
      · split at he <;> try split_ifs at he
        all_goals simp at he
  | ended => exact ⟨by simp, by simp⟩
  | @initial _ l hv hl hk =>
    refine ⟨by simp, ?_⟩
    intro f a hq
    simp only [shown, Except.ok.injEq, Option.some.injEq, Req.nav.injEq] at hq
    obtain ⟨rfl, rfl⟩ := hq
    exact ⟨by simp [solved], by simp, ⟨l, hl, hk, hsol hs⟩, solved_only (s := s)⟩
  | @forward _ l f0 a0 hv hsat hl hk =>
    refine ⟨by simp, ?_⟩
    intro f a hq
    simp only [shown, Except.ok.injEq, Option.some.injEq, Req.nav.injEq] at hq
    obtain ⟨rfl, rfl⟩ := hq
    have hh : (solved c orc (toVec k l) (expand { s with h := s.h + 1 })).h = s.h + 1 := expand_h _
    refine ⟨by simp, by simp [hh], ⟨l, hl, hk, hsol (expand_store hs)⟩, ?_⟩
    rw [hh]
    exact forward_only
  | @chosen _ v f0 a0 _ hv hsat hi hc =>
    refine ⟨?_, ?_⟩
    · rintro rfl
      rcases hR.current with hcur | ⟨d, e, hx, hf, hax, haf, _⟩
      · exact absurd (hcur _ hr) (by simp)
      · obtain ⟨v', hv', hcase⟩ := validateIndex_ok (validateNav_index hv hsat)
        rw [hi] at hv'
        cases hv'
        rcases hcase with h0 | ⟨h0, h1, j, hj⟩ | ⟨h0, h1, q, _⟩
        · rw [choose_zero h0 hx hf] at hc; simp at hc
        · rw [choose_int h0 h1 hj hax haf] at hc; simp at hc
        · rw [choose_other h0 h1 hax] at hc; simp at hc
    · rintro f a rfl
      obtain ⟨x, f', h'⟩ := choose_result hc
      simp at h'

example := C45_storage (ex_reached1 (G := Exact exCfg) exOrc_exact) List.mem_cons_self ex_step2

theorem answer_same {c : Cfg k X D K} {s s' : St k X K} {req : Req k X K} {r : Resp K}
    {orc : Oracle k D K} {o : Except Err (Option (Req k X K))} (hs : Store s)
    (ha : answer c s req r orc = (s', o)) :
    (∃ f a, o = .ok (some (.nav f a))) ∨ (s' = s ∧ ∀ f a, o ≠ .ok (some (.nav f a))) := by
  have h := answer_step hs ha
  cases h with
  | refused => right; simp
  | ended => right; simp
  | initial => left; exact ⟨_, _, rfl⟩
  | forward => left; exact ⟨_, _, rfl⟩
  | chosen hv hsat hi hc =>
    right
    refine ⟨rfl, ?_⟩
    rintro f a rfl
    obtain ⟨x, f', h'⟩ := choose_result hc
    simp at h'

/-- C45, whole histories: at any time, in every history, the entry of every iteration up to the current
one (the first one has number 1) holds a reference point and solutions that were shown together. -/
theorem C45_history {c : Cfg k X D K} {G : Oracle k D K → Prop} {s : St k X K} {iss : List (Req k X K)}
    (hR : Reached c G s iss) :
    ((∀ f a, .nav f a ∉ iss) → s.h = 1) ∧
    ((∃ f a, .nav f a ∈ iss) → ∀ j, 1 ≤ j → j ≤ s.h → ∃ q f a, Entry s j q f a ∧ .nav f a ∈ iss) := by
  induction hR with
  | init => exact ⟨fun _ => rfl, by simp⟩
  | @next s iss req r orc s' o hR hr hG ha ih =>
    obtain ⟨ih1, ih2⟩ := ih
    have hmono : ∀ q ∈ iss, q ∈ extend o iss := by
      intro q hq
      unfold extend
      split
      · exact List.mem_cons_of_mem _ hq
      · exact hq
    rcases answer_same hR.store ha with ⟨f, a, rfl⟩ | ⟨rfl, hne⟩
    · obtain ⟨_, h2⟩ := C45_storage hR hr ha
      obtain ⟨hi, hn, ⟨l, _, _, he⟩, hO⟩ := h2 f a rfl
      refine ⟨fun h => absurd List.mem_cons_self (h f a), fun _ j hj1 hj2 => ?_⟩
      rcases Nat.lt_or_eq_of_le hj2 with hlt | rfl
      · have hst := hR.store
        have hle : j ≤ s.h ∧ ∃ f a, .nav f a ∈ iss := by
          by_cases hreq : req = .initial
          · have hh := hi hreq
            refine ⟨by omega, ?_⟩
            by_contra hc
            push Not at hc
            have := ih1 hc
            omega
          · refine ⟨by have := hn hreq; omega, ?_⟩
            by_contra hc
            push Not at hc
            have hcur := hR.current
            rcases hcur with h | ⟨d, e, _, _, _, _, hl⟩
            · exact hreq (h _ hr)
            · have : ∀ l : List (Req k X K), lastShown l ≠ none → ∃ f a, .nav f a ∈ l := by
                intro l
                induction l with
                | nil => simp [lastShown]
                | cons b l ih =>
                  cases b with
                  | nav f a => exact fun _ => ⟨f, a, List.mem_cons_self⟩
                  | initial =>
                    intro h
                    obtain ⟨f, a, h⟩ := ih h
                    exact ⟨f, a, List.mem_cons_of_mem _ h⟩
                  | stop x y =>
                    intro h
                    obtain ⟨f, a, h⟩ := ih h
                    exact ⟨f, a, List.mem_cons_of_mem _ h⟩
              obtain ⟨f, a, h⟩ := this iss (by rw [hl]; simp)
              exact hc f a h
        obtain ⟨q0, f0, a0, hE, hm⟩ := ih2 hle.2 j hj1 hle.1
        obtain ⟨b1, b2, b3, b4, b5, b6, b7⟩ := hst
        refine ⟨q0, f0, a0, ⟨?_, ?_, ?_⟩, hmono _ hm⟩
        · rw [hO.q j (by omega) (by omega)]; exact hE.q
        · rw [hO.f j (by omega) (by omega)]; exact hE.f
        · rw [hO.af j (by omega) (by omega)]; exact hE.a
      · exact ⟨_, f, a, he, List.mem_cons_self⟩
    · have hback : ∀ f a, .nav f a ∈ extend o iss → .nav f a ∈ iss := by
        intro f a h
        unfold extend at h
        split at h
        · rename_i q
          rcases List.mem_cons.1 h with h | h
          · exact absurd (by rw [h]) (hne f a)
          · exact h
        · exact h
      refine ⟨fun h => ih1 fun f a hm => h f a (hmono _ hm), ?_⟩
      rintro ⟨f, a, hm⟩ j hj1 hj2
      obtain ⟨q0, f0, a0, hE, hm'⟩ := ih2 ⟨f, a, hback f a hm⟩ j hj1 hj2
      exact ⟨q0, f0, a0, hE, hmono _ hm'⟩

example : ∃ q f a, Entry exS2 1 q f a ∧ .nav f a ∈ [exR2, exR1, .initial] :=
  (C45_history (ex_reached2 (G := Exact exCfg) exOrc_exact)).2
    ⟨_, _, by rw [exR2_eq]; exact List.mem_cons_self⟩ 1 (by decide +kernel) (by decide +kernel)

/-! ### C46: the chosen solution -/

/-- The full claim: whenever an issued request is answered with "satisfied" and an accepted index, the
decision maker gets a solution whose objective vector is the one that this request shows under the index
(0: the current solution, `j + 1`: the `j`-th additional one). -/
def ChoiceHonoured (c : Cfg k X D K) : Prop :=
  ∀ (s s' : St k X K) (iss : List (Req k X K)) (f : Vec k K) (a : Fin k → Vec k K) (r : Resp K)
    (orc : Oracle k D K) (o : Except Err (Option (Req k X K))),
    Reached c (fun _ => True) s iss → .nav f a ∈ iss → r.satisfied = some true →
    validate c (.nav f a) r = .ok () → answer c s (.nav f a) r orc = (s', o) →
    ∃ v d, r.index = some v ∧ o = .ok (some (.stop (some (c.vars d)) (some (c.obj d)))) ∧
      (numVal v = some 0 ∧ c.obj d = f ∨ ∃ j : Fin k, numVal v = some ((j.val : ℚ) + 1) ∧ c.obj d = a j)

theorem numVal_asInt {v : PyVal} (hi : v.isInstanceInt = true) : numVal v = some (v.asInt : ℚ) := by
  cases v with
  | int z => rfl
  | bool b => cases b <;> simp [numVal, PyVal.asInt]
  | float q => simp [PyVal.isInstanceInt] at hi
  | str s => simp [PyVal.isInstanceInt] at hi
  | none => simp [PyVal.isInstanceInt] at hi

/-- C46 for the request issued last (of those that show solutions) and any accepted integer index, in every
history. Missing from the full claim: older requests, and indices given as floats. -/
theorem C46_choice_partial {c : Cfg k X D K} {G : Oracle k D K → Prop} {s s' : St k X K}
    {iss : List (Req k X K)} {f : Vec k K} {a : Fin k → Vec k K} {r : Resp K} {orc : Oracle k D K}
    {o : Except Err (Option (Req k X K))} (hR : Reached c G s iss) (hl : lastShown iss = some (f, a))
    (hsat : r.satisfied = some true) (hint : ∀ q, r.index ≠ some (.float q))
    (hv : validate c (.nav f a) r = .ok ()) (ha : answer c s (.nav f a) r orc = (s', o)) :
    s' = s ∧ ∃ v d, r.index = some v ∧ o = .ok (some (.stop (some (c.vars d)) (some (c.obj d)))) ∧
      (numVal v = some 0 ∧ c.obj d = f ∨ ∃ j : Fin k, numVal v = some ((j.val : ℚ) + 1) ∧ c.obj d = a j) := by
  have h := answer_step hR.store ha
  have hidx : validateIndex k r.index = .ok () := validateNav_index hv hsat
  cases h with
  | refused he => rw [hv] at he; simp at he
  | forward _ hn => exact absurd hsat hn
  | @chosen _ v f0 a0 _ hv' hsat' hi hc =>
    refine ⟨rfl, ?_⟩
    obtain ⟨v', hv'', hcase⟩ := validateIndex_ok hidx
    rw [hi] at hv''
    cases hv''
    rcases hR.current with hcur | ⟨d, e, hx, hf, hax, haf, hls⟩
    · exfalso
      have : ∀ l : List (Req k X K), (∀ q ∈ l, q = .initial) → lastShown l = none := by
        intro l
        induction l with
        | nil => simp [lastShown]
        | cons b l ih =>
          intro h
          have hb := h b List.mem_cons_self
          subst hb
          exact ih fun q hq => h q (List.mem_cons_of_mem _ hq)
      rw [this _ hcur] at hl
      simp at hl
    · rw [hl] at hls
      simp only [Option.some.injEq, Prod.mk.injEq] at hls
      obtain ⟨rfl, rfl⟩ := hls
      rcases hcase with h0 | ⟨h0, h1, j, hj⟩ | ⟨h0, h1, q, rfl⟩
      · rw [choose_zero h0 hx hf] at hc
        cases hc
        exact ⟨v, d, hi, rfl, .inl ⟨h0, rfl⟩⟩
      · rw [choose_int h0 h1 hj hax haf] at hc
        cases hc
        refine ⟨v, e j, hi, rfl, .inr ⟨j, ?_, rfl⟩⟩
        rw [numVal_asInt h1, hj]
        simp
      · exact absurd hi (hint q)

example := C46_choice_partial (r := exPick 2) (orc := exOrc) (ex_reached2 (G := Exact exCfg) exOrc_exact)
  (by rw [exR2_eq]; rfl) rfl (by simp [exPick]) rfl (Prod.mk.eta (p := answer exCfg exS2 _ _ _)).symm

/-- C46 fails in full: an older request answered with "satisfied" yields a solution of the current
iteration, here a solution that the older request does not show at all. -/
theorem C46_fails : ¬ ChoiceHonoured exCfg := by
  intro h
  obtain ⟨v, d, h1, h2, h3⟩ := h exS2 exS2 [exR2, exR1, .initial] ![-3, -2] ![![-3, -2], ![-3, -2]]
    (exPick 2) exOrc (answer exCfg exS2 (.nav ![-3, -2] ![![-3, -2], ![-3, -2]]) (exPick 2) exOrc).2
    (ex_reached2 trivial) (by rw [exR1_eq]; simp) rfl rfl (eq_of_beq (by decide +kernel))
  have h4 : (answer exCfg exS2 (.nav ![-3, -2] ![![-3, -2], ![-3, -2]]) (exPick 2) exOrc).2 =
    .ok (some (.stop (some 0) (some ![-4, 0]))) := eq_of_beq (by decide +kernel)
  rw [h4] at h2
  simp only [Except.ok.injEq, Option.some.injEq, Req.stop.injEq] at h2
  have h5 : exCfg.obj d 0 = -4 := by rw [← h2.2]; rfl
  rcases h3 with ⟨_, h3⟩ | ⟨j, _, h3⟩
  · rw [h3] at h5
    revert h5
    decide +kernel
  · rw [h3] at h5
    revert h5
    clear * -
    revert j
    decide +kernel

/-! ### C47: perturbed reference points -/

/-- C47: for every answer that shows new solutions `f` and `a` for a reference point `q`, the `i`-th
additional solution is the one found for the reference point that differs from `q` in the `i`-th component
only, by the norm of `q - f`. -/
theorem C47_perturbed [IsStrictOrderedRing K] {c : Cfg k X D K} {G : Oracle k D K → Prop} {s s' : St k X K}
    {iss : List (Req k X K)} {req : Req k X K} {r : Resp K} {orc : Oracle k D K} {f : Vec k K}
    {a : Fin k → Vec k K} (hR : Reached c G s iss)
    (ha : answer c s req r orc = (s', .ok (some (.nav f a)))) :
    ∃ (l : List K) (q : Vec k K) (w : Fin k → Fl K) (p : Fin k → Vec k K),
      r.ref = some l ∧ l.length = k ∧ (∀ i, l[i.val]? = some (q i)) ∧
      (∀ i, c.utopian i ≠ c.nadir i → w i = .num (q i / (c.utopian i - c.nadir i))) ∧
      f = c.obj (orc.main w q) ∧ s'.pqs[s'.h]? = some (some p) ∧
      (∀ i, a i = c.obj (orc.add i w (p i))) ∧
      (∀ i j, j ≠ i → p i j = q j) ∧ (∀ i, p i i = q i + c.nrm fun j => q j - f j) ∧
      (NormSpec c.nrm → (∀ i, q i ≤ p i i) ∧ ((∀ i, p i = q) ↔ f = q)) := by
  have hs := hR.store
  have h := answer_step hs ha
  have key : ∀ (l : List K) (t : St k X K), Store t → r.ref = some l → l.length = k →
      (.nav f a : Req k X K) = shown c orc (toVec k l) → s' = solved c orc (toVec k l) t →
      ∃ (l : List K) (q : Vec k K) (w : Fin k → Fl K) (p : Fin k → Vec k K),
      r.ref = some l ∧ l.length = k ∧ (∀ i, l[i.val]? = some (q i)) ∧
      (∀ i, c.utopian i ≠ c.nadir i → w i = .num (q i / (c.utopian i - c.nadir i))) ∧
      f = c.obj (orc.main w q) ∧ s'.pqs[s'.h]? = some (some p) ∧
      (∀ i, a i = c.obj (orc.add i w (p i))) ∧
      (∀ i j, j ≠ i → p i j = q j) ∧ (∀ i, p i i = q i + c.nrm fun j => q j - f j) ∧
      (NormSpec c.nrm → (∀ i, q i ≤ p i i) ∧ ((∀ i, p i = q) ↔ f = q)) := by
    intro l t ht hl hk hsh hs'
    subst hs'
    simp only [shown, Req.nav.injEq] at hsh
    obtain ⟨rfl, rfl⟩ := hsh
    refine ⟨l, toVec k l, weights c (toVec k l), prp c (toVec k l) (c.obj (orc.main (weights c (toVec k l)) (toVec k l))),
      hl, hk, ?_, ?_, rfl, ?_, fun _ => rfl, ?_, ?_, ?_⟩
    · intro i
      have : i.val < l.length := by omega
      simp [toVec, this]
    · intro i hi
      unfold weights fdiv
      rw [if_neg (sub_ne_zero.2 hi)]
    · obtain ⟨b1, b2, b3, b4, b5, b6, b7⟩ := ht
      exact set_get (by omega)
    · intro i j hj
      simp [prp, unit, hj]
    · intro i
      simp [prp, unit]
    · intro hn
      refine ⟨fun i => ?_, ?_, ?_⟩
      · simp only [prp, unit, if_true, mul_one]
        have := hn.nonneg fun j => toVec k l j - c.obj (orc.main (weights c (toVec k l)) (toVec k l)) j
        linarith
      · intro hp
        funext j
        have h1 := congrFun (hp j) j
        simp only [prp, unit, if_true, mul_one] at h1
        have h2 := (hn.eq_zero _).1 (by linarith : c.nrm (fun j => toVec k l j -
          c.obj (orc.main (weights c (toVec k l)) (toVec k l)) j) = 0) j
        linarith
      · intro hf i
        funext j
        simp only [prp]
        rw [(hn.eq_zero _).2]
        · simp
        · intro j
          rw [hf, sub_self]
  generalize hq : Except.ok (some (Req.nav f a)) = o at h
  cases h with
  | refused => simp at hq
  | ended => simp at hq
  | initial hv hl hk => exact key _ _ hs hl hk (by simpa using hq) rfl
  | forward hv hsat hl hk => exact key _ _ (expand_store hs) hl hk (by simpa using hq) rfl
  | chosen hv hsat hi hc =>
    subst hq
    obtain ⟨x, f', h'⟩ := choose_result hc
    simp at h'

example := C47_perturbed (ex_reached1 (G := Exact exCfg) exOrc_exact) (exR2_eq ▸ ex_step2)

/-- The norm of the code is the Euclidean one; it satisfies what C47 assumes. -/
example {k : Nat} : NormSpec (euclid (k := k)) := euclid_spec

/-! ### C48: optimality -/

/-- `d` is Pareto optimal among all solutions. -/
def ParetoOptimal (c : Cfg k X D K) (f : Vec k K) : Prop := ∀ d, ¬ Dominates (c.obj d) f

/-- The full claim: with exact minimizers, every shown solution is Pareto optimal. -/
def OptimalShown {k : Nat} (c : Cfg (k + 1) X D K) : Prop :=
  ∀ (s s' : St (k + 1) X K) (iss : List (Req (k + 1) X K)) (req : Req (k + 1) X K) (r : Resp K)
    (orc : Oracle (k + 1) D K) (f : Vec (k + 1) K) (a : Fin (k + 1) → Vec (k + 1) K),
    Reached c (Exact c) s iss → req ∈ iss → Exact c orc →
    answer c s req r orc = (s', .ok (some (.nav f a))) → ParetoOptimal c f ∧ ∀ i, ParetoOptimal c (a i)

/-- C48 for reference points without positive components: then, with exact minimizers, the current and all
additional solutions shown are Pareto optimal. Missing: reference points with positive components, for
which the claim is false (`C48_fails`). -/
theorem C48_optimal_partial [IsStrictOrderedRing K] {k : Nat} {c : Cfg (k + 1) X D K}
    {G : Oracle (k + 1) D K → Prop} {s s' : St (k + 1) X K} {iss : List (Req (k + 1) X K)}
    {req : Req (k + 1) X K} {r : Resp K} {orc : Oracle (k + 1) D K} {f : Vec (k + 1) K}
    {a : Fin (k + 1) → Vec (k + 1) K} {l : List K} (hR : Reached c G s iss) (hE : Exact c orc)
    (hlt : ∀ i, c.utopian i < c.nadir i) (hl : r.ref = some l) (hneg : ∀ x ∈ l, x ≤ 0)
    (ha : answer c s req r orc = (s', .ok (some (.nav f a)))) :
    ParetoOptimal c f ∧ ∀ i, ParetoOptimal c (a i) := by
  obtain ⟨l', q, w, p, hl', hk, hq, hw, hf, hp, ha', _⟩ := C47_perturbed hR ha
  rw [hl] at hl'
  cases hl'
  have hw' : w = fun i => .num (q i / (c.utopian i - c.nadir i)) :=
    funext fun i => hw i (hlt i).ne
  subst hw'
  have hmu : ∀ i, 0 ≤ q i / (c.utopian i - c.nadir i) := fun i =>
    div_nonneg_of_nonpos (hneg _ (List.mem_of_getElem? (hq i))) (by have := hlt i; linarith)
  constructor
  · intro d hd
    have h1 := refPointASF_strict (q := q) (rho := 1/10000) hmu hlt (by norm_num) hd
    have h2 := hE.main (fun i => q i / (c.utopian i - c.nadir i)) q d
    rw [← hf] at h2
    exact absurd h1 (not_lt.2 h2)
  · intro i d hd
    have h1 := refPointASF_strict (q := p i) (rho := 1/10000) hmu hlt (by norm_num) hd
    have h2 := hE.add i (fun i => q i / (c.utopian i - c.nadir i)) (p i) d
    rw [← ha' i] at h2
    exact absurd h1 (not_lt.2 h2)

example := C48_optimal_partial (l := [-1/2, -1]) (ex_reached1 (G := Exact exCfg) exOrc_exact) exOrc_exact
  (by decide +kernel) rfl (by decide +kernel) (exR2_eq ▸ ex_step2)

/-- C48 fails for positive objective values: with the reference point (1, 1), which is attained by a
solution, and an exact minimizer, the solution (2, 2) is shown. -/
theorem C48_fails : (∀ i, posCfg.utopian i < posCfg.nadir i) ∧ ¬ OptimalShown posCfg := by
  refine ⟨by decide +kernel, fun h => ?_⟩
  have h1 := h St.init (answer posCfg St.init .initial { ref := some [1, 1] } posOrc).1 [.initial] .initial
    { ref := some [1, 1] } posOrc ![2, 2] ![![2, 2], ![2, 2]] .init List.mem_cons_self posOrc_exact
    (eq_of_beq (by decide +kernel))
  exact h1.1 0 (by decide +kernel)

/-! ### C49: accepted reference points -/

/-- The full claim about an array of doubles: accepted only if it has one finite component per objective,
none worse than the nadir. -/
def RefChecked (c : Cfg k X D K) : Prop :=
  ∀ l : List (Fl K), validateRefFl c l = .ok () →
    l.length = k ∧ ∀ i : Fin k, ∃ x, l[i.val]? = some (.num x) ∧ x ≤ c.nadir i

theorem C49_fails : ¬ RefChecked exCfg ∧
    validateRefFl exCfg [.nan, .nan] = .ok () ∧ validateRefFl exCfg [.num (-1), .num 100] = .ok () := by
  refine ⟨fun h => ?_, eq_of_beq (by decide +kernel), eq_of_beq (by decide +kernel)⟩
  obtain ⟨_, h2⟩ := h [.nan, .nan] (eq_of_beq (by decide +kernel))
  obtain ⟨x, hx, _⟩ := h2 0
  simp at hx

/-- C49, what is checked: one component per objective, and not all of them worse than the nadir. -/
theorem C49_reference_partial (c : Cfg k X D K) (l : List (Fl K)) :
    validateRefFl c l = .ok () ↔ l.length = k ∧
      ¬ ∀ i : Fin k, l[i.val]? = some .pinf ∨ ∃ x, l[i.val]? = some (.num x) ∧ c.nadir i < x := by
  have key : l.length = k → ∀ i : Fin k, (flLess (.num (c.nadir i)) ((l[i.val]?).getD .nan) = true ↔
      (l[i.val]? = some .pinf ∨ ∃ x, l[i.val]? = some (.num x) ∧ c.nadir i < x)) := by
    intro hk i
    have : i.val < l.length := by omega
    rw [List.getElem?_eq_getElem this]
    cases hx : l[i.val] <;> simp [flLess]
  unfold validateRefFl
  by_cases hk : l.length = k
  · simp only [hk, ne_eq, not_true_eq_false, if_false, true_and]
    rw [← forall_congr' (key hk)]
    split_ifs with h <;> simp [h]
  · simp [hk]

example : validateRefFl exCfg [.num (-1), .num (-2)] = .ok () ∧
    validateRefFl exCfg [.num 1, .num 2] = .error .refused ∧
    validateRefFl exCfg [.num 1] = .error .refused :=
  ⟨eq_of_beq (by decide +kernel), eq_of_beq (by decide +kernel), eq_of_beq (by decide +kernel)⟩

/-- The two models of the check agree on finite components. -/
theorem validateRefFl_finite (c : Cfg k X D K) (l : List K) :
    validateRefFl c (l.map .num) = validateRef c l := by
  unfold validateRefFl validateRef
  by_cases hk : l.length = k
  · have : (∀ i : Fin k, flLess (.num (c.nadir i)) (((l.map Fl.num)[i.val]?).getD .nan) = true) ↔
        ∀ i, c.nadir i < toVec k l i := by
      refine forall_congr' fun i => ?_
      have : i.val < l.length := by omega
      simp [toVec, this, flLess]
    simp only [List.length_map, hk, ne_eq, not_true_eq_false, if_false]
    by_cases h : ∀ i, c.nadir i < toVec k l i
    · rw [if_pos (this.2 h), if_pos h]
    · rw [if_neg (mt this.1 h), if_neg h]
  · simp [hk]

/-! ### C70: accepted responses are answered -/

/-- The full claim: a response that the validator of an issued request accepts is answered with a
request. -/
def Answers (c : Cfg k X D K) : Prop :=
  ∀ (s : St k X K) (iss : List (Req k X K)) (req : Req k X K) (r : Resp K) (orc : Oracle k D K),
    Reached c (fun _ => True) s iss → req ∈ iss → validate c req r = .ok () →
    ∃ q, (answer c s req r orc).2 = .ok (some q)

/-- C70 for responses in which no float is given as index. -/
theorem C70_answered_partial {c : Cfg k X D K} {G : Oracle k D K → Prop} {s : St k X K}
    {iss : List (Req k X K)} {req : Req k X K} {r : Resp K} (orc : Oracle k D K)
    (hR : Reached c G s iss) (hr : req ∈ iss) (hv : validate c req r = .ok ())
    (hint : ∀ q, r.index ≠ some (.float q)) :
    ∃ q, (answer c s req r orc).2 = .ok (some q) := by
  obtain ⟨s', o, ha⟩ : ∃ s' o, answer c s req r orc = (s', o) := ⟨_, _, rfl⟩
  rw [ha]
  have h := answer_step hR.store ha
  cases h with
  | refused he => rw [hv] at he; simp at he
  | ended => exact ⟨_, rfl⟩
  | initial => exact ⟨_, rfl⟩
  | forward => exact ⟨_, rfl⟩
  | @chosen _ v f0 a0 _ hv' hsat' hi hc =>
    obtain ⟨v', hv'', hcase⟩ := validateIndex_ok (validateNav_index hv' hsat')
    rw [hi] at hv''
    cases hv''
    rcases hR.current with hcur | ⟨d, e, hx, hf, hax, haf, hls⟩
    · exact absurd (hcur _ hr) (by simp)
    · rcases hcase with h0 | ⟨h0, h1, j, hj⟩ | ⟨h0, h1, q, rfl⟩
      · rw [choose_zero h0 hx hf] at hc
        cases hc
        exact ⟨_, rfl⟩
      · rw [choose_int h0 h1 hj hax haf] at hc
        cases hc
        exact ⟨_, rfl⟩
      · exact absurd hi (hint q)

example := C70_answered_partial exOrc (ex_reached2 (G := Exact exCfg) exOrc_exact) (req := exR2)
  List.mem_cons_self (r := exPick 1) (by rw [exR2_eq]; rfl) (by simp [exPick])

/-- C70 fails in full: the index 1.0 passes validation and makes `iterate` raise `TypeError`. -/
theorem C70_fails : ¬ Answers exCfg := by
  intro h
  obtain ⟨q, hq⟩ := h exS2 [exR2, exR1, .initial] exR2 { satisfied := some true, index := some (.float 1) }
    exOrc (ex_reached2 trivial) List.mem_cons_self (eq_of_beq (by decide +kernel))
  have : (answer exCfg exS2 exR2 { satisfied := some true, index := some (.float 1) } exOrc).2 =
    .error .typeError := eq_of_beq (by decide +kernel)
  rw [this] at hq
  simp at hq

/-! ### The constructor -/

/-- The constructor accepts the bounds only if they have the same length, and objective names only if there
is one per objective. Objective directions are checked only through the names: without names a list of
directions of any nonzero length raises `TypeError`, with names its own length does not matter. -/
theorem construct_spec {a b : Nat} {names minimize : Option Nat} :
    (construct a b names minimize = .ok () → a = b ∧ ∀ l, names = some l → l = 0 ∨ l = a) ∧
    (∀ l, l ≠ 0 → construct a a none (some l) = .error .typeError) ∧
    (∀ l, construct (a + 1) (a + 1) (some (a + 1)) (some l) = .ok ()) := by
  refine ⟨?_, ?_, ?_⟩
  · unfold construct
    split_ifs with h1
    · simp
    · intro h
      refine ⟨not_not.1 h1, ?_⟩
      rintro l rfl
      by_contra hc
      push Not at hc
      simp [hc.1, hc.2] at h
  · intro l hl
    simp [construct, hl]
  · intro l
    by_cases hl : l = 0 <;> simp [construct, hl]

end Verif.Rpm
