import Verif.Navigator.Props3

/-!
# NAUTILUS Navigator: every solution of the front can be reached (C174)
-/

set_option linter.unusedSectionVars false

namespace Verif.Navigator

variable {K : Type} [Field K] [LinearOrder K] [IsStrictOrderedRing K] {n k : Nat} {V : Type}

/-- Accept no solution that is worse than `f` in some objective, and navigate. -/
def goTo (c : Cfg n k K V) (f : Vec k K) : Resp K :=
  forwardResp (List.ofFn fun j => some (c.nadir j)) (.int 1) (List.ofFn fun j => some (f j))

/-- The same bounds, given to the first request while staying there. -/
def askFor (c : Cfg n k K V) (f : Vec k K) : Resp K :=
  backResp (List.ofFn fun j => some (c.nadir j)) (.int 1) (List.ofFn fun j => some (f j))

/-- After `h` steps on the way to row `i`. -/
structure Heading (c : Cfg n k K V) (i : Fin n) (h : Nat) (s : St n k K) : Prop where
  nav : ∀ j, s.nav j = c.nadir j + (h : K) / 100 * (c.front i j - c.nadir j)
  rem : s.rem = max 1 (100 - h)
  sum : s.step + s.rem = 101
  reach : i ∈ s.reach
  user : s.userBounds = fun j => some (c.front i j)
  ready : h = 0 ∨ 1 ≤ h ∧ s.ref = some (fun j => some (c.nadir j)) ∧ ∃ p, s.proj = some p ∧ c.front p = c.front i

theorem respects_self {f : Vec k K} {g : Vec k K} : Respects (fun j => some (f j)) g ↔ AtLeastAsGood g f := by
  constructor
  · intro h j; exact h j _ rfl
  · intro h j b hb; cases hb; exact h j

theorem only_itself {c : Cfg n k K V} (hnd : MutuallyNondominated c.front) {i p : Fin n}
    (h : AtLeastAsGood (c.front p) (c.front i)) : c.front p = c.front i := by
  by_contra hne
  refine hnd p i ⟨h, ?_⟩
  by_contra hc
  push Not at hc
  exact hne (funext fun j => le_antisymm (h j) (hc j))

theorem toBounds_ofFn (f : Vec k K) : toBounds k (List.ofFn fun j => some (f j)) = fun j => some (f j) := by
  funext j
  simp [toBounds]

/-- One step. -/
theorem heading_step {c : Cfg n k K V} (hbox : ∀ i, InBox c.ideal c.nadir (c.front i)) (hnd : MutuallyNondominated c.front)
    {i : Fin n} (hv : validate c (goTo c (c.front i)) = .ok ()) {h : Nat} (hlt : h < 100) {s : St n k K}
    (hs : Heading c i h s) (ct : Content n k K) :
    ∃ s', answer c s ct (goTo c (c.front i)) = (s', .ok (.nav s'.content)) ∧ Heading c i (h + 1) s' ∧
      (h + 1 = 100 → ∀ p, p ∈ s'.reach ↔ c.front p = c.front i) := by
  have hnad : AtLeastAsGood (c.front i) c.nadir := fun j => (hbox i j).2
  -- the prepared state
  obtain ⟨s1, p, hp, hpf, e1, e2, e3, e4, e5, e6, e7⟩ : ∃ s1 p, forward c s (fun j => some (c.nadir j)) (.int 1)
      (fun j => some (c.front i j)) = advance c s1 (fun j => some (c.front i j)) ∧ c.front p = c.front i ∧
      s1.proj = some p ∧ s1.ref = some (fun j => some (c.nadir j)) ∧ s1.nav = s.nav ∧ s1.rem = s.rem ∧ s1.step = s.step ∧
      s1.reach = s.reach ∧ s1.userBounds = s.userBounds := by
    rcases hs.ready with h0 | ⟨h1, hr, p, hp, hpf⟩
    · have hst : s.step = 1 := by have := hs.sum; have := hs.rem; omega
      have hn : needsProjection s (fun j => some (c.nadir j)) = .ok true := by simp [needsProjection, hst]
      cases hsol : solve c s.reach (fun j => some (c.nadir j)) s.userBounds with
      | error e =>
        rcases (solve_error hsol).2 with ⟨j, hj⟩ | hno
        · cases hj
        · refine absurd ?_ (hno i hs.reach)
          rw [hs.user, respects_self]
          exact fun j => le_rfl
      | ok p =>
        obtain ⟨_, hres, _⟩ := solve_ok hsol
        rw [hs.user, respects_self] at hres
        refine ⟨{ s with speed := some (.int 1), ref := some (fun j => some (c.nadir j)), proj := some p }, p, ?_,
          only_itself hnd hres, ?_⟩
        · simp only [forward, hn, hsol]
          rw [if_pos hst]
        · exact ⟨rfl, rfl, rfl, rfl, rfl, rfl, rfl⟩
    · have hst : s.step ≠ 1 := by have := hs.sum; have := hs.rem; omega
      have hn : needsProjection s (fun j => some (c.nadir j)) = .ok false := by
        simp only [needsProjection, hst, if_false, hr, allclose_self]
        rfl
      refine ⟨s, p, ?_, hpf, hp, hr, rfl, rfl, rfl, rfl, rfl⟩
      simp only [forward, hn]
  have hrem : s1.rem = 100 - h := by rw [e4, hs.rem]; omega
  have hS := Straight.move (c := c) (q := fun j => some (c.nadir j)) (p := p) (h := h) (s1 := s1) hlt
    (fun j => some (c.front i j)) (by intro j; rw [e3, hs.nav, hpf]) hrem (by rw [e4, e5]; exact hs.sum) e2 e1
  have hnav : ∀ j, (move c s1 p (fun j => some (c.front i j))).nav j =
      c.nadir j + ((h + 1 : Nat) : K) / 100 * (c.front i j - c.nadir j) := by
    intro j; rw [hS.nav, hpf]
  have hkeep : i ∈ (move c s1 p (fun j => some (c.front i j))).reach := by
    refine move_keeps (by rw [e6]; exact hs.reach) (respects_self.2 fun j => le_rfl) ?_
    exact straight_le hnad (by omega : h + 1 ≤ 100) hnav
  refine ⟨move c s1 p (fun j => some (c.front i j)), ?_, ?_, ?_⟩
  · have hr0 : s1.rem ≠ 0 := by rw [hrem]; omega
    unfold answer
    rw [hv]
    simp only [handle, goTo, forwardResp, broadcast_ofFn, toBounds_ofFn, hp, advance, e1, if_neg hr0]
    rfl
  · exact ⟨hnav, hS.rem, hS.sum, hkeep, rfl, Or.inr ⟨by omega, hS.ref, p, hS.proj, hpf⟩⟩
  · intro h100 r
    have hend : navPoint (c.front p) s1.nav s1.rem = c.front i := by
      have hr1 : s1.rem = 1 := by omega
      rw [hr1, navPoint_one, hpf]
    have hcand : ∀ j x, x ∈ candidates c.front s1.reach (navPoint (c.front p) s1.nav s1.rem)
        (fun j => some (c.front i j)) j ↔ x = c.front i j := by
      intro j x
      rw [mem_candidates, hend]
      constructor
      · rintro ⟨q, _, h1, _, h2⟩
        rw [← h2, only_itself hnd (respects_self.1 h1)]
      · rintro rfl
        exact ⟨i, by rw [e6]; exact hs.reach, respects_self.2 fun _ => le_rfl, fun j _ => le_rfl, rfl⟩
    have hlo : lowerBounds c.front s1.reach (navPoint (c.front p) s1.nav s1.rem) (fun j => some (c.front i j)) s1.lb =
        c.front i := by
      funext j
      rcases minOr_cases (candidates c.front s1.reach (navPoint (c.front p) s1.nav s1.rem)
        (fun j => some (c.front i j)) j) (s1.lb j) with h | h
      · exact (hcand j _).1 h.1
      · have := (hcand j (c.front i j)).2 rfl
        rw [h.1] at this; simp at this
    have hup : upperBounds c.front s1.reach (navPoint (c.front p) s1.nav s1.rem) (fun j => some (c.front i j)) s1.ub =
        c.front i := by
      funext j
      rcases maxOr_cases (candidates c.front s1.reach (navPoint (c.front p) s1.nav s1.rem)
        (fun j => some (c.front i j)) j) (s1.ub j) with h | h
      · exact (hcand j _).1 h.1
      · have := (hcand j (c.front i j)).2 rfl
        rw [h.1] at this; simp at this
    simp only [move, hlo, hup, mem_reachable]
    constructor
    · intro h; exact funext fun j => le_antisymm (h j).2 (h j).1
    · intro h j; rw [h]; exact ⟨le_rfl, le_rfl⟩

theorem heading_run {c : Cfg n k K V} (hbox : ∀ i, InBox c.ideal c.nadir (c.front i)) (hnd : MutuallyNondominated c.front)
    {i : Fin n} (hv : validate c (goTo c (c.front i)) = .ok ()) (m : Nat) :
    ∀ {h : Nat} {s : St n k K} (ct : Content n k K), Heading c i h s → h + (m + 1) = 100 →
      ∃ s', run c s ct (List.replicate (m + 1) (goTo c (c.front i))) = .ok (s', s'.content) ∧
        s'.nav = c.front i ∧ ∀ p, p ∈ s'.reach ↔ c.front p = c.front i := by
  induction m with
  | zero =>
    intro h s ct hs hm
    obtain ⟨s', h1, h2, h3⟩ := heading_step hbox hnd hv (by omega) hs ct
    refine ⟨s', ?_, ?_, h3 (by omega)⟩
    · simp only [List.replicate, run, h1]
    · funext j
      rw [h2.nav, show h + 1 = 100 by omega]
      push_cast
      rw [div_self (by norm_num)]
      ring
  | succ m ih =>
    intro h s ct hs hm
    obtain ⟨s', h1, h2, _⟩ := heading_step hbox hnd hv (by omega) hs ct
    obtain ⟨s'', h3, h4⟩ := ih s'.content h2 (by omega)
    refine ⟨s'', ?_, h4⟩
    rw [List.replicate_succ, run, h1]
    exact h3

/-! ### C174 -/

/-- **C174**. Every solution of the front can be reached: there are responses, all of them usable, after which the
navigation point is the objective vector of the solution and the solutions still reachable are exactly those with this
objective vector; stopping then returns them with their decision vectors. Whatever achievement function is used. -/
theorem C174_navigator {c : Cfg n k K V} (hbox : ∀ i, InBox c.ideal c.nadir (c.front i))
    (hnd : MutuallyNondominated c.front) (i : Fin n) :
    ∃ (rs : List (Resp K)) (s : St n k K) (ct : Content n k K), (∀ r ∈ rs, Usable c r) ∧
      run c (initSt c) (start (initSt c)) rs = .ok (s, ct) ∧ ct.nav = c.front i ∧ ct.rem = 1 ∧
      (∀ p, p ∈ ct.reach ↔ c.front p = c.front i) ∧
      ∃ r : Resp K, Usable c r ∧ ∃ idx objs, (answer c s ct r).2 = .ok (.stop idx objs (c.vars.map fun d => idx.map d)) ∧
        i ∈ idx ∧ ∀ f ∈ objs, f = c.front i := by
  have hin : InBox c.ideal c.nadir c.nadir := fun j => ⟨(hbox i j).1.trans (hbox i j).2, le_rfl⟩
  have hu : Usable c (goTo c (c.front i)) :=
    ⟨⟨c.nadir, rfl, hin⟩, ⟨1, rfl, by norm_num, by norm_num⟩, ⟨_, rfl⟩, ⟨_, rfl, by simp⟩, _, rfl⟩
  have hu' : Usable c (askFor c (c.front i)) :=
    ⟨⟨c.nadir, rfl, hin⟩, ⟨1, rfl, by norm_num, by norm_num⟩, ⟨_, rfl⟩, ⟨_, rfl, by simp⟩, _, rfl⟩
  have hv := C20_usable_is_accepted hu
  have hv' := C20_usable_is_accepted hu'
  have h0 : answer c (initSt c) (start (initSt c)) (askFor c (c.front i)) =
      ({ initSt c with userBounds := fun j => some (c.front i j) },
        .ok (.nav ({ initSt c with userBounds := fun j => some (c.front i j) } : St n k K).content)) := by
    unfold answer
    rw [hv']
    simp only [handle, askFor, backResp, toBounds_ofFn]
    rfl
  have hH : Heading c i 0 { initSt c with userBounds := fun j => some (c.front i j) } :=
    ⟨by intro j; simp [initSt], by simp [initSt], by simp [initSt], by simp [initSt], rfl, Or.inl rfl⟩
  obtain ⟨s, h1, h2, h3⟩ := heading_run hbox hnd hv 99 _ hH rfl
  have hrun : run c (initSt c) (start (initSt c))
      (askFor c (c.front i) :: List.replicate 100 (goTo c (c.front i))) = .ok (s, s.content) := by
    rw [run, h0]
    exact h1
  have hall : ∀ r ∈ askFor c (c.front i) :: List.replicate 100 (goTo c (c.front i)), Usable c r := by
    intro r hr
    rcases List.mem_cons.1 hr with rfl | hr
    · exact hu'
    · rw [List.eq_of_mem_replicate hr]; exact hu
  have hrem : s.content.rem = 1 := by
    have hf := run_forward (c := c) (rs := List.replicate 100 (goTo c (c.front i))) (by
      intro r hr; rw [List.eq_of_mem_replicate hr]; rfl) (by simp [initSt]) h1 rfl
    simp only [St.content]
    rw [hf.2.1]
    simp [initSt]
  refine ⟨_, s, s.content, hall, hrun, h2, hrem, h3, stopResp (List.ofFn fun j => some (c.nadir j)) (.int 1) false
    (List.ofFn fun j => some (c.front i j)), ?_, s.reach, s.reach.map c.front, ?_, (h3 i).2 rfl, ?_⟩
  · exact ⟨⟨c.nadir, rfl, hin⟩, ⟨1, rfl, by norm_num, by norm_num⟩, ⟨_, rfl⟩, ⟨_, rfl, by simp⟩, _, rfl⟩
  · unfold answer
    rw [C20_usable_is_accepted ⟨⟨c.nadir, rfl, hin⟩, ⟨1, rfl, by norm_num, by norm_num⟩, ⟨_, rfl⟩, ⟨_, rfl, by simp⟩, _, rfl⟩]
    rfl
  · intro f hf
    obtain ⟨p, hp, rfl⟩ := List.mem_map.1 hf
    exact (h3 p).1 hp

/-- The hypotheses are met by the example. -/
example (i : Fin 3) := C174_navigator (c := exCfg) (by decide +kernel) (by decide +kernel) i

end Verif.Navigator
