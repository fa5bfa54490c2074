import Verif.Navigator.Lemmas
import Verif.Navigator.ExampleData

set_option linter.unusedSectionVars false

/-!
# Properties C11-C16 of NAUTILUS Navigator
-/

namespace Verif.Navigator

variable {K V : Type} [Field K] [LinearOrder K] [IsStrictOrderedRing K] {n k : Nat}

/-- The request issued by a call of `iterate`, if any. -/
def issued (o : Except Err (Out n k K V)) : List (Content n k K) :=
  match o with
  | .ok (.nav ct) => [ct]
  | _ => []

/-- Everything that can happen: `Reached c s l` holds if, starting with `start`, answering any
already issued requests (not only the last one) with any responses - accepted or refused, forward,
returning or stopping, also ones on which the code raises - can lead to the state `s`, and `l` are
the requests issued so far, newest first. -/
inductive Reached (c : Cfg n k K V) : St n k K → List (Content n k K) → Prop
  | init : Reached c (initSt c) [start (initSt c)]
  | step {s s' : St n k K} {l : List (Content n k K)} {ct : Content n k K} {r : Resp K}
      {o : Except Err (Out n k K V)} : Reached c s l → ct ∈ l → answer c s ct r = (s', o) →
      Reached c s' (issued o ++ l)

theorem ex_reached1 : Reached exCfg exS1 [exS1.content, start (initSt exCfg)] :=
  .step .init (List.mem_singleton.2 rfl) ex_step1

theorem ex_reached2 : Reached exCfg exS2 [exS2.content, exS1.content, start (initSt exCfg)] :=
  .step ex_reached1 List.mem_cons_self ex_step2

/-- A property of the shown data that does not depend on the speed is an invariant if it holds at the
start and is preserved by moving. -/
theorem Reached.induct {c : Cfg n k K V} {P : Content n k K → Prop}
    (hspeed : ∀ (ct : Content n k K) v, P ct → P { ct with speed := v })
    (huser : ∀ (ct : Content n k K) u, P ct → P { ct with userBounds := u })
    (h0 : P (start (initSt c)))
    (hmove : ∀ (s1 : St n k K) p u, P s1.content → P (move c s1 p u).content)
    {s : St n k K} {l : List (Content n k K)} (h : Reached c s l) :
    P s.content ∧ ∀ ct ∈ l, P ct := by
  induction h with
  | init => exact ⟨h0, by simpa using h0⟩
  | @step s s' l ct r o hr hmem ha ih =>
    rcases answer_effect ha with ⟨hno, hs, _⟩ | ⟨ct', rfl⟩
    · refine ⟨by rw [hs]; exact hspeed _ _ ih.1, ?_⟩
      intro ct1 h1
      rw [List.mem_append] at h1
      rcases h1 with h1 | h1
      · unfold issued at h1
        split at h1
        · rename_i ct2; exact absurd rfl (hno ct2)
        · simp at h1
      · exact ih.2 _ h1
    · have key : P s'.content := by
        obtain ⟨_, ⟨ul, _, _, hs⟩ | ⟨ql, q, v, ul, s1, p, _, _, _, _, _, hp, hr', hs⟩⟩ := answer_nav ha
        · have := huser _ (toBounds k ul) (hspeed _ s.speed (ih.2 ct hmem))
          rw [hs]; exact this
        · rw [hs]
          apply hmove
          obtain ⟨a1, a2, a3, a4, a5, a6, a7, a8⟩ := hp.eq
          have := hspeed _ s1.speed ih.1
          have e : s1.content = { s.content with speed := s1.speed } := by
            simp [St.content, *]
          rw [e]; exact this
      refine ⟨key, ?_⟩
      intro ct1 h1
      simp only [issued, List.singleton_append, List.mem_cons] at h1
      rcases h1 with rfl | h1
      · rw [(answer_nav ha).1]; exact key
      · exact ih.2 _ h1

/-- The newest request shows the state (up to the stored speed). -/
theorem Reached.head {c : Cfg n k K V} {s : St n k K} {ct : Content n k K} {l : List (Content n k K)}
    (h : Reached c s (ct :: l)) : s.content = { ct with speed := s.speed } := by
  generalize hl : ct :: l = L at h
  induction h generalizing ct l with
  | init =>
    simp only [List.cons.injEq] at hl
    obtain ⟨rfl, _⟩ := hl
    rfl
  | @step s s' l' ct1 r o hr hmem ha ih =>
    rcases answer_effect ha with ⟨hno, hs, _⟩ | ⟨ct', rfl⟩
    · have hi : issued o = [] := by
        unfold issued
        split
        · rename_i ct2; exact absurd rfl (hno ct2)
        · rfl
      rw [hi, List.nil_append] at hl
      rw [hs, ih hl]
    · simp only [issued, List.singleton_append, List.cons.injEq] at hl
      rw [hl.1, (answer_nav ha).1]
      rfl

/-! ## C11 -/

/-- **C11**. In every request issued in any history, `step_number` and `steps_remaining` are between 1
and 100 and their sum is 101. -/
theorem C11_step_bookkeeping {c : Cfg n k K V} {s : St n k K} {l : List (Content n k K)}
    (h : Reached c s l) {ct : Content n k K} (hct : ct ∈ l) :
    1 ≤ ct.step ∧ ct.step ≤ 100 ∧ 1 ≤ ct.rem ∧ ct.rem ≤ 100 ∧ ct.step + ct.rem = 101 := by
  refine (h.induct (P := fun ct => 1 ≤ ct.step ∧ ct.step ≤ 100 ∧ 1 ≤ ct.rem ∧ ct.rem ≤ 100 ∧
    ct.step + ct.rem = 101) ?_ ?_ ?_ ?_).2 ct hct
  · exact fun _ _ h => h
  · exact fun _ _ h => h
  · simp [start, initSt, St.content]
  · intro s1 p u h
    simp only [St.content, move] at h ⊢
    split <;> omega

/-- A forward step counts one step, except the last one, after which the counters stay. -/
theorem C11_forward_counts {c : Cfg n k K V} {s s' : St n k K} {ct0 : Content n k K}
    {l : List (Content n k K)} (h : Reached c s (ct0 :: l)) {ct ct' : Content n k K} {r : Resp K}
    (hg : r.goToPrevious = some (.bool false)) (ha : answer c s ct r = (s', .ok (.nav ct'))) :
    (ct0.rem = 1 → ct'.step = ct0.step ∧ ct'.rem = 1) ∧
    (ct0.rem ≠ 1 → ct'.step = ct0.step + 1 ∧ ct'.rem = ct0.rem - 1) := by
  have hh := h.head
  simp only [St.content, Content.mk.injEq] at hh
  obtain ⟨_, _, _, _, hs, hr, _⟩ := hh
  obtain ⟨h1, ql, q, v, ul, s1, p, _, _, _, _, hp, _, hs'⟩ := answer_forward hg ha
  obtain ⟨_, _, _, _, h5, h6, _, _⟩ := hp.eq
  rw [h1, hs']
  simp only [St.content, move, h5, h6, hs, hr]
  constructor <;> intro h2 <;> simp [h2]

example : (exS2.content ∈ [exS2.content, exS1.content, start (initSt exCfg)]) ∧
    exS2.content.step = 3 ∧ exS2.content.rem = 98 ∧ exR2.goToPrevious = some (.bool false) :=
  ⟨List.mem_cons_self, by decide +kernel⟩

/-! ## C12 -/

/-- In every history the step counters of the state are in range. -/
theorem Reached.rem_pos {c : Cfg n k K V} {s : St n k K} {l : List (Content n k K)}
    (h : Reached c s l) : 1 ≤ s.rem ∧ s.rem ≤ 100 ∧ s.step + s.rem = 101 := by
  refine (h.induct (P := fun ct => 1 ≤ ct.rem ∧ ct.rem ≤ 100 ∧ ct.step + ct.rem = 101) ?_ ?_ ?_ ?_).1
  · exact fun _ _ h => h
  · exact fun _ _ h => h
  · simp [start, initSt, St.content]
  · intro s1 p u h
    simp only [St.content, move] at h ⊢
    split <;> omega

/-- **C12** (last step). In any history, a forward step taken when one step remains puts the
navigation point exactly on a row of the front, and one step remains afterwards - so every further
forward step does the same. -/
theorem C12_last_step_on_front {c : Cfg n k K V} {s s' : St n k K} {ct0 : Content n k K}
    {l : List (Content n k K)} (h : Reached c s (ct0 :: l)) {ct ct' : Content n k K} {r : Resp K}
    (hg : r.goToPrevious = some (.bool false)) (h1 : ct0.rem = 1)
    (ha : answer c s ct r = (s', .ok (.nav ct'))) :
    (∃ p, ct'.nav = c.front p) ∧ ct'.rem = 1 := by
  refine ⟨?_, ((C11_forward_counts h hg ha).1 h1).2⟩
  have hh := h.head
  simp only [St.content, Content.mk.injEq] at hh
  obtain ⟨_, _, _, _, hs, hr, _⟩ := hh
  obtain ⟨h1', ql, q, v, ul, s1, p, _, _, _, _, hp, _, hs'⟩ := answer_forward hg ha
  obtain ⟨_, _, _, _, h5, h6, _, _⟩ := hp.eq
  refine ⟨p, ?_⟩
  rw [h1', hs']
  simp only [St.content, move]
  rw [h5, hr, h1, navPoint_one]

/-- Forward runs: counting the steps. -/
theorem run_forward {c : Cfg n k K V} {s s' : St n k K} {ct ct' : Content n k K} {rs : List (Resp K)}
    (hg : ∀ r ∈ rs, r.goToPrevious = some (.bool false)) (hrem : 1 ≤ s.rem)
    (h : run c s ct rs = .ok (s', ct')) (hct : ct = s.content) :
    ct' = s'.content ∧ s'.rem = max 1 (s.rem - rs.length) ∧
      (s.rem ≤ rs.length → ∃ p, ct'.nav = c.front p) := by
  induction rs generalizing s ct with
  | nil =>
    simp only [run, Except.ok.injEq, Prod.mk.injEq] at h
    obtain ⟨rfl, rfl⟩ := h
    refine ⟨hct, by simp [hrem], ?_⟩
    intro h; simp at h; omega
  | cons r rs ih =>
    unfold run at h
    split at h
    · simp at h
    · rename_i s1 ct1 ha
      obtain ⟨h1', ql, q, v, ul, s0, p, _, _, _, _, hp, _, hs'⟩ := answer_forward (hg r (by simp)) ha
      obtain ⟨_, _, _, _, h5, h6, _, _⟩ := hp.eq
      have hrem1 : s1.rem = if s.rem = 1 then s.rem else s.rem - 1 := by
        rw [hs']; simp [move, h5]
      have hrem2 : 1 ≤ s1.rem := by rw [hrem1]; split <;> omega
      obtain ⟨e1, e2, e3⟩ := ih (fun r hr => hg r (by simp [hr])) hrem2 h h1'
      refine ⟨e1, ?_, ?_⟩
      · rw [e2, hrem1]
        simp only [List.length_cons, Nat.cast_add, Nat.cast_one]
        split <;> omega
      · intro hle
        simp only [List.length_cons, Nat.cast_add, Nat.cast_one] at hle
        rcases rs with _ | ⟨r', rs'⟩
        · simp only [run, Except.ok.injEq, Prod.mk.injEq] at h
          obtain ⟨rfl, rfl⟩ := h
          refine ⟨p, ?_⟩
          have : s.rem = 1 := by simp at hle; omega
          rw [h1', hs']
          simp only [St.content, move]
          rw [h5, this, navPoint_one]
        · apply e3
          rw [hrem1]
          simp only [List.length_cons, Nat.cast_add, Nat.cast_one] at hle ⊢
          split <;> omega
    · simp at h

/-- **C12** (whole process). After 100 or more forward steps, whatever the reference points and user
bounds, the navigation point is a row of the front and one step remains. -/
theorem C12_hundred_steps_reach_front {c : Cfg n k K V} {s : St n k K} {ct : Content n k K}
    {rs : List (Resp K)} (hg : ∀ r ∈ rs, r.goToPrevious = some (.bool false))
    (hlen : 100 ≤ rs.length) (h : run c (initSt c) (start (initSt c)) rs = .ok (s, ct)) :
    (∃ p, ct.nav = c.front p) ∧ ct.rem = 1 := by
  obtain ⟨h1, h2, h3⟩ := run_forward hg (by simp [initSt]) h rfl
  refine ⟨h3 (by simp [initSt]; omega), ?_⟩
  rw [h1]
  simp only [St.content, h2, initSt]
  omega

/-- The example can be run for 100 and more steps. -/
example : ∃ s ct, run exCfg (initSt exCfg) (start (initSt exCfg)) (List.replicate 101 exR) = .ok (s, ct) ∧
    ct.nav = ![1, 1] ∧ ct.rem = 1 := by
  have h : ((run exCfg (initSt exCfg) (start (initSt exCfg)) (List.replicate 101 exR)).toOption.map
      fun x => (x.2.nav, x.2.rem)) = some (![1, 1], 1) := eq_of_beq (by decide +kernel)
  cases hr : run exCfg (initSt exCfg) (start (initSt exCfg)) (List.replicate 101 exR) with
  | error e => rw [hr] at h; simp [Except.toOption] at h
  | ok x =>
    rw [hr] at h
    simp only [Except.toOption, Option.map_some, Option.some.injEq, Prod.mk.injEq] at h
    exact ⟨x.1, x.2, rfl, h⟩

/-! ## C13 -/

/-- The invariant of a run with one reference point: `h` steps towards row `p` have been taken. -/
structure Straight (c : Cfg n k K V) (q : Vec k (Option K)) (p : Fin n) (h : Nat) (s : St n k K) : Prop where
  nav : ∀ j, s.nav j = c.nadir j + (h : K) / 100 * (c.front p j - c.nadir j)
  rem : s.rem = max 1 (100 - h)
  sum : s.step + s.rem = 101
  pos : 1 ≤ h
  ref : s.ref = some q
  proj : s.proj = some p
  dist : (∃ j, c.front p j ≠ c.nadir j) → NormSpec c.nrm → s.dist = .num (h : K)
  none : c.front p = c.nadir → NormSpec c.nrm → s.dist = .nan

theorem distance_straight {c : Cfg n k K V} {p : Fin n} {h : Nat} {nav : Vec k K} (hn : NormSpec c.nrm)
    (hp : ∃ j, c.front p j ≠ c.nadir j)
    (hnav : ∀ j, nav j = c.nadir j + (h : K) / 100 * (c.front p j - c.nadir j)) :
    distance c.nrm nav (c.front p) c.nadir = .num (h : K) := by
  have h1 : (fun j => nav j - c.nadir j) = fun j => ((h : K) / 100) * (c.front p j - c.nadir j) := by
    funext j; rw [hnav]; ring
  have h2 : c.nrm (fun j => c.front p j - c.nadir j) ≠ 0 := by
    intro h0
    rw [hn.eq_zero] at h0
    obtain ⟨j, hj⟩ := hp
    exact hj (sub_eq_zero.1 (h0 j))
  have h3 : (0 : K) ≤ (h : K) / 100 := by positivity
  unfold distance
  rw [h1, hn.homog, abs_of_nonneg h3]
  simp only [fdiv, h2, if_false, Fl.scalePos, Fl.num.injEq]
  field_simp

/-- From the nadir to the nadir the distance is `0/0`. -/
theorem distance_nowhere {c : Cfg n k K V} {p : Fin n} {h : Nat} {nav : Vec k K} (hn : NormSpec c.nrm)
    (hp : c.front p = c.nadir)
    (hnav : ∀ j, nav j = c.nadir j + (h : K) / 100 * (c.front p j - c.nadir j)) :
    distance c.nrm nav (c.front p) c.nadir = .nan := by
  have h0 : ∀ j, c.front p j - c.nadir j = 0 := fun j => by rw [hp, sub_self]
  have h1 : c.nrm (fun j => nav j - c.nadir j) = 0 := by
    rw [hn.eq_zero]
    intro j; rw [hnav, h0]; ring
  have h2 : c.nrm (fun j => c.front p j - c.nadir j) = 0 := by
    rw [hn.eq_zero]; exact h0
  unfold distance
  rw [h1, h2]
  simp [fdiv, Fl.scalePos]

/-- One more step of a run with one reference point. -/
theorem Straight.move {c : Cfg n k K V} {q : Vec k (Option K)} {p : Fin n} {h : Nat}
    {s1 : St n k K} (hlt : h < 100) (u : Vec k (Option K))
    (hnav : ∀ j, s1.nav j = c.nadir j + (h : K) / 100 * (c.front p j - c.nadir j))
    (hrem : s1.rem = 100 - h) (hsum : s1.step + s1.rem = 101) (href : s1.ref = some q)
    (hproj : s1.proj = some p) : Straight c q p (h + 1) (move c s1 p u) := by
  have hnav' : ∀ j, (Navigator.move c s1 p u).nav j =
      c.nadir j + ((h + 1 : Nat) : K) / 100 * (c.front p j - c.nadir j) := by
    intro j
    simp only [Navigator.move, navPoint, hnav, hrem]
    have h1 : ((100 : K) - (h : K)) ≠ 0 := by
      have : (h : K) < 100 := by exact_mod_cast hlt
      intro h0; linarith
    push_cast
    field_simp
    ring
  refine ⟨hnav', ?_, ?_, by omega, href, hproj, ?_, ?_⟩
  · simp only [Navigator.move, hrem]
    split <;> omega
  · simp only [Navigator.move]
    split <;> omega
  · intro hp hn
    exact distance_straight hn hp hnav'
  · intro hp hn
    exact distance_nowhere hn hp hnav'

/-- Row `p` stays reachable when the navigation point moves towards it and the bounds allow it. -/
theorem move_keeps {c : Cfg n k K V} {s1 : St n k K} {p i : Fin n} {u : Vec k (Option K)}
    (hi : i ∈ s1.reach) (hu : Respects u (c.front i))
    (hle : AtLeastAsGood (c.front i) (navPoint (c.front p) s1.nav s1.rem)) :
    i ∈ (move c s1 p u).reach := by
  simp only [move, mem_reachable]
  intro r
  have hc : c.front i r ∈ candidates c.front s1.reach (navPoint (c.front p) s1.nav s1.rem) u r := by
    rw [mem_candidates]
    exact ⟨i, hi, hu, fun j _ => hle j, rfl⟩
  constructor
  · rcases minOr_cases (candidates c.front s1.reach (navPoint (c.front p) s1.nav s1.rem) u r)
      (s1.lb r) with h | h
    · exact h.2 _ hc
    · rw [h.1] at hc; simp at hc
  · rcases maxOr_cases (candidates c.front s1.reach (navPoint (c.front p) s1.nav s1.rem) u r)
      (s1.ub r) with h | h
    · exact h.2 _ hc
    · rw [h.1] at hc; simp at hc

theorem straight_le {c : Cfg n k K V} {p : Fin n} {h : Nat} {nav : Vec k K}
    (hnad : AtLeastAsGood (c.front p) c.nadir) (hh : h ≤ 100)
    (hnav : ∀ j, nav j = c.nadir j + (h : K) / 100 * (c.front p j - c.nadir j)) :
    AtLeastAsGood (c.front p) nav := by
  intro j
  rw [hnav]
  have h1 : (h : K) ≤ 100 := by exact_mod_cast hh
  have h2 : (h : K) / 100 ≤ 1 := by rw [div_le_one (by norm_num)]; exact h1
  nlinarith [hnad j]

theorem Straight.step_ne {c : Cfg n k K V} {q : Vec k (Option K)} {p : Fin n} {h : Nat} {s : St n k K}
    (hs : Straight c q p h s) : s.step ≠ 1 := by
  have := hs.sum
  have := hs.rem
  have := hs.pos
  omega

theorem run_straight {c : Cfg n k K V} {q : Vec k K} {ql : List (Option K)} {p : Fin n} {h : Nat}
    {s s' : St n k K} {ct ct' : Content n k K} {rs : List (Resp K)}
    (hq : broadcast k ql = .ok (fun j => some (q j)))
    (hrs : ∀ r ∈ rs, r.goToPrevious = some (.bool false) ∧ r.ref = some ql)
    (hlen : h + rs.length ≤ 100)
    (hs : Straight c (fun j => some (q j)) p h s) (hct : ct = s.content)
    (hrun : run c s ct rs = .ok (s', ct')) :
    ct' = s'.content ∧ Straight c (fun j => some (q j)) p (h + rs.length) s' ∧
      (p ∈ s.reach → AtLeastAsGood (c.front p) c.nadir →
        (∀ r ∈ rs, ∀ ul, r.userBounds = some ul → Respects (toBounds k ul) (c.front p)) → p ∈ s'.reach) := by
  induction rs generalizing s ct h with
  | nil =>
    simp only [run, Except.ok.injEq, Prod.mk.injEq] at hrun
    obtain ⟨rfl, rfl⟩ := hrun
    exact ⟨hct, hs, fun h _ _ => h⟩
  | cons r rs ih =>
    unfold run at hrun
    split at hrun
    · simp at hrun
    · rename_i s2 ct2 ha
      simp only [List.length_cons] at hlen
      obtain ⟨hg, href⟩ := hrs r (by simp)
      obtain ⟨h1', ql', q', v, ul, s1, p', hq1, hb, _, hul, hp, _, hs'⟩ := answer_forward hg ha
      rw [href] at hq1
      simp only [Option.some.injEq] at hq1
      subst hq1
      rw [hq] at hb
      simp only [Except.ok.injEq] at hb
      subst hb
      have hnp : needsProjection s (fun j => some (q j)) = .ok false := by
        simp only [needsProjection, hs.step_ne, if_false, hs.ref, allclose_self]
        rfl
      rcases hp with ⟨_, rfl, hp2⟩ | ⟨hp1, _⟩
      · have hpp : p' = p := by
          rw [hs.proj] at hp2; simpa using hp2.symm
        subst hpp
        have hrem : s1.rem = 100 - h := by rw [hs.rem]; omega
        have hS := Straight.move (c := c) (q := fun j => some (q j)) (p := p') (h := h) (s1 := s1)
          (by omega) (toBounds k ul) hs.nav hrem hs.sum hs.ref hs.proj
        rw [← hs'] at hS
        obtain ⟨e1, e2, e3⟩ := ih (fun r hr => hrs r (by simp [hr])) (by omega) hS h1' hrun
        refine ⟨e1, ?_, ?_⟩
        · rw [List.length_cons, show h + (rs.length + 1) = h + 1 + rs.length by omega]
          exact e2
        · intro hpr hnad hresp
          refine e3 ?_ hnad (fun r hr => hresp r (by simp [hr]))
          have := hS.nav
          rw [hs'] at this ⊢
          exact move_keeps hpr (hresp r (by simp) ul hul)
            (straight_le hnad (by omega : h + 1 ≤ 100) this)
      · rw [hnp] at hp1; simp at hp1
    · simp at hrun

/-- A run with one reference point, from the start. -/
theorem straight_of_run {c : Cfg n k K V} {ql : List (Option K)} {rs : List (Resp K)}
    (hrs : ∀ r ∈ rs, r.goToPrevious = some (.bool false) ∧ r.ref = some ql)
    (h1 : 1 ≤ rs.length) (h100 : rs.length ≤ 100) {s : St n k K} {ct : Content n k K}
    (hrun : run c (initSt c) (start (initSt c)) rs = .ok (s, ct)) :
    ∃ (q : Vec k K) (p : Fin n), broadcast k ql = .ok (fun j => some (q j)) ∧
      (∀ i, c.asf q (c.front p) ≤ c.asf q (c.front i)) ∧ ct = s.content ∧
      Straight c (fun j => some (q j)) p rs.length s ∧
      (AtLeastAsGood (c.front p) c.nadir →
        (∀ r ∈ rs, ∀ ul, r.userBounds = some ul → Respects (toBounds k ul) (c.front p)) →
        p ∈ s.reach) := by
  rcases rs with _ | ⟨r, rs⟩
  · simp at h1
  · unfold run at hrun
    split at hrun
    · simp at hrun
    · rename_i s2 ct2 ha
      simp only [List.length_cons] at h100
      obtain ⟨hg, href⟩ := hrs r (by simp)
      obtain ⟨h1', ql', q', v, ul, s1, p, hq1, hb, _, hul, hp, _, hs'⟩ := answer_forward hg ha
      rw [href] at hq1
      simp only [Option.some.injEq] at hq1
      subst hq1
      have hnp : needsProjection (initSt c) q' = .ok true := by simp [needsProjection, initSt]
      rcases hp with ⟨hp1, _⟩ | ⟨_, hsol, hs1⟩
      · rw [hnp] at hp1; simp at hp1
      · obtain ⟨_, _, q, hqv, hopt⟩ := solve_ok hsol
        subst hqv
        have hS := Straight.move (c := c) (q := fun j => some (q j)) (p := p) (h := 0) (s1 := s1)
          (by omega) (toBounds k ul) (by intro j; simp [hs1, initSt]) (by simp [hs1, initSt])
          (by simp [hs1, initSt]) (by simp [hs1]) (by simp [hs1])
        have hm := hS.nav
        rw [← hs'] at hS
        obtain ⟨e1, e2, e3⟩ := run_straight hb (fun r hr => hrs r (by simp [hr])) (by omega) hS h1' hrun
        have hlen : 0 + 1 + rs.length = (r :: rs).length := by simp; omega
        rw [hlen] at e2
        refine ⟨q, p, hb, ?_, e1, e2, ?_⟩
        · intro i
          exact hopt i (by simp [initSt]) (by intro j b hjb; simp [initSt] at hjb)
        · intro hnad hall
          refine e3 ?_ hnad (fun r hr => hall r (by simp [hr]))
          rw [hs']
          refine move_keeps ?_ (hall r (by simp) ul hul) (straight_le hnad (by omega : 0 + 1 ≤ 100) hm)
          simp [hs1, initSt]
    · simp at hrun

/-- **C13**. A process of `h` forward steps (`1 ≤ h ≤ 100`) with one and the same reference point:
there is one row `p` of the front, a best one for this reference point, such that the navigation
point has covered `h` percent of the straight way from the nadir to `p`, the reported distance is
exactly `h` (if `p` is the nadir itself, there is no way to cover, and the reported distance, `0/0`,
is not a number), and `p` is still reachable if all user bounds given so
far allow it. -/
theorem C13_constant_pace {c : Cfg n k K V} (hn : NormSpec c.nrm)
    (hnad : ∀ i, AtLeastAsGood (c.front i) c.nadir) {ql : List (Option K)} {rs : List (Resp K)}
    (hrs : ∀ r ∈ rs, r.goToPrevious = some (.bool false) ∧ r.ref = some ql)
    (h1 : 1 ≤ rs.length) (h100 : rs.length ≤ 100) {s : St n k K} {ct : Content n k K}
    (hrun : run c (initSt c) (start (initSt c)) rs = .ok (s, ct)) :
    ∃ (q : Vec k K) (p : Fin n), Denotes ql (fun j => some (q j)) ∧
      (∀ i, c.asf q (c.front p) ≤ c.asf q (c.front i)) ∧
      (∀ j, ct.nav j = c.nadir j + (rs.length : K) / 100 * (c.front p j - c.nadir j)) ∧
      (c.front p ≠ c.nadir → ct.dist = .num (rs.length : K)) ∧
      (c.front p = c.nadir → ct.dist = .nan) ∧
      ((∀ r ∈ rs, ∀ ul, r.userBounds = some ul → RespectsList ul (c.front p)) →
        p ∈ ct.reach) := by
  obtain ⟨q, p, hb, hopt, hct, hS, hreach⟩ := straight_of_run hrs h1 h100 hrun
  subst hct
  refine ⟨q, p, denotes_of_broadcast hb, hopt, hS.nav, ?_, fun h0 => hS.none h0 hn,
    fun hall => hreach (hnad p) fun r hr ul hul => respects_toBounds.2 (hall r hr ul hul)⟩
  intro hne
  refine hS.dist ?_ hn
  by_contra hcon
  push Not at hcon
  exact hne (funext hcon)

/-- The hypotheses of C13 are met by the example (its nadir is not on the front). -/
example : NormSpec exCfg.nrm ∧ (∀ i, AtLeastAsGood (exCfg.front i) exCfg.nadir) ∧
    (∀ r ∈ List.replicate 40 exR, r.goToPrevious = some (.bool false) ∧
      r.ref = some [some 1, some 1]) ∧
    (∃ s ct, run exCfg (initSt exCfg) (start (initSt exCfg)) (List.replicate 40 exR) = .ok (s, ct) ∧
      ct.nav = ![8/5, 8/5] ∧ ct.dist = .num 40 ∧ ct.reach = [1]) := by
  refine ⟨supNorm_spec, by decide +kernel, by
    intro r hr; rw [List.eq_of_mem_replicate hr]; exact ⟨rfl, rfl⟩, ?_⟩
  have h : ((run exCfg (initSt exCfg) (start (initSt exCfg)) (List.replicate 40 exR)).toOption.map
      fun x => (x.2.nav, x.2.dist, x.2.reach)) = some (![8/5, 8/5], .num 40, [1]) :=
    eq_of_beq (by decide +kernel)
  cases hr : run exCfg (initSt exCfg) (start (initSt exCfg)) (List.replicate 40 exR) with
  | error e => rw [hr] at h; simp [Except.toOption] at h
  | ok x =>
    rw [hr] at h
    simp only [Except.toOption, Option.map_some, Option.some.injEq, Prod.mk.injEq] at h
    exact ⟨x.1, x.2, rfl, h⟩

/-! ## C14 -/

/-- The reachable indices of a request are the rows inside its bounds, in increasing order. -/
def BoxReach (c : Cfg n k K V) (ct : Content n k K) : Prop :=
  (∀ i, i ∈ ct.reach ↔ InBox ct.lb ct.ub (c.front i)) ∧ ct.reach.Pairwise (· < ·)

theorem Reached.boxReach {c : Cfg n k K V} (hbox : ∀ i, InBox c.ideal c.nadir (c.front i))
    {s : St n k K} {l : List (Content n k K)} (h : Reached c s l) :
    BoxReach c s.content ∧ ∀ ct ∈ l, BoxReach c ct := by
  refine h.induct (fun _ _ h => h) (fun _ _ h => h) ?_ ?_
  · exact ⟨fun i => by simpa [start, St.content, initSt] using hbox i,
      List.pairwise_lt_finRange n⟩
  · intro s1 p u _
    exact ⟨fun i => mem_reachable _ _ _ i, reachable_sorted _ _ _⟩

/-- **C14**. Let the rows of the front lie between the ideal and the nadir point. In any history, a
forward step shows lower bounds that are at least the last shown ones, upper bounds that are at most
the last shown ones, and reachable indices that are among the last shown ones; they are exactly the
rows inside the new bounds, in increasing order. -/
theorem C14_bounds_never_widen {c : Cfg n k K V} (hbox : ∀ i, InBox c.ideal c.nadir (c.front i))
    {s s' : St n k K} {ct0 : Content n k K} {l : List (Content n k K)}
    (h : Reached c s (ct0 :: l)) {ct ct' : Content n k K} (hct : ct ∈ ct0 :: l) {r : Resp K}
    (hg : r.goToPrevious = some (.bool false)) (ha : answer c s ct r = (s', .ok (.nav ct'))) :
    (∀ j, ct0.lb j ≤ ct'.lb j) ∧ (∀ j, ct'.ub j ≤ ct0.ub j) ∧ (∀ i ∈ ct'.reach, i ∈ ct0.reach) ∧
      (∀ i, i ∈ ct'.reach ↔ InBox ct'.lb ct'.ub (c.front i)) ∧ ct'.reach.Pairwise (· < ·) := by
  have hh := h.head
  have hnew := ((Reached.step h hct ha).boxReach hbox).2 ct' (by simp [issued])
  have hold := (h.boxReach hbox).2 ct0 (by simp)
  simp only [St.content, Content.mk.injEq] at hh
  obtain ⟨e1, e2, _, e4, _⟩ := hh
  obtain ⟨h1', ql, q, v, ul, s1, p, _, _, _, _, hp, _, hs'⟩ := answer_forward hg ha
  obtain ⟨f1, f2, f3, f4, f5, _⟩ := hp.eq
  have hlb : ∀ j, ct0.lb j ≤ ct'.lb j := by
    intro j
    rw [h1', hs']
    simp only [St.content, move, lowerBounds]
    rcases minOr_cases (candidates c.front s1.reach (navPoint (c.front p) s1.nav s1.rem)
        (toBounds k ul) j) (s1.lb j) with hc | hc
    · obtain ⟨i, hi, _, _, hx⟩ := (mem_candidates ..).1 hc.1
      rw [← hx]
      rw [f3, e4] at hi
      exact ((hold.1 i).1 hi j).1
    · rw [hc.2, f1, e1]
  have hub : ∀ j, ct'.ub j ≤ ct0.ub j := by
    intro j
    rw [h1', hs']
    simp only [St.content, move, upperBounds]
    rcases maxOr_cases (candidates c.front s1.reach (navPoint (c.front p) s1.nav s1.rem)
        (toBounds k ul) j) (s1.ub j) with hc | hc
    · obtain ⟨i, hi, _, _, hx⟩ := (mem_candidates ..).1 hc.1
      rw [← hx]
      rw [f3, e4] at hi
      exact ((hold.1 i).1 hi j).2
    · rw [hc.2, f2, e2]
  refine ⟨hlb, hub, ?_, hnew⟩
  intro i hi
  rw [hold.1]
  intro j
  have := (hnew.1 i).1 hi j
  exact ⟨(hlb j).trans this.1, this.2.trans (hub j)⟩

/-- The bounds shown after a forward step are exact: over the last shown reachable rows that respect
the given user bounds and are at least as good as the new navigation point in all other objectives,
they are the smallest and largest values; the last shown bound is kept if there is no such row. -/
theorem C14_bounds_exact {c : Cfg n k K V} {s s' : St n k K} {ct0 : Content n k K}
    {l : List (Content n k K)} (h : Reached c s (ct0 :: l)) {ct ct' : Content n k K} {r : Resp K}
    (hg : r.goToPrevious = some (.bool false)) {ul : List (Option K)} (hu : r.userBounds = some ul)
    (ha : answer c s ct r = (s', .ok (.nav ct'))) (j : Fin k) :
    let Cand := fun i => i ∈ ct0.reach ∧ RespectsList ul (c.front i) ∧ GoodExcept c.front ct'.nav j i
    ((∃ i, Cand i) → IsMinOver Cand (fun i => c.front i j) (ct'.lb j) ∧
      IsMaxOver Cand (fun i => c.front i j) (ct'.ub j)) ∧
    ((¬ ∃ i, Cand i) → ct'.lb j = ct0.lb j ∧ ct'.ub j = ct0.ub j) := by
  have hh := h.head
  simp only [St.content, Content.mk.injEq] at hh
  obtain ⟨e1, e2, _, e4, _⟩ := hh
  obtain ⟨h1', ql, q, v, ul', s1, p, _, _, _, hu', hp, _, hs'⟩ := answer_forward hg ha
  rw [hu] at hu'
  simp only [Option.some.injEq] at hu'
  subst hu'
  obtain ⟨f1, f2, f3, f4, f5, _⟩ := hp.eq
  have hmem := fun x => mem_candidates c.front s1.reach (navPoint (c.front p) s1.nav s1.rem)
    (toBounds k ul) j x
  simp only [← respects_toBounds]
  rw [h1', hs']
  simp only [St.content, move, lowerBounds, upperBounds]
  rw [← e1, ← e2, ← e4, ← f1, ← f2, ← f3]
  constructor
  · rintro ⟨i, h1, h2, h3⟩
    have hin : c.front i j ∈ candidates c.front s1.reach (navPoint (c.front p) s1.nav s1.rem)
      (toBounds k ul) j := (hmem _).2 ⟨i, h1, h2, h3, rfl⟩
    constructor
    · rcases minOr_cases (candidates c.front s1.reach (navPoint (c.front p) s1.nav s1.rem)
        (toBounds k ul) j) (s1.lb j) with hc | hc
      · obtain ⟨i', a1, a2, a3, a4⟩ := (hmem _).1 hc.1
        exact ⟨⟨i', ⟨a1, a2, a3⟩, a4⟩, fun i'' ⟨b1, b2, b3⟩ =>
          hc.2 _ ((hmem _).2 ⟨i'', b1, b2, b3, rfl⟩)⟩
      · rw [hc.1] at hin; simp at hin
    · rcases maxOr_cases (candidates c.front s1.reach (navPoint (c.front p) s1.nav s1.rem)
        (toBounds k ul) j) (s1.ub j) with hc | hc
      · obtain ⟨i', a1, a2, a3, a4⟩ := (hmem _).1 hc.1
        exact ⟨⟨i', ⟨a1, a2, a3⟩, a4⟩, fun i'' ⟨b1, b2, b3⟩ =>
          hc.2 _ ((hmem _).2 ⟨i'', b1, b2, b3, rfl⟩)⟩
      · rw [hc.1] at hin; simp at hin
  · intro hno
    constructor
    · rcases minOr_cases (candidates c.front s1.reach (navPoint (c.front p) s1.nav s1.rem)
        (toBounds k ul) j) (s1.lb j) with hc | hc
      · obtain ⟨i', a1, a2, a3, a4⟩ := (hmem _).1 hc.1
        exact absurd ⟨i', a1, a2, a3⟩ hno
      · exact hc.2
    · rcases maxOr_cases (candidates c.front s1.reach (navPoint (c.front p) s1.nav s1.rem)
        (toBounds k ul) j) (s1.ub j) with hc | hc
      · obtain ⟨i', a1, a2, a3, a4⟩ := (hmem _).1 hc.1
        exact absurd ⟨i', a1, a2, a3⟩ hno
      · exact hc.2

/-- The hypotheses of C14 are met by the second step of the example. -/
example : (∀ i, InBox exCfg.ideal exCfg.nadir (exCfg.front i)) ∧
    Reached exCfg exS1 [exS1.content, start (initSt exCfg)] ∧
    exR2.goToPrevious = some (.bool false) ∧
    answer exCfg exS1 exS1.content exR2 = (exS2, .ok (.nav exS2.content)) ∧
    exS1.content.ub = ![2, 2] ∧ exS2.content.ub = ![1, 1] :=
  ⟨by decide +kernel, ex_reached1, rfl, ex_step2, eq_of_beq (by decide +kernel),
    eq_of_beq (by decide +kernel)⟩

end Verif.Navigator
