import Verif.Navigator.RoundedLemmas
import Mathlib.Tactic.FinCases

/-!
# NAUTILUS Navigator in floating-point arithmetic: C111, C112

`A.rnd` is any rounding (`IsRounding`), in particular `double`, numpy's `float64`.
-/

set_option linter.unusedSectionVars false

namespace Verif.Navigator

variable {K V : Type} [Field K] [LinearOrder K] [IsStrictOrderedRing K] {n k : Nat}

/-! ## C111 -/

/-- **C111**. In every request issued in any history, `step_number` and `steps_remaining` are between 1
and 100 and their sum is 101. -/
theorem C111_steps_rounded {A : Arith k K} {c : Cfg n k K V} {s : St n k K} {l : List (Content n k K)}
    (h : ReachedR A c s l) {ct : Content n k K} (hct : ct ∈ l) :
    1 ≤ ct.step ∧ ct.step ≤ 100 ∧ 1 ≤ ct.rem ∧ ct.rem ≤ 100 ∧ ct.step + ct.rem = 101 := by
  refine (h.induct (P := fun ct => 1 ≤ ct.step ∧ ct.step ≤ 100 ∧ 1 ≤ ct.rem ∧ ct.rem ≤ 100 ∧
    ct.step + ct.rem = 101) ?_ ?_ ?_ ?_).2 ct hct
  · exact fun _ _ h => h
  · exact fun _ _ h => h
  · simp [start, initSt, St.content]
  · intro s1 p u h
    simp only [St.content, moveR] at h ⊢
    split <;> omega

/-- A forward step counts one step, except the last one, after which the counters stay. -/
theorem C111_forward_counts_rounded {A : Arith k K} {c : Cfg n k K V} {s s' : St n k K} {ct0 : Content n k K}
    {l : List (Content n k K)} (h : ReachedR A c s (ct0 :: l)) {ct ct' : Content n k K} {r : Resp K}
    (hg : r.goToPrevious = some (.bool false)) (ha : answerR A c s ct r = (s', .ok (.nav ct'))) :
    (ct0.rem = 1 → ct'.step = ct0.step ∧ ct'.rem = 1) ∧
    (ct0.rem ≠ 1 → ct'.step = ct0.step + 1 ∧ ct'.rem = ct0.rem - 1) := by
  have hh := h.head
  simp only [St.content, Content.mk.injEq] at hh
  obtain ⟨_, _, _, _, hs, hr, _⟩ := hh
  obtain ⟨h1, ql, q, v, ul, s1, p, _, _, _, _, hp, _, hs'⟩ := answer_forwardR hg ha
  obtain ⟨_, _, _, _, h5, h6, _, _⟩ := hp.eq
  rw [h1, hs']
  simp only [St.content, moveR, h5, h6, hs, hr]
  constructor <;> intro h2 <;> simp [h2]

/-- In every history the step counters of the state are in range. -/
theorem ReachedR.rem_pos {A : Arith k K} {c : Cfg n k K V} {s : St n k K} {l : List (Content n k K)}
    (h : ReachedR A c s l) : 1 ≤ s.rem ∧ s.rem ≤ 100 ∧ s.step + s.rem = 101 := by
  refine (h.induct (P := fun ct => 1 ≤ ct.rem ∧ ct.rem ≤ 100 ∧ ct.step + ct.rem = 101) ?_ ?_ ?_ ?_).1
  · exact fun _ _ h => h
  · exact fun _ _ h => h
  · simp [start, initSt, St.content]
  · intro s1 p u h
    simp only [St.content, moveR] at h ⊢
    split <;> omega

/-- The last step is exact. -/
theorem navPointR_one {e : K} {A : Arith k K} (hR : IsRounding e A.rnd) {p : Vec k K} (hp : MachineVec A.rnd p)
    (nav : Vec k K) : navPointR A p nav 1 = p := by
  funext j
  unfold navPointR
  rw [Int.cast_one]
  exact stepTo_one hR _ _ (hp j)

theorem distanceR_end {e : K} {A : Arith k K} (hR : IsRounding e A.rnd) (he : e < 1) (h100 : Machine A.rnd 100)
    {nrm : Vec k K → K} (hn : Definite nrm) {p nadir : Vec k K} (hne : p ≠ nadir) :
    distanceR A nrm p p nadir = .num 100 := by
  have h0 : nrm (fun j => A.rnd (p j - nadir j)) ≠ 0 := by
    intro h
    refine hne (funext fun j => ?_)
    exact sub_eq_zero.1 (hR.eq_zero he ((hn.eq_zero _).1 h j))
  simp only [distanceR, fdiv, h0, if_false, flRound, Fl.scalePos, div_self h0, hR.one, one_mul, Fl.num.injEq]
  exact h100

/-- **C111** (last step). In any history, a forward step taken when one step remains puts the navigation point on a row
of the front, bit for bit, and one step remains afterwards - so every further forward step does the same; the shown
distance is exactly 100, unless that row is the nadir point. -/
theorem C111_last_step_rounded {e : K} {A : Arith k K} (hR : IsRounding e A.rnd) {c : Cfg n k K V}
    (hF : ∀ i, MachineVec A.rnd (c.front i)) {s s' : St n k K} {ct0 : Content n k K}
    {l : List (Content n k K)} (h : ReachedR A c s (ct0 :: l)) {ct ct' : Content n k K} {r : Resp K}
    (hg : r.goToPrevious = some (.bool false)) (h1 : ct0.rem = 1)
    (ha : answerR A c s ct r = (s', .ok (.nav ct'))) :
    (∃ p, ct'.nav = c.front p) ∧ ct'.rem = 1 ∧
    (e < 1 → Machine A.rnd 100 → Definite c.nrm → ct'.nav ≠ c.nadir → ct'.dist = .num 100) := by
  have hh := h.head
  simp only [St.content, Content.mk.injEq] at hh
  obtain ⟨_, _, _, _, hs, hr, _⟩ := hh
  obtain ⟨h1', ql, q, v, ul, s1, p, _, _, _, _, hp, _, hs'⟩ := answer_forwardR hg ha
  obtain ⟨_, _, _, _, h5, h6, _, _⟩ := hp.eq
  have hn : ct'.nav = c.front p := by
    rw [h1', hs']
    simp only [St.content, moveR]
    rw [h5, hr, h1, navPointR_one hR (hF p)]
  refine ⟨⟨p, hn⟩, ((C111_forward_counts_rounded h hg ha).1 h1).2, ?_⟩
  intro he h100 hnrm hne
  rw [hn] at hne
  rw [h1', hs']
  simp only [St.content, moveR]
  rw [h5, hr, h1, navPointR_one hR (hF p), distanceR_end hR he h100 hnrm hne]

/-- Forward runs: counting the steps. -/
theorem run_forwardR {e : K} {A : Arith k K} (hR : IsRounding e A.rnd) {c : Cfg n k K V}
    (hF : ∀ i, MachineVec A.rnd (c.front i)) {s s' : St n k K} {ct ct' : Content n k K} {rs : List (Resp K)}
    (hg : ∀ r ∈ rs, r.goToPrevious = some (.bool false)) (hrem : 1 ≤ s.rem)
    (h : runR A c s ct rs = .ok (s', ct')) (hct : ct = s.content) :
    ct' = s'.content ∧ s'.rem = max 1 (s.rem - rs.length) ∧
      (s.rem ≤ rs.length → ∃ p, ct'.nav = c.front p) := by
  induction rs generalizing s ct with
  | nil =>
    simp only [runR, Except.ok.injEq, Prod.mk.injEq] at h
    obtain ⟨rfl, rfl⟩ := h
    refine ⟨hct, by simp [hrem], ?_⟩
    intro h; simp at h; omega
  | cons r rs ih =>
    unfold runR at h
    split at h
    · simp at h
    · rename_i s1 ct1 ha
      obtain ⟨h1', ql, q, v, ul, s0, p, _, _, _, _, hp, _, hs'⟩ := answer_forwardR (hg r (by simp)) ha
      obtain ⟨_, _, _, _, h5, h6, _, _⟩ := hp.eq
      have hrem1 : s1.rem = if s.rem = 1 then s.rem else s.rem - 1 := by
        rw [hs']; simp [moveR, h5]
      have hrem2 : 1 ≤ s1.rem := by rw [hrem1]; split <;> omega
      obtain ⟨e1, e2, e3⟩ := ih (fun r hr => hg r (by simp [hr])) hrem2 h h1'
      refine ⟨e1, ?_, ?_⟩
      · rw [e2, hrem1]
        simp only [List.length_cons, Nat.cast_add, Nat.cast_one]
        split <;> omega
      · intro hle
        simp only [List.length_cons, Nat.cast_add, Nat.cast_one] at hle
        rcases rs with _ | ⟨r', rs'⟩
        · simp only [runR, Except.ok.injEq, Prod.mk.injEq] at h
          obtain ⟨rfl, rfl⟩ := h
          refine ⟨p, ?_⟩
          have : s.rem = 1 := by simp at hle; omega
          rw [h1', hs']
          simp only [St.content, moveR]
          rw [h5, this, navPointR_one hR (hF p)]
        · apply e3
          rw [hrem1]
          simp only [List.length_cons, Nat.cast_add, Nat.cast_one] at hle ⊢
          split <;> omega
    · simp at h

/-- **C111** (whole process). After 100 or more forward steps, whatever the reference points and user
bounds, the navigation point is, bit for bit, a row of the front and one step remains. -/
theorem C111_hundred_steps_rounded {e : K} {A : Arith k K} (hR : IsRounding e A.rnd) {c : Cfg n k K V}
    (hF : ∀ i, MachineVec A.rnd (c.front i)) {s : St n k K} {ct : Content n k K}
    {rs : List (Resp K)} (hg : ∀ r ∈ rs, r.goToPrevious = some (.bool false))
    (hlen : 100 ≤ rs.length) (h : runR A c (initSt c) (start (initSt c)) rs = .ok (s, ct)) :
    (∃ p, ct.nav = c.front p) ∧ ct.rem = 1 := by
  obtain ⟨h1, h2, h3⟩ := run_forwardR hR hF hg (by simp [initSt]) h rfl
  refine ⟨h3 (by simp [initSt]; omega), ?_⟩
  rw [h1]
  simp only [St.content, h2, initSt]
  omega

theorem ReachedR.boxReach {A : Arith k K} {c : Cfg n k K V} (hbox : ∀ i, InBox c.ideal c.nadir (c.front i))
    {s : St n k K} {l : List (Content n k K)} (h : ReachedR A c s l) :
    BoxReach c s.content ∧ ∀ ct ∈ l, BoxReach c ct := by
  refine h.induct (fun _ _ h => h) (fun _ _ h => h) ?_ ?_
  · exact ⟨fun i => by simpa [start, St.content, initSt] using hbox i,
      List.pairwise_lt_finRange n⟩
  · intro s1 p u _
    exact ⟨fun i => mem_reachable _ _ _ i, reachable_sorted _ _ _⟩

/-- **C111**. Let the rows of the front lie between the ideal and the nadir point. In any history, a
forward step shows lower bounds that are at least the last shown ones, upper bounds that are at most
the last shown ones, and reachable indices that are among the last shown ones; they are exactly the
rows inside the new bounds, in increasing order. -/
theorem C111_bounds_never_widen_rounded {A : Arith k K} {c : Cfg n k K V} (hbox : ∀ i, InBox c.ideal c.nadir (c.front i))
    {s s' : St n k K} {ct0 : Content n k K} {l : List (Content n k K)}
    (h : ReachedR A c s (ct0 :: l)) {ct ct' : Content n k K} (hct : ct ∈ ct0 :: l) {r : Resp K}
    (hg : r.goToPrevious = some (.bool false)) (ha : answerR A c s ct r = (s', .ok (.nav ct'))) :
    (∀ j, ct0.lb j ≤ ct'.lb j) ∧ (∀ j, ct'.ub j ≤ ct0.ub j) ∧ (∀ i ∈ ct'.reach, i ∈ ct0.reach) ∧
      (∀ i, i ∈ ct'.reach ↔ InBox ct'.lb ct'.ub (c.front i)) ∧ ct'.reach.Pairwise (· < ·) := by
  have hh := h.head
  have hnew := ((ReachedR.step h hct ha).boxReach hbox).2 ct' (by simp [issued])
  have hold := (h.boxReach hbox).2 ct0 (by simp)
  simp only [St.content, Content.mk.injEq] at hh
  obtain ⟨e1, e2, _, e4, _⟩ := hh
  obtain ⟨h1', ql, q, v, ul, s1, p, _, _, _, _, hp, _, hs'⟩ := answer_forwardR hg ha
  obtain ⟨f1, f2, f3, f4, f5, _⟩ := hp.eq
  have hlb : ∀ j, ct0.lb j ≤ ct'.lb j := by
    intro j
    rw [h1', hs']
    simp only [St.content, moveR, lowerBounds]
    rcases minOr_cases (candidates c.front s1.reach (navPointR A (c.front p) s1.nav s1.rem)
        (toBounds k ul) j) (s1.lb j) with hc | hc
    · obtain ⟨i, hi, _, _, hx⟩ := (mem_candidates ..).1 hc.1
      rw [← hx]
      rw [f3, e4] at hi
      exact ((hold.1 i).1 hi j).1
    · rw [hc.2, f1, e1]
  have hub : ∀ j, ct'.ub j ≤ ct0.ub j := by
    intro j
    rw [h1', hs']
    simp only [St.content, moveR, upperBounds]
    rcases maxOr_cases (candidates c.front s1.reach (navPointR A (c.front p) s1.nav s1.rem)
        (toBounds k ul) j) (s1.ub j) with hc | hc
    · obtain ⟨i, hi, _, _, hx⟩ := (mem_candidates ..).1 hc.1
      rw [← hx]
      rw [f3, e4] at hi
      exact ((hold.1 i).1 hi j).2
    · rw [hc.2, f2, e2]
  refine ⟨hlb, hub, ?_, hnew⟩
  intro i hi
  rw [hold.1]
  intro j
  have := (hnew.1 i).1 hi j
  exact ⟨(hlb j).trans this.1, this.2.trans (hub j)⟩

/-- The bounds shown after a forward step are exact: over the last shown reachable rows that respect
the given user bounds and are at least as good as the new navigation point in all other objectives,
they are the smallest and largest values; the last shown bound is kept if there is no such row. -/
theorem C111_bounds_exact_rounded {A : Arith k K} {c : Cfg n k K V} {s s' : St n k K} {ct0 : Content n k K}
    {l : List (Content n k K)} (h : ReachedR A c s (ct0 :: l)) {ct ct' : Content n k K} {r : Resp K}
    (hg : r.goToPrevious = some (.bool false)) {ul : List (Option K)} (hu : r.userBounds = some ul)
    (ha : answerR A c s ct r = (s', .ok (.nav ct'))) (j : Fin k) :
    let Cand := fun i => i ∈ ct0.reach ∧ RespectsList ul (c.front i) ∧ GoodExcept c.front ct'.nav j i
    ((∃ i, Cand i) → IsMinOver Cand (fun i => c.front i j) (ct'.lb j) ∧
      IsMaxOver Cand (fun i => c.front i j) (ct'.ub j)) ∧
    ((¬ ∃ i, Cand i) → ct'.lb j = ct0.lb j ∧ ct'.ub j = ct0.ub j) := by
  have hh := h.head
  simp only [St.content, Content.mk.injEq] at hh
  obtain ⟨e1, e2, _, e4, _⟩ := hh
  obtain ⟨h1', ql, q, v, ul', s1, p, _, _, _, hu', hp, _, hs'⟩ := answer_forwardR hg ha
  rw [hu] at hu'
  simp only [Option.some.injEq] at hu'
  subst hu'
  obtain ⟨f1, f2, f3, f4, f5, _⟩ := hp.eq
  have hmem := fun x => mem_candidates c.front s1.reach (navPointR A (c.front p) s1.nav s1.rem)
    (toBounds k ul) j x
  simp only [← respects_toBounds]
  rw [h1', hs']
  simp only [St.content, moveR, lowerBounds, upperBounds]
  rw [← e1, ← e2, ← e4, ← f1, ← f2, ← f3]
  constructor
  · rintro ⟨i, h1, h2, h3⟩
    have hin : c.front i j ∈ candidates c.front s1.reach (navPointR A (c.front p) s1.nav s1.rem)
      (toBounds k ul) j := (hmem _).2 ⟨i, h1, h2, h3, rfl⟩
    constructor
    · rcases minOr_cases (candidates c.front s1.reach (navPointR A (c.front p) s1.nav s1.rem)
        (toBounds k ul) j) (s1.lb j) with hc | hc
      · obtain ⟨i', a1, a2, a3, a4⟩ := (hmem _).1 hc.1
        exact ⟨⟨i', ⟨a1, a2, a3⟩, a4⟩, fun i'' ⟨b1, b2, b3⟩ =>
          hc.2 _ ((hmem _).2 ⟨i'', b1, b2, b3, rfl⟩)⟩
      · rw [hc.1] at hin; simp at hin
    · rcases maxOr_cases (candidates c.front s1.reach (navPointR A (c.front p) s1.nav s1.rem)
        (toBounds k ul) j) (s1.ub j) with hc | hc
      · obtain ⟨i', a1, a2, a3, a4⟩ := (hmem _).1 hc.1
        exact ⟨⟨i', ⟨a1, a2, a3⟩, a4⟩, fun i'' ⟨b1, b2, b3⟩ =>
          hc.2 _ ((hmem _).2 ⟨i'', b1, b2, b3, rfl⟩)⟩
      · rw [hc.1] at hin; simp at hin
  · intro hno
    constructor
    · rcases minOr_cases (candidates c.front s1.reach (navPointR A (c.front p) s1.nav s1.rem)
        (toBounds k ul) j) (s1.lb j) with hc | hc
      · obtain ⟨i', a1, a2, a3, a4⟩ := (hmem _).1 hc.1
        exact absurd ⟨i', a1, a2, a3⟩ hno
      · exact hc.2
    · rcases maxOr_cases (candidates c.front s1.reach (navPointR A (c.front p) s1.nav s1.rem)
        (toBounds k ul) j) (s1.ub j) with hc | hc
      · obtain ⟨i', a1, a2, a3, a4⟩ := (hmem _).1 hc.1
        exact absurd ⟨i', a1, a2, a3⟩ hno
      · exact hc.2

/-! ## Staying reachable -/

/-- Row `p` stays reachable when the navigation point moves towards it and the bounds allow it. -/
theorem move_keepsR {A : Arith k K} {c : Cfg n k K V} {s1 : St n k K} {p i : Fin n} {u : Vec k (Option K)}
    (hi : i ∈ s1.reach) (hu : Respects u (c.front i))
    (hle : AtLeastAsGood (c.front i) (navPointR A (c.front p) s1.nav s1.rem)) :
    i ∈ (moveR A c s1 p u).reach := by
  simp only [moveR, mem_reachable]
  intro r
  have hc : c.front i r ∈ candidates c.front s1.reach (navPointR A (c.front p) s1.nav s1.rem) u r := by
    rw [mem_candidates]
    exact ⟨i, hi, hu, fun j _ => hle j, rfl⟩
  constructor
  · rcases minOr_cases (candidates c.front s1.reach (navPointR A (c.front p) s1.nav s1.rem) u r)
      (s1.lb r) with h | h
    · exact h.2 _ hc
    · rw [h.1] at hc; simp at hc
  · rcases maxOr_cases (candidates c.front s1.reach (navPointR A (c.front p) s1.nav s1.rem) u r)
      (s1.ub r) with h | h
    · exact h.2 _ hc
    · rw [h.1] at hc; simp at hc

/-! ## C111: the pace, up to rounding -/

/-- The position after `h` percent of the way from `a` to `b`. -/
def percent (a b : K) (h : Nat) : K := a + (h : K) / 100 * (b - a)

theorem percent_abs {a b M : K} {h : Nat} (ha : |a| ≤ M) (hb : |b| ≤ M) (hh : h ≤ 100) : |percent a b h| ≤ M := by
  have h1 : (h : K) ≤ 100 := by exact_mod_cast hh
  have h0 : (0 : K) ≤ h := by positivity
  have e : percent a b h = (1 - (h : K) / 100) * a + (h : K) / 100 * b := by unfold percent; ring
  have h2 : (0 : K) ≤ (h : K) / 100 := by positivity
  have h3 : (h : K) / 100 ≤ 1 := by rw [div_le_one (by norm_num)]; exact h1
  rw [abs_le] at ha hb ⊢
  rw [e]
  constructor <;> nlinarith

theorem percent_step {a b : K} {h : Nat} (hh : h < 100) :
    (((100 - h : ℤ) : K) - 1) / ((100 - h : ℤ) : K) * percent a b h + 1 / ((100 - h : ℤ) : K) * b =
      percent a b (h + 1) := by
  have h1 : ((100 : K) - (h : K)) ≠ 0 := by
    have : (h : K) < 100 := by exact_mod_cast hh
    intro h0; linarith
  unfold percent
  push_cast
  field_simp
  ring

/-- One rounded step from near the exact position leads near the next exact position. -/
theorem stepTo_percent {e : K} {rnd : K → K} (hR : IsRounding e rnd) (he : 0 ≤ e) {a b M x : K} {h : Nat}
    (hh : h < 100) (ha : |a| ≤ M) (hb : |b| ≤ M)
    (hx : |x - percent a b h| ≤ ((1 + e) ^ (3 * h) - 1) * M) :
    |stepTo rnd ((100 - h : ℤ) : K) x b - percent a b (h + 1)| ≤ ((1 + e) ^ (3 * (h + 1)) - 1) * M := by
  have hc := stepTo_close hR he ((100 - h : ℤ) : K) x b
  rw [← percent_step hh]
  have hr : (1 : K) ≤ ((100 - h : ℤ) : K) := by exact_mod_cast (by omega : (1 : ℤ) ≤ 100 - h)
  generalize hrr : ((100 - h : ℤ) : K) = r at hc hr ⊢
  have hp := percent_abs (h := h) ha hb hh.le
  generalize percent a b h = y at hx hp ⊢
  have h0 : (0 : K) < r := lt_of_lt_of_le one_pos hr
  have hM : 0 ≤ M := (abs_nonneg a).trans ha
  set w := (r - 1) / r with hw
  have hw0 : 0 ≤ w := div_nonneg (by linarith) h0.le
  have hw1 : w + 1 / r = 1 := by rw [hw]; field_simp; ring
  have hr0 : 0 ≤ 1 / r := by positivity
  rw [abs_mul, abs_mul, abs_of_nonneg hw0, abs_of_nonneg hr0] at hc
  set g := (1 + e) ^ (3 * h) with hg
  have hpow : (1 + e) ^ (3 * (h + 1)) = g * (1 + e) ^ 3 := by rw [hg, ← pow_add]; congr 1
  rw [hpow]
  set f := (1 + e) ^ 3 with hf
  have hf1 : 1 ≤ f := one_le_pow₀ (by linarith)
  have hg1 : 1 ≤ g := one_le_pow₀ (by linarith)
  have hxabs : |x| ≤ g * M := by
    have := abs_sub_abs_le_abs_sub x y
    nlinarith
  have h1 : |stepTo rnd r x b - (w * y + 1 / r * b)| ≤
      |stepTo rnd r x b - (w * x + 1 / r * b)| + |(w * x + 1 / r * b) - (w * y + 1 / r * b)| := abs_sub_le _ _ _
  have h2 : (w * x + 1 / r * b) - (w * y + 1 / r * b) = w * (x - y) := by ring
  rw [h2, abs_mul, abs_of_nonneg hw0] at h1
  have h3 : w * |x - y| ≤ (g - 1) * M := by
    have : w * |x - y| ≤ 1 * |x - y| := mul_le_mul_of_nonneg_right (by linarith) (abs_nonneg _)
    linarith
  have h4 : w * |x| + 1 / r * |b| ≤ g * M := by
    have a1 : w * |x| ≤ w * (g * M) := mul_le_mul_of_nonneg_left hxabs hw0
    have a2 : 1 / r * |b| ≤ 1 / r * (g * M) := mul_le_mul_of_nonneg_left (by nlinarith) hr0
    have a3 : w * (g * M) + 1 / r * (g * M) = g * M := by rw [← add_mul, hw1, one_mul]
    linarith
  have h5 : (f - 1) * (w * |x| + 1 / r * |b|) ≤ (f - 1) * (g * M) := mul_le_mul_of_nonneg_left h4 (by linarith)
  nlinarith

/-- The rounded formula never takes the value `z` itself below `z`, whatever number of steps remains. -/
def Reproduced (rnd : K → K) (z : K) : Prop := ∀ m : Int, 1 ≤ m → m ≤ 100 → z ≤ stepTo rnd (m : K) z z

/-- The invariant of a run with one reference point: `h` steps towards row `p` have been taken. -/
structure StraightR (e : K) (A : Arith k K) (c : Cfg n k K V) (q : Vec k (Option K)) (p : Fin n) (h : Nat)
    (s : St n k K) : Prop where
  nav : ∀ j M, |c.nadir j| ≤ M → |c.front p j| ≤ M →
    |s.nav j - percent (c.nadir j) (c.front p j) h| ≤ ((1 + e) ^ (3 * h) - 1) * M
  rem : s.rem = max 1 (100 - h)
  sum : s.step + s.rem = 101
  pos : 1 ≤ h
  ref : s.ref = some q
  proj : s.proj = some p

theorem StraightR.move {e : K} {A : Arith k K} (hR : IsRounding e A.rnd) (he : 0 ≤ e) {c : Cfg n k K V}
    {q : Vec k (Option K)} {p : Fin n} {h : Nat} {s1 : St n k K} (hlt : h < 100) (u : Vec k (Option K))
    (hnav : ∀ j M, |c.nadir j| ≤ M → |c.front p j| ≤ M →
      |s1.nav j - percent (c.nadir j) (c.front p j) h| ≤ ((1 + e) ^ (3 * h) - 1) * M)
    (hrem : s1.rem = 100 - h) (hsum : s1.step + s1.rem = 101) (href : s1.ref = some q)
    (hproj : s1.proj = some p) : StraightR e A c q p (h + 1) (moveR A c s1 p u) := by
  refine ⟨?_, ?_, ?_, by omega, href, hproj⟩
  · intro j M h1 h2
    simp only [moveR, navPointR, hrem]
    exact stepTo_percent hR he hlt h1 h2 (hnav j M h1 h2)
  · simp only [moveR, hrem]
    split <;> omega
  · simp only [moveR]
    split <;> omega

theorem StraightR.step_ne {e : K} {A : Arith k K} {c : Cfg n k K V} {q : Vec k (Option K)} {p : Fin n} {h : Nat}
    {s : St n k K} (hs : StraightR e A c q p h s) : s.step ≠ 1 := by
  have := hs.sum
  have := hs.rem
  have := hs.pos
  omega

/-- A step towards a reachable row that rounding does not lose keeps it reachable. -/
theorem move_keeps_target {e : K} {A : Arith k K} (hR : IsRounding e A.rnd) {c : Cfg n k K V} {s1 : St n k K}
    {p : Fin n} {u : Vec k (Option K)} (hi : p ∈ s1.reach) (hu : Respects u (c.front p))
    (hle : AtLeastAsGood (c.front p) s1.nav) (hr1 : 1 ≤ s1.rem) (hr2 : s1.rem ≤ 100)
    (hz : ∀ j, Reproduced A.rnd (c.front p j)) :
    p ∈ (moveR A c s1 p u).reach ∧ AtLeastAsGood (c.front p) (moveR A c s1 p u).nav := by
  have key : AtLeastAsGood (c.front p) (navPointR A (c.front p) s1.nav s1.rem) := by
    intro j
    exact le_stepTo hR (by exact_mod_cast hr1) (hz j s1.rem hr1 hr2) (hle j)
  exact ⟨move_keepsR hi hu key, key⟩

theorem run_straightR {e : K} {A : Arith k K} (hR : IsRounding e A.rnd) (he : 0 ≤ e)
    (hcl : ∀ q : Vec k K, A.close (fun j => some (q j)) (fun j => some (q j)) = true)
    {c : Cfg n k K V} {q : Vec k K} {ql : List (Option K)} {p : Fin n} {h : Nat}
    {s s' : St n k K} {ct ct' : Content n k K} {rs : List (Resp K)}
    (hq : broadcast k ql = .ok (fun j => some (q j)))
    (hrs : ∀ r ∈ rs, r.goToPrevious = some (.bool false) ∧ r.ref = some ql)
    (hlen : h + rs.length ≤ 100)
    (hs : StraightR e A c (fun j => some (q j)) p h s) (hct : ct = s.content)
    (hrun : runR A c s ct rs = .ok (s', ct')) :
    ct' = s'.content ∧ StraightR e A c (fun j => some (q j)) p (h + rs.length) s' ∧
      (p ∈ s.reach → AtLeastAsGood (c.front p) s.nav → (∀ j, Reproduced A.rnd (c.front p j)) →
        (∀ r ∈ rs, ∀ ul, r.userBounds = some ul → Respects (toBounds k ul) (c.front p)) →
        p ∈ s'.reach ∧ AtLeastAsGood (c.front p) s'.nav) := by
  induction rs generalizing s ct h with
  | nil =>
    simp only [runR, Except.ok.injEq, Prod.mk.injEq] at hrun
    obtain ⟨rfl, rfl⟩ := hrun
    exact ⟨hct, hs, fun h h' _ _ => ⟨h, h'⟩⟩
  | cons r rs ih =>
    unfold runR at hrun
    split at hrun
    · simp at hrun
    · rename_i s2 ct2 ha
      simp only [List.length_cons] at hlen
      obtain ⟨hg, href⟩ := hrs r (by simp)
      obtain ⟨h1', ql', q', v, ul, s1, p', hq1, hb, _, hul, hp, _, hs'⟩ := answer_forwardR hg ha
      rw [href] at hq1
      simp only [Option.some.injEq] at hq1
      subst hq1
      rw [hq] at hb
      simp only [Except.ok.injEq] at hb
      subst hb
      have hnp : needsProjectionR A s (fun j => some (q j)) = .ok false := by
        simp only [needsProjectionR, hs.step_ne, if_false, hs.ref, hcl]
        rfl
      rcases hp with ⟨_, rfl, hp2⟩ | ⟨hp1, _⟩
      · have hpp : p' = p := by
          rw [hs.proj] at hp2; simpa using hp2.symm
        subst hpp
        have hrem : s1.rem = 100 - h := by rw [hs.rem]; omega
        have hS := StraightR.move hR he (c := c) (q := fun j => some (q j)) (p := p') (h := h) (s1 := s1)
          (by omega) (toBounds k ul) hs.nav hrem hs.sum hs.ref hs.proj
        rw [← hs'] at hS
        obtain ⟨e1, e2, e3⟩ := ih (fun r hr => hrs r (by simp [hr])) (by omega) hS h1' hrun
        refine ⟨e1, ?_, ?_⟩
        · rw [List.length_cons, show h + (rs.length + 1) = h + 1 + rs.length by omega]
          exact e2
        · intro hpr hle hz hresp
          obtain ⟨f1, f2⟩ := move_keeps_target hR hpr (hresp r (by simp) ul hul) hle (by omega) (by omega) hz
          rw [← hs'] at f1 f2
          exact e3 f1 f2 hz (fun r hr => hresp r (by simp [hr]))
      · rw [hnp] at hp1; simp at hp1
    · simp at hrun

/-- A run with one reference point, from the start. -/
theorem straight_of_runR {e : K} {A : Arith k K} (hR : IsRounding e A.rnd) (he : 0 ≤ e)
    (hcl : ∀ q : Vec k K, A.close (fun j => some (q j)) (fun j => some (q j)) = true)
    {c : Cfg n k K V} {ql : List (Option K)} {rs : List (Resp K)}
    (hrs : ∀ r ∈ rs, r.goToPrevious = some (.bool false) ∧ r.ref = some ql)
    (h1 : 1 ≤ rs.length) (h100 : rs.length ≤ 100) {s : St n k K} {ct : Content n k K}
    (hrun : runR A c (initSt c) (start (initSt c)) rs = .ok (s, ct)) :
    ∃ (q : Vec k K) (p : Fin n), broadcast k ql = .ok (fun j => some (q j)) ∧
      (∀ i, c.asf q (c.front p) ≤ c.asf q (c.front i)) ∧ ct = s.content ∧
      StraightR e A c (fun j => some (q j)) p rs.length s ∧
      (AtLeastAsGood (c.front p) c.nadir → (∀ j, Reproduced A.rnd (c.front p j)) →
        (∀ r ∈ rs, ∀ ul, r.userBounds = some ul → Respects (toBounds k ul) (c.front p)) →
        p ∈ s.reach ∧ AtLeastAsGood (c.front p) s.nav) := by
  rcases rs with _ | ⟨r, rs⟩
  · simp at h1
  · unfold runR at hrun
    split at hrun
    · simp at hrun
    · rename_i s2 ct2 ha
      simp only [List.length_cons] at h100
      obtain ⟨hg, href⟩ := hrs r (by simp)
      obtain ⟨h1', ql', q', v, ul, s1, p, hq1, hb, _, hul, hp, _, hs'⟩ := answer_forwardR hg ha
      rw [href] at hq1
      simp only [Option.some.injEq] at hq1
      subst hq1
      have hnp : needsProjectionR A (initSt c) q' = .ok true := by simp [needsProjectionR, initSt]
      rcases hp with ⟨hp1, _⟩ | ⟨_, hsol, hs1⟩
      · rw [hnp] at hp1; simp at hp1
      · obtain ⟨_, _, q, hqv, hopt⟩ := solve_ok hsol
        subst hqv
        have hS := StraightR.move hR he (c := c) (q := fun j => some (q j)) (p := p) (h := 0) (s1 := s1)
          (by omega) (toBounds k ul) (by intro j M _ _; simp [hs1, initSt, percent]) (by simp [hs1, initSt])
          (by simp [hs1, initSt]) (by simp [hs1]) (by simp [hs1])
        rw [← hs'] at hS
        obtain ⟨e1, e2, e3⟩ := run_straightR hR he hcl hb (fun r hr => hrs r (by simp [hr])) (by omega) hS h1' hrun
        have hlen : 0 + 1 + rs.length = (r :: rs).length := by simp; omega
        rw [hlen] at e2
        refine ⟨q, p, hb, ?_, e1, e2, ?_⟩
        · intro i
          exact hopt i (by simp [initSt]) (by intro j b hjb; simp [initSt] at hjb)
        · intro hnad hz hall
          obtain ⟨f1, f2⟩ := move_keeps_target hR (c := c) (s1 := s1) (p := p) (u := toBounds k ul)
            (by simp [hs1, initSt]) (hall r (by simp) ul hul) (by simpa [hs1, initSt] using hnad)
            (by simp [hs1, initSt]) (by simp [hs1, initSt]) hz
          rw [← hs'] at f1 f2
          exact e3 f1 f2 hz (fun r hr => hall r (by simp [hr]))
    · simp at hrun

/-- **C111** (pace). A process of `h` forward steps (`1 ≤ h ≤ 100`) with one and the same reference point: there is one
row `p` of the front, a best one for this reference point, such that the navigation point is `h` percent of the straight
way from the nadir to `p`, up to an error of `(1 + e)^(3 h) - 1` times the size of the numbers - about `3 h` units
of rounding, for `float64` less than `10^-13`. -/
theorem C111_pace_rounded {e : K} {A : Arith k K} (hR : IsRounding e A.rnd) (he : 0 ≤ e)
    (hcl : ∀ q : Vec k K, A.close (fun j => some (q j)) (fun j => some (q j)) = true)
    {c : Cfg n k K V} {ql : List (Option K)} {rs : List (Resp K)}
    (hrs : ∀ r ∈ rs, r.goToPrevious = some (.bool false) ∧ r.ref = some ql)
    (h1 : 1 ≤ rs.length) (h100 : rs.length ≤ 100) {s : St n k K} {ct : Content n k K}
    (hrun : runR A c (initSt c) (start (initSt c)) rs = .ok (s, ct)) :
    ∃ (q : Vec k K) (p : Fin n), Denotes ql (fun j => some (q j)) ∧
      (∀ i, c.asf q (c.front p) ≤ c.asf q (c.front i)) ∧
      (∀ j M, |c.nadir j| ≤ M → |c.front p j| ≤ M →
        |ct.nav j - (c.nadir j + (rs.length : K) / 100 * (c.front p j - c.nadir j))| ≤
          ((1 + e) ^ (3 * rs.length) - 1) * M) := by
  obtain ⟨q, p, hb, hopt, hct, hS, _⟩ := straight_of_runR hR he hcl hrs h1 h100 hrun
  subst hct
  exact ⟨q, p, denotes_of_broadcast hb, hopt, hS.nav⟩

/-! ## C112 -/

/-- **C112** (partial). A process of `1` to `100` forward steps with one and the same reference point: the row navigated to stays
reachable, and is at least as good as the navigation point, if all user bounds given so far allow it - provided that the
rounded formula does not take its values below themselves (`Reproduced`). What is missing is the case of rows without
this property (`C112_fails`). -/
theorem C112_target_kept_partial {e : K} {A : Arith k K} (hR : IsRounding e A.rnd) (he : 0 ≤ e)
    (hcl : ∀ q : Vec k K, A.close (fun j => some (q j)) (fun j => some (q j)) = true)
    {c : Cfg n k K V} (hnad : ∀ i, AtLeastAsGood (c.front i) c.nadir)
    (hz : ∀ i j, Reproduced A.rnd (c.front i j)) {ql : List (Option K)} {rs : List (Resp K)}
    (hrs : ∀ r ∈ rs, r.goToPrevious = some (.bool false) ∧ r.ref = some ql)
    (h1 : 1 ≤ rs.length) (h100 : rs.length ≤ 100) {s : St n k K} {ct : Content n k K}
    (hrun : runR A c (initSt c) (start (initSt c)) rs = .ok (s, ct)) :
    ∃ (q : Vec k K) (p : Fin n), Denotes ql (fun j => some (q j)) ∧
      (∀ i, c.asf q (c.front p) ≤ c.asf q (c.front i)) ∧
      ((∀ r ∈ rs, ∀ ul, r.userBounds = some ul → RespectsList ul (c.front p)) →
        p ∈ ct.reach ∧ AtLeastAsGood (c.front p) ct.nav) := by
  obtain ⟨q, p, hb, hopt, hct, _, hk⟩ := straight_of_runR hR he hcl hrs h1 h100 hrun
  subst hct
  exact ⟨q, p, denotes_of_broadcast hb, hopt, fun hall => hk (hnad p) (hz p) fun r hr ul hul =>
    respects_toBounds.2 (hall r hr ul hul)⟩

/-- **C112** (partial, one step). In any history, a forward step moves towards some row `p`; if `p` was reachable, at
least as good as the last shown navigation point, and is allowed by the user bounds, and rounding does not lose its values
(`NotLost`: at most two steps remain, or the rounded formula reproduces the value, or it is better by a margin), then
`p` is reachable after the step and still at least as good as the navigation point. -/
theorem C112_step_partial {e : K} {A : Arith k K} (hR : IsRounding e A.rnd) (he : 0 ≤ e)
    (hhalf : ∀ x, Machine A.rnd x → Machine A.rnd (1 / 2 * x)) {c : Cfg n k K V}
    (hF : ∀ i, MachineVec A.rnd (c.front i)) {s s' : St n k K} {ct0 : Content n k K}
    {l : List (Content n k K)} (h : ReachedR A c s (ct0 :: l)) {ct ct' : Content n k K} {r : Resp K}
    (hg : r.goToPrevious = some (.bool false)) {ul : List (Option K)} (hu : r.userBounds = some ul)
    (ha : answerR A c s ct r = (s', .ok (.nav ct'))) :
    ∃ p, (∀ j, ct'.nav j = stepTo A.rnd (ct0.rem : K) (ct0.nav j) (c.front p j)) ∧
      (p ∈ ct0.reach → AtLeastAsGood (c.front p) ct0.nav → RespectsList ul (c.front p) →
        (∀ j, NotLost e A.rnd (ct0.rem : K) (ct0.nav j) (c.front p j)) →
        p ∈ ct'.reach ∧ AtLeastAsGood (c.front p) ct'.nav) := by
  have hrem := h.rem_pos
  have hh := h.head
  simp only [St.content, Content.mk.injEq] at hh
  obtain ⟨_, _, _, e4, hs, hr, _, _, e9⟩ := hh
  obtain ⟨h1', ql, q, v, ul', s1, p, _, _, _, hu', hp, _, hs'⟩ := answer_forwardR hg ha
  rw [hu] at hu'
  simp only [Option.some.injEq] at hu'
  subst hu'
  obtain ⟨_, _, f3, f4, f5, _⟩ := hp.eq
  refine ⟨p, ?_, ?_⟩
  · intro j
    rw [h1', hs']
    simp only [St.content, moveR, navPointR]
    rw [f4, f5, hr, e9]
  · intro hmem hle hres hnl
    have key : AtLeastAsGood (c.front p) (navPointR A (c.front p) s1.nav s1.rem) := by
      intro j
      unfold navPointR
      rw [f4, f5, hr, e9]
      exact NotLost.le hR he hhalf (by exact_mod_cast hr ▸ hrem.1) (hF p j) (hle j) (hnl j)
    rw [h1', hs']
    exact ⟨move_keepsR (by rw [f3, e4]; exact hmem) (respects_toBounds.2 hres) key, key⟩

/-! ## Double precision: the row navigated to is lost -/

/-- `float64`; `allclose` as in the exact model (the runs below only compare equal reference points). -/
def dbl {k : Nat} : Arith k ℚ := { rnd := double, close := allclose }

/-- Two solutions, `(3, 0)` and `(0, 3)`. -/
def exLost : Cfg 2 2 ℚ String :=
  { front := ![![3, 0], ![0, 3]], ideal := ![0, 0], nadir := ![3, 3], vars := some ![ "a", "b"], nrm := supNorm,
    asf := fun q f => double (pointAsf ![0, 0] ![3, 3] q f) }

/-- Aim at `(3, 0)`, without user bounds. -/
def lostR : Resp ℚ := forwardResp [some 3, some 0] (.int 3) noB

/-- What is seen after `m` forward steps towards `(3, 0)`. -/
def lostEnd (m : Nat) : Option (St 2 2 ℚ × Content 2 2 ℚ) :=
  (runR dbl exLost (initSt exLost) (start (initSt exLost)) (List.replicate m lostR)).toOption

/-- **C112** (violated). `float64`, the front `(3, 0), (0, 3)` and its exact nadir point `(3, 3)`, no user bounds, 100 forward
steps towards `(3, 0)`: the navigation ends exactly on `(3, 0)`, at distance 100, but `(3, 0)` is not among the reachable
solutions - none is -, the bounds are `(3, 3)`, and stopping returns no solution at all. -/
theorem C112_fails : ∃ s ct,
    runR dbl exLost (initSt exLost) (start (initSt exLost)) (List.replicate 100 lostR) = .ok (s, ct) ∧
    ct.nav = exLost.front 0 ∧ ct.dist = .num 100 ∧ ct.reach = [] ∧ ct.lb = ![3, 3] ∧ ct.ub = ![3, 3] ∧
    answerR dbl exLost s ct (stopResp [some 3, some 0] (.int 3) false noB) = (s, .ok (.stop [] [] (some []))) := by
  have h : (lostEnd 100).map (fun x => (x.2.nav, x.2.dist, x.2.reach, x.2.lb, x.2.ub,
      answerR dbl exLost x.1 x.2 (stopResp [some 3, some 0] (.int 3) false noB) == (x.1, .ok (.stop [] [] (some [])))))
      = some (![3, 0], .num 100, [], ![3, 3], ![3, 3], true) := eq_of_beq (by decide +kernel)
  unfold lostEnd at h
  cases hr : runR dbl exLost (initSt exLost) (start (initSt exLost)) (List.replicate 100 lostR) with
  | error e => rw [hr] at h; simp [Except.toOption] at h
  | ok x =>
    rw [hr] at h
    simp only [Except.toOption, Option.map_some, Option.some.injEq, Prod.mk.injEq] at h
    obtain ⟨h1, h2, h3, h4, h5, h6⟩ := h
    exact ⟨x.1, x.2, rfl, h1, h2, h3, h4, h5, eq_of_beq h6⟩

/-- What one forward step towards `(3, 0)` gives. -/
def lost1 : St 2 2 ℚ × Except Err (Out 2 2 ℚ String) :=
  answerR dbl exLost (initSt exLost) (start (initSt exLost)) lostR

/-- The state of the exact computation after the same step. -/
def exact1 : St 2 2 ℚ := (answer exLost (initSt exLost) (start (initSt exLost)) lostR).1

/-- **C112** (violated). The same example: already after the first step no solution is reachable, and the next forward step with
another reference point raises `ValueError`. In exact arithmetic `(3, 0)` is reachable after the first step, and the same second step succeeds. -/
theorem C112_fails_crash :
    lost1.2 = .ok (.nav lost1.1.content) ∧ lost1.1.content.reach = [] ∧
    (answerR dbl exLost lost1.1 lost1.1.content (forwardResp [some 0, some 3] (.int 3) noB)).2 = .error .valueError ∧
    exact1.content.reach = [0] ∧
    ∃ ct, (answer exLost exact1 exact1.content (forwardResp [some 0, some 3] (.int 3) noB)).2 = .ok (.nav ct) :=
  ⟨eq_of_beq (by decide +kernel), eq_of_beq (by decide +kernel), eq_of_beq (by decide +kernel),
    eq_of_beq (by decide +kernel),
    (answer exLost exact1 exact1.content (forwardResp [some 0, some 3] (.int 3) noB)).1.content,
    eq_of_beq (by decide +kernel)⟩

/-! ### Non-vacuity -/

/-- One `float64` step of the example of `ExampleData`. -/
def exD1 : St 3 2 ℚ := (answerR dbl exCfg (initSt exCfg) (start (initSt exCfg)) exR).1

theorem exD_step1 : answerR dbl exCfg (initSt exCfg) (start (initSt exCfg)) exR = (exD1, .ok (.nav exD1.content)) :=
  eq_of_beq (by decide +kernel)

theorem exD_reached1 : ReachedR dbl exCfg exD1 [exD1.content, start (initSt exCfg)] :=
  .step .init (List.mem_singleton.2 rfl) exD_step1

/-- The second `float64` step. -/
def exD2 : St 3 2 ℚ := (answerR dbl exCfg exD1 exD1.content exR2).1

theorem exD_step2 : answerR dbl exCfg exD1 exD1.content exR2 = (exD2, .ok (.nav exD2.content)) :=
  eq_of_beq (by decide +kernel)

theorem exCfg_machine (i : Fin 3) : MachineVec double (exCfg.front i) := by
  intro j
  fin_cases i <;> fin_cases j <;> first
    | exact machine_int 0 (by norm_num) | exact machine_int 1 (by norm_num) | exact machine_int 2 (by norm_num)

theorem dbl_close (k : Nat) (q : Vec k ℚ) : (dbl (k := k)).close (fun j => some (q j)) (fun j => some (q j)) = true :=
  allclose_self q

theorem reproduced_of_list {z : ℚ} (h : ∀ m ∈ List.range 101, m = 0 ∨ z ≤ stepTo double (m : ℚ) z z) :
    Reproduced double z := by
  intro m h1 h2
  have := (h m.toNat (by rw [List.mem_range]; omega)).resolve_left (by omega)
  have e : ((m.toNat : ℕ) : ℚ) = ((m : ℤ) : ℚ) := by
    have : ((m.toNat : ℕ) : ℤ) = m := Int.toNat_of_nonneg (by omega)
    exact_mod_cast this
  rw [← e]; exact this

theorem exCfg_reproduced (i : Fin 3) (j : Fin 2) : Reproduced double (exCfg.front i j) := by
  have h0 : Reproduced double 0 := reproduced_of_list (by decide +kernel)
  have h1 : Reproduced double 1 := reproduced_of_list (by decide +kernel)
  have h2 : Reproduced double 2 := reproduced_of_list (by decide +kernel)
  fin_cases i <;> fin_cases j <;> first | exact h0 | exact h1 | exact h2

/-- A value that is lost. -/
example : ¬ Reproduced double 3 := fun h => absurd (h 100 (by norm_num) (by norm_num)) (by decide +kernel)

/-- The example can be run for 100 steps in double precision, and for 40. -/
theorem exD_run (m : Nat) (hm : m = 100 ∨ m = 40) : ∃ s ct,
    runR dbl exCfg (initSt exCfg) (start (initSt exCfg)) (List.replicate m exR) = .ok (s, ct) := by
  have h : ((runR dbl exCfg (initSt exCfg) (start (initSt exCfg)) (List.replicate 100 exR)).toOption.isSome = true) ∧
    ((runR dbl exCfg (initSt exCfg) (start (initSt exCfg)) (List.replicate 40 exR)).toOption.isSome = true) := by
    decide +kernel
  have h' : ((runR dbl exCfg (initSt exCfg) (start (initSt exCfg)) (List.replicate m exR)).toOption.isSome = true) := by
    rcases hm with rfl | rfl
    · exact h.1
    · exact h.2
  cases hr : runR dbl exCfg (initSt exCfg) (start (initSt exCfg)) (List.replicate m exR) with
  | error e => rw [hr] at h'; simp [Except.toOption] at h'
  | ok x => exact ⟨x.1, x.2, rfl⟩

theorem exD_steps (m : Nat) : ∀ r ∈ List.replicate m exR,
    r.goToPrevious = some (.bool false) ∧ r.ref = some [some 1, some 1] := by
  intro r hr
  rw [List.eq_of_mem_replicate hr]
  exact ⟨rfl, rfl⟩

example := C111_steps_rounded exD_reached1 List.mem_cons_self

example := C111_forward_counts_rounded exD_reached1 (r := exR2) rfl exD_step2

example := C111_bounds_never_widen_rounded (c := exCfg) (by decide +kernel) exD_reached1 List.mem_cons_self (r := exR2)
  rfl exD_step2

example := C111_bounds_exact_rounded exD_reached1 (r := exR2) rfl rfl exD_step2 0

example : ∃ s ct, (∃ p, ct.nav = exCfg.front p) ∧ ct.rem = 1 ∧
    runR dbl exCfg (initSt exCfg) (start (initSt exCfg)) (List.replicate 100 exR) = .ok (s, ct) := by
  obtain ⟨s, ct, h⟩ := exD_run 100 (.inl rfl)
  obtain ⟨h1, h2⟩ := C111_hundred_steps_rounded (A := dbl) isRounding_double exCfg_machine
    (fun r hr => (exD_steps 100 r hr).1) (by simp) h
  exact ⟨s, ct, h1, h2, h⟩

example : ∃ s ct, runR dbl exCfg (initSt exCfg) (start (initSt exCfg)) (List.replicate 40 exR) = .ok (s, ct) ∧
    ∃ p, p ∈ ct.reach := by
  obtain ⟨s, ct, h⟩ := exD_run 40 (.inr rfl)
  have h1 := C111_pace_rounded (A := dbl) isRounding_double (by norm_num) (dbl_close 2) (exD_steps 40) (by simp)
    (by simp) h
  obtain ⟨q, p, _, _, h2⟩ := C112_target_kept_partial (A := dbl) isRounding_double (by norm_num) (dbl_close 2)
    (by decide +kernel) exCfg_reproduced (exD_steps 40) (by simp) (by simp) h
  refine ⟨s, ct, h, p, (h2 ?_).1⟩
  intro r hr ul hul
  rw [List.eq_of_mem_replicate hr] at hul
  simp only [exR, forwardResp, Option.some.injEq] at hul
  subst hul
  intro j b hb
  fin_cases j <;> simp [noB] at hb

theorem machine_half_double : ∀ x, Machine double x → Machine double (1 / 2 * x) := fun _ => machine_half

example := C112_step_partial (A := dbl) isRounding_double (by norm_num) machine_half_double exCfg_machine exD_reached1
  (r := exR2) rfl rfl exD_step2

/-- A run is a history. -/
theorem ReachedR.of_run {A : Arith k K} {c : Cfg n k K V} {s s' : St n k K} {ct ct' : Content n k K}
    {l : List (Content n k K)} {rs : List (Resp K)} (h : ReachedR A c s (ct :: l))
    (hrun : runR A c s ct rs = .ok (s', ct')) : ∃ l', ReachedR A c s' (ct' :: l') := by
  induction rs generalizing s ct l with
  | nil =>
    simp only [runR, Except.ok.injEq, Prod.mk.injEq] at hrun
    obtain ⟨rfl, rfl⟩ := hrun
    exact ⟨l, h⟩
  | cons r rs ih =>
    unfold runR at hrun
    split at hrun
    · simp at hrun
    · rename_i s2 ct2 ha
      exact ih (ReachedR.step h List.mem_cons_self ha) hrun
    · simp at hrun

/-- The last step of the example. -/
def lastOk (x : St 3 2 ℚ × Content 3 2 ℚ) : Bool :=
  x.2.rem == 1 && (answerR dbl exCfg x.1 x.2 exR ==
    ((answerR dbl exCfg x.1 x.2 exR).1, .ok (.nav (answerR dbl exCfg x.1 x.2 exR).1.content)))

example : ∃ ct' : Content 3 2 ℚ, (∃ p, ct'.nav = exCfg.front p) ∧ ct'.rem = 1 ∧
    (ct'.nav ≠ exCfg.nadir → ct'.dist = .num 100) := by
  have h : ((runR dbl exCfg (initSt exCfg) (start (initSt exCfg)) (List.replicate 99 exR)).toOption.map lastOk) =
    some true := by decide +kernel
  cases hr : runR dbl exCfg (initSt exCfg) (start (initSt exCfg)) (List.replicate 99 exR) with
  | error e => rw [hr] at h; simp [Except.toOption] at h
  | ok x =>
    rw [hr] at h
    simp only [Except.toOption, Option.map_some, Option.some.injEq, lastOk, Bool.and_eq_true, beq_iff_eq] at h
    obtain ⟨l, hl⟩ := ReachedR.of_run (ReachedR.init (A := dbl) (c := exCfg)) hr
    obtain ⟨h1, h2, h3⟩ := C111_last_step_rounded (A := dbl) isRounding_double exCfg_machine hl (r := exR) rfl h.1 h.2
    exact ⟨_, h1, h2, h3 (by norm_num) (machine_int 100 (by norm_num))
      ⟨supNorm_spec.nonneg, supNorm_spec.eq_zero⟩⟩

end Verif.Navigator
