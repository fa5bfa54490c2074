import Verif.Navigator.Props3
import Verif.Navigator.ExampleData

/-!
# NAUTILUS Navigator and changed reference points (C107)

`update` projects the reference point again only if `np.allclose` sees a change
(NautilusNavigator.py:429-431).
-/

namespace Verif.Navigator

variable {K V : Type} [Field K] [LinearOrder K] [IsStrictOrderedRing K] {n k : Nat}

/-- Specification: the step from request `ct` to request `ct'` goes straight towards row `p`, covering
one of the remaining steps. -/
def MovesTowards (c : Cfg n k K V) (ct ct' : Content n k K) (p : Fin n) : Prop :=
  ∀ j, ct'.nav j = ct.nav j + (c.front p j - ct.nav j) / (ct.rem : K)

/-- Specification: row `p` is within `slack` of the best for the reference point `q`, by achievement
value, among the rows shown as reachable in `ct` that respect the user bounds shown in `ct`. -/
def BestWithin {k : Nat} (c : Cfg n (k + 1) K V) (q : Vec (k + 1) K) (slack : K) (ct : Content n (k + 1) K)
    (p : Fin n) : Prop :=
  ∀ i ∈ ct.reach, Respects ct.userBounds (c.front i) →
    pointAsf c.ideal c.nadir q (c.front p) ≤ pointAsf c.ideal c.nadir q (c.front i) + slack

/-- Navigating forward from the start: each request is answered in turn with a forward response, the
user bounds are kept or tightened. `s` is the state, the first list the requests and the second the
reference points used, newest first. -/
inductive Onward (c : Cfg n k K V) : St n k K → List (Content n k K) → List (Vec k (Option K)) → Prop
  | start : Onward c (initSt c) [start (initSt c)] []
  | step {s s' : St n k K} {ct ct' : Content n k K} {l : List (Content n k K)}
      {qs : List (Vec k (Option K))} {r : Resp K} {ql : List (Option K)} {q : Vec k (Option K)} :
      Onward c s (ct :: l) qs → r.goToPrevious = some (.bool false) → r.ref = some ql → Denotes ql q →
      answer c s ct r = (s', .ok (.nav ct')) →
      (∀ f : Vec k K, Respects ct'.userBounds f → Respects ct.userBounds f) →
      Onward c s' (ct' :: ct :: l) (q :: qs)

omit [IsStrictOrderedRing K] in
theorem Onward.reached {c : Cfg n k K V} {s : St n k K} {l : List (Content n k K)}
    {qs : List (Vec k (Option K))} (h : Onward c s l qs) : Reached c s l := by
  induction h with
  | start => exact .init
  | step _ _ _ _ ha _ ih => exact .step ih (by simp) ha

/-- What is known about the stored projection while going forward. -/
def Aim {k : Nat} (c : Cfg n (k + 1) K V) (s : St n (k + 1) K) (qs : List (Vec (k + 1) (Option K))) : Prop :=
  s.step = 1 ∨ ∃ (p : Fin n) (q0 : Vec (k + 1) K), s.proj = some p ∧
    s.ref = some (fun j => some (q0 j)) ∧ (fun j => some (q0 j)) ∈ qs ∧ InBox c.ideal c.nadir q0 ∧
    ∀ i ∈ s.reach, Respects s.userBounds (c.front i) →
      pointAsf c.ideal c.nadir q0 (c.front p) ≤ pointAsf c.ideal c.nadir q0 (c.front i)

omit [IsStrictOrderedRing K] in
theorem answer_validated {c : Cfg n k K V} {s s' : St n k K} {ct : Content n k K} {r : Resp K}
    {o : Out n k K V} (h : answer c s ct r = (s', .ok o)) : validate c r = .ok () := by
  unfold answer at h
  cases hv : validate c r with
  | error e => rw [hv] at h; simp at h
  | ok u => rfl

/-- One forward step: the row moved to is the best one for the reference point given, or for an
earlier one that is close. -/
theorem Onward.aim {k : Nat} {c : Cfg n (k + 1) K V} (hasf : c.asf = pointAsf c.ideal c.nadir)
    (hbox : ∀ i, InBox c.ideal c.nadir (c.front i)) {s : St n (k + 1) K}
    {l : List (Content n (k + 1) K)} {qs : List (Vec (k + 1) (Option K))} (h : Onward c s l qs) :
    Aim c s qs := by
  induction h with
  | start => left; rfl
  | @step s s' ct ct' l qs r ql q ho hg hq hd ha hu ih =>
    have hre := ho.reached
    have hc14 := C14_bounds_never_widen hbox hre (by simp) hg ha
    have hh := hre.head
    simp only [St.content, Content.mk.injEq] at hh
    obtain ⟨h1', ql', q', v, ul, s1, p, hq', hb, _, _, hp, hrem, hs'⟩ := answer_forward hg ha
    rw [hq, Option.some.injEq] at hq'
    subst hq'
    have hqq : q' = q := by
      have := broadcast_of_denotes hd
      rw [this, Except.ok.injEq] at hb
      exact hb.symm
    subst hqq
    have hreach : ∀ i ∈ s'.reach, i ∈ s.reach := by
      intro i hi
      have : i ∈ ct'.reach := by rw [h1']; exact hi
      have := hc14.2.2.1 i this
      rw [hh.2.2.2.1]; exact this
    have hub : ∀ f : Vec (k + 1) K, Respects s'.userBounds f → Respects s.userBounds f := by
      intro f hf
      rw [hh.2.2.1]
      apply hu
      rw [h1']; exact hf
    right
    have hfin : s'.proj = some p ∧ s'.ref = s1.ref := by
      rw [hs']; exact ⟨hp.proj, rfl⟩
    rcases hp with ⟨hnp, rfl, hpr⟩ | ⟨hnp, hsol, rfl⟩
    · rcases ih with hst | ⟨p', q0, e1, e2, e3, e4, e5⟩
      · simp [needsProjection, hst] at hnp
      · rw [hpr, Option.some.injEq] at e1
        subst e1
        exact ⟨p, q0, hfin.1, by rw [hfin.2, e2], by simp [e3], e4,
          fun i hi hr => e5 i (hreach i hi) (hub _ hr)⟩
    · obtain ⟨_, _, qv, hqv, hbest⟩ := solve_ok hsol
      obtain ⟨⟨ql2, q2, hr2, hb2, hin⟩, _⟩ := validate_ok_iff.1 (answer_validated ha)
      rw [hq, Option.some.injEq] at hr2
      subst hr2
      rw [hb, Except.ok.injEq] at hb2
      subst hb2
      refine ⟨p, qv, hfin.1, by rw [hfin.2, hqv], by simp [hqv], ?_, ?_⟩
      · intro j
        exact hin j (qv j) (by rw [hqv])
      · intro i hi hr
        rw [← hasf]
        exact hbest i (hreach i hi) (hub _ hr)

/-- What a further forward step does. -/
theorem Onward.next {k : Nat} {c : Cfg n (k + 1) K V} (hasf : c.asf = pointAsf c.ideal c.nadir)
    (hbox : ∀ i, InBox c.ideal c.nadir (c.front i)) {s s' : St n (k + 1) K} {ct ct' : Content n (k + 1) K}
    {l : List (Content n (k + 1) K)} {qs : List (Vec (k + 1) (Option K))} (h : Onward c s (ct :: l) qs)
    {r : Resp K} (hg : r.goToPrevious = some (.bool false)) {ql : List (Option K)}
    (hq : r.ref = some ql) {q : Vec (k + 1) K} (hd : Denotes ql fun j => some (q j))
    (ha : answer c s ct r = (s', .ok (.nav ct'))) :
    ∃ (p : Fin n) (q0 : Vec (k + 1) K), MovesTowards c ct ct' p ∧
      (q0 = q ∨ (fun j => some (q0 j)) ∈ qs ∧ Close (fun j => some (q j)) (fun j => some (q0 j))) ∧
      InBox c.ideal c.nadir q0 ∧ BestWithin c q0 0 ct p := by
  have hre := h.reached
  have hh := hre.head
  have hrem := hre.rem_pos
  simp only [St.content, Content.mk.injEq] at hh
  obtain ⟨h1', ql', q', v, ul, s1, p, hq', hb, _, _, hp, _, hs'⟩ := answer_forward hg ha
  rw [hq, Option.some.injEq] at hq'
  subst hq'
  have hqq := broadcast_of_denotes hd
  rw [hqq, Except.ok.injEq] at hb
  subst hb
  obtain ⟨f1, f2, f3, f4, f5, f6, f7, f8⟩ := hp.eq
  have hmove : MovesTowards c ct ct' p := by
    intro j
    have hr0 : (s.rem : K) ≠ 0 := by
      have : s.rem ≠ 0 := by have := hrem.1; omega
      exact_mod_cast this
    rw [h1', hs']
    simp only [St.content, move, navPoint, f4, f5]
    rw [← hh.2.2.2.2.2.2.2.2, ← hh.2.2.2.2.2.1]
    field_simp
    ring
  refine ⟨p, ?_⟩
  rcases hp with ⟨hnp, rfl, hpr⟩ | ⟨hnp, hsol, rfl⟩
  · rcases h.aim hasf hbox with hst | ⟨p', q0, e1, e2, e3, e4, e5⟩
    · simp [needsProjection, hst] at hnp
    · rw [hpr, Option.some.injEq] at e1
      subst e1
      refine ⟨q0, hmove, Or.inr ⟨e3, ?_⟩, e4, ?_⟩
      · unfold needsProjection at hnp
        split at hnp
        · simp at hnp
        · simp only [e2, Except.ok.injEq, Bool.not_eq_false'] at hnp
          exact allclose_iff.1 hnp
      · intro i hi hr
        rw [add_zero]
        exact e5 i (by rw [hh.2.2.2.1]; exact hi) (by rw [hh.2.2.1]; exact hr)
  · obtain ⟨_, _, qv, hqv, hbest⟩ := solve_ok hsol
    have hqv' : q = qv := by
      funext j
      have := congrFun hqv j
      simpa using this
    subst hqv'
    obtain ⟨⟨ql2, q2, hr2, hb2, hin⟩, _⟩ := validate_ok_iff.1 (answer_validated ha)
    rw [hq, Option.some.injEq] at hr2
    subst hr2
    rw [hqq, Except.ok.injEq] at hb2
    subst hb2
    refine ⟨q, hmove, Or.inl rfl, fun j => hin j (q j) rfl, ?_⟩
    intro i hi hr
    rw [add_zero, ← hasf]
    exact hbest i (by rw [hh.2.2.2.1]; exact hi) (by rw [hh.2.2.1]; exact hr)

/-- **C107 (partial, exact).** Navigating forward from the start with user bounds kept or tightened: if
the reference point of a response equals or visibly differs from (some component by more than `1e-8`
plus `1e-5` times its size) every earlier one, the step goes towards the best reachable row for it. -/
theorem C107_moves_to_best_partial {k : Nat} {c : Cfg n (k + 1) K V}
    (hasf : c.asf = pointAsf c.ideal c.nadir) (hbox : ∀ i, InBox c.ideal c.nadir (c.front i))
    {s s' : St n (k + 1) K} {ct ct' : Content n (k + 1) K}
    {l : List (Content n (k + 1) K)} {qs : List (Vec (k + 1) (Option K))} (h : Onward c s (ct :: l) qs)
    {r : Resp K} (hg : r.goToPrevious = some (.bool false)) {ql : List (Option K)}
    (hq : r.ref = some ql) {q : Vec (k + 1) K} (hd : Denotes ql fun j => some (q j))
    (hdiff : ∀ q' ∈ qs, q' = (fun j => some (q j)) ∨ ¬ Close (fun j => some (q j)) q')
    (ha : answer c s ct r = (s', .ok (.nav ct'))) :
    ∃ p : Fin n, MovesTowards c ct ct' p ∧ BestWithin c q 0 ct p := by
  obtain ⟨p, q0, hm, hc, _, hb⟩ := h.next hasf hbox hg hq hd ha
  refine ⟨p, hm, ?_⟩
  rcases hc with rfl | ⟨hmem, hcl⟩
  · exact hb
  · rcases hdiff _ hmem with he | he
    · have : q0 = q := by
        funext j
        have := congrFun he j
        simpa using this
      rw [← this]; exact hb
    · exact absurd hcl he

theorem vmax_le_add {k : Nat} {u v : Vec (k + 1) K} {d : K} (h : ∀ j, u j ≤ v j + d) :
    vmax u ≤ vmax v + d := by
  obtain ⟨h1, h2, h3⟩ := foldl_max_spec ((List.finRange k).map fun j => v j.succ) (v 0)
  unfold vmax
  rcases (foldl_max_spec ((List.finRange k).map fun j => u j.succ) (u 0)).1 with h4 | h4
  · rw [h4]; linarith [h 0]
  · rw [List.mem_map] at h4
    obtain ⟨j, _, hj⟩ := h4
    rw [← hj]
    have := h3 _ (List.mem_map.2 ⟨j, List.mem_finRange j, rfl⟩)
    linarith [h j.succ]

/-- The achievement value changes by at most `d` when the reference point changes by at most `d` times
the range in each objective. -/
theorem pointAsf_ref {k : Nat} {ideal nadir : Vec (k + 1) K} (hin : AtLeastAsGood ideal nadir)
    {q q0 : Vec (k + 1) K} {d : K}
    (hd : ∀ j, |q j - q0 j| ≤ d * (nadir j - (ideal j - 1 / 1000000))) (f : Vec (k + 1) K) :
    pointAsf ideal nadir q f ≤ pointAsf ideal nadir q0 f + d := by
  have hp : ∀ j, 0 < nadir j - (ideal j - 1 / 1000000) := by
    intro j
    have := hin j
    have h1 : (0 : K) < 1 / 1000000 := by positivity
    linarith
  unfold pointAsf
  have := vmax_le_add (u := fun j => (f j - q j) / (nadir j - (ideal j - 1 / 1000000)))
    (v := fun j => (f j - q0 j) / (nadir j - (ideal j - 1 / 1000000))) (d := d) (by
      intro j
      have h2 := (abs_le.1 (hd j)).1
      rw [div_add' _ _ _ (hp j).ne', div_le_div_iff_of_pos_right (hp j)]
      linarith)
  linarith

/-- **C107 (partial, tolerance).** Navigating forward from the start with user bounds kept or
tightened, every step goes towards a row whose achievement value for the reference point of the very
response is within `2 d` of the best reachable one, where `d` bounds `1e-8 + 1e-5 max(|ideal|,|nadir|)`
relative to the range in each objective. -/
theorem C107_moves_to_almost_best_partial {k : Nat} {c : Cfg n (k + 1) K V}
    (hasf : c.asf = pointAsf c.ideal c.nadir) (hbox : ∀ i, InBox c.ideal c.nadir (c.front i))
    (hin : AtLeastAsGood c.ideal c.nadir) {d : K}
    (hdd : ∀ j, 1 / 10 ^ 8 + max |c.ideal j| |c.nadir j| / 10 ^ 5 ≤ d * (c.nadir j - c.ideal j))
    {s s' : St n (k + 1) K} {ct ct' : Content n (k + 1) K}
    {l : List (Content n (k + 1) K)} {qs : List (Vec (k + 1) (Option K))} (h : Onward c s (ct :: l) qs)
    {r : Resp K} (hg : r.goToPrevious = some (.bool false)) {ql : List (Option K)}
    (hq : r.ref = some ql) {q : Vec (k + 1) K} (hd : Denotes ql fun j => some (q j))
    (ha : answer c s ct r = (s', .ok (.nav ct'))) :
    ∃ p : Fin n, MovesTowards c ct ct' p ∧ BestWithin c q (2 * d) ct p := by
  obtain ⟨p, q0, hm, hc, hq0, hb⟩ := h.next hasf hbox hg hq hd ha
  have hd0 : 0 ≤ d := by
    have h1 := hdd 0
    have h2 := hin 0
    have h3 : (0 : K) < 1 / 10 ^ 8 + max |c.ideal 0| |c.nadir 0| / 10 ^ 5 := by
      have : (0 : K) ≤ max |c.ideal 0| |c.nadir 0| := le_max_of_le_left (abs_nonneg _)
      positivity
    by_contra hneg
    push Not at hneg
    nlinarith
  have hclose : ∀ j, |q j - q0 j| ≤ d * (c.nadir j - (c.ideal j - 1 / 1000000)) := by
    intro j
    have hr : d * (c.nadir j - c.ideal j) ≤ d * (c.nadir j - (c.ideal j - 1 / 1000000)) := by
      apply mul_le_mul_of_nonneg_left _ hd0
      have : (0 : K) < 1 / 1000000 := by positivity
      linarith
    rcases hc with rfl | ⟨_, hcl⟩
    · rw [sub_self, abs_zero]
      refine le_trans (le_trans ?_ (hdd j)) hr
      have : (0 : K) ≤ max |c.ideal j| |c.nadir j| := le_max_of_le_left (abs_nonneg _)
      positivity
    · obtain ⟨x, y, hx, hy, hxy⟩ := hcl j
      simp only [Option.some.injEq] at hx hy
      subst hx; subst hy
      refine le_trans hxy (le_trans (le_trans ?_ (hdd j)) hr)
      have habs : |q0 j| ≤ max |c.ideal j| |c.nadir j| := by
        have := hq0 j
        rw [max_comm]
        exact abs_le_max_abs_abs this.1 this.2 |>.trans (by rw [max_comm])
      have : |q0 j| / 10 ^ 5 ≤ max |c.ideal j| |c.nadir j| / 10 ^ 5 :=
        (div_le_div_iff_of_pos_right (by positivity)).2 habs
      linarith
  refine ⟨p, hm, ?_⟩
  intro i hi hr
  have h1 := hb i hi hr
  have h2 := pointAsf_ref hin hclose (c.front p)
  have h3 := pointAsf_ref (q := q0) (q0 := q) hin (fun j => by rw [abs_sub_comm]; exact hclose j) (c.front i)
  linarith

/-! ### examples -/

/-- A front whose values are large compared to its ranges. -/
def farCfg : Cfg 3 2 ℚ String :=
  { front := ![![1000000, 1000010], ![1000005, 1000005], ![1000010, 1000000]],
    ideal := ![1000000, 1000000], nadir := ![1000010, 1000010], vars := none, nrm := supNorm,
    asf := pointAsf ![1000000, 1000000] ![1000010, 1000010] }

/-- Aim at the first row. -/
def farR1 : Resp ℚ := forwardResp [some 1000000, some 1000010] (.int 1) noB
/-- Aim at the last row. -/
def farR2 : Resp ℚ := forwardResp [some 1000010, some 1000000] (.int 1) noB
/-- After the first step. -/
def farS1 : St 3 2 ℚ := (answer farCfg (initSt farCfg) (start (initSt farCfg)) farR1).1
/-- After the second step. -/
def farS2 : St 3 2 ℚ := (answer farCfg farS1 farS1.content farR2).1

theorem far_1 : answer farCfg (initSt farCfg) (start (initSt farCfg)) farR1 =
    (farS1, .ok (.nav farS1.content)) := eq_of_beq (by decide +kernel)
theorem far_2 : answer farCfg farS1 farS1.content farR2 = (farS2, .ok (.nav farS2.content)) :=
  eq_of_beq (by decide +kernel)

/-- The reference points of the two responses. -/
def farQ1 : Vec 2 ℚ := ![1000000, 1000010]
/-- The reference points of the two responses. -/
def farQ2 : Vec 2 ℚ := ![1000010, 1000000]

theorem denotes_two (a b : ℚ) : Denotes [some a, some b] (fun j => some ((![a, b] : Vec 2 ℚ) j)) := by
  left
  refine ⟨rfl, ?_⟩
  intro j
  match j with
  | 0 => rfl
  | 1 => rfl

theorem far_onward : Onward farCfg farS1 [farS1.content, start (initSt farCfg)]
    [fun j => some (farQ1 j)] :=
  .step .start rfl rfl (denotes_two _ _) far_1 (fun f hf j b hb => by
    simp [start, St.content, initSt] at hb)

/-- **C107 fails.** The reference point moves from one end of the front to the other, but since its
components change by no more than 0.001 percent, the navigation keeps going towards the row for the
old reference point, although a better reachable row for the new one exists. -/
theorem C107_change_ignored_fails : ∃ (s s' : St 3 2 ℚ) (ct ct' : Content 3 2 ℚ)
    (l : List (Content 3 2 ℚ)) (qs : List (Vec 2 (Option ℚ))) (r : Resp ℚ) (q : Vec 2 ℚ),
    Onward farCfg s (ct :: l) qs ∧ r.goToPrevious = some (.bool false) ∧
    (∃ ql, r.ref = some ql ∧ Denotes ql fun j => some (q j)) ∧
    answer farCfg s ct r = (s', .ok (.nav ct')) ∧
    ∀ p, MovesTowards farCfg ct ct' p → ¬ BestWithin farCfg q 0 ct p := by
  refine ⟨_, _, _, _, _, _, farR2, farQ2, far_onward, rfl, ⟨_, rfl, denotes_two _ _⟩, far_2, ?_⟩
  intro p hp hb
  have h1 := hb 1 (by decide +kernel) (fun j b hb => by
    have : farS1.content.userBounds = fun _ => none := eq_of_beq (by decide +kernel)
    rw [this] at hb; simp at hb)
  unfold MovesTowards at hp
  revert hp h1
  clear hb
  revert p
  decide +kernel

/-- C107 on the example: an exact case. -/
example : ∃ p : Fin 3, MovesTowards exCfg exS1.content exS2.content p ∧
    BestWithin exCfg ![0, 2] 0 exS1.content p :=
  C107_moves_to_best_partial rfl (by unfold InBox; decide +kernel)
    (.step .start rfl rfl (denotes_two 1 1) ex_step1 (fun f hf j b hb => by
      simp [start, St.content, initSt] at hb)) rfl rfl (denotes_two 0 2)
    (fun q' hq' => Or.inr (by
      rw [List.mem_singleton] at hq'
      subst hq'
      rw [← allclose_iff]
      decide +kernel)) ex_step2

/-- C107 on the example where the change is not seen: `d` is about one, the bound says nothing more than
that; it is small when the ranges are large compared to the values. -/
example : ∃ p : Fin 3, MovesTowards farCfg farS1.content farS2.content p ∧
    BestWithin farCfg farQ2 (2 * (1001 / 1000)) farS1.content p :=
  C107_moves_to_almost_best_partial rfl (by unfold InBox; decide +kernel)
    (by unfold AtLeastAsGood; decide +kernel) (by decide +kernel) far_onward rfl rfl (denotes_two _ _) far_2

/-- With values of the size of the ranges, `d` is about `1e-5`. -/
example : ∃ p : Fin 3, MovesTowards exCfg exS1.content exS2.content p ∧
    BestWithin exCfg ![0, 2] (2 * (2 / 100000)) exS1.content p :=
  C107_moves_to_almost_best_partial rfl (by unfold InBox; decide +kernel)
    (by unfold AtLeastAsGood; decide +kernel) (by decide +kernel)
    (.step .start rfl rfl (denotes_two 1 1) ex_step1 (fun f hf j b hb => by
      simp [start, St.content, initSt] at hb)) rfl rfl (denotes_two 0 2) ex_step2

end Verif.Navigator
