import Verif.Navigator.Props2

set_option linter.unusedSectionVars false

/-!
# Properties C17-C20 of NAUTILUS Navigator
-/

namespace Verif.Navigator

variable {K V : Type} [Field K] [LinearOrder K] [IsStrictOrderedRing K] {n k : Nat}

/-! ## C17 -/

/-- **C17** (restoring). Returning to an issued request shows its navigation point, bounds, reachable
indices, distance, step number and steps remaining again; only the user bounds are those of the
response and the speed is the current one. -/
theorem C17_shows_the_same {c : Cfg n k K V} {s s' : St n k K} {ct ct' : Content n k K} {r : Resp K}
    (hg : r.goToPrevious = some (.bool true)) {ul : List (Option K)} (hu : r.userBounds = some ul)
    (ha : answer c s ct r = (s', .ok (.nav ct'))) :
    ct' = { ct with userBounds := ct'.userBounds, speed := s.speed } ∧
      (∀ j : Fin k, ul[j.val]? = some (ct'.userBounds j)) ∧ s'.content = ct' := by
  have hub := (C16_shows_the_given_bounds hu ha).2
  obtain ⟨h1, ⟨ul', _, hu', hs⟩ | ⟨ql, q, v, ul', s1, p, hg', _⟩⟩ := answer_nav ha
  · rw [hu, Option.some.injEq] at hu'
    subst hu'
    refine ⟨?_, hub, h1.symm⟩
    rw [h1, hs]
    rfl
  · rw [hg] at hg'; simp at hg'

/-- Forget the speed shown in a request. -/
def Out.forgetSpeed : Out n k K V → Out n k K V
  | .nav ct => .nav { ct with speed := none }
  | o => o

/-- The result of a call, without the shown speed. -/
def shown (o : Except Err (Out n k K V)) : Except Err (Out n k K V) := o.map Out.forgetSpeed

/-- **C17** (continuing). Let `s1` be the state in which request `ct` was the newest one. Return to
`ct` from any later state `s2`, repeating its user bounds. Then a forward response whose reference
point is projected anew (first step, or it differs from the ones used last) gives the same result -
the same request up to the speed, or the same exception - as it gave in `s1`. Missing from the full
claim: reference points close to the one used last in `s2`, for which the result may differ, see
`C17_continues_differently`. -/
theorem C17_continues_the_same_partial {c : Cfg n k K V} {s1 s2 s2' : St n k K}
    {l1 : List (Content n k K)} {ct ct' : Content n k K} (h1 : Reached c s1 (ct :: l1))
    {rb : Resp K} (hg : rb.goToPrevious = some (.bool true)) {ul : List (Option K)}
    (hu : rb.userBounds = some ul) (hul : ∀ j : Fin k, ul[j.val]? = some (ct.userBounds j))
    (hb : answer c s2 ct rb = (s2', .ok (.nav ct')))
    {r : Resp K} {ql : List (Option K)} (hq : r.ref = some ql)
    (hre1 : Reprojects s1 ql) (hre2 : Reprojects s2' ql) :
    shown (answer c s1 ct r).2 = shown (answer c s2' ct' r).2 := by
  obtain ⟨e1, e0, e2⟩ := C17_shows_the_same hg hu hb
  have hh := h1.head
  have hub : ct'.userBounds = ct.userBounds := by
    funext j
    have := e0 j
    rw [hul j, Option.some.injEq] at this
    exact this.symm
  rw [hub] at e1
  have hcore : s2'.content = { s1.content with speed := s2'.speed } := by
    rw [hh]
    have : ct'.speed = s2'.speed := by rw [← e2]; rfl
    rw [e2, e1] at *
    simp only at this
    rw [this]
  cases ha1 : answer c s1 ct r with
  | mk t1 o1 =>
  cases ha2 : answer c s2' ct' r with
  | mk t2 o2 =>
  dsimp only
  rcases answer_cases ha1 with ⟨e, hv, _, rfl⟩ | ⟨hv, hst, _, rfl⟩ | ⟨ul1, hv, hst, hgp, hul1, hs, rfl⟩ |
      ⟨ql1, q, v, ul1, hv, hst, hgp, hq1, hbq, hsp, hul1, hf⟩ <;>
    rcases answer_cases ha2 with ⟨e', hv', _, rfl⟩ | ⟨hv', hst', _, rfl⟩ |
      ⟨ul2, hv', hst', hgp', hul2, hs', rfl⟩ |
      ⟨ql2, q2, v2, ul2, hv', hst', hgp', hq2, hbq2, hsp2, hul2, hf'⟩ <;>
    (try (rw [hv] at hv'; simp at hv'; done)) <;>
    (try (rw [hst] at hst'; simp at hst'; done)) <;>
    (try (rw [hgp] at hgp'; simp at hgp'; done))
  · rw [hv, Except.error.injEq] at hv'
    rw [hv']
  · rw [e1]
  · rw [hul1, Option.some.injEq] at hul2
    subst hul2
    rw [hs, hs', e1]
    rfl
  · rw [hul1, Option.some.injEq] at hul2
    rw [hq1, Option.some.injEq] at hq2
    rw [hsp, Option.some.injEq] at hsp2
    subst hul2 hq2 hsp2
    rw [hbq, Except.ok.injEq] at hbq2
    subst hbq2
    rw [hq1, Option.some.injEq] at hq
    subst hq
    have n1 := hre1.needs hbq
    have n2 := hre2.needs hbq
    simp only [St.content, Content.mk.injEq] at hcore
    obtain ⟨c1, c2, c3, c4, c5, c6, c7, _, c9⟩ := hcore
    unfold forward at hf hf'
    rw [n1] at hf
    rw [n2] at hf'
    dsimp only at hf hf'
    rw [c3, c4] at hf'
    cases hsol : solve c s1.reach q s1.userBounds with
    | error e =>
      rw [hsol] at hf hf'
      simp only [Prod.mk.injEq] at hf hf'
      rw [← hf.2, ← hf'.2]
    | ok p =>
      rw [hsol] at hf hf'
      simp only [advance, c6] at hf hf'
      by_cases hr : s1.rem = 0
      · simp only [hr, if_true, Prod.mk.injEq] at hf hf'
        rw [← hf.2, ← hf'.2]
      · simp only [hr, if_false, Prod.mk.injEq] at hf hf'
        rw [← hf.2, ← hf'.2]
        simp only [shown, Except.map, Out.forgetSpeed, move, St.content, c1, c2, c5, c9]

/-- The hypotheses are met: in the example, return to the first step's request and aim elsewhere. -/
example : Reached exCfg bS1 (bS1.content :: [start (initSt exCfg)]) ∧
    answer exCfg bS3 bS1.content bBack = (bS4, .ok (.nav bS4.content)) ∧
    (∀ j : Fin 2, (noB : List (Option ℚ))[j.val]? = some (bS1.content.userBounds j)) ∧
    Reprojects bS1 [some 1, some 1] ∧ Reprojects bS4 [some 1, some 1] := by
  refine ⟨b_reached1, b_4, by decide +kernel, reprojects_of rfl (.inr ⟨![some 0, some 2],
    eq_of_beq (by decide +kernel), by decide +kernel⟩), reprojects_of rfl (.inr ⟨![some 2, some 0],
    eq_of_beq (by decide +kernel), by decide +kernel⟩)⟩

/-- **C17 fails** for continuing: after returning to request `bS1.content` with its user bounds, the
same forward response moves to another point than it did the first time. -/
theorem C17_continues_differently :
    Reached exCfg bS1 [bS1.content, start (initSt exCfg)] ∧
    Reached exCfg bS4 [bS4.content, bS3.content, bS2.content, bS1.content, start (initSt exCfg)] ∧
    answer exCfg bS3 bS1.content bBack = (bS4, .ok (.nav bS4.content)) ∧
    (∀ j : Fin 2, (noB : List (Option ℚ))[j.val]? = some (bS1.content.userBounds j)) ∧
    answer exCfg bS1 bS1.content bR2 = (bT, .ok (.nav bT.content)) ∧
    answer exCfg bS4 bS4.content bR2 = (bS5, .ok (.nav bS5.content)) ∧
    bT.content.nav 0 ≠ bS5.content.nav 0 :=
  ⟨b_reached1, b_reached4, b_4, by decide +kernel, b_T, b_5, by decide +kernel⟩

/-! ## C18 -/

/-- **C18**. In any history, an accepted response with `stop` set returns the objective vectors of
exactly the rows inside the bounds of the answered request - each once, in increasing order - and,
if decision variables were supplied, the decision vectors of the same rows in the same order. The
method's state does not change. -/
theorem C18_stop_returns_reachable {c : Cfg n k K V} (hbox : ∀ i, InBox c.ideal c.nadir (c.front i))
    {s s' : St n k K} {l : List (Content n k K)} (h : Reached c s l) {ct : Content n k K} (hct : ct ∈ l)
    {r : Resp K} (hst : r.stop = some (.bool true)) {o : Out n k K V}
    (ha : answer c s ct r = (s', .ok o)) :
    s' = s ∧ ∃ idx objs decs, o = .stop idx objs decs ∧
      (∀ i, i ∈ idx ↔ InBox ct.lb ct.ub (c.front i)) ∧ idx.Pairwise (· < ·) ∧
      objs.length = idx.length ∧ (∀ (m : Nat) i, idx[m]? = some i → objs[m]? = some (c.front i)) ∧
      (c.vars = none → decs = none) ∧
      (∀ d, c.vars = some d → ∃ ds, decs = some ds ∧ ds.length = idx.length ∧
        ∀ (m : Nat) i, idx[m]? = some i → ds[m]? = some (d i)) := by
  have hb := (h.boxReach hbox).2 ct hct
  rcases answer_cases ha with ⟨e, _, _, h⟩ | ⟨_, _, hs, ho⟩ | ⟨ul, _, hst', _⟩ |
    ⟨ql, q, v, ul, _, hst', _⟩
  · simp at h
  · rw [Except.ok.injEq] at ho
    refine ⟨hs, ct.reach, ct.reach.map c.front, c.vars.map fun d => ct.reach.map d, ho, hb.1, hb.2,
      by simp, ?_, ?_, ?_⟩
    · intro m i hm; simp [hm]
    · intro hv; simp [hv]
    · intro d hd
      refine ⟨ct.reach.map d, by simp [hd], by simp, ?_⟩
      intro m i hm; simp [hm]
  · rw [hst] at hst'; simp at hst'
  · rw [hst] at hst'; simp at hst'

example : (stopResp [some 0, some 0] (.int 1) true noB).stop = some (.bool true) ∧
    answer exCfg exS1 (start (initSt exCfg)) (stopResp [some 0, some 0] (.int 1) true noB) =
      (exS1, .ok (.stop [0, 1, 2] [![0, 2], ![1, 1], ![2, 0]] (some ["a", "b", "c"]))) ∧
    answer exCfg exS1 exS1.content (stopResp [some 0, some 0] (.int 1) true noB) =
      (exS1, .ok (.stop [1] [![1, 1]] (some ["b"]))) :=
  ⟨rfl, eq_of_beq (by decide +kernel), eq_of_beq (by decide +kernel)⟩

/-! ## C19 -/

theorem vmax_mono {k : Nat} {u v : Vec (k + 1) K} (h : ∀ j, u j ≤ v j) : vmax u ≤ vmax v := by
  unfold vmax
  obtain ⟨h1, h2, h3⟩ := foldl_max_spec ((List.finRange k).map fun j => v j.succ) (v 0)
  rcases (foldl_max_spec ((List.finRange k).map fun j => u j.succ) (u 0)).1 with h4 | h4
  · rw [h4]; exact (h 0).trans h2
  · rw [List.mem_map] at h4
    obtain ⟨j, _, hj⟩ := h4
    rw [← hj]
    exact (h j.succ).trans (h3 _ (List.mem_map.2 ⟨j, List.mem_finRange j, rfl⟩))

theorem sum_lt_sum_map {α : Type} {l : List α} {f g : α → K} (h : ∀ a ∈ l, f a ≤ g a)
    (hlt : ∃ a ∈ l, f a < g a) : (l.map f).sum < (l.map g).sum := by
  induction l with
  | nil => obtain ⟨a, ha, _⟩ := hlt; simp at ha
  | cons x l ih =>
    simp only [List.map_cons, List.sum_cons]
    have hle : (l.map f).sum ≤ (l.map g).sum :=
      List.sum_le_sum fun a ha => h a (by simp [ha])
    obtain ⟨a, ha, hlt⟩ := hlt
    rcases List.mem_cons.1 ha with rfl | ha
    · exact add_lt_add_of_lt_of_le hlt hle
    · exact add_lt_add_of_le_of_lt (h x (by simp)) (ih (fun a ha => h a (by simp [ha])) ⟨a, ha, hlt⟩)

/-- The achievement function used by the Navigator strictly prefers dominating vectors, provided the
ideal point is at least as good as the nadir. -/
theorem pointAsf_strict {k : Nat} {ideal nadir : Vec (k + 1) K} (hin : AtLeastAsGood ideal nadir)
    (ref : Vec (k + 1) K) {f g : Vec (k + 1) K} (h : Dominates f g) :
    pointAsf ideal nadir ref f < pointAsf ideal nadir ref g := by
  have hd : ∀ j, 0 < nadir j - (ideal j - 1 / 1000000) := by
    intro j
    have := hin j
    have h1 : (0 : K) < 1 / 1000000 := by positivity
    linarith
  unfold pointAsf
  apply add_lt_add_of_le_of_lt
  · apply vmax_mono
    intro j
    exact (div_le_div_iff_of_pos_right (hd j)).2 (by linarith [h.1 j])
  · apply mul_lt_mul_of_pos_left _ (by positivity)
    apply sum_lt_sum_map
    · intro j _
      exact (div_le_div_iff_of_pos_right (hd j)).2 (h.1 j)
    · obtain ⟨j, hj⟩ := h.2
      exact ⟨j, List.mem_finRange j, (div_lt_div_iff_of_pos_right (hd j)).2 hj⟩

/-- **C19**. In any history, when the reference point is projected, the row moved to is one of the
last shown reachable rows, respects the last shown user bounds, has the smallest achievement value of
all such rows, and none of them dominates it. -/
theorem C19_projection_is_best {k : Nat} {c : Cfg n (k + 1) K V}
    (hasf : c.asf = pointAsf c.ideal c.nadir) (hin : AtLeastAsGood c.ideal c.nadir)
    {s s' : St n (k + 1) K} {ct0 : Content n (k + 1) K} {l : List (Content n (k + 1) K)}
    (h : Reached c s (ct0 :: l)) {ct ct' : Content n (k + 1) K} {r : Resp K}
    (hg : r.goToPrevious = some (.bool false)) {ql : List (Option K)} (hq : r.ref = some ql)
    (hre : Reprojects s ql) (ha : answer c s ct r = (s', .ok (.nav ct'))) :
    ∃ (q : Vec (k + 1) K) (p : Fin n), Denotes ql (fun j => some (q j)) ∧
      s'.proj = some p ∧ p ∈ ct0.reach ∧ Respects ct0.userBounds (c.front p) ∧
      ∀ i ∈ ct0.reach, Respects ct0.userBounds (c.front i) →
        pointAsf c.ideal c.nadir q (c.front p) ≤ pointAsf c.ideal c.nadir q (c.front i) ∧
        ¬ Dominates (c.front i) (c.front p) := by
  have hh := h.head
  simp only [St.content, Content.mk.injEq] at hh
  obtain ⟨h1', ql', q, v, ul, s1, p, hq', hb, _, _, hp, _, hs'⟩ := answer_forward hg ha
  rw [hq, Option.some.injEq] at hq'
  subst hq'
  have hpp := hp.proj
  rcases hp with ⟨hnp, _⟩ | ⟨_, hsol, _⟩
  · rw [hre.needs hb] at hnp; simp at hnp
  · obtain ⟨h2, h3, qv, h4, h5⟩ := solve_ok hsol
    rw [h4] at hb
    refine ⟨qv, p, denotes_of_broadcast hb, by rw [hs']; exact hpp, by rw [← hh.2.2.2.1]; exact h2,
      by rw [← hh.2.2.1]; exact h3, ?_⟩
    intro i hi hr
    have := h5 i (by rw [hh.2.2.2.1]; exact hi) (by rw [hh.2.2.1]; exact hr)
    rw [hasf] at this
    exact ⟨this, fun hdom => absurd (pointAsf_strict hin qv hdom) (not_lt.2 this)⟩

/-- In every history a state past the first step has a projection and a reference point. -/
theorem Reached.projected {c : Cfg n k K V} {s : St n k K} {l : List (Content n k K)}
    (h : Reached c s l) : (s.ref.isSome ∧ s.proj.isSome) ∨ (s.step = 1 ∧ ∀ ct ∈ l, ct.step = 1) := by
  induction h with
  | init => right; simp [initSt, start, St.content]
  | @step s s' l ct r o hr hmem ha ih =>
    have hrem := hr.rem_pos
    rcases answer_effect ha with ⟨hno, hs, hpr⟩ | ⟨ct', rfl⟩
    · have hi : issued o = [] := by
        unfold issued
        split
        · rename_i ct2; exact absurd rfl (hno ct2)
        · rfl
      rcases hpr with ⟨e1, e2⟩ | e0
      · rw [e1, e2]
        have : s'.step = s.step := by
          simp only [St.content, Content.mk.injEq] at hs; tauto
        rw [this, hi]
        simpa using ih
      · omega
    · obtain ⟨h1, ⟨ul, _, _, hs⟩ | ⟨ql, q, v, ul, s1, p, _, _, _, _, _, hp, _, hs⟩⟩ := answer_nav ha
      · rcases ih with ih | ih
        · left; rw [hs]; exact ih
        · right
          have : s'.step = 1 := by rw [hs]; exact ih.2 ct hmem
          refine ⟨this, ?_⟩
          intro ct1 h2
          simp only [issued, List.singleton_append, List.mem_cons] at h2
          rcases h2 with rfl | h2
          · rw [h1]; exact this
          · exact ih.2 _ h2
      · left
        rcases hp with ⟨hnp, rfl, hp2⟩ | ⟨_, _, rfl⟩
        · rw [hs]
          simp only [move, hp2]
          rcases ih with ih | ih
          · exact ⟨ih.1, rfl⟩
          · simp [needsProjection, ih.1] at hnp
        · rw [hs]; simp [move]

/-- **C19** (failure). In any history, an accepted forward response raises only if it has to be
projected and no last shown reachable row respects the last shown user bounds (or the reference point
contains NaN); the exception is `ValueError` and nothing but the stored speed changes. -/
theorem C19_projection_fails_only_without_candidates {c : Cfg n k K V} {s s' : St n k K}
    {ct0 : Content n k K} {l : List (Content n k K)} (h : Reached c s (ct0 :: l)) {ct : Content n k K}
    {r : Resp K} (hv : validate c r = .ok ()) {e : Err}
    (ha : answer c s ct r = (s', .error e)) :
    e = .valueError ∧ s' = { s with speed := s'.speed } ∧
    ∃ (ql : List (Option K)) (q : Vec k (Option K)), r.ref = some ql ∧ Denotes ql q ∧
      ((∃ j, q j = none) ∨ ∀ i ∈ ct0.reach, ¬ Respects ct0.userBounds (c.front i)) := by
  have hh := h.head
  have hrem := h.rem_pos
  simp only [St.content, Content.mk.injEq] at hh
  rcases answer_cases ha with ⟨e, hv', _, _⟩ | ⟨_, _, _, ho⟩ | ⟨ul, _, _, _, _, _, ho⟩ |
    ⟨ql, q, v, ul, _, _, hg, hq, hb, hsp, hu, hf⟩
  · rw [hv] at hv'; simp at hv'
  · simp at ho
  · simp at ho
  · rcases forward_cases hf with ⟨e', he, h1 | h1 | h1 | h1⟩ | ⟨s1, p, hp, hr, hs, ho⟩
    · exfalso
      have h1 := h1.1
      unfold needsProjection at h1
      split at h1
      · simp at h1
      · rename_i hst
        split at h1
        · rename_i href
          rcases h.projected with h2 | h2
          · rw [href] at h2; simp at h2
          · exact hst h2.1
        · simp at h1
    · obtain ⟨_, h2, h3⟩ := h1
      simp only [Except.error.injEq] at he
      subst he
      obtain ⟨h4, h5⟩ := solve_error h2
      refine ⟨h4, by rw [h3], ql, q, hq, denotes_of_broadcast hb, ?_⟩
      rw [← hh.2.2.1, ← hh.2.2.2.1]
      exact h5
    · exfalso
      obtain ⟨h1, h2, _⟩ := h1
      rcases h.projected with h3 | h3
      · rw [h2] at h3; simp at h3
      · simp [needsProjection, h3.1] at h1
    · omega
    · simp at ho

/-- The hypotheses of both C19 theorems are met: a projection in the example, and one that fails
because the stored bounds exclude the only reachable row. -/
example : exCfg.asf = pointAsf exCfg.ideal exCfg.nadir ∧ AtLeastAsGood exCfg.ideal exCfg.nadir ∧
    Reprojects exS1 [some 0, some 2] ∧
    (∃ s1 : St 3 2 ℚ, answer exCfg exS1 exS1.content
        (forwardResp [some 0, some 2] (.int 1) [some (1/2), some (1/2)]) = (s1, .ok (.nav s1.content)) ∧
      validate exCfg (forwardResp [some 2, some 0] (.int 1) noB) = .ok () ∧
      answer exCfg s1 s1.content (forwardResp [some 2, some 0] (.int 1) noB) =
        (s1, .error .valueError)) := by
  refine ⟨rfl, by decide +kernel, reprojects_of rfl (.inr ⟨fun _ => some 1, eq_of_beq (by decide +kernel),
    by decide +kernel⟩), (answer exCfg exS1 exS1.content
        (forwardResp [some 0, some 2] (.int 1) [some (1/2), some (1/2)])).1,
    eq_of_beq (by decide +kernel), eq_of_beq (by decide +kernel), eq_of_beq (by decide +kernel)⟩

/-! ## C20 -/

/-- What the request message asks for: all entries present, one number per objective between the
ideal and nadir points, a speed from 1 to 5, boolean flags, one bound (or none) per objective. -/
structure Usable (c : Cfg n k K V) (r : Resp K) : Prop where
  ref : ∃ q : Vec k K, r.ref = some (List.ofFn fun j => some (q j)) ∧ InBox c.ideal c.nadir q
  speed : ∃ z, r.speed = some (.int z) ∧ 1 ≤ z ∧ z ≤ 5
  back : ∃ b, r.goToPrevious = some (.bool b)
  bounds : ∃ ul, r.userBounds = some ul ∧ ul.length = k
  stop : ∃ b, r.stop = some (.bool b)

/-- The validator, entry by entry. -/
theorem validate_ok_iff {c : Cfg n k K V} {r : Resp K} :
    validate c r = .ok () ↔
      (∃ ql q, r.ref = some ql ∧ broadcast k ql = .ok q ∧
        ∀ j x, q j = some x → c.ideal j ≤ x ∧ x ≤ c.nadir j) ∧
      (∃ v z, r.speed = some v ∧ pyInt v = some z ∧ 1 ≤ z ∧ z ≤ 5) ∧
      (∃ b, r.goToPrevious = some (.bool b)) ∧
      (∃ ul, r.userBounds = some ul ∧ ul.length = k) ∧
      (∃ b, r.stop = some (.bool b)) := by
  have hb : ∀ g : PyVal, PyVal.typeIsBool g = true ↔ ∃ b, g = .bool b := by
    intro g; cases g <;> simp [PyVal.typeIsBool]
  have hs : ∀ v, validateSpeed v = .ok () ↔ ∃ z, pyInt v = some z ∧ 1 ≤ z ∧ z ≤ 5 := by
    intro v
    unfold validateSpeed
    cases pyInt v with
    | none => simp
    | some z =>
      simp only [List.mem_cons, List.not_mem_nil, or_false, Option.some.injEq, exists_eq_left']
      split
      · simp; omega
      · simp; omega
  have hr : ∀ ql, validateRef c ql = .ok () ↔ ∃ q, broadcast k ql = .ok q ∧
        ∀ j x, q j = some x → c.ideal j ≤ x ∧ x ≤ c.nadir j := by
    intro ql
    unfold validateRef
    cases broadcast k ql with
    | error e => simp
    | ok q =>
      simp only [Except.ok.injEq, exists_eq_left']
      rw [← not_iff_not]
      simp only [ite_eq_right_iff, Bool.or_eq_true, List.any_eq_true, List.mem_finRange, true_and,
        reduceCtorEq, imp_false, not_not]
      push Not
      constructor
      · rintro (⟨j, hj⟩ | ⟨j, hj⟩)
        · cases hq : q j with
          | none => simp [hq, nanLt] at hj
          | some x =>
            simp only [hq, nanLt, decide_eq_true_eq] at hj
            exact ⟨j, x, hq, fun h => absurd h (not_le.2 hj)⟩
        · cases hq : q j with
          | none => simp [hq, nanGt] at hj
          | some x =>
            simp only [hq, nanGt, decide_eq_true_eq] at hj
            exact ⟨j, x, hq, fun _ => hj⟩
      · rintro ⟨j, x, hq, h⟩
        by_cases hlt : c.ideal j ≤ x
        · right; exact ⟨j, by simp [hq, nanGt, h hlt]⟩
        · left; exact ⟨j, by simpa [hq, nanLt] using hlt⟩
  unfold validate
  cases h1 : r.ref with
  | none => simp
  | some ql =>
  cases h2 : r.speed with
  | none => simp
  | some v =>
  cases h3 : r.goToPrevious with
  | none => simp
  | some g =>
  cases h4 : r.userBounds with
  | none => simp
  | some ul =>
  cases h5 : r.stop with
  | none => simp
  | some st =>
    have := hr ql
    have := hs v
    have := hb g
    have := hb st
    dsimp only
    cases e1 : validateRef c ql <;> cases e2 : validateSpeed v <;>
      cases e3 : PyVal.typeIsBool g <;> cases e4 : PyVal.typeIsBool st <;>
      by_cases e5 : ul.length = k <;> simp_all

theorem broadcast_ofFn (q : Vec k K) :
    broadcast k (List.ofFn fun j => some (q j)) = .ok (fun j => some (q j)) := by
  simp [broadcast]

/-- **C20** (completeness). Every usable response is accepted. -/
theorem C20_usable_is_accepted {c : Cfg n k K V} {r : Resp K} (h : Usable c r) :
    validate c r = .ok () := by
  obtain ⟨⟨q, hq, hbox⟩, ⟨z, hz, hz1, hz5⟩, hb, hu, hst⟩ := h
  refine validate_ok_iff.2 ⟨⟨_, _, hq, broadcast_ofFn q, ?_⟩, ⟨_, z, hz, rfl, hz1, hz5⟩, hb, hu, hst⟩
  intro j x hx
  simp only [Option.some.injEq] at hx
  rw [← hx]; exact hbox j

/-- **C20** (soundness). An accepted response has all entries, a speed that truncates to 1-5, boolean
flags, one bound per objective, and - if its reference point consists of one number per objective -
this reference point lies between the ideal and nadir points. Missing from the full claim: reference
points with NaN entries or a single number are accepted too, see below. -/
theorem C20_accepted_is_usable_partial {c : Cfg n k K V} {r : Resp K} (h : validate c r = .ok ()) :
    (∃ ql, r.ref = some ql ∧ (ql.length = k ∨ ql.length = 1) ∧
      ∀ q : Vec k K, ql = List.ofFn (fun j => some (q j)) → InBox c.ideal c.nadir q) ∧
    (∃ v z, r.speed = some v ∧ pyInt v = some z ∧ 1 ≤ z ∧ z ≤ 5) ∧
    (∃ b, r.goToPrevious = some (.bool b)) ∧
    (∃ ul, r.userBounds = some ul ∧ ul.length = k) ∧
    (∃ b, r.stop = some (.bool b)) := by
  obtain ⟨⟨ql, q, hq, hb, hin⟩, h2⟩ := validate_ok_iff.1 h
  refine ⟨⟨ql, hq, ?_, ?_⟩, h2⟩
  · unfold broadcast at hb
    split at hb
    · left; assumption
    · split at hb
      · right; rfl
      · simp at hb
  · rintro q' rfl
    rw [broadcast_ofFn, Except.ok.injEq] at hb
    intro j
    exact hin j (q' j) (by rw [← hb])

/-- **C20** (refusal). A response that is not accepted changes nothing; if its flags are missing or
booleans, the exception is the method's own. -/
theorem C20_refused_changes_nothing {c : Cfg n k K V} {s : St n k K} {ct : Content n k K}
    {r : Resp K} {e : Err} (h : validate c r = .error e) :
    answer c s ct r = (s, .error e) ∧
    ((∀ v, r.goToPrevious = some v → ∃ b, v = .bool b) → (∀ v, r.stop = some v → ∃ b, v = .bool b) →
      e = .refused) := by
  refine ⟨by simp [answer, h], ?_⟩
  intro hg hst
  unfold validate at h
  split at h
  · rename_i ql v g ul st _ _ hg' _ hst'
    split at h
    · rename_i e' he'
      unfold validateRef at he'
      rw [Except.error.injEq] at h
      subst h
      split at he'
      · simpa using he'.symm
      · split at he'
        · simpa using he'.symm
        · simp at he'
    · split at h
      · rename_i e' he'
        unfold validateSpeed at he'
        rw [Except.error.injEq] at h
        subst h
        split at he'
        · simpa using he'.symm
        · split at he'
          · simp at he'
          · simpa using he'.symm
      · obtain ⟨b, rfl⟩ := hg _ hg'
        obtain ⟨b', rfl⟩ := hst _ hst'
        simp only [PyVal.typeIsBool, Bool.not_true, Bool.false_eq_true, if_false] at h
        split at h
        · simpa using h.symm
        · simp at h
  · simpa using h.symm

/-- A usable response of the example, and refused ones. -/
example : Usable exCfg exR ∧
    validate exCfg (forwardResp [some 3, some 0] (.int 1) noB) = .error .refused ∧
    validate exCfg (forwardResp [some 1, some 1] (.int 6) noB) = .error .refused ∧
    validate exCfg (forwardResp [some 1, some 1] (.int 5) [none]) = .error .refused ∧
    validate exCfg { exR with speed := none } = .error .refused := by
  refine ⟨⟨⟨![1, 1], rfl, by decide +kernel⟩, ⟨3, rfl, by decide, by decide⟩, ⟨false, rfl⟩,
    ⟨noB, rfl, rfl⟩, ⟨false, rfl⟩⟩, eq_of_beq (by decide +kernel), eq_of_beq (by decide +kernel),
    eq_of_beq (by decide +kernel), eq_of_beq (by decide +kernel)⟩

/-- **C20 fails**: reference points with a NaN entry and reference points with too few entries are
accepted (the former then makes the projection raise a `ValueError`), and non-boolean flags raise a
`TypeError` instead of the method's exception. -/
theorem C20_accepts_unusable :
    validate exCfg (forwardResp [none, some 1] (.int 1) noB) = .ok () ∧
    (answer exCfg (initSt exCfg) (start (initSt exCfg)) (forwardResp [none, some 1] (.int 1) noB)).2 =
      .error .valueError ∧
    validate exCfg (forwardResp [some 1] (.int 1) noB) = .ok () ∧
    validate exCfg (forwardResp [some 1, some 1] (.float (29/10)) noB) = .ok () ∧
    validate exCfg { exR with goToPrevious := some (.int 0) } = .error .typeError ∧
    validate exCfg { exR with stop := some (.str "no") } = .error .typeError :=
  ⟨eq_of_beq (by decide +kernel), eq_of_beq (by decide +kernel), eq_of_beq (by decide +kernel),
    eq_of_beq (by decide +kernel), eq_of_beq (by decide +kernel), eq_of_beq (by decide +kernel)⟩

end Verif.Navigator
