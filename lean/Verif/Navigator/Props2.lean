import Verif.Navigator.Props
import Mathlib.Tactic.FinCases

set_option linter.unusedSectionVars false

/-!
# Properties C15-C20 of NAUTILUS Navigator
-/

namespace Verif.Navigator

variable {K V : Type} [Field K] [LinearOrder K] [IsStrictOrderedRing K] {n k : Nat}

/-! ## C15 -/

/-- **C15** (characterisation, any number of objectives, any history). A forward step does not worsen
the navigation point if and only if the projection it moves to is at least as good as the last shown
navigation point. -/
theorem C15_worsens_iff_projection_worse {c : Cfg n k K V} {s s' : St n k K} {ct0 : Content n k K}
    {l : List (Content n k K)} (h : Reached c s (ct0 :: l)) {ct ct' : Content n k K} {r : Resp K}
    (hg : r.goToPrevious = some (.bool false)) (ha : answer c s ct r = (s', .ok (.nav ct'))) :
    ∃ p, s'.proj = some p ∧
      (AtLeastAsGood ct'.nav ct0.nav ↔ AtLeastAsGood (c.front p) ct0.nav) := by
  have hh := h.head
  have hrem := h.rem_pos
  simp only [St.content, Content.mk.injEq] at hh
  obtain ⟨h1', ql, q, v, ul, s1, p, _, _, _, _, hp, _, hs'⟩ := answer_forward hg ha
  obtain ⟨f1, f2, f3, f4, f5, _⟩ := hp.eq
  refine ⟨p, by rw [hs']; exact hp.proj, ?_⟩
  rw [h1', hs']
  simp only [St.content, move]
  rw [f4, f5, ← hh.2.2.2.2.2.2.2.2]
  exact navPoint_le_iff hrem.1

/-- A forward response without user bounds. -/
def Free (r : Resp K) : Prop :=
  r.goToPrevious = some (.bool false) ∧ r.userBounds = some [none, none]

/-- Invariant of forward navigation with two objectives and no user bounds. -/
structure Good2 (c : Cfg n 2 K V) (s : St n 2 K) : Prop where
  le : ∀ i ∈ s.reach, AtLeastAsGood (c.front i) s.nav
  user : s.userBounds = fun _ => none
  proj : s.step = 1 ∨ ∃ p, s.proj = some p ∧ p ∈ s.reach
  rem : 1 ≤ s.rem

theorem toBounds_free : toBounds 2 ([none, none] : List (Option K)) = fun _ => none := by
  funext j
  fin_cases j <;> rfl

theorem respects_none (f : Vec k K) : Respects (fun _ => none) f := by
  intro j b h; simp at h

theorem Good2.step {c : Cfg n 2 K V} (hnd : MutuallyNondominated c.front) {s s' : St n 2 K}
    {ct ct' : Content n 2 K} {r : Resp K} (hs : Good2 c s) (hr : Free r)
    (ha : answer c s ct r = (s', .ok (.nav ct'))) :
    Good2 c s' ∧ AtLeastAsGood s'.nav s.nav ∧ ct' = s'.content := by
  obtain ⟨h1', ql, q, v, ul, s1, p, _, _, _, hu, hp, _, hs'⟩ := answer_forward hr.1 ha
  rw [hr.2] at hu
  simp only [Option.some.injEq] at hu
  subst hu
  rw [toBounds_free] at hs'
  have hpp := hp.proj
  obtain ⟨f1, f2, f3, f4, f5, f6, _⟩ := hp.eq
  have hpr : p ∈ s.reach := by
    rcases hp with ⟨hnp, _, hp2⟩ | ⟨_, hsol, _⟩
    · rcases hs.proj with h | ⟨p', h2, h3⟩
      · simp [needsProjection, h] at hnp
      · rw [hp2] at h2
        simp only [Option.some.injEq] at h2
        rw [h2]; exact h3
    · exact (solve_ok hsol).1
  have hple := hs.le p hpr
  have hm := navPoint_mono hs.rem hple
  have hnav : s'.nav = navPoint (c.front p) s.nav s.rem := by
    rw [hs']; simp only [move]; rw [f4, f5]
  have hpr' : p ∈ s'.reach := by
    rw [hs']
    refine move_keeps (by rw [f3]; exact hpr) (respects_none _) ?_
    rw [f4, f5]; exact hm.2
  refine ⟨⟨?_, by rw [hs']; rfl, ?_, ?_⟩, by rw [hnav]; exact hm.1, h1'⟩
  · intro i hi
    by_contra hcon
    unfold AtLeastAsGood at hcon
    push Not at hcon
    obtain ⟨j, hj⟩ := hcon
    obtain ⟨r', hr'⟩ : ∃ r' : Fin 2, r' ≠ j ∧ ∀ x, x ≠ r' → x = j := by
      clear hj; revert j; clear * -; decide
    have hlb : s'.lb r' ≤ c.front i r' := by
      have : i ∈ (move c s1 p fun _ => none).reach := by rw [← hs']; exact hi
      simp only [move, mem_reachable] at this
      rw [hs']
      exact (this r').1
    have hlb2 : ∃ g ∈ s.reach, c.front g j ≤ s'.nav j ∧ c.front g r' = s'.lb r' := by
      rw [hnav, hs']
      simp only [move, lowerBounds]
      rw [f3, f4, f5]
      rcases minOr_cases (candidates c.front s.reach (navPoint (c.front p) s.nav s.rem)
        (fun _ => none) r') (s1.lb r') with hc | hc
      · obtain ⟨g, g1, _, g3, g4⟩ := (mem_candidates ..).1 hc.1
        exact ⟨g, g1, g3 j (Ne.symm hr'.1), g4⟩
      · have : c.front p r' ∈ candidates c.front s.reach (navPoint (c.front p) s.nav s.rem)
          (fun _ => none) r' := (mem_candidates ..).2 ⟨p, hpr, respects_none _, fun x _ => hm.2 x, rfl⟩
        rw [hc.1] at this; simp at this
    obtain ⟨g, _, g2, g3⟩ := hlb2
    apply hnd g i
    refine ⟨?_, j, lt_of_le_of_lt g2 hj⟩
    intro x
    by_cases hx : x = r'
    · rw [hx, g3]; exact hlb
    · rw [hr'.2 x hx]
      exact (lt_of_le_of_lt g2 hj).le
  · right
    exact ⟨p, by rw [hs']; exact hpp, hpr'⟩
  · rw [hs']
    simp only [move, f5]
    have := hs.rem
    split <;> omega

theorem run_good2 {c : Cfg n 2 K V} (hnd : MutuallyNondominated c.front) {s s' : St n 2 K}
    {ct ct' : Content n 2 K} {rs : List (Resp K)} (hs : Good2 c s) (hct : ct = s.content)
    (hrs : ∀ r ∈ rs, Free r) (hrun : run c s ct rs = .ok (s', ct')) :
    Good2 c s' ∧ ct' = s'.content := by
  induction rs generalizing s ct with
  | nil =>
    simp only [run, Except.ok.injEq, Prod.mk.injEq] at hrun
    obtain ⟨rfl, rfl⟩ := hrun
    exact ⟨hs, hct⟩
  | cons r rs ih =>
    unfold run at hrun
    split at hrun
    · simp at hrun
    · rename_i s2 ct2 ha
      obtain ⟨a, _, b⟩ := hs.step hnd (hrs r (by simp)) ha
      exact ih a b (fun r hr => hrs r (by simp [hr])) hrun
    · simp at hrun

theorem good2_init {c : Cfg n 2 K V} (hnad : ∀ i, AtLeastAsGood (c.front i) c.nadir) :
    Good2 c (initSt c) :=
  ⟨fun i _ => hnad i, rfl, .inl rfl, by simp [initSt]⟩

/-- **C15** (two objectives, forward steps without user bounds). However the reference point is
changed from step to step, the navigation point never gets worse in any objective. Missing from the
full claim: more objectives, user bounds, and returning to earlier requests - for each of these the
claim is false, see the theorems below. -/
theorem C15_never_worsens_two_objectives_partial {c : Cfg n 2 K V}
    (hnd : MutuallyNondominated c.front) (hnad : ∀ i, AtLeastAsGood (c.front i) c.nadir)
    {rs : List (Resp K)} (hrs : ∀ r ∈ rs, Free r) {s s' : St n 2 K} {ct ct' : Content n 2 K}
    (hrun : run c (initSt c) (start (initSt c)) rs = .ok (s, ct)) {r : Resp K} (hr : Free r)
    (ha : answer c s ct r = (s', .ok (.nav ct'))) : AtLeastAsGood ct'.nav ct.nav := by
  obtain ⟨h1, h2⟩ := run_good2 hnd (good2_init hnad) rfl hrs hrun
  obtain ⟨_, h3, h4⟩ := h1.step hnd hr ha
  rw [h2, h4]
  exact h3

/-- **C15** (any number of objectives, one reference point, any user bounds). If the reference point
is kept from the start, the navigation point never gets worse. -/
theorem C15_never_worsens_constant_reference_partial {c : Cfg n k K V}
    (hnad : ∀ i, AtLeastAsGood (c.front i) c.nadir) {ql : List (Option K)} {rs : List (Resp K)}
    {r : Resp K} (hrs : ∀ r' ∈ rs ++ [r], r'.goToPrevious = some (.bool false) ∧ r'.ref = some ql)
    (h100 : rs.length ≤ 100) {s s' : St n k K} {ct ct' : Content n k K}
    (hrun : run c (initSt c) (start (initSt c)) rs = .ok (s, ct))
    (ha : answer c s ct r = (s', .ok (.nav ct'))) : AtLeastAsGood ct'.nav ct.nav := by
  obtain ⟨h1', ql', q', v, ul, s1, p', hq1, hb, _, hul, hp, hr0, hs'⟩ :=
    answer_forward (hrs r (by simp)).1 ha
  rw [(hrs r (by simp)).2, Option.some.injEq] at hq1
  subst hq1
  obtain ⟨f1, f2, f3, f4, f5, f6, _⟩ := hp.eq
  rcases rs with _ | ⟨r0, rs0⟩
  · simp only [run, Except.ok.injEq, Prod.mk.injEq] at hrun
    obtain ⟨rfl, rfl⟩ := hrun
    rw [h1', hs']
    simp only [St.content, move, start]
    rw [f4, f5]
    exact (navPoint_mono (by simp [initSt]) (hnad p')).1
  · obtain ⟨q, p, hbq, _, hct, hS, _⟩ := straight_of_run (fun r' hr' => hrs r' (by simp at hr' ⊢; tauto))
      (by simp) h100 hrun
    rw [hbq, Except.ok.injEq] at hb
    subst hb
    have hnp : needsProjection s (fun j => some (q j)) = .ok false := by
      simp only [needsProjection, hS.step_ne, if_false, hS.ref, allclose_self]
      rfl
    rcases hp with ⟨_, rfl, hp2⟩ | ⟨hp1, _⟩
    · rw [hS.proj, Option.some.injEq] at hp2
      subst hp2
      rw [h1', hs', hct]
      simp only [St.content, move]
      exact (navPoint_mono (by have := hS.rem; omega) (straight_le (hnad _) h100 hS.nav)).1
    · rw [hnp] at hp1; simp at hp1

/-- The hypotheses are met by the example, in which the reference point changes. -/
example : MutuallyNondominated exCfg.front ∧ (∀ i, AtLeastAsGood (exCfg.front i) exCfg.nadir) ∧
    (∀ r ∈ [exR], Free r) ∧ Free exR2 ∧
    run exCfg (initSt exCfg) (start (initSt exCfg)) [exR] = .ok (exS1, exS1.content) ∧
    answer exCfg exS1 exS1.content exR2 = (exS2, .ok (.nav exS2.content)) :=
  ⟨by decide +kernel, by decide +kernel, by simp [exR, forwardResp, Free, noB], ⟨rfl, rfl⟩,
    by simp [run, ex_step1], ex_step2⟩

/-- Three mutually nondominated rows with three objectives. -/
def exCfg3 : Cfg 3 3 ℚ String :=
  { front := ![![3, 1, 1], ![0, 0, 2], ![0, 2, 0]], ideal := ![0, 0, 0], nadir := ![3, 3, 3],
    vars := none, nrm := supNorm, asf := pointAsf ![0, 0, 0] ![3, 3, 3] }

/-- A response of a forward step with three objectives and no user bounds. -/
def exR3 (a b c : ℚ) : Resp ℚ :=
  forwardResp [some a, some b, some c] (.int 1) [none, none, none]

/-- **C15 fails with three objectives**: two forward steps without user bounds, the reference point is
changed in between, and the second step makes the first objective worse. -/
theorem C15_worsens_three_objectives :
    MutuallyNondominated exCfg3.front ∧ (∀ i, InBox exCfg3.ideal exCfg3.nadir (exCfg3.front i)) ∧
    ∃ (s s' : St 3 3 ℚ) (ct ct' : Content 3 3 ℚ),
      run exCfg3 (initSt exCfg3) (start (initSt exCfg3)) [exR3 0 0 2] = .ok (s, ct) ∧
      answer exCfg3 s ct (exR3 3 1 1) = (s', .ok (.nav ct')) ∧
      ct.nav 0 < ct'.nav 0 := by
  refine ⟨by decide +kernel, by decide +kernel, ?_⟩
  let s := (answer exCfg3 (initSt exCfg3) (start (initSt exCfg3)) (exR3 0 0 2)).1
  let s' := (answer exCfg3 s s.content (exR3 3 1 1)).1
  exact ⟨s, s', s.content, s'.content, eq_of_beq (by decide +kernel), eq_of_beq (by decide +kernel),
    by decide +kernel⟩

/-- **C15 fails with user bounds**, already with two objectives. -/
theorem C15_worsens_with_user_bounds :
    MutuallyNondominated exCfg.front ∧ (∀ i, InBox exCfg.ideal exCfg.nadir (exCfg.front i)) ∧
    ∃ (s s' : St 3 2 ℚ) (ct ct' : Content 3 2 ℚ),
      run exCfg (initSt exCfg) (start (initSt exCfg))
        [forwardResp [some 0, some 2] (.int 1) [none, some (1/2)]] = .ok (s, ct) ∧
      answer exCfg s ct (forwardResp [some 2, some 0] (.int 1) [none, some (1/2)]) = (s', .ok (.nav ct')) ∧
      ct.nav 0 < ct'.nav 0 := by
  refine ⟨by decide +kernel, by decide +kernel, ?_⟩
  let r1 : Resp ℚ := forwardResp [some 0, some 2] (.int 1) [none, some (1/2)]
  let r2 : Resp ℚ := forwardResp [some 2, some 0] (.int 1) [none, some (1/2)]
  let s := (answer exCfg (initSt exCfg) (start (initSt exCfg)) r1).1
  let s' := (answer exCfg s s.content r2).1
  exact ⟨s, s', s.content, s'.content, eq_of_beq (by decide +kernel), eq_of_beq (by decide +kernel),
    by decide +kernel⟩

/-! The counterexample with returning to earlier requests: aim at `(0,2)`, return to the start, aim at
`(2,0)`, return to the request of the first attempt, and go on aiming at `(2,0)`. -/

/-- Aim at `(0,2)`. -/
def bR1 : Resp ℚ := forwardResp [some 0, some 2] (.int 1) noB
/-- Aim at `(2,0)`. -/
def bR2 : Resp ℚ := forwardResp [some 2, some 0] (.int 1) noB
/-- Return to the answered request. -/
def bBack : Resp ℚ := backResp [some 0, some 2] (.int 1) noB
/-- After aiming at `(0,2)`. -/
def bS1 : St 3 2 ℚ := (answer exCfg (initSt exCfg) (start (initSt exCfg)) bR1).1
/-- Back at the start. -/
def bS2 : St 3 2 ℚ := (answer exCfg bS1 (start (initSt exCfg)) bBack).1
/-- After aiming at `(2,0)` instead. -/
def bS3 : St 3 2 ℚ := (answer exCfg bS2 bS2.content bR2).1
/-- Back at the request of the first attempt. -/
def bS4 : St 3 2 ℚ := (answer exCfg bS3 bS1.content bBack).1
/-- Going on from there, aiming at `(2,0)`. -/
def bS5 : St 3 2 ℚ := (answer exCfg bS4 bS4.content bR2).1
/-- Going on from the first attempt directly, aiming at `(2,0)`. -/
def bT : St 3 2 ℚ := (answer exCfg bS1 bS1.content bR2).1

theorem b_1 : answer exCfg (initSt exCfg) (start (initSt exCfg)) bR1 = (bS1, .ok (.nav bS1.content)) :=
  eq_of_beq (by decide +kernel)
theorem b_2 : answer exCfg bS1 (start (initSt exCfg)) bBack = (bS2, .ok (.nav bS2.content)) :=
  eq_of_beq (by decide +kernel)
theorem b_3 : answer exCfg bS2 bS2.content bR2 = (bS3, .ok (.nav bS3.content)) :=
  eq_of_beq (by decide +kernel)
theorem b_4 : answer exCfg bS3 bS1.content bBack = (bS4, .ok (.nav bS4.content)) :=
  eq_of_beq (by decide +kernel)
theorem b_5 : answer exCfg bS4 bS4.content bR2 = (bS5, .ok (.nav bS5.content)) :=
  eq_of_beq (by decide +kernel)
theorem b_T : answer exCfg bS1 bS1.content bR2 = (bT, .ok (.nav bT.content)) :=
  eq_of_beq (by decide +kernel)

theorem b_reached1 : Reached exCfg bS1 [bS1.content, start (initSt exCfg)] :=
  .step .init (List.mem_singleton.2 rfl) b_1

theorem b_reached4 : Reached exCfg bS4
    [bS4.content, bS3.content, bS2.content, bS1.content, start (initSt exCfg)] :=
  .step (.step (.step b_reached1 (by simp) b_2) (by simp [issued]) b_3) (by simp [issued]) b_4

/-- **C15 fails after returning to an earlier request**, with two objectives and no user bounds. -/
theorem C15_worsens_after_returning :
    Reached exCfg bS4 [bS4.content, bS3.content, bS2.content, bS1.content, start (initSt exCfg)] ∧
    answer exCfg bS4 bS4.content bR2 = (bS5, .ok (.nav bS5.content)) ∧
    bR2.goToPrevious = some (.bool false) ∧
    bS4.content.nav 0 < bS5.content.nav 0 :=
  ⟨b_reached4, b_5, rfl, by decide +kernel⟩

/-! ## C16 -/

/-- **C16 fails**: the first response bounds the second objective by `1/2`, but the navigation moves
towards a row whose second objective is `2`. -/
theorem C16_moves_to_row_exceeding_bounds :
    ∃ (s' : St 3 2 ℚ) (p : Fin 3),
      answer exCfg (initSt exCfg) (start (initSt exCfg))
        (forwardResp [some 0, some 2] (.int 1) [none, some (1/2)]) = (s', .ok (.nav s'.content)) ∧
      s'.proj = some p ∧ 1 / 2 < exCfg.front p 1 := by
  let s' := (answer exCfg (initSt exCfg) (start (initSt exCfg))
        (forwardResp [some 0, some 2] (.int 1) [none, some (1/2)])).1
  exact ⟨s', 0, eq_of_beq (by decide +kernel), by decide +kernel, by decide +kernel⟩

/-- Must the reference point `q` be projected in state `s`? The first step, or a changed reference
point. -/
def Reprojects (s : St n k K) (ql : List (Option K)) : Prop :=
  ∃ q, Denotes ql q ∧ (s.step = 1 ∨ ∃ q0, s.ref = some q0 ∧ ¬ Close q q0)

theorem reprojects_of {s : St n k K} {ql : List (Option K)} {q : Vec k (Option K)}
    (hb : broadcast k ql = .ok q)
    (h : s.step = 1 ∨ ∃ q0, s.ref = some q0 ∧ allclose q q0 = false) : Reprojects s ql := by
  refine ⟨q, denotes_of_broadcast hb, h.imp_right ?_⟩
  rintro ⟨q0, h1, h2⟩
  exact ⟨q0, h1, by rw [← allclose_iff, h2]; simp⟩

theorem Reprojects.needs {s : St n k K} {ql : List (Option K)} (h : Reprojects s ql)
    {q : Vec k (Option K)} (hb : broadcast k ql = .ok q) : needsProjection s q = .ok true := by
  obtain ⟨q', hb', h⟩ := h
  replace hb' := broadcast_of_denotes hb'
  rw [hb, Except.ok.injEq] at hb'
  subst hb'
  unfold needsProjection
  rcases h with h | ⟨q0, h1, h2⟩
  · simp [h]
  · split
    · rfl
    · have h3 : allclose q q0 = false := by
        rw [← Bool.not_eq_true, allclose_iff]; exact h2
      simp [h1, h3]

theorem validate_bounds_length {c : Cfg n k K V} {r : Resp K} (h : validate c r = .ok ())
    {ul : List (Option K)} (hu : r.userBounds = some ul) : ul.length = k := by
  unfold validate at h
  split at h
  · rename_i ql v g u st _ _ _ hu' _
    rw [hu, Option.some.injEq] at hu'
    subst hu'
    by_contra hk
    split at h
    · simp at h
    · split at h
      · simp at h
      · split at h
        · simp at h
        · simp at h
  · simp at h

/-- **C16** (shown bounds). Every request issued in reply to a response - a forward step or a return to
an earlier request - shows exactly the user bounds of this response. -/
theorem C16_shows_the_given_bounds {c : Cfg n k K V} {s s' : St n k K} {ct ct' : Content n k K}
    {r : Resp K} {ul : List (Option K)} (hu : r.userBounds = some ul)
    (ha : answer c s ct r = (s', .ok (.nav ct'))) :
    ul.length = k ∧ ∀ j : Fin k, ul[j.val]? = some (ct'.userBounds j) := by
  have hlen : ul.length = k := by
    rcases answer_cases ha with ⟨e, _, _, h⟩ | ⟨_, _, _, h⟩ | ⟨_, hv, _⟩ | ⟨_, _, _, _, hv, _⟩
    · simp at h
    · simp [stopRequest] at h
    · exact validate_bounds_length hv hu
    · exact validate_bounds_length hv hu
  refine ⟨hlen, fun j => ?_⟩
  have hj : ul[j.val]? = some (toBounds k ul j) := by
    unfold toBounds
    rw [List.getElem?_eq_getElem (by rw [hlen]; exact j.2)]
    simp
  obtain ⟨h1, ⟨ul', _, hu', hs⟩ | ⟨_, _, _, ul', _, _, _, _, _, _, hu', _, _, hs⟩⟩ := answer_nav ha <;>
  · rw [hu, Option.some.injEq] at hu'
    subst hu'
    rw [hj, h1, hs]
    rfl

example : exR2.userBounds = some [none, none] ∧
    answer exCfg exS1 exS1.content exR2 = (exS2, .ok (.nav exS2.content)) := ⟨rfl, ex_step2⟩

/-- **C16** (what holds). When the reference point is projected (first step or changed reference
point), the row the navigation moves to respects the user bounds shown in the last request, i.e.
those of the *previous* response. Missing: the bounds of the same response, which the code ignores. -/
theorem C16_respects_previous_bounds_partial {c : Cfg n k K V} {s s' : St n k K} {ct0 : Content n k K}
    {l : List (Content n k K)} (h : Reached c s (ct0 :: l)) {ct ct' : Content n k K} {r : Resp K}
    (hg : r.goToPrevious = some (.bool false)) {ql : List (Option K)} (hq : r.ref = some ql)
    (hre : Reprojects s ql) (ha : answer c s ct r = (s', .ok (.nav ct'))) :
    ∃ p, s'.proj = some p ∧ p ∈ ct0.reach ∧ Respects ct0.userBounds (c.front p) := by
  have hh := h.head
  simp only [St.content, Content.mk.injEq] at hh
  obtain ⟨h1', ql', q, v, ul, s1, p, hq', hb, _, _, hp, _, hs'⟩ := answer_forward hg ha
  rw [hq, Option.some.injEq] at hq'
  subst hq'
  refine ⟨p, by rw [hs']; exact hp.proj, ?_⟩
  rcases hp with ⟨hnp, _⟩ | ⟨_, hsol, _⟩
  · rw [hre.needs hb] at hnp; simp at hnp
  · rw [← hh.2.2.1, ← hh.2.2.2.1]
    exact ⟨(solve_ok hsol).1, (solve_ok hsol).2.1⟩

/-- **C16** (what holds, over two responses). In any history let a response `r0` be answered by a
request, and let the next forward response `r` be projected: then the row the navigation moves to
respects the user bounds given in `r0`. Missing: the bounds given in `r` itself. -/
theorem C16_respects_bounds_of_previous_response_partial {c : Cfg n k K V} {s s0 s' : St n k K}
    {l : List (Content n k K)} (h : Reached c s l) {ct0 ct1 ct ct' : Content n k K} (hct : ct0 ∈ l)
    {r0 r : Resp K} {ul : List (Option K)} (hu : r0.userBounds = some ul)
    (h0 : answer c s ct0 r0 = (s0, .ok (.nav ct1)))
    (hg : r.goToPrevious = some (.bool false)) {ql : List (Option K)} (hq : r.ref = some ql)
    (hre : Reprojects s0 ql) (ha : answer c s0 ct r = (s', .ok (.nav ct'))) :
    ∃ p, s'.proj = some p ∧ p ∈ ct1.reach ∧ RespectsList ul (c.front p) := by
  obtain ⟨p, h1, h2, h3⟩ := C16_respects_previous_bounds_partial (Reached.step h hct h0) hg hq hre ha
  refine ⟨p, h1, h2, fun j b hb => h3 j b ?_⟩
  have := (C16_shows_the_given_bounds hu h0).2 j
  rw [hb, Option.some.injEq] at this
  exact this.symm

example : ∃ p, exS2.proj = some p ∧ p ∈ exS1.content.reach ∧ RespectsList [none, none] (exCfg.front p) :=
  C16_respects_bounds_of_previous_response_partial .init (List.mem_singleton.2 rfl) (r0 := exR) rfl ex_step1
    (r := exR2) rfl rfl (reprojects_of rfl (.inr ⟨fun _ => some 1, eq_of_beq (by decide +kernel),
      by decide +kernel⟩)) ex_step2

example : Reprojects exS1 [some 0, some 2] ∧ exR2.ref = some [some 0, some 2] := by
  refine ⟨reprojects_of rfl (.inr ⟨fun _ => some 1, eq_of_beq (by decide +kernel), by decide +kernel⟩), rfl⟩

end Verif.Navigator
