import Verif.BaseLemmas
import Verif.Spec
import Verif.ENautilus.Model

set_option linter.unusedSectionVars false

namespace Verif.ENautilus

variable {K V : Type} [Field K] [LinearOrder K] [IsStrictOrderedRing K] {n k : Nat}

theorem mem_candidates (front : Fin n → Vec k K) (z : Vec k K) (r : Fin k) (x : K) :
    x ∈ candidates front z r ↔ ∃ i, GoodExcept front z r i ∧ front i r = x := by
  simp [candidates, GoodExcept]

theorem rangeAt_ok_iff (front : Fin n → Vec k K) (z : Vec k K) (r : Fin k) (p : K × K) :
    rangeAt front z r = .ok p ↔ IsMinOver (GoodExcept front z r) (fun i => front i r) p.1 ∧
      IsMaxOver (GoodExcept front z r) (fun i => front i r) p.2 := by
  obtain ⟨a, b⟩ := p
  have h1 : npMin (candidates front z r) = .ok a ↔
      IsMinOver (GoodExcept front z r) (fun i => front i r) a := by
    rw [npMin_ok_iff]
    constructor
    · rintro ⟨h, h'⟩
      exact ⟨(mem_candidates _ _ _ _).1 h, fun i hi => h' _ ((mem_candidates _ _ _ _).2 ⟨i, hi, rfl⟩)⟩
    · rintro ⟨h, h'⟩
      refine ⟨(mem_candidates _ _ _ _).2 h, ?_⟩
      intro x hx
      obtain ⟨i, hi, rfl⟩ := (mem_candidates _ _ _ _).1 hx
      exact h' i hi
  have h2 : npMax (candidates front z r) = .ok b ↔
      IsMaxOver (GoodExcept front z r) (fun i => front i r) b := by
    rw [npMax_ok_iff]
    constructor
    · rintro ⟨h, h'⟩
      exact ⟨(mem_candidates _ _ _ _).1 h, fun i hi => h' _ ((mem_candidates _ _ _ _).2 ⟨i, hi, rfl⟩)⟩
    · rintro ⟨h, h'⟩
      refine ⟨(mem_candidates _ _ _ _).2 h, ?_⟩
      intro x hx
      obtain ⟨i, hi, rfl⟩ := (mem_candidates _ _ _ _).1 hx
      exact h' i hi
  rw [← h1, ← h2]
  unfold rangeAt
  cases npMin (candidates front z r) <;> cases npMax (candidates front z r) <;> simp

theorem rangeAt_error {front : Fin n → Vec k K} {z : Vec k K} {r : Fin k} {e : Err}
    (h : rangeAt front z r = .error e) : e = .valueError ∧ ∀ i, ¬ GoodExcept front z r i := by
  have key : candidates front z r = [] → ∀ i, ¬ GoodExcept front z r i := by
    intro h1 i hi
    have := (mem_candidates front z r _).2 ⟨i, hi, rfl⟩
    rw [h1] at this
    simp at this
  unfold rangeAt at h
  cases h1 : npMin (candidates front z r) with
  | error e1 =>
    rw [h1] at h
    simp only [Except.error.injEq] at h
    obtain ⟨h3, h4⟩ := (npMin_error_iff _ _).1 h1
    exact ⟨h ▸ h4, key h3⟩
  | ok a =>
    rw [h1] at h
    cases h2 : npMax (candidates front z r) with
    | error e1 =>
      rw [h2] at h
      simp only [Except.error.injEq] at h
      obtain ⟨h3, h4⟩ := (npMax_error_iff _ _).1 h2
      exact ⟨h ▸ h4, key h3⟩
    | ok b => rw [h2] at h; simp at h

theorem boundsAt_ok_iff (front : Fin n → Vec k K) (z lo hi : Vec k K) :
    boundsAt front z = .ok (lo, hi) ↔ ExactBounds front z lo hi := by
  unfold boundsAt ExactBounds
  cases hb : vecM (rangeAt front z) with
  | error e =>
    simp only [reduceCtorEq, false_iff]
    intro hall
    have : vecM (rangeAt front z) = .ok (fun r => (lo r, hi r)) :=
      (vecM_ok_iff _ _).2 (fun r => (rangeAt_ok_iff front z r _).2 (hall r))
    rw [hb] at this
    simp at this
  | ok b =>
    have hb' := (vecM_ok_iff _ _).1 hb
    simp only [Except.ok.injEq, Prod.mk.injEq]
    constructor
    · rintro ⟨rfl, rfl⟩ r
      exact (rangeAt_ok_iff front z r _).1 (hb' r)
    · intro hall
      have : ∀ r, b r = (lo r, hi r) := by
        intro r
        have h1 := (rangeAt_ok_iff front z r (lo r, hi r)).2 (hall r)
        rw [hb' r] at h1
        simpa using h1
      exact ⟨funext fun r => by rw [this], funext fun r => by rw [this]⟩

theorem boundsAt_error {front : Fin n → Vec k K} {z : Vec k K} {e : Err}
    (h : boundsAt front z = .error e) :
    e = .valueError ∧ ∃ r, ∀ i, ¬ GoodExcept front z r i := by
  unfold boundsAt at h
  cases hb : vecM (rangeAt front z) with
  | error e' =>
    rw [hb] at h
    simp only [Except.error.injEq] at h
    obtain ⟨r, hr⟩ := vecM_error hb
    obtain ⟨h1, h2⟩ := rangeAt_error hr
    exact ⟨h ▸ h1, r, h2⟩
  | ok b => rw [hb] at h; simp at h

theorem mem_reachable (front : Fin n → Vec k K) (lb ub : Vec k K) (i : Fin n) :
    i ∈ reachable front lb ub ↔ InBox lb ub (front i) := by
  simp [reachable, InBox, forall_and]

theorem reachable_sorted (front : Fin n → Vec k K) (lb ub : Vec k K) :
    (reachable front lb ub).Pairwise (· < ·) := by
  unfold reachable
  exact List.Pairwise.filter _ (List.pairwise_lt_finRange n)

theorem mapE_mem {α β : Type} {f : α → Except Err β} {l : List α} {r : List β} (h : mapE f l = .ok r) :
    ∀ b ∈ r, ∃ a ∈ l, f a = .ok b := by
  have h2 := (mapE_ok_iff _ _ _).1 h
  clear h
  intro b hb
  induction h2 with
  | nil => simp at hb
  | cons hab _ ih =>
    rcases List.mem_cons.1 hb with rfl | hb
    · exact ⟨_, by simp, hab⟩
    · obtain ⟨x, hx, hx'⟩ := ih hb
      exact ⟨x, by simp [hx], hx'⟩

theorem representative_mem {front : Fin n → Vec k K} {subset : List (Fin n)} {nPts : Int}
    {km : KMeans k K} {zbars : List (Vec k K)} (h : representative front subset nPts km = .ok zbars) :
    ∀ zb ∈ zbars, ∃ i ∈ subset, front i = zb := by
  unfold representative at h
  dsimp only at h
  split at h
  · intro zb hzb
    obtain ⟨a, _, ha⟩ := mapE_mem h zb hzb
    simpa using pyGet_mem ha
  · simp only [Except.ok.injEq] at h
    subst h
    intro zb hzb
    simpa using hzb

/-- Each shown point comes with its exact bounds. -/
def GoodBounds (front : Fin n → Vec k K) (ct : Content k K) : Prop :=
  ct.lowers.length = ct.points.length ∧ ct.uppers.length = ct.points.length ∧
  ∀ (i : Nat) (z lo hi : Vec k K), ct.points[i]? = some z → ct.lowers[i]? = some lo →
    ct.uppers[i]? = some hi → ExactBounds front z lo hi

theorem bounds_good {front : Fin n → Vec k K} {zs lo hi : List (Vec k K)}
    (h : bounds front zs = .ok (lo, hi)) (left : Int) (ds : List (Fl K)) :
    GoodBounds front ⟨zs, lo, hi, left, ds⟩ := by
  unfold bounds at h
  cases hb : mapE (boundsAt front) zs with
  | error e => rw [hb] at h; simp at h
  | ok bs =>
    rw [hb] at h
    simp only [Except.ok.injEq, Prod.mk.injEq] at h
    obtain ⟨rfl, rfl⟩ := h
    have hl := mapE_length hb
    have h2 := (mapE_ok_iff _ _ _).1 hb
    refine ⟨by simp [hl], by simp [hl], ?_⟩
    intro i z lo hi hz hlo hhi
    simp only [List.getElem?_map, Option.map_eq_some_iff] at hlo hhi
    obtain ⟨b, hb1, rfl⟩ := hlo
    obtain ⟨b', hb2, rfl⟩ := hhi
    rw [hb1] at hb2
    simp only [Option.some.injEq] at hb2
    subst hb2
    have h3 := (List.forall₂_iff_get.1 h2).2 i
      (List.getElem?_eq_some_iff.1 hz).1 (List.getElem?_eq_some_iff.1 hb1).1
    have e1 := (List.getElem?_eq_some_iff.1 hz).2
    have e2 := (List.getElem?_eq_some_iff.1 hb1).2
    simp only [List.get_eq_getElem] at h3
    rw [e1, e2] at h3
    exact (boundsAt_ok_iff _ _ _ _).1 h3

theorem compute_ok {c : Cfg n k K V} {reach : List (Fin n)} {pref : Vec k K} {nP left : Int}
    {km : KMeans k K} {ct : Content k K} (h : compute c reach pref nP left km = .ok ct) :
    left ≠ 0 ∧ ct.left = left ∧ GoodBounds c.front ct ∧
    ∃ zbars, representative c.front reach nP km = .ok zbars ∧
      ct.points = zbars.map (fun zb => intermediatePoint pref zb left) ∧
      ct.distances = distances c.nrm ct.points zbars c.nadir := by
  unfold compute at h
  cases hr : representative c.front reach nP km with
  | error e => rw [hr] at h; simp at h
  | ok zbars =>
    rw [hr] at h
    dsimp only at h
    by_cases hl : left = 0
    · simp [intermediate, hl] at h
    · simp only [intermediate, hl, if_false] at h
      cases hb : bounds c.front (zbars.map fun zb => intermediatePoint pref zb left) with
      | error e => rw [hb] at h; simp at h
      | ok p =>
        obtain ⟨lo, hi⟩ := p
        rw [hb] at h
        simp only [Except.ok.injEq] at h
        subst h
        exact ⟨hl, rfl, bounds_good hb _ _, zbars, rfl, rfl, rfl⟩

theorem mkRequest_ok {ct : Content k K} {o : Out k K V} (h : mkRequest ct = .ok o) :
    o = .points ct ∧ ∃ m, maxIndex ct.points = .ok m := by
  unfold mkRequest at h
  cases hm : maxIndex ct.points with
  | error e => rw [hm] at h; simp at h
  | ok m =>
    rw [hm] at h
    simp only [Except.ok.injEq] at h
    exact ⟨h.symm, m, rfl⟩

theorem mkRequest_of {ct : Content k K} (h : ∃ m, maxIndex ct.points = .ok m) :
    mkRequest ct = .ok (.points ct : Out k K V) := by
  obtain ⟨m, hm⟩ := h
  simp [mkRequest, hm]

/-- What a successful call on the initial request does. -/
theorem begin_ok {c : Cfg n k K V} {s s' : St n k K} {r : InitResp} {km : KMeans k K} {o : Out k K V}
    (h : begin c s r km = (s', .ok o)) :
    ∃ nIt nP ct, r.nIterations = some nIt ∧ r.nPoints = some nP ∧ 1 ≤ nIt.asInt ∧ 1 ≤ nP.asInt ∧
      o = .points ct ∧ (∃ m, maxIndex ct.points = .ok m) ∧
      compute c s.reach c.nadir nP.asInt nIt.asInt km = .ok ct ∧
      s' = { s with left := some nIt.asInt, nPoints := some nP.asInt, preferred := some c.nadir } := by
  unfold begin at h
  cases hv : validateInitial r with
  | error e => rw [hv] at h; simp at h
  | ok u =>
    rw [hv] at h
    dsimp only at h
    unfold validateInitial at hv
    unfold handleInitial at h
    cases h1 : r.nIterations with
    | none => rw [h1] at hv; simp at hv
    | some nIt =>
      cases h2 : r.nPoints with
      | none => rw [h1, h2] at hv; simp at hv
      | some nP =>
        rw [h1, h2] at hv h
        dsimp only at hv h
        have hn : 1 ≤ nIt.asInt := by
          by_contra hc
          simp [show nIt.asInt < 1 by omega] at hv
        have hp : 1 ≤ nP.asInt := by
          by_contra hc
          rw [show decide (nP.asInt < 1) = true by simp; omega] at hv
          split at hv <;> simp at hv
        cases hc : compute c s.reach c.nadir nP.asInt nIt.asInt km with
        | error e => rw [hc] at h; simp at h
        | ok ct =>
          rw [hc] at h
          simp only [Prod.mk.injEq] at h
          obtain ⟨rfl, h⟩ := h
          obtain ⟨rfl, hm⟩ := mkRequest_ok h
          exact ⟨nIt, nP, ct, rfl, rfl, hn, hp, rfl, hm, hc, rfl⟩

/-- What a successful call that does not step back does. -/
theorem answer_choice_ok {c : Cfg n k K V} {s s' : St n k K} {ct : Content k K} {r : Resp k K}
    {km : KMeans k K} {o : Out k K V}
    (h : answer c s ct r km = (s', .ok o)) (hsb : r.stepBack = some false) :
    ∃ i z left, r.preferredIndex = some i ∧ 0 ≤ i ∧ ct.points[i.toNat]? = some z ∧ s.left = some left ∧
      ((left ≤ 1 ∧ ∃ sol, findSolution c z = .ok sol ∧ o = .stop z sol ∧
          s' = { s with preferred := some z, left := some 0 }) ∨
       (1 < left ∧ ∃ lo hi ch left' nP ct',
          ct.lowers[i.toNat]? = some lo ∧ ct.uppers[i.toNat]? = some hi ∧
          r.changeRemaining = some ch ∧ (if ch then r.iterationsLeft else some (left - 1)) = some left' ∧
          s.nPoints = some nP ∧
          compute c (reachable c.front lo hi) z nP left' km = .ok ct' ∧
          o = .points ct' ∧ (∃ m, maxIndex ct'.points = .ok m) ∧
          s' = { preferred := some z, lb := lo, ub := hi, reach := reachable c.front lo hi,
                 nPoints := s.nPoints, left := some left' })) := by
  unfold answer at h
  cases hv : validate ct r with
  | error e => rw [hv] at h; simp at h
  | ok u =>
    rw [hv] at h
    dsimp only at h
    unfold handle at h
    rw [hsb] at h
    dsimp only at h
    unfold handleChoice at h
    cases hi : r.preferredIndex with
    | none => rw [hi] at h; simp at h
    | some i =>
      rw [hi] at h
      dsimp only at h
      have hi0 : 0 ≤ i := by
        by_contra hc
        unfold validate at hv
        rw [hi, hsb] at hv
        cases hch : r.changeRemaining with
        | none => rw [hch] at hv; simp at hv
        | some ch =>
          rw [hch] at hv
          simp only [Bool.not_false, if_true] at hv
          split at hv
          · simp at hv
          · simp [show i < 0 by omega] at hv
      cases hz : pyGet ct.points i with
      | error e => rw [hz] at h; simp at h
      | ok z =>
        rw [hz] at h
        dsimp only at h
        have hz' := (pyGet_ok hi0).1 hz
        cases hl : s.left with
        | none => rw [hl] at h; simp at h
        | some left =>
          rw [hl] at h
          dsimp only at h
          refine ⟨i, z, left, rfl, hi0, hz', rfl, ?_⟩
          by_cases hle : left ≤ 1
          · left
            simp only [hle, if_true, handleStop] at h
            cases hf : findSolution c z with
            | error e => rw [hf] at h; simp at h
            | ok sol =>
              rw [hf] at h
              simp only [Prod.mk.injEq, Except.ok.injEq] at h
              exact ⟨hle, sol, rfl, h.2.symm, h.1.symm⟩
          · right
            simp only [hle, if_false] at h
            cases hlo : pyGet ct.lowers i with
            | error e => rw [hlo] at h; simp at h
            | ok lo =>
              rw [hlo] at h
              dsimp only at h
              cases hhi : pyGet ct.uppers i with
              | error e => rw [hhi] at h; simp at h
              | ok hi =>
                rw [hhi] at h
                dsimp only at h
                cases hch : r.changeRemaining with
                | none => rw [hch] at h; simp at h
                | some ch =>
                  rw [hch] at h
                  dsimp only at h
                  cases hl' : (if ch = true then r.iterationsLeft else some (left - 1)) with
                  | none => rw [hl'] at h; simp at h
                  | some left' =>
                    rw [hl'] at h
                    dsimp only at h
                    cases hp : s.nPoints with
                    | none => rw [hp] at h; simp at h
                    | some nP =>
                      rw [hp] at h
                      dsimp only at h
                      cases hc : compute c (reachable c.front lo hi) z nP left' km with
                      | error e => rw [hc] at h; simp at h
                      | ok ct' =>
                        rw [hc] at h
                        simp only [Prod.mk.injEq] at h
                        obtain ⟨h1, h2⟩ := h
                        obtain ⟨rfl, hm⟩ := mkRequest_ok h2
                        exact ⟨by omega, lo, hi, ch, left', nP, ct', (pyGet_ok hi0).1 hlo,
                          (pyGet_ok hi0).1 hhi, rfl, hl', rfl, hc, rfl, hm, h1.symm⟩

/-- What a successful call that steps back does. -/
theorem answer_back_ok {c : Cfg n k K V} {s s' : St n k K} {ct : Content k K} {r : Resp k K}
    {km : KMeans k K} {o : Out k K V}
    (h : answer c s ct r km = (s', .ok o)) (hsb : r.stepBack = some true) :
    ∃ ct', r.prevSolutions = some ct'.points ∧ r.prevLower = some ct'.lowers ∧
      r.prevUpper = some ct'.uppers ∧ r.iterationsLeft = some ct'.left ∧
      r.prevDistances = some ct'.distances ∧ (∃ m, maxIndex ct'.points = .ok m) ∧
      o = .points ct' ∧ s' = { s with left := some ct'.left } := by
  unfold answer at h
  cases hv : validate ct r with
  | error e => rw [hv] at h; simp at h
  | ok u =>
    rw [hv] at h
    dsimp only at h
    unfold handle at h
    rw [hsb] at h
    dsimp only at h
    unfold handleBack at h
    cases h1 : r.prevSolutions with
    | none => rw [h1] at h; simp at h
    | some zs =>
    cases h2 : r.prevLower with
    | none => rw [h1, h2] at h; simp at h
    | some lo =>
    cases h3 : r.prevUpper with
    | none => rw [h1, h2, h3] at h; simp at h
    | some hi =>
    cases h4 : r.iterationsLeft with
    | none => rw [h1, h2, h3, h4] at h; simp at h
    | some left =>
    cases h5 : r.prevDistances with
    | none => rw [h1, h2, h3, h4, h5] at h; simp at h
    | some ds =>
      rw [h1, h2, h3, h4, h5] at h
      simp only [Prod.mk.injEq] at h
      obtain ⟨h6, h7⟩ := h
      obtain ⟨rfl, hm⟩ := mkRequest_ok h7
      exact ⟨⟨zs, lo, hi, left, ds⟩, rfl, rfl, rfl, rfl, rfl, hm, rfl, h6.symm⟩

theorem intermediatePoint_between (pref zb : Vec k K) {left : Int} (hl : 1 ≤ left) :
    Between pref zb (intermediatePoint pref zb left) := by
  intro j
  have hK : (1 : K) ≤ (left : K) := by exact_mod_cast hl
  have hpos : (0 : K) < (left : K) := lt_of_lt_of_le one_pos hK
  unfold intermediatePoint
  have e : (((left : K) - 1) / left) * pref j + (1 / (left : K)) * zb j =
      (((left : K) - 1) * pref j + zb j) / left := by
    field_simp
  rw [e, le_div_iff₀ hpos, div_le_iff₀ hpos]
  have h1 := min_le_left (pref j) (zb j)
  have h2 := min_le_right (pref j) (zb j)
  have h3 := le_max_left (pref j) (zb j)
  have h4 := le_max_right (pref j) (zb j)
  have h0 : 0 ≤ (left : K) - 1 := by linarith
  constructor <;> nlinarith [mul_le_mul_of_nonneg_left h1 h0, mul_le_mul_of_nonneg_left h3 h0]

theorem intermediatePoint_one (pref zb : Vec k K) : intermediatePoint pref zb 1 = zb := by
  funext j; simp [intermediatePoint]

end Verif.ENautilus
