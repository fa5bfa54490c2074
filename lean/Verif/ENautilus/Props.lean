import Verif.ENautilus.Lemmas
import Verif.ENautilus.ExampleData

/-!
# E-NAUTILUS: properties C01 - C10

A history is described by `Reached`: the states and requests produced from the initial state by
answering each request in turn, with any valid choice, any (positive) change of the remaining
iterations and any step back to a request issued earlier. The k-means outcome is arbitrary at every call.
-/

set_option linter.unusedSectionVars false

namespace Verif.ENautilus

variable {K V : Type} [Field K] [LinearOrder K] [IsStrictOrderedRing K] {n k : Nat}

/-- The response that steps back to an earlier request `ct`. -/
def IsStepBackTo (r : Resp k K) (ct : Content k K) : Prop :=
  r.stepBack = some true ∧ r.prevSolutions = some ct.points ∧ r.prevLower = some ct.lowers ∧
  r.prevUpper = some ct.uppers ∧ r.iterationsLeft = some ct.left ∧ r.prevDistances = some ct.distances

/-- If the response asks to change the number of remaining iterations, the new number is positive. -/
def PositiveChange (r : Resp k K) : Prop :=
  r.changeRemaining = some true → ∀ m, r.iterationsLeft = some m → 1 ≤ m

/-- `Reached c s o hist`: the method is in state `s`, `o` is the request returned last, and `hist`
are the point requests issued so far. -/
inductive Reached (c : Cfg n k K V) : St n k K → Out k K V → List (Content k K) → Prop
  | start {r : InitResp} {km : KMeans k K} {s : St n k K} {ct : Content k K}
      (h : begin c (initSt c) r km = (s, .ok (.points ct))) : Reached c s (.points ct) [ct]
  | choose {s s' : St n k K} {ct ct' : Content k K} {hist : List (Content k K)} {r : Resp k K}
      {km : KMeans k K} (hr : Reached c s (.points ct) hist) (hsb : r.stepBack = some false)
      (hpos : PositiveChange r) (h : answer c s ct r km = (s', .ok (.points ct'))) :
      Reached c s' (.points ct') (ct' :: hist)
  | finish {s s' : St n k K} {ct : Content k K} {hist : List (Content k K)} {r : Resp k K}
      {km : KMeans k K} {z : Vec k K} {sol : Option V} (hr : Reached c s (.points ct) hist)
      (hsb : r.stepBack = some false) (h : answer c s ct r km = (s', .ok (.stop z sol))) :
      Reached c s' (.stop z sol) hist
  | back {s s' : St n k K} {ct ct' : Content k K} {o : Out k K V} {hist : List (Content k K)}
      {r : Resp k K} {km : KMeans k K} (hr : Reached c s (.points ct) hist) (hmem : ct' ∈ hist)
      (hb : IsStepBackTo r ct') (h : answer c s ct r km = (s', .ok o)) : Reached c s' o hist

/-! ## Invariant of all histories (helper, not a property) -/

/-- A request as the method issues it. -/
structure Proper (c : Cfg n k K V) (ct : Content k K) : Prop where
  left_pos : 1 ≤ ct.left
  good : GoodBounds c.front ct
  one : ct.left = 1 → ∀ z ∈ ct.points, ∃ i, c.front i = z
  len : ∃ m, maxIndex ct.points = .ok m

theorem compute_proper {c : Cfg n k K V} {reach : List (Fin n)} {pref : Vec k K} {nP left : Int}
    {km : KMeans k K} {ct : Content k K} (h : compute c reach pref nP left km = .ok ct)
    (hl : 1 ≤ left) (hm : ∃ m, maxIndex ct.points = .ok m) : Proper c ct := by
  obtain ⟨_, h1, h2, zbars, h3, h4, _⟩ := compute_ok h
  refine ⟨h1 ▸ hl, h2, ?_, hm⟩
  intro h5 z hz
  rw [h1] at h5
  subst h5
  rw [h4] at hz
  obtain ⟨zb, hzb, rfl⟩ := List.mem_map.1 hz
  obtain ⟨i, _, hi⟩ := representative_mem h3 zb hzb
  exact ⟨i, by rw [hi, intermediatePoint_one]⟩

theorem choice_left_pos {r : Resp k K} {ch : Bool} {left left' : Int} (hpos : PositiveChange r)
    (hch : r.changeRemaining = some ch) (hlt : 1 < left)
    (h : (if ch = true then r.iterationsLeft else some (left - 1)) = some left') : 1 ≤ left' := by
  cases ch with
  | true => exact hpos hch left' (by simpa using h)
  | false => simp at h; omega

theorem Reached.invariant {c : Cfg n k K V} {s : St n k K} {o : Out k K V} {hist : List (Content k K)}
    (h : Reached c s o hist) :
    (∀ ct ∈ hist, Proper c ct) ∧ ∀ ct, o = .points ct → ct ∈ hist ∧ s.left = some ct.left := by
  induction h with
  | start h =>
    rename_i r km s ct
    obtain ⟨nIt, nP, ct', _, _, h1, _, h2, h3, h4, h5⟩ := begin_ok h
    simp only [Out.points.injEq] at h2
    subst h2
    refine ⟨?_, ?_⟩
    · intro x hx
      simp only [List.mem_singleton] at hx
      subst hx
      exact compute_proper h4 h1 h3
    · intro x hx
      simp only [Out.points.injEq] at hx
      subst hx
      exact ⟨by simp, by rw [h5, (compute_ok h4).2.1]⟩
  | choose hr hsb hpos h ih =>
    rename_i s s' ct ct' hist r km
    obtain ⟨i, z, left, _, _, _, hl, h1 | h1⟩ := answer_choice_ok h hsb
    · obtain ⟨_, sol, _, h2, _⟩ := h1
      simp at h2
    · obtain ⟨hlt, lo, hi, ch, left', nP, ct'', _, _, hch, hl', _, hc, ho, hm, hs⟩ := h1
      simp only [Out.points.injEq] at ho
      subst ho
      refine ⟨?_, ?_⟩
      · intro x hx
        rcases List.mem_cons.1 hx with rfl | hx
        · exact compute_proper hc (choice_left_pos hpos hch hlt hl') hm
        · exact ih.1 x hx
      · intro x hx
        simp only [Out.points.injEq] at hx
        subst hx
        exact ⟨by simp, by rw [hs, (compute_ok hc).2.1]⟩
  | finish hr hsb h ih => exact ⟨ih.1, by simp⟩
  | back hr hmem hb h ih =>
    rename_i s s' ct ct' o hist r km
    obtain ⟨ct2, h1, h2, h3, h4, h5, h6, h7, h8⟩ := answer_back_ok h hb.1
    have e : ct2 = ct' := by
      obtain ⟨_, b1, b2, b3, b4, b5⟩ := hb
      rw [b1] at h1; rw [b2] at h2; rw [b3] at h3; rw [b4] at h4; rw [b5] at h5
      simp only [Option.some.injEq] at h1 h2 h3 h4 h5
      cases ct2; cases ct'
      simp_all
    subst e
    refine ⟨ih.1, ?_⟩
    intro x hx
    rw [h7] at hx
    simp only [Out.points.injEq] at hx
    subst hx
    exact ⟨hmem, by rw [h8]⟩

/-! The running example of `ExampleData` is a history in this sense. -/

theorem ex_reached0 : Reached exCfg exS0 (.points exCt0) [exCt0] := .start ex_begin

theorem ex_reached1 : Reached exCfg exS1 (.points exCt1) [exCt1, exCt0] :=
  .choose ex_reached0 rfl (by simp [PositiveChange, chooseResp]) ex_choose

theorem ex_reached2 : Reached exCfg { exS1 with preferred := some ![1, 1], left := some 0 }
    (.stop ![1, 1] (some "b")) [exCt1, exCt0] := .finish ex_reached1 rfl ex_stop

/-! ## C01 -/

/-- **C01** (first request). Every point shown first lies between the nadir and a row of the
front; if a single iteration was asked for, it is that row. -/
theorem C01_initial_points_between {c : Cfg n k K V} {r : InitResp} {km : KMeans k K} {s : St n k K}
    {ct : Content k K} (h : begin c (initSt c) r km = (s, .ok (.points ct))) :
    ∀ z' ∈ ct.points, ∃ i, Between c.nadir (c.front i) z' ∧ (ct.left = 1 → z' = c.front i) := by
  obtain ⟨nIt, nP, ct', _, _, h1, _, h2, h3, h4, h5⟩ := begin_ok h
  simp only [Out.points.injEq] at h2
  subst h2
  obtain ⟨_, hl, _, zbars, h6, h7, _⟩ := compute_ok h4
  intro z' hz'
  rw [h7] at hz'
  obtain ⟨zb, hzb, rfl⟩ := List.mem_map.1 hz'
  obtain ⟨i, _, rfl⟩ := representative_mem h6 zb hzb
  refine ⟨i, intermediatePoint_between _ _ h1, ?_⟩
  intro he
  rw [hl] at he
  rw [he, intermediatePoint_one]

/-- **C01** (later requests). Every point shown after choosing point `z` (with bounds `lo`, `hi`)
lies between `z` and a row of the front inside these bounds; with one iteration left it is that row. -/
theorem C01_points_between {c : Cfg n k K V} {s s' : St n k K} {ct ct' : Content k K} {r : Resp k K}
    {km : KMeans k K} (hsb : r.stepBack = some false)
    (h : answer c s ct r km = (s', .ok (.points ct'))) (hleft : 1 ≤ ct'.left) :
    ∃ (i : Nat) (z lo hi : Vec k K), r.preferredIndex = some (i : Int) ∧ ct.points[i]? = some z ∧
      ct.lowers[i]? = some lo ∧ ct.uppers[i]? = some hi ∧
      ∀ z' ∈ ct'.points, ∃ row, InBox lo hi (c.front row) ∧ Between z (c.front row) z' ∧
        (ct'.left = 1 → z' = c.front row) := by
  obtain ⟨i, z, left, hi, hi0, hz, hl, h1 | h1⟩ := answer_choice_ok h hsb
  · obtain ⟨_, sol, _, h2, _⟩ := h1
    simp at h2
  · obtain ⟨hlt, lo, hi', ch, left', nP, ct'', hlo, hhi, hch, hl', _, hc, ho, hm, hs⟩ := h1
    simp only [Out.points.injEq] at ho
    subst ho
    obtain ⟨_, hle, _, zbars, h6, h7, _⟩ := compute_ok hc
    refine ⟨i.toNat, z, lo, hi', by rw [hi, Int.toNat_of_nonneg hi0], hz, hlo, hhi, ?_⟩
    intro z' hz'
    rw [h7] at hz'
    obtain ⟨zb, hzb, rfl⟩ := List.mem_map.1 hz'
    obtain ⟨row, hrow, rfl⟩ := representative_mem h6 zb hzb
    refine ⟨row, (mem_reachable _ _ _ _).1 hrow, intermediatePoint_between _ _ (hle ▸ hleft), ?_⟩
    intro he
    rw [hle] at he
    rw [he, intermediatePoint_one]

/-- The hypotheses of C01 are met by the running example (three points at first, then one). -/
example : begin exCfg (initSt exCfg) exInit noKm = (exS0, .ok (.points exCt0)) ∧ exCt0.points.length = 3 ∧
    answer exCfg exS0 exCt0 (chooseResp 1) noKm = (exS1, .ok (.points exCt1)) ∧ 1 ≤ exCt1.left :=
  ⟨ex_begin, rfl, ex_choose, by decide⟩

/-! ## C02 -/

/-- **C02** (exactness). In every history, each point of the current request comes with bounds that
are exactly the range of each objective over the rows at least as good as the point in all other
objectives. -/
theorem C02_bounds_exact {c : Cfg n k K V} {s : St n k K} {ct : Content k K} {hist : List (Content k K)}
    (h : Reached c s (.points ct) hist) (i : Nat) (z : Vec k K) (hz : ct.points[i]? = some z) :
    ∃ lo hi, ct.lowers[i]? = some lo ∧ ct.uppers[i]? = some hi ∧ ExactBounds c.front z lo hi := by
  obtain ⟨h1, h2⟩ := h.invariant
  have hp := h1 ct (h2 ct rfl).1
  obtain ⟨e1, e2, e3⟩ := hp.good
  have hi := (List.getElem?_eq_some_iff.1 hz).1
  refine ⟨ct.lowers[i], ct.uppers[i], by simp [e1, hi], by simp [e2, hi], ?_⟩
  exact e3 i z _ _ hz (by simp [e1, hi]) (by simp [e2, hi])

/-- **C02** (nothing attainable is cut off). If point `i` of the current request is chosen and the
method goes on, every row that is at least as good as that point in all objectives is among the
reachable rows. -/
theorem C02_attainable_rows_stay_reachable {c : Cfg n k K V} {s s' : St n k K} {ct ct' : Content k K}
    {hist : List (Content k K)} (h : Reached c s (.points ct) hist) {r : Resp k K} {km : KMeans k K}
    (hsb : r.stepBack = some false) (ha : answer c s ct r km = (s', .ok (.points ct')))
    {i : Nat} {z : Vec k K} (hi : r.preferredIndex = some (i : Int)) (hz : ct.points[i]? = some z)
    (row : Fin n) (hrow : AtLeastAsGood (c.front row) z) : row ∈ s'.reach := by
  obtain ⟨lo, hi', hlo, hhi, hex⟩ := C02_bounds_exact h i z hz
  obtain ⟨i', z', left, h1, hi0, hz', hl, h2 | h2⟩ := answer_choice_ok ha hsb
  · obtain ⟨_, sol, _, h3, _⟩ := h2
    simp at h3
  · obtain ⟨hlt, lo2, hi2, ch, left', nP, ct'', hlo2, hhi2, hch, hl', _, hc, ho, hm, hs⟩ := h2
    rw [hi] at h1
    simp only [Option.some.injEq] at h1
    subst h1
    simp only [Int.toNat_natCast] at hlo2 hhi2
    rw [hlo] at hlo2
    rw [hhi] at hhi2
    simp only [Option.some.injEq] at hlo2 hhi2
    subst hlo2 hhi2
    rw [hs]
    refine (mem_reachable _ _ _ _).2 fun j => ⟨?_, ?_⟩
    · exact (hex j).1.2 row (fun j' _ => hrow j')
    · exact (hex j).2.2 row (fun j' _ => hrow j')

/-- **C02** (failure). Computing the bounds raises exactly if for some point and some objective
no row is at least as good as the point in all other objectives; the exception is `ValueError`. -/
theorem C02_bounds_fail_iff (front : Fin n → Vec k K) (zs : List (Vec k K)) (e : Err) :
    bounds front zs = .error e ↔
      e = .valueError ∧ ∃ z ∈ zs, ∃ r, ∀ i, ¬ GoodExcept front z r i := by
  constructor
  · intro h
    unfold bounds at h
    cases hb : mapE (boundsAt front) zs with
    | ok bs => rw [hb] at h; simp at h
    | error e' =>
      rw [hb] at h
      simp only [Except.error.injEq] at h
      subst h
      obtain ⟨z, hz, hz'⟩ := mapE_error hb
      obtain ⟨h1, h2⟩ := boundsAt_error hz'
      exact ⟨h1, z, hz, h2⟩
  · rintro ⟨rfl, z, hz, r, hr⟩
    cases h : bounds front zs with
    | error e' =>
      unfold bounds at h
      cases hb : mapE (boundsAt front) zs with
      | ok bs => rw [hb] at h; simp at h
      | error e'' =>
        rw [hb] at h
        obtain ⟨z', _, hz'⟩ := mapE_error hb
        simp only [Except.error.injEq] at h ⊢
        rw [← h, (boundsAt_error hz').1]
    | ok p =>
      obtain ⟨lo, hi⟩ := p
      obtain ⟨e1, e2, e3⟩ := bounds_good h 0 []
      obtain ⟨i, hi', rfl⟩ := List.getElem_of_mem hz
      dsimp only at e1 e2 e3
      obtain ⟨j, hj, _⟩ := (e3 i zs[i] lo[i] hi[i] (by simp) (by simp [e1, hi'])
        (by simp [e2, hi']) r).1.1
      exact absurd hj (hr j)

/-- The hypotheses of C02 are met by the running example: row 1 = (1,1) is at least as good as the
chosen point (3/2,3/2); bounds fail for the point (-1,-1). -/
example : Reached exCfg exS0 (.points exCt0) [exCt0] ∧ exCt0.points[1]? = some ![3/2, 3/2] ∧
    AtLeastAsGood (exCfg.front 1) ![3/2, 3/2] ∧ (∀ i, ¬ GoodExcept exCfg.front ![-1, -1] 0 i) := by
  refine ⟨ex_reached0, rfl, by decide +kernel, ?_⟩
  intro i h
  have := h 1 (by decide)
  clear h
  revert this
  revert i
  decide +kernel

/-! ## C03 -/

/-- **C03** (reachable set). After choosing a point with bounds `lo`, `hi`, the reachable indices are
exactly the rows inside these bounds, in increasing order and without repetition. -/
theorem C03_reachable_exact {c : Cfg n k K V} {s s' : St n k K} {ct ct' : Content k K} {r : Resp k K}
    {km : KMeans k K} (hsb : r.stepBack = some false)
    (h : answer c s ct r km = (s', .ok (.points ct'))) :
    ∃ (i : Nat) (lo hi : Vec k K), r.preferredIndex = some (i : Int) ∧ ct.lowers[i]? = some lo ∧
      ct.uppers[i]? = some hi ∧ s'.lb = lo ∧ s'.ub = hi ∧
      (∀ row, row ∈ s'.reach ↔ InBox lo hi (c.front row)) ∧ s'.reach.Pairwise (· < ·) := by
  obtain ⟨i, z, left, hi, hi0, hz, hl, h1 | h1⟩ := answer_choice_ok h hsb
  · obtain ⟨_, sol, _, h2, _⟩ := h1
    simp at h2
  · obtain ⟨hlt, lo, hi', ch, left', nP, ct'', hlo, hhi, hch, hl', _, hc, ho, hm, hs⟩ := h1
    refine ⟨i.toNat, lo, hi', by rw [hi, Int.toNat_of_nonneg hi0], hlo, hhi, by rw [hs], by rw [hs], ?_, ?_⟩
    · intro row
      rw [hs]
      exact mem_reachable _ _ _ _
    · rw [hs]
      exact reachable_sorted _ _ _

/-- **C03** (bounds are monotone). A point at least as good as another one has bounds that are no wider. -/
theorem C03_bounds_monotone {front : Fin n → Vec k K} {z z' lo hi lo' hi' : Vec k K}
    (h : boundsAt front z = .ok (lo, hi)) (h' : boundsAt front z' = .ok (lo', hi'))
    (hz : AtLeastAsGood z' z) : AtLeastAsGood lo lo' ∧ AtLeastAsGood hi' hi := by
  have e := (boundsAt_ok_iff _ _ _ _).1 h
  have e' := (boundsAt_ok_iff _ _ _ _).1 h'
  refine ⟨fun r => ?_, fun r => ?_⟩
  · obtain ⟨i, hi1, hi2⟩ := (e' r).1.1
    rw [← hi2]
    exact (e r).1.2 i (fun j hj => le_trans (hi1 j hj) (hz j))
  · obtain ⟨i, hi1, hi2⟩ := (e' r).2.1
    rw [← hi2]
    exact (e r).2.2 i (fun j hj => le_trans (hi1 j hj) (hz j))

/-- The hypotheses of C03 are met: two comparable points with bounds. -/
example : ∃ b b', boundsAt exCfg.front ![2, 2] = .ok b ∧ boundsAt exCfg.front ![3/2, 3/2] = .ok b' ∧
    AtLeastAsGood (![3/2, 3/2] : Vec 2 ℚ) ![2, 2] :=
  ⟨(![0, 0], ![2, 2]), (![1, 1], ![2, 2]), eq_of_beq (by decide +kernel), eq_of_beq (by decide +kernel),
    by decide +kernel⟩

/-! ## C04 -/

theorem session_choices {c : Cfg n k K V} {s : St n k K} {o : Out k K V}
    (picks : List (Int × KMeans k K)) {s' : St n k K} {o' : Out k K V} (N : Nat)
    (ho : (∃ ct, o = .points ct ∧ 1 ≤ N ∧ s.left = some (N : Int) ∧ ct.left = N) ∨
      (N = 0 ∧ ∃ z sol, o = .stop z sol))
    (h : session c s o (picks.map fun p => (chooseResp p.1, p.2)) = .ok (s', o')) :
    (picks.length < N → ∃ ct, o' = .points ct ∧ ct.left = (N : Int) - picks.length) ∧
    (N ≤ picks.length → ∃ z sol, o' = .stop z sol) := by
  induction picks generalizing s o N with
  | nil =>
    simp only [List.map_nil, session, Except.ok.injEq, Prod.mk.injEq] at h
    obtain ⟨_, rfl⟩ := h
    rcases ho with ⟨ct, h1, h2, h3, h4⟩ | ⟨h1, h2⟩
    · exact ⟨fun _ => ⟨ct, h1, by simp [h4]⟩, fun h => by simp at h; omega⟩
    · exact ⟨fun h => by simp at h; omega, fun _ => h2⟩
  | cons p ps ih =>
    simp only [List.map_cons, session] at h
    rcases ho with ⟨ct, rfl, h2, h3, h4⟩ | ⟨rfl, z, sol, rfl⟩
    · cases hn : next c s (.points ct) (chooseResp p.1) p.2 with
      | mk s1 res =>
        rw [hn] at h
        cases res with
        | error e => simp at h
        | ok o1 =>
          dsimp only at h
          simp only [next] at hn
          obtain ⟨i, z, left, _, _, _, hl, h5 | h5⟩ := answer_choice_ok hn rfl
          · obtain ⟨hle, sol, _, rfl, _⟩ := h5
            rw [h3] at hl
            simp only [Option.some.injEq] at hl
            have hN : N = 1 := by omega
            subst hN
            have := ih 0 (Or.inr ⟨rfl, z, sol, rfl⟩) h
            refine ⟨fun hlt => by simp at hlt, fun _ => this.2 (by omega)⟩
          · obtain ⟨hlt, lo, hi, ch, left', nP, ct', _, _, hch, hl', _, hc, ho, _, hs⟩ := h5
            rw [h3] at hl
            simp only [Option.some.injEq] at hl
            simp only [chooseResp, Option.some.injEq] at hch hl'
            subst hch
            simp only [Bool.false_eq_true, if_false, Option.some.injEq] at hl'
            have := ih (N - 1) (Or.inl ⟨ct', ho, by omega, by
              rw [hs]; show some left' = _; rw [show left' = ((N - 1 : Nat) : Int) by omega], by
              rw [(compute_ok hc).2.1]; omega⟩) h
            refine ⟨fun hlt' => ?_, fun hle => this.2 (by simp at hle; omega)⟩
            obtain ⟨ct2, e1, e2⟩ := this.1 (by simp at hlt'; omega)
            exact ⟨ct2, e1, by rw [e2]; simp; omega⟩
    · simp only [next] at h
      have := ih 0 (Or.inr ⟨rfl, z, sol, rfl⟩) h
      exact ⟨fun hlt => by simp at hlt, fun _ => this.2 (by omega)⟩

/-- **C04**. If `N` iterations were asked for and the decision maker answers `m` requests by choosing
a point, without stepping back or changing the iterations, then as long as `m < N` a request with
`N - m` iterations left is shown, and from the `N`-th choice on the method has stopped. -/
theorem C04_exactly_N_iterations {c : Cfg n k K V} {r : InitResp} {km : KMeans k K} {s s' : St n k K}
    {o o' : Out k K V} {N : Nat} (hN : r.nIterations = some (.int N))
    (h : begin c (initSt c) r km = (s, .ok o)) (picks : List (Int × KMeans k K))
    (hs : session c s o (picks.map fun p => (chooseResp p.1, p.2)) = .ok (s', o')) :
    (picks.length < N → ∃ ct, o' = .points ct ∧ ct.left = (N : Int) - picks.length) ∧
    (N ≤ picks.length → ∃ z sol, o' = .stop z sol) := by
  obtain ⟨nIt, nP, ct, h1, _, h2, _, h3, _, h5, h6⟩ := begin_ok h
  rw [hN] at h1
  simp only [Option.some.injEq] at h1
  subst h1
  simp only [PyVal.asInt] at h2 h5 h6
  refine session_choices picks N (Or.inl ⟨ct, h3, by omega, by rw [h6], (compute_ok h5).2.1⟩) hs

/-- The hypotheses of C04 are met with `N = 2` and both numbers of choices below and at `N`. -/
example : (session exCfg exS0 (.points exCt0) ([((1 : Int), noKm)].map fun p => (chooseResp p.1, p.2)) =
      .ok (exS1, .points exCt1)) ∧
    (session exCfg exS0 (.points exCt0) ([((1 : Int), noKm), (0, noKm)].map fun p => (chooseResp p.1, p.2)) =
      .ok ({ exS1 with preferred := some ![1, 1], left := some 0 }, .stop ![1, 1] (some "b"))) := by
  simp [session, next, ex_choose, ex_stop]

/-! ## C05 -/

/-- **C05** (chosen point). The stop request carries the point chosen in the request just answered. -/
theorem C05_stop_is_the_chosen_point {c : Cfg n k K V} {s s' : St n k K} {ct : Content k K}
    {r : Resp k K} {km : KMeans k K} {z : Vec k K} {sol : Option V}
    (h : answer c s ct r km = (s', .ok (.stop z sol))) :
    ∃ i : Nat, r.preferredIndex = some (i : Int) ∧ ct.points[i]? = some z := by
  cases hsb : r.stepBack with
  | none =>
    exfalso
    unfold answer at h
    cases hv : validate ct r with
    | error e => rw [hv] at h; simp at h
    | ok u =>
      rw [hv] at h
      simp [handle, hsb] at h
  | some b =>
    cases b with
    | true =>
      obtain ⟨_, _, _, _, _, _, _, h7, _⟩ := answer_back_ok h hsb
      simp at h7
    | false =>
      obtain ⟨i, z', left, hi, hi0, hz, _, h1 | h1⟩ := answer_choice_ok h hsb
      · obtain ⟨_, sol', _, h2, _⟩ := h1
        simp only [Out.stop.injEq] at h2
        exact ⟨i.toNat, by rw [hi, Int.toNat_of_nonneg hi0], h2.1 ▸ hz⟩
      · obtain ⟨_, _, _, _, _, _, _, _, _, _, _, _, _, ho, _⟩ := h1
        simp at ho

theorem findSolution_spec {c : Cfg n k K V} (hn : NormSpec c.nrm) {z : Vec k K} {sol : Option V}
    (h : findSolution c z = .ok sol) {vs : List V} (hv : c.vars = some vs)
    (hz : ∃ i, c.front i = z) : ∃ i : Fin n, c.front i = z ∧ sol = vs[i.val]? ∧ sol.isSome := by
  unfold findSolution at h
  rw [hv] at h
  dsimp only at h
  cases ha : npArgmin ((List.finRange n).map fun i => c.nrm fun j => |c.front i j - z j|) with
  | error e => rw [ha] at h; simp at h
  | ok idx =>
    rw [ha] at h
    dsimp only at h
    cases hvi : vs[idx]? with
    | none => rw [hvi] at h; simp at h
    | some v =>
      rw [hvi] at h
      simp only [Except.ok.injEq] at h
      obtain ⟨m, h1, h2, _⟩ := npArgmin_ok ha
      have hlt : idx < n := by
        have := (List.getElem?_eq_some_iff.1 h1).1
        simpa using this
      obtain ⟨i0, hi0⟩ := hz
      have hm0 : m ≤ 0 := by
        have := h2 (c.nrm fun j => |c.front i0 j - z j|) (by simp)
        refine le_trans this (le_of_eq ((hn.eq_zero _).2 fun j => by rw [hi0]; simp))
      have hm : c.nrm (fun j => |c.front ⟨idx, hlt⟩ j - z j|) = m := by
        rw [List.getElem?_eq_some_iff] at h1
        obtain ⟨_, h1⟩ := h1
        simpa using h1
      have hz0 := (hn.eq_zero _).1 (le_antisymm (hm ▸ hm0) (hn.nonneg _))
      refine ⟨⟨idx, hlt⟩, ?_, by rw [hvi, h], by rw [← h]; rfl⟩
      funext j
      have := hz0 j
      rw [abs_eq_zero, sub_eq_zero] at this
      exact this

/-- **C05** (solution). In every history, the objective vector of the stop request is a row of the
front, and if decision variables were supplied the returned solution is the decision vector of a
row with exactly these objective values. -/
theorem C05_stop_solution_matches {c : Cfg n k K V} (hn : NormSpec c.nrm) {s : St n k K} {z : Vec k K}
    {sol : Option V} {hist : List (Content k K)} (h : Reached c s (.stop z sol) hist) :
    (∃ i, c.front i = z) ∧
    (∀ vs, c.vars = some vs → ∃ i : Fin n, c.front i = z ∧ sol = vs[i.val]? ∧ sol.isSome) ∧
    (c.vars = none → sol = none) := by
  generalize ho : Out.stop z sol = o at h
  induction h with
  | start h => simp at ho
  | choose hr hsb hpos h ih => simp at ho
  | back hr hmem hb h ih =>
    obtain ⟨_, _, _, _, _, _, _, h7, _⟩ := answer_back_ok h hb.1
    rw [h7] at ho
    simp at ho
  | finish hr hsb h ih =>
    rename_i s s' ct hist r km z' sol'
    simp only [Out.stop.injEq] at ho
    obtain ⟨rfl, rfl⟩ := ho
    obtain ⟨i, z', left, hi, hi0, hz, hl, h1 | h1⟩ := answer_choice_ok h hsb
    · obtain ⟨hle, sol', hf, h2, _⟩ := h1
      simp only [Out.stop.injEq] at h2
      obtain ⟨rfl, rfl⟩ := h2
      obtain ⟨i1, i2⟩ := hr.invariant
      obtain ⟨m1, m2⟩ := i2 ct rfl
      have hp := i1 ct m1
      rw [hl] at m2
      simp only [Option.some.injEq] at m2
      have hone : ct.left = 1 := by have := hp.left_pos; omega
      have hz' := hp.one hone z (List.mem_of_getElem? hz)
      refine ⟨hz', fun vs hv => findSolution_spec hn hf hv hz', ?_⟩
      intro hv
      unfold findSolution at hf
      rw [hv] at hf
      simp at hf
      exact hf.symm
    · obtain ⟨_, _, _, _, _, _, _, _, _, _, _, _, _, ho, _⟩ := h1
      simp at ho

/-- The hypotheses of C05 are met: the example ends in the row (1,1) with decision vector "b". -/
example : NormSpec exCfg.nrm ∧ Reached exCfg { exS1 with preferred := some ![1, 1], left := some 0 }
    (.stop ![1, 1] (some "b")) [exCt1, exCt0] ∧ exCfg.vars = some ["a", "b", "c"] :=
  ⟨supNorm_spec, ex_reached2, rfl⟩

end Verif.ENautilus
