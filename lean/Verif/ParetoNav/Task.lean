import Verif.ParetoNav.Props2
import Verif.Asf

set_option linter.unusedSectionVars false

/-!
# Pareto Navigator: what the minimizer of the projection is asked, C100 (the solutions shown)
-/

namespace Verif.ParetoNav

variable {K : Type} [Field K] [LinearOrder K] [IsStrictOrderedRing K] {k : Nat} {X D : Type}

/-- ParetoNavigator.py:756-779 (790-793 for a `DiscreteDataProblem`) with desdeo_tools' `SimpleASF` and unit
weights: the value minimized when the current solution `p` is projected, without an augmentation term. -/
def projValue (p f : Vec (k + 1) K) : K := vmax fun i => 1 * (f i - p i)

/-- A successful projection of a vector is an exact minimum over the feasible solutions `F`: the vectors within
the bounds that satisfy the constraints, or all rows of a `DiscreteDataProblem`. -/
def Projects (P : Prob (k + 1) X D K) (F : D → Prop) (orc : Oracle (k + 1) D K) : Prop :=
  ∀ (l : List K) (p : Vec (k + 1) K) d, l = List.ofFn p → orc.project (.vec l) = .ok d →
    F d ∧ ∀ y, F y → projValue p (P.obj d) ≤ projValue p (P.obj y)

/-- `d` is feasible, and not dominated by a feasible solution. -/
def Optimal (P : Prob k X D K) (F : D → Prop) (d : D) : Prop := F d ∧ ∀ y, F y → ¬ Dominates (P.obj y) (P.obj d)

/-- `d` is a feasible solution as near to `p` as possible: no feasible solution is better in all objectives; if
some feasible solution is at least as good as `p`, so is `d`; and the largest amount by which `d` is worse than `p` is
the smallest possible. -/
structure NearestTo (P : Prob k X D K) (F : D → Prop) (p : Vec k K) (d : D) : Prop where
  feasible : F d
  weak : ∀ y, F y → ¬ StrictlyBetter (P.obj y) (P.obj d)
  reaches : (∃ y, F y ∧ AtLeastAsGood (P.obj y) p) → AtLeastAsGood (P.obj d) p
  deviation : ∀ y, F y → ∀ t, (∀ i, P.obj y i - p i ≤ t) → ∀ i, P.obj d i - p i ≤ t

theorem nearest_of_project {P : Prob (k + 1) X D K} {F : D → Prop} {p : Vec (k + 1) K} {d : D} (hF : F d)
    (hmin : ∀ y, F y → projValue p (P.obj d) ≤ projValue p (P.obj y)) : NearestTo P F p d := by
  have hdev : ∀ y, F y → ∀ t, (∀ i, P.obj y i - p i ≤ t) → ∀ i, P.obj d i - p i ≤ t := by
    intro y hy t ht i
    have h1 := hmin y hy
    have h2 : projValue p (P.obj y) ≤ t := by
      unfold projValue
      rw [vmax_le_iff]
      intro i
      simpa using ht i
    have h3 : 1 * (P.obj d i - p i) ≤ projValue p (P.obj d) := le_vmax (fun i => 1 * (P.obj d i - p i)) i
    linarith
  refine ⟨hF, ?_, ?_, hdev⟩
  · intro y hy hb
    obtain ⟨i0, hi0⟩ := Finite.exists_max fun i => P.obj y i - p i
    have h1 := hdev y hy _ hi0 i0
    have h2 := hb i0
    linarith
  · rintro ⟨y, hy, hle⟩ i
    have := hdev y hy 0 (fun i => by have := hle i; linarith) i
    linarith

/-- C100, what is true: in every history, with exact minimizers, every solution request shows a decision vector
with its objective vector; if the current solution is a vector with one component per objective, the solution is
feasible and as near to the current solution as possible (`NearestTo`). Every stop request returns the decision and
objective vectors of a solution request. Missing from the full claim: Pareto optimality, which is false
(`C100_fails`); the solution is only weakly Pareto optimal (`NearestTo.weak`). -/
theorem C100_shown_partial {P : Prob (k + 1) X D K} {sup} {G : Oracle (k + 1) D K → Prop} {F : D → Prop}
    (hG : ∀ orc, G orc → Projects P F orc) {s : St (k + 1) X K} {iss : List (Req (k + 1) X K)}
    (hR : Reached P sup G s iss) :
    (∀ c x f, Req.solution c x f ∈ iss → ∃ d, x = some (P.vars d) ∧ f = some (P.obj d) ∧
      ∀ p : Vec (k + 1) K, c = some (.vec (List.ofFn p)) → NearestTo P F p d) ∧
    ∀ c x f, Req.stop c x f ∈ iss → ∃ c', Req.solution c' x f ∈ iss := by
  induction hR with
  | init => simp
  | start _ ih =>
    constructor
    · intro c x f h
      rcases List.mem_cons.1 h with h | h
      · simp [start] at h
      · exact ih.1 c x f h
    · intro c x f h
      rcases List.mem_cons.1 h with h | h
      · simp [start] at h
      · obtain ⟨c', hc'⟩ := ih.2 c x f h
        exact ⟨c', List.mem_cons_of_mem _ hc'⟩
  | @next s iss req r orc s' o hR hr hGo ha ih =>
    have hst := answer_step ha
    have navCase : ∀ t : St (k + 1) X K,
        (∀ c x f, Req.solution c x f ∈ navReq t :: iss → ∃ d, x = some (P.vars d) ∧ f = some (P.obj d) ∧
          ∀ p : Vec (k + 1) K, c = some (.vec (List.ofFn p)) → NearestTo P F p d) ∧
        ∀ c x f, Req.stop c x f ∈ navReq t :: iss → ∃ c', Req.solution c' x f ∈ navReq t :: iss := by
      intro t
      constructor
      · intro c x f h
        rcases List.mem_cons.1 h with h | h
        · simp [navReq] at h
        · exact ih.1 c x f h
      · intro c x f h
        rcases List.mem_cons.1 h with h | h
        · simp [navReq] at h
        · obtain ⟨c', hc'⟩ := ih.2 c x f h
          exact ⟨c', List.mem_cons_of_mem _ hc'⟩
    cases hst with
    | refused => exact ih
    | noAnswer => exact ih
    | @ended c0 x0 f0 =>
      constructor
      · intro c x f h
        rcases List.mem_cons.1 h with h | h
        · simp at h
        · exact ih.1 c x f h
      · intro c x f h
        rcases List.mem_cons.1 h with h | h
        · simp only [Req.stop.injEq] at h
          obtain ⟨rfl, rfl, rfl⟩ := h
          obtain ⟨c', hc'⟩ := ih.2 _ _ _ hr
          exact ⟨c', List.mem_cons_of_mem _ hc'⟩
        · obtain ⟨c', hc'⟩ := ih.2 c x f h
          exact ⟨c', List.mem_cons_of_mem _ hc'⟩
    | startFails => exact ih
    | started => exact navCase _
    | showFails => exact ih
    | @showed _ _ _ _ p d hs hcur hd =>
      constructor
      · intro c x f h
        rcases List.mem_cons.1 h with h | h
        · simp only [Req.solution.injEq] at h
          obtain ⟨rfl, rfl, rfl⟩ := h
          refine ⟨d, rfl, rfl, fun q hq => ?_⟩
          rw [hcur] at hq
          cases hq
          obtain ⟨h1, h2⟩ := hG _ hGo _ q d rfl hd
          exact nearest_of_project h1 h2
        · exact ih.1 c x f h
      · intro c x f h
        rcases List.mem_cons.1 h with h | h
        · simp at h
        · obtain ⟨c', hc'⟩ := ih.2 c x f h
          exact ⟨c', List.mem_cons_of_mem _ hc'⟩
    | moveFails => exact ih
    | moved => exact navCase _
    | satisfied hs =>
      constructor
      · intro c x f h
        rcases List.mem_cons.1 h with h | h
        · simp at h
        · exact ih.1 c x f h
      · intro c x f h
        rcases List.mem_cons.1 h with h | h
        · simp only [Req.stop.injEq] at h
          obtain ⟨rfl, rfl, rfl⟩ := h
          have hex : ∀ l : List (Req (k + 1) X K), ∀ c x f, Req.solution c x f ∈ l → ∃ c' x' f',
              lastSolution l = some (x', f') ∧ Req.solution c' x' f' ∈ l := by
            intro l
            induction l with
            | nil => simp
            | cons q l ihl =>
              intro c x f h
              cases q with
              | solution c1 x1 f1 => exact ⟨c1, x1, f1, rfl, List.mem_cons_self⟩
              | _ =>
                obtain ⟨c', x', f', g1, g2⟩ := ihl c x f (by simpa using h)
                exact ⟨c', x', f', g1, List.mem_cons_of_mem _ g2⟩
          obtain ⟨c', x', f', g1, g2⟩ := hex _ _ _ _ hr
          rcases hR.lastSolution with ⟨h1, _⟩ | ⟨d, h1, h2, h3⟩
          · rw [g1] at h1; simp at h1
          · rw [g1] at h1
            simp only [Option.some.injEq, Prod.mk.injEq] at h1
            rw [h2, h3, ← h1.1, ← h1.2]
            exact ⟨c', List.mem_cons_of_mem _ g2⟩
        · obtain ⟨c', hc'⟩ := ih.2 c x f h
          exact ⟨c', List.mem_cons_of_mem _ hc'⟩
    | addNothing => exact ih
    | addFails => exact ih
    | added => exact navCase _

/-! ### An example with a nonconvex front -/

/-- The full claim: with exact external code, every solution shown when the current solution is a vector with one
component per objective is Pareto optimal. -/
def ShowsOptimal (P : Prob (k + 1) X D K) (sup : Option (List (Vec (k + 1) K))) (F : D → Prop) : Prop :=
  ∀ (s : St (k + 1) X K) (iss : List (Req (k + 1) X K)) (p : Vec (k + 1) K) x f,
    Reached P sup (fun orc => Exact orc ∧ Projects P F orc) s iss →
    Req.solution (some (.vec (List.ofFn p))) x f ∈ iss → ∃ d, x = some (P.vars d) ∧ f = some (P.obj d) ∧ Optimal P F d

/-- Minimize `x` and `y` for `0 ≤ x, y ≤ 1` with the constraint `y ≥ 1`, or `x ≥ 1/2` and `y ≥ 1/4`, or `x ≥ 1`. The Pareto
optimal solutions are (0, 1), (1/2, 1/4) and (1, 0). -/
def stProb : Prob 2 (Vec 2 ℚ) (Vec 2 ℚ) ℚ where
  table := none
  bounds := none
  vars := fun x => x
  obj := fun x => x
  asCur := fun x => .vec [x 0, x 1]

def stFeasible (x : Vec 2 ℚ) : Prop :=
  (0 ≤ x 0 ∧ x 0 ≤ 1 ∧ 0 ≤ x 1 ∧ x 1 ≤ 1) ∧ (1 ≤ x 1 ∨ (1/2 ≤ x 0 ∧ 1/4 ≤ x 1) ∨ 1 ≤ x 0)

def stSols : List (Vec 2 ℚ) := [![0, 1], ![1/2, 1/4], ![1, 0]]

def stEqs : List (Vec 2 ℚ × ℚ) := [(![-3/2, -1], 1), (![-1/2, -1], 1/2), (![1, 1], -1)]

def stOrc : Oracle 2 (Vec 2 ℚ) ℚ where
  asf := fun _ => .error .refused
  project := fun p => if p == .vec [7/100, 179/200] then .ok ![7/40, 1] else
    if p == .vec [0, 1] then .ok ![0, 1] else .error .refused
  hull := fun pts => if pts = stSols then .ok stEqs else .error .valueError
  lp := fun A b lo hi =>
    if A = lppMatrix (weights ![0, 0] ![1, 1]) (stEqs.map Prod.fst) ∧
      b = List.ofFn ![1/10, 37/40] ++ stEqs.map (fun e => -e.2) ∧ lo = ![0, 0] ∧ hi = ![1, 1]
    then .ok ![-3/100, 7/100, 179/200] else .error .refused

theorem stOrc_exact : Exact stOrc := by
  constructor
  · intro pts eqs h z
    simp only [stOrc] at h
    split_ifs at h with hc
    subst hc
    cases h
    have hin : Inside stEqs z ↔ 1 ≤ 3/2 * z 0 + z 1 ∧ 1/2 ≤ 1/2 * z 0 + z 1 ∧ z 0 + z 1 ≤ 1 := by
      simp only [Inside, stEqs, List.forall_mem_cons, dot, Fin.sum_univ_two]
      simp
      constructor
      · rintro ⟨a, b, c⟩
        exact ⟨by linarith, by linarith, by linarith⟩
      · rintro ⟨a, b, c⟩
        exact ⟨by linarith, by linarith, by linarith⟩
    rw [hin]
    constructor
    · rintro ⟨a, b, c⟩
      refine ⟨[z 0 + 2 * z 1 - 1, 4 * (1 - z 0 - z 1), 3 * z 0 + 2 * z 1 - 2], rfl, ?_, ?_, ?_⟩
      · simp only [List.forall_mem_cons]
        exact ⟨by linarith, by linarith, by linarith, by simp⟩
      · simp only [List.sum_cons, List.sum_nil]; ring
      · intro j
        fin_cases j
        · simp [stSols]; ring
        · simp [stSols]; ring
    · rintro ⟨w, h1, h2, hs, hz⟩
      match w, h1, h2, hs, hz with
      | [a, b, c], _, h2, hs, hz =>
        simp only [List.forall_mem_cons, List.sum_cons, List.sum_nil] at h2 hs
        obtain ⟨ha, hb, hc, _⟩ := h2
        have z0 := hz 0
        have z1 := hz 1
        simp [stSols] at z0 z1
        rw [z0, z1]
        refine ⟨by linarith, by linarith, by linarith⟩
  · intro A b lo hi x h
    simp only [stOrc] at h
    split_ifs at h with hc
    obtain ⟨rfl, rfl, rfl, rfl⟩ := hc
    cases h
    have hx : (![-3/100, 7/100, 179/200] : Vec 3 ℚ) = (Fin.cons (-3/100) ![7/100, 179/200] : Vec 3 ℚ) := rfl
    constructor
    · rw [hx, feasible_iff]
      refine ⟨?_, ?_, ?_⟩
      · intro i; fin_cases i <;> simp [weights] <;> norm_num
      · simp [stEqs, dot, Fin.sum_univ_two]
        norm_num
      · intro i
        fin_cases i <;> simp <;> norm_num
    · intro y hy
      have hy' : y = (Fin.cons (y 0) (fun i => y i.succ) : Vec 3 ℚ) := (Fin.cons_self_tail y).symm
      rw [hy', feasible_iff] at hy
      obtain ⟨a1, a2, _⟩ := hy
      have b0 := a1 0
      have b1 := a1 1
      have b2 := a2 (![-3/2, -1], 1) (by simp [stEqs])
      simp [weights, dot, Fin.sum_univ_two] at b0 b1 b2 ⊢
      linarith

theorem projValue_two (p f : Vec 2 ℚ) : projValue p f = max (f 0 - p 0) (f 1 - p 1) := by
  unfold projValue
  apply le_antisymm
  · rw [vmax_le_iff]
    intro i
    match i with
    | 0 => simp
    | 1 => simp
  · have h0 := le_vmax (fun i => 1 * (f i - p i)) 0
    have h1 := le_vmax (fun i => 1 * (f i - p i)) 1
    simp only [one_mul] at h0 h1
    simp only [one_mul]
    exact max_le h0 h1

theorem stOrc_projects : Projects stProb stFeasible stOrc := by
  intro l p d hl h
  simp only [stOrc] at h
  subst hl
  split_ifs at h with h1 h2
  · cases h
    have hp := eq_of_beq h1
    simp only [Cur.vec.injEq, List.ofFn_succ, List.ofFn_zero, List.cons.injEq, and_true] at hp
    obtain ⟨p0, p1⟩ := hp
    have p1 : p 1 = 179/200 := p1
    refine ⟨⟨by decide +kernel, .inl (by decide +kernel)⟩, fun y hy => ?_⟩
    rw [projValue_two, projValue_two, p0, p1]
    have e : max ((![7/40, 1] : Vec 2 ℚ) 0 - 7/100) ((![7/40, 1] : Vec 2 ℚ) 1 - 179/200) = 21/200 := by
      decide +kernel
    show max ((![7/40, 1] : Vec 2 ℚ) 0 - 7/100) ((![7/40, 1] : Vec 2 ℚ) 1 - 179/200) ≤ max (y 0 - 7/100) (y 1 - 179/200)
    rw [e]
    rcases hy.2 with h | h | h
    · exact le_max_of_le_right (by linarith)
    · exact le_max_of_le_left (by linarith [h.1])
    · exact le_max_of_le_left (by linarith)
  · cases h
    have hp := eq_of_beq h2
    simp only [Cur.vec.injEq, List.ofFn_succ, List.ofFn_zero, List.cons.injEq, and_true] at hp
    obtain ⟨p0, p1⟩ := hp
    have p1 : p 1 = 1 := p1
    refine ⟨⟨by decide +kernel, .inl (by decide +kernel)⟩, fun y hy => ?_⟩
    rw [projValue_two, projValue_two, p0, p1]
    have e : max ((![0, 1] : Vec 2 ℚ) 0 - 0) ((![0, 1] : Vec 2 ℚ) 1 - 1) = 0 := by decide +kernel
    show max ((![0, 1] : Vec 2 ℚ) 0 - 0) ((![0, 1] : Vec 2 ℚ) 1 - 1) ≤ max (y 0 - 0) (y 1 - 1)
    rw [e]
    exact le_max_of_le_left (by linarith [hy.1.1])

def stGetSt (o : Except Err (St 2 (Vec 2 ℚ) ℚ)) : St 2 (Vec 2 ℚ) ℚ :=
  match o with
  | .ok s => s
  | _ => ⟨[], ![0, 0], ![0, 0], [], [], none, none, none, none, none⟩

def stS0 : St 2 (Vec 2 ℚ) ℚ := stGetSt (construct stProb (some stSols) stOrc)
theorem st_construct : construct stProb (some stSols) stOrc = .ok stS0 := eq_of_beq (by decide +kernel)
def stRef : Resp ℚ := { ref := some [1, 1/4] }
def stS1 : St 2 (Vec 2 ℚ) ℚ := (answer stProb stS0 (start stS0) (some exFirst) stOrc).1
theorem st_step1 : answer stProb stS0 (start stS0) (some exFirst) stOrc =
    (stS1, .ok (.nav (some (.vec [0, 1])) ![0, 0] ![1, 1])) := eq_of_beq (by decide +kernel)
def stS2 : St 2 (Vec 2 ℚ) ℚ := (answer stProb stS1 (.nav (some (.vec [0, 1])) ![0, 0] ![1, 1]) (some stRef) stOrc).1
theorem st_step2 : answer stProb stS1 (.nav (some (.vec [0, 1])) ![0, 0] ![1, 1]) (some stRef) stOrc =
    (stS2, .ok (.nav (some (.vec [7/100, 179/200])) ![0, 0] ![1, 1])) := eq_of_beq (by decide +kernel)
def stS3 : St 2 (Vec 2 ℚ) ℚ :=
  (answer stProb stS2 (.nav (some (.vec [7/100, 179/200])) ![0, 0] ![1, 1]) (some exShow) stOrc).1
theorem st_step3 : answer stProb stS2 (.nav (some (.vec [7/100, 179/200])) ![0, 0] ![1, 1]) (some exShow) stOrc =
    (stS3, .ok (.solution (some (.vec (List.ofFn ![7/100, 179/200]))) (some ![7/40, 1]) (some ![7/40, 1]))) :=
  eq_of_beq (by decide +kernel)

theorem st_reached {G : Oracle 2 (Vec 2 ℚ) ℚ → Prop} (hG : G stOrc) : Reached stProb (some stSols) G stS3
    [.solution (some (.vec (List.ofFn ![7/100, 179/200]))) (some ![7/40, 1]) (some ![7/40, 1]),
      .nav (some (.vec [7/100, 179/200])) ![0, 0] ![1, 1], .nav (some (.vec [0, 1])) ![0, 0] ![1, 1], start stS0] :=
  .next (.next (.next (.start (.init hG st_construct)) List.mem_cons_self hG st_step1) List.mem_cons_self hG st_step2)
    List.mem_cons_self hG st_step3

example := C100_shown_partial (fun _ h => h) (st_reached stOrc_projects)

/-- C100 fails: on the example, starting from the solution (0, 1) and navigating one step towards (1, 1/4), an exact
minimizer may show the solution (7/40, 1), because the achievement function has no augmentation term; it is dominated
by (0, 1). The solutions the approximation was built from are Pareto optimal. -/
theorem C100_fails : ¬ ShowsOptimal stProb (some stSols) stFeasible ∧ ∀ x ∈ stSols, Optimal stProb stFeasible x := by
  constructor
  · intro h
    obtain ⟨d, hd, _, _, hopt⟩ := h _ _ ![7/100, 179/200] _ _ (st_reached ⟨stOrc_exact, stOrc_projects⟩)
      List.mem_cons_self
    have hd : (![7/40, 1] : Vec 2 ℚ) = d := by simpa [stProb] using hd
    subst hd
    exact hopt ![0, 1] ⟨by decide +kernel, .inl (by decide +kernel)⟩ ⟨by
      intro i
      fin_cases i <;> simp [stProb]
      norm_num, 0, by simp [stProb]⟩
  · simp only [stSols, List.forall_mem_cons]
    refine ⟨⟨⟨by decide +kernel, .inl (by decide +kernel)⟩, ?_⟩,
      ⟨⟨by decide +kernel, .inr (.inl (by decide +kernel))⟩, ?_⟩,
      ⟨⟨by decide +kernel, .inr (.inr (by decide +kernel))⟩, ?_⟩, by simp⟩
    all_goals
      rintro y ⟨⟨h1, h2, h3, h4⟩, h5⟩ ⟨h6, j, h7⟩
      have a0 := h6 0
      have a1 := h6 1
      simp [stProb] at a0 a1
      fin_cases j <;> simp [stProb] at h7 <;> rcases h5 with h5 | h5 | h5 <;> linarith [h5]

end Verif.ParetoNav
