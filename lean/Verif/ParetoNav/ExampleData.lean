import Verif.ParetoNav.Lp
import Mathlib.Data.Fin.VecNotation
import Mathlib.Tactic.FinCases

/-! A concrete problem (objectives `t` and `1 - t`), exact external code for it, and a session, used to show
that the hypotheses of the theorems are met. -/

namespace Verif.ParetoNav

/-- Three solutions. -/
def exSols : List (Vec 2 ℚ) := [![0, 1], ![1, 0], ![1, 1]]

def exProb : Prob 2 ℚ ℚ ℚ where
  table := none
  bounds := none
  vars := fun t => t
  obj := fun t => ![t, 1 - t]
  asCur := fun t => .vec [t]

/-- The facets of the triangle. -/
def exEqs : List (Vec 2 ℚ × ℚ) := [(![-1, -1], 1), (![1, 0], -1), (![0, 1], -1)]

/-- Qhull on the solutions above, possibly with further solutions on the line between the first two. -/
def exHull (pts : List (Vec 2 ℚ)) : Except Err (List (Vec 2 ℚ × ℚ)) :=
  if exSols <+: pts ∧ ∀ p ∈ pts.drop 3, p 0 + p 1 = 1 ∧ 0 ≤ p 0 ∧ p 0 ≤ 1 then .ok exEqs else .error .valueError

/-- `linprog` when the moved reference point is on the line between the first two solutions. -/
def exLp (A : List (Vec 3 ℚ)) (b : List ℚ) (lo hi : Vec 2 ℚ) : Except Err (Vec 3 ℚ) :=
  match b with
  | m0 :: m1 :: rest =>
    if A = lppMatrix (weights ![0, 0] ![1, 1]) (exEqs.map Prod.fst) ∧ rest = exEqs.map (fun e => -e.2) ∧
      lo = ![0, 0] ∧ hi = ![1, 1] ∧ m0 + m1 = 1 ∧ 0 ≤ m0 ∧ m0 ≤ 1 then .ok ![0, m0, m1] else .error .refused
  | _ => .error .refused

def exOrc : Oracle 2 ℚ ℚ where
  asf := fun l => .ok ((l[0]?).getD 0)
  project := fun p => match p with
    | .vec l => .ok ((l[0]?).getD 0)
    | .scalar x => .ok x
  hull := exHull
  lp := exLp

theorem exLp_exact : LpExact (k := 2) exLp := by
  intro A b lo hi x h
  unfold exLp at h
  split at h
  · rename_i m0 m1 rest
    split_ifs at h with hc
    obtain ⟨rfl, rfl, rfl, rfl, hs, h0, h1⟩ := hc
    cases h
    have e : (m0 :: m1 :: exEqs.map fun e => -e.2) = List.ofFn ![m0, m1] ++ exEqs.map fun e => -e.2 := by
      simp [List.ofFn_succ]
    rw [e]
    have hx : (![0, m0, m1] : Vec 3 ℚ) = (Fin.cons 0 ![m0, m1] : Vec 3 ℚ) := rfl
    constructor
    · rw [hx, feasible_iff]
      refine ⟨?_, ?_, ?_⟩
      · intro i; fin_cases i <;> simp
      · simp [exEqs, dot, Fin.sum_univ_two]
        refine ⟨by linarith, by linarith, by linarith⟩
      · intro i
        fin_cases i
        · exact ⟨h0, h1⟩
        · simp only [Fin.mk_one, Matrix.cons_val_one, Matrix.cons_val_fin_one]
          constructor <;> linarith
    · intro y hy
      have hy' : y = (Fin.cons (y 0) (fun i => y i.succ) : Vec 3 ℚ) := (Fin.cons_self_tail y).symm
      rw [hy', feasible_iff] at hy
      obtain ⟨a1, a2, _⟩ := hy
      have b0 := a1 0
      have b1 := a1 1
      have b2 := a2 (![-1, -1], 1) (by simp [exEqs])
      simp [weights, dot, Fin.sum_univ_two] at b0 b1 b2 ⊢
      linarith
  · simp at h

theorem exHull_exact : HullExact (k := 2) exHull := by
  intro pts eqs h z
  unfold exHull at h
  split_ifs at h with hc
  obtain ⟨⟨more, rfl⟩, hm⟩ := hc
  cases h
  have hin : Inside exEqs z ↔ 1 ≤ z 0 + z 1 ∧ z 0 ≤ 1 ∧ z 1 ≤ 1 := by
    simp only [Inside, exEqs, List.forall_mem_cons, dot, Fin.sum_univ_two]
    simp
    intro _ _
    constructor <;> intro <;> linarith
  have h3 : 1 ≤ z 0 + z 1 ∧ z 0 ≤ 1 ∧ z 1 ≤ 1 → InHull exSols z := by
    rintro ⟨a, b, c⟩
    refine ⟨[1 - z 0, 1 - z 1, z 0 + z 1 - 1], rfl, ?_, ?_, ?_⟩
    · simp only [List.forall_mem_cons]
      exact ⟨by linarith, by linarith, by linarith, by simp⟩
    · simp only [List.sum_cons, List.sum_nil]; ring
    · intro j
      fin_cases j <;> simp [exSols]
  rw [hin]
  refine ⟨fun h => (h3 h).append more, ?_⟩
  rintro ⟨w, h1, h2, hs, hz⟩
  have key : ∀ (w : List ℚ) (pts : List (Vec 2 ℚ)), w.length = pts.length → (∀ a ∈ w, 0 ≤ a) →
      (∀ p ∈ pts, 1 ≤ p 0 + p 1 ∧ p 0 ≤ 1 ∧ p 1 ≤ 1) →
      w.sum ≤ ((w.zip pts).map fun p => p.1 * p.2 0).sum + ((w.zip pts).map fun p => p.1 * p.2 1).sum ∧
      ((w.zip pts).map fun p => p.1 * p.2 0).sum ≤ w.sum ∧
      ((w.zip pts).map fun p => p.1 * p.2 1).sum ≤ w.sum := by
    intro w
    induction w with
    | nil => intro pts _ _ _; simp
    | cons a w ih =>
      intro pts hl hw hp
      cases pts with
      | nil => simp at hl
      | cons p pts =>
        obtain ⟨i1, i2, i3⟩ := ih pts (by simpa using hl) (fun a ha => hw a (List.mem_cons_of_mem _ ha))
          (fun p hp' => hp p (List.mem_cons_of_mem _ hp'))
        have ha := hw a List.mem_cons_self
        obtain ⟨b1, b2, b3⟩ := hp p List.mem_cons_self
        simp only [List.zip_cons_cons, List.map_cons, List.sum_cons]
        refine ⟨?_, ?_, ?_⟩ <;> nlinarith
  have := key w _ h1 h2 (by
    intro p hp
    rcases List.mem_append.1 hp with hp | hp
    · clear * - hp
      revert p; decide +kernel
    · obtain ⟨a, b, c⟩ := hm p (by simpa [exSols] using hp)
      exact ⟨by linarith, by linarith, by linarith⟩)
  rw [hs, ← hz 0, ← hz 1] at this
  exact this

/-- External code that is exact. -/
structure Exact {K : Type} [Field K] [LinearOrder K] {k : Nat} {D : Type} (orc : Oracle k D K) : Prop where
  hull : HullExact orc.hull
  lp : LpExact orc.lp

theorem exOrc_exact : Exact exOrc := ⟨exHull_exact, exLp_exact⟩

def getSt (o : Except Err (St 2 ℚ ℚ)) : St 2 ℚ ℚ :=
  match o with
  | .ok s => s
  | _ => ⟨[], ![0, 0], ![0, 0], [], [], none, none, none, none, none⟩

def getReq (o : Except Err (Req 2 ℚ ℚ)) : Req 2 ℚ ℚ :=
  match o with
  | .ok r => r
  | _ => .nav none ![0, 0] ![0, 0]

def exS0 : St 2 ℚ ℚ := getSt (construct exProb (some exSols) exOrc)
theorem ex_construct : construct exProb (some exSols) exOrc = .ok exS0 :=
  eq_of_beq (by decide +kernel)

def exFirst : Resp ℚ := { preferred := some 0, speed := some (.int 5) }
def exS1 : St 2 ℚ ℚ := (answer exProb exS0 (start exS0) (some exFirst) exOrc).1
def exR1 : Req 2 ℚ ℚ := getReq (answer exProb exS0 (start exS0) (some exFirst) exOrc).2
theorem ex_step1 : answer exProb exS0 (start exS0) (some exFirst) exOrc = (exS1, .ok exR1) :=
  eq_of_beq (by decide +kernel)

/-- Navigate towards the other end. -/
def exRef : Resp ℚ := { ref := some [1/2, 1/2] }
def exS2 : St 2 ℚ ℚ := (answer exProb exS1 exR1 (some exRef) exOrc).1
def exR2 : Req 2 ℚ ℚ := getReq (answer exProb exS1 exR1 (some exRef) exOrc).2
theorem ex_step2 : answer exProb exS1 exR1 (some exRef) exOrc = (exS2, .ok exR2) :=
  eq_of_beq (by decide +kernel)
theorem exR2_eq : exR2 = .nav (some (.vec [1/20, 19/20])) ![0, 0] ![1, 1] :=
  eq_of_beq (by decide +kernel)

def exBack : Resp ℚ := { stepBack := some true }
def exS3 : St 2 ℚ ℚ := (answer exProb exS2 exR2 (some exBack) exOrc).1
def exR3 : Req 2 ℚ ℚ := getReq (answer exProb exS2 exR2 (some exBack) exOrc).2
theorem ex_step3 : answer exProb exS2 exR2 (some exBack) exOrc = (exS3, .ok exR3) :=
  eq_of_beq (by decide +kernel)

/-- The second step back in a row. -/
def exS4 : St 2 ℚ ℚ := (answer exProb exS3 exR3 (some exBack) exOrc).1
def exR4 : Req 2 ℚ ℚ := getReq (answer exProb exS3 exR3 (some exBack) exOrc).2
theorem ex_step4 : answer exProb exS3 exR3 (some exBack) exOrc = (exS4, .ok exR4) :=
  eq_of_beq (by decide +kernel)

/-- Look at a Pareto optimal solution. -/
def exShow : Resp ℚ := { showSolution := some true }
def exS5 : St 2 ℚ ℚ := (answer exProb exS4 exR4 (some exShow) exOrc).1
def exR5 : Req 2 ℚ ℚ := getReq (answer exProb exS4 exR4 (some exShow) exOrc).2
theorem ex_step5 : answer exProb exS4 exR4 (some exShow) exOrc = (exS5, .ok exR5) :=
  eq_of_beq (by decide +kernel)

/-- Reject it. -/
def exS6 : St 2 ℚ ℚ := (answer exProb exS5 exR5 none exOrc).1
def exR6 : Req 2 ℚ ℚ := getReq (answer exProb exS5 exR5 none exOrc).2
theorem ex_step6 : answer exProb exS5 exR5 none exOrc = (exS6, .ok exR6) :=
  eq_of_beq (by decide +kernel)

variable {G : Oracle 2 ℚ ℚ → Prop}

theorem ex_reached0 (hG : G exOrc) : Reached exProb (some exSols) G exS0 [start exS0] :=
  .start (.init hG ex_construct)

theorem ex_reached1 (hG : G exOrc) : Reached exProb (some exSols) G exS1 [exR1, start exS0] :=
  .next (ex_reached0 hG) List.mem_cons_self hG ex_step1

theorem ex_reached2 (hG : G exOrc) : Reached exProb (some exSols) G exS2 [exR2, exR1, start exS0] :=
  .next (ex_reached1 hG) List.mem_cons_self hG ex_step2

theorem ex_reached3 (hG : G exOrc) : Reached exProb (some exSols) G exS3 [exR3, exR2, exR1, start exS0] :=
  .next (ex_reached2 hG) List.mem_cons_self hG ex_step3

theorem ex_reached4 (hG : G exOrc) :
    Reached exProb (some exSols) G exS4 [exR4, exR3, exR2, exR1, start exS0] :=
  .next (ex_reached3 hG) List.mem_cons_self hG ex_step4

theorem ex_reached5 (hG : G exOrc) :
    Reached exProb (some exSols) G exS5 [exR5, exR4, exR3, exR2, exR1, start exS0] :=
  .next (ex_reached4 hG) List.mem_cons_self hG ex_step5

theorem ex_reached6 (hG : G exOrc) :
    Reached exProb (some exSols) G exS6 [exR6, exR5, exR4, exR3, exR2, exR1, start exS0] :=
  .next (ex_reached5 hG) List.mem_cons_self hG ex_step6

end Verif.ParetoNav
