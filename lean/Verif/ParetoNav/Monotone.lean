import Verif.ParetoNav.Approach
import Verif.ParetoNav.Props2
import Verif.Rpm.Monotone

/-!
# Pareto Navigator: asking for more of one objective (C166)
-/

set_option linter.unusedSectionVars false

namespace Verif.ParetoNav

variable {K : Type} [Field K] [LinearOrder K] [IsStrictOrderedRing K] {k : Nat} {X D : Type}

/-- Specification: the reference point `q'` asks for a better value of objective `j` than `q` and for the same values
of the others. -/
def AsksBetter (q q' : Vec k K) (j : Fin k) : Prop := q' j < q j ∧ ∀ i, i ≠ j → q' i = q i

/-- Specification: of the convex combinations of `pts` between `lo` and `hi`, `z` is one with the smallest largest
difference to `m`, relative to the ranges `hi - lo`. -/
def BestNear (pts : List (Vec (k + 1) K)) (lo hi m z : Vec (k + 1) K) : Prop :=
  InHull pts z ∧ InBox lo hi z ∧ ∀ y, InHull pts y → InBox lo hi y →
    Finset.univ.sup' Finset.univ_nonempty (fun i => (z i - m i) / (hi i - lo i)) ≤
      Finset.univ.sup' Finset.univ_nonempty (fun i => (y i - m i) / (hi i - lo i))

/-- Specification: the reference point `q` seen from `cur` with the step length `a`: `cur + a * (q - cur)`. -/
def seenFrom (cur : Vec k K) (a : K) (q : Vec k K) : Vec k K := fun i => cur i + a * (q i - cur i)

/-- What an answer with the reference point `q` does. -/
theorem moved_best {P : Prob (k + 1) X D K} {s s' : St (k + 1) X K} {c : Option (Cur K)} {lo hi : Vec (k + 1) K}
    {r : Resp K} {orc : Oracle (k + 1) D K} {c' : Option (Cur K)} {lo' hi' : Vec (k + 1) K}
    {pts : List (Vec (k + 1) K)} {eqs : List (Vec (k + 1) K × K)} (hE : Encodes s eqs)
    (hull : ∀ z, Inside eqs z ↔ InHull pts z) (hlp : LpExact orc.lp) (hlt : ∀ i, s.ideal i < s.nadir i)
    {q : Vec (k + 1) K} (ha : answer P s (.nav c lo hi) (some { r with ref := some (List.ofFn q) }) orc =
      (s', .ok (.nav c' lo' hi'))) :
    ∃ a0 cur z, baseSpeed s r = .ok a0 ∧ s.cur = some (.vec (List.ofFn cur)) ∧
      s'.speed = some (if r.stepBack = some true then a0 * (-1) else |a0|) ∧ c' = some (.vec (List.ofFn z)) ∧
      BestNear pts s.ideal s.nadir (seenFrom cur (if r.stepBack = some true then a0 * (-1) else |a0|) q) z := by
  have h := answer_step ha
  generalize hq : Except.ok (Req.nav c' lo' hi' : Req (k + 1) X K) = o at h
  generalize hrr : some ({ r with ref := some (List.ofFn q) } : Resp K) = r0 at h
  cases h with
  | refused => simp at hq
  | showFails => simp at hq
  | showed => simp at hq
  | moveFails => simp at hq
  | @moved _ _ _ _ a0 a l m x hv hs hb hsg hn hm hx =>
    subst hrr
    simp only [navReq, stepped, Except.ok.injEq, Req.nav.injEq] at hq
    obtain ⟨rfl, rfl, rfl⟩ := hq
    have hb' : baseSpeed s r = .ok a0 := hb
    have hsg' : a = if r.stepBack = some true then a0 * (-1) else |a0| := hsg
    have hn' : l = some (List.ofFn q) := by
      have : Except.ok (ε := Err) (some (List.ofFn q)) = .ok l := hn
      cases this
      rfl
    subst hn'
    have hm' : ∃ cur, s.cur = some (.vec (List.ofFn cur)) ∧ m = seenFrom cur a q := by
      unfold ParetoNav.moved at hm
      split at hm
      · simp at hm
      · simp at hm
      · simp at hm
      · rename_i ref cur hcur hrf
        by_cases h1 : cur.length = k + 1
        swap
        · rw [if_pos h1] at hm
          simp at hm
        rw [if_neg (not_not.2 h1)] at hm
        cases hcur
        rw [if_pos (List.length_ofFn)] at hm
        cases hm
        refine ⟨fun i => toVec (k + 1) cur i, ?_, ?_⟩
        · rw [hrf]
          congr 2
          apply List.ext_getElem
          · rw [List.length_ofFn, h1]
          · intro n h2 h3
            rw [List.getElem_ofFn]
            simp [toVec, h2]
        · funext i
          have : toVec (k + 1) (List.ofFn q) i = q i := by
            unfold toVec
            rw [List.getElem?_eq_getElem (by simp only [List.length_ofFn]; exact i.isLt), Option.getD_some,
              List.getElem_ofFn]
          simp only [seenFrom, this]
    obtain ⟨cur, hc, rfl⟩ := hm'
    subst hsg'
    obtain ⟨hf, hmin⟩ := hlp _ _ _ _ _ hx
    have hxc : x = (Fin.cons (x 0) (fun i => x i.succ) : Vec (k + 2) K) := (Fin.cons_self_tail x).symm
    rw [hE.A, hE.b] at hf hmin
    rw [hxc, C50_constraints _ _ _ _ _ _ hlt] at hf
    refine ⟨a0, cur, fun i => x i.succ, hb', hc, rfl, rfl, (hull _).1 hf.2.1, hf.2.2, fun y hy hy' => ?_⟩
    refine Finset.sup'_le _ _ fun i _ => ?_
    have h3 := hmin (Fin.cons (Finset.univ.sup' Finset.univ_nonempty (fun i => (y i -
        seenFrom cur (if r.stepBack = some true then a0 * (-1) else |a0|) q i) / (s.nadir i - s.ideal i))) y)
      ((C50_constraints _ _ _ _ _ _ hlt).2 ⟨fun i => by
        rw [one_div_mul_eq_div]
        exact Finset.le_sup' (fun i => (y i -
          seenFrom cur (if r.stepBack = some true then a0 * (-1) else |a0|) q i) / (s.nadir i - s.ideal i))
          (Finset.mem_univ i), (hull _).2 hy, hy'⟩)
    have h4 := hf.1 i
    rw [one_div_mul_eq_div] at h4
    exact h4.trans h3

/-- Two points to come near to that differ in one component only. -/
theorem near_better {pts : List (Vec (k + 1) K)} {lo hi m m' z z' : Vec (k + 1) K} {j : Fin (k + 1)}
    (hlt : ∀ i, lo i < hi i) (hj : m' j ≤ m j) (hm : ∀ i, i ≠ j → m' i = m i)
    (h : BestNear pts lo hi m z) (h' : BestNear pts lo hi m' z') :
    z' j ≤ z j ∨ (BestNear pts lo hi m z ∧ BestNear pts lo hi m z') ∧
      BestNear pts lo hi m' z ∧ BestNear pts lo hi m' z' := by
  have hd : ∀ i, 0 < hi i - lo i := fun i => by have := hlt i; linarith
  have key := Rpm.raised_component (j := j) (e := 0)
    (v := fun i => (z i - m i) / (hi i - lo i)) (v' := fun i => (z' i - m i) / (hi i - lo i))
    (w := fun i => (z i - m' i) / (hi i - lo i)) (w' := fun i => (z' i - m' i) / (hi i - lo i))
    (fun i hi => by simp only [hm i hi]) (fun i hi => by simp only [hm i hi])
    (by
      show (z' j - m j) / (hi j - lo j) ≤ (z' j - m' j) / (hi j - lo j)
      exact div_le_div_of_nonneg_right (by linarith) (hd j).le)
    (by have := h.2.2 z' h'.1 h'.2.1; unfold vmax; linarith)
    (by have := h'.2.2 z h.1 h.2.1; unfold vmax; linarith)
  rcases key with hk | ⟨t1, t2⟩
  · left
    have hk : (z' j - m' j) / (hi j - lo j) ≤ (z j - m' j) / (hi j - lo j) + 0 := hk
    rw [add_zero, div_le_div_iff_of_pos_right (hd j)] at hk
    linarith
  · right
    unfold vmax at t1 t2
    rw [add_zero] at t1 t2
    exact ⟨⟨h, h'.1, h'.2.1, fun y h1 h2 => t1 ▸ h.2.2 y h1 h2⟩,
      ⟨h.1, h.2.1, fun y h1 h2 => t2 ▸ h'.2.2 y h1 h2⟩, h'⟩

/-- **C166**. In every history: a navigation request is answered with two reference points, the second of which asks
for a better value of objective `j` and for the same values of the others; otherwise the answers agree. The solutions
shown, `z` and `z'`, are those of the approximation (the convex combinations of the stored solutions between ideal
and nadir) that are nearest to the reference points as seen from the current solution with the step length `a`.
Moving forward, `z'` is not worse than `z` in `j`, and stepping back it is not better; unless both solutions are
nearest in both cases. Without `step_back`, the step is forward; with it, backward if a speed is given or the last step
was forward (C54). -/
theorem C166_asking_more {P : Prob (k + 1) X D K} {sup} {G : Oracle (k + 1) D K → Prop} {s s₁ s₂ : St (k + 1) X K}
    {iss : List (Req (k + 1) X K)} {c c₁ c₂ : Option (Cur K)} {lo hi lo₁ hi₁ lo₂ hi₂ : Vec (k + 1) K} {r : Resp K}
    {orc orc' : Oracle (k + 1) D K} (hR : Reached P sup G s iss) (hG : ∀ orc, G orc → Exact orc) (ho : G orc)
    (ho' : G orc') (hlt : ∀ i, s.ideal i < s.nadir i) {q q' : Vec (k + 1) K} {j : Fin (k + 1)}
    (hm : AsksBetter q q' j)
    (ha : answer P s (.nav c lo hi) (some { r with ref := some (List.ofFn q) }) orc = (s₁, .ok (.nav c₁ lo₁ hi₁)))
    (ha' : answer P s (.nav c lo hi) (some { r with ref := some (List.ofFn q') }) orc' =
      (s₂, .ok (.nav c₂ lo₂ hi₂))) :
    ∃ pts cur a z z', pts <+: s.sols ∧ (HullWorks G → pts = s.sols) ∧ s.cur = some (.vec (List.ofFn cur)) ∧
      s₁.speed = some a ∧ s₂.speed = some a ∧
      c₁ = some (.vec (List.ofFn z)) ∧ c₂ = some (.vec (List.ofFn z')) ∧
      BestNear pts s.ideal s.nadir (seenFrom cur a q) z ∧ BestNear pts s.ideal s.nadir (seenFrom cur a q') z' ∧
      ((r.stepBack ≠ some true → 0 < a) ∧
        (r.stepBack = some true → (r.speed.isSome = true ∨ ∀ a0, s.speed = some a0 → 0 < a0) → a < 0)) ∧
      ((0 < a → z' j ≤ z j) ∧ (a < 0 → z j ≤ z' j) ∨
        BestNear pts s.ideal s.nadir (seenFrom cur a q) z' ∧ BestNear pts s.ideal s.nadir (seenFrom cur a q') z) := by
  obtain ⟨pts, eqs, orc0, hG0, hh, hp, hpe, hE⟩ := hR.approx
  have hull := (hG _ hG0).hull pts eqs hh
  obtain ⟨a0, cur, z, hb, hc, hs, hz, hbest⟩ := moved_best hE hull (hG _ ho).lp hlt ha
  obtain ⟨a0', cur', z', hb', hc', hs', hz', hbest'⟩ := moved_best hE hull (hG _ ho').lp hlt ha'
  rw [hb] at hb'
  cases hb'
  rw [hc] at hc'
  have hcc : cur' = cur := by
    have h1 : List.ofFn cur = List.ofFn cur' := by simpa using hc'
    exact (List.ofFn_injective h1).symm
  subst hcc
  obtain ⟨a1, hsp, hback, -, -⟩ := C54_step_back_partial ha
  have hne := answer_short (P := P) (req := .nav c lo hi) (r := some { r with ref := some (List.ofFn q) }) (orc := orc)
    hR.short
  rw [ha] at hne
  generalize hae : (if r.stepBack = some true then a0 * (-1) else |a0|) = a at *
  rw [hs] at hsp
  obtain rfl := Option.some.inj hsp
  have hne := hne a hs
  have ha0 : a ≠ 0 := fun e => by rw [e, abs_zero] at hne; exact absurd hne.1 (by norm_num)
  refine ⟨pts, cur', a, z, z', hp, hpe, hc, hs, hs', hz, hz', hbest, hbest', ⟨fun hb => ?_, hback⟩, ?_⟩
  · rw [if_neg hb] at hae
    exact lt_of_le_of_ne (hae ▸ abs_nonneg a0) ha0.symm
  · have e : ∀ i, i ≠ j → seenFrom cur' a q' i = seenFrom cur' a q i := fun i hi => by
      simp only [seenFrom, hm.2 i hi]
    rcases lt_or_gt_of_ne ha0 with hneg | hpos
    · have hj : seenFrom cur' a q j ≤ seenFrom cur' a q' j := by
        unfold seenFrom
        have := hm.1
        nlinarith
      rcases near_better hlt hj (fun i hi => (e i hi).symm) hbest' hbest with h | ⟨⟨_, h1⟩, h2, _⟩
      · exact .inl ⟨fun h' => absurd h' (not_lt.2 hneg.le), fun _ => h⟩
      · exact .inr ⟨h2, h1⟩
    · have hj : seenFrom cur' a q' j ≤ seenFrom cur' a q j := by
        unfold seenFrom
        have := hm.1
        nlinarith
      rcases near_better hlt hj e hbest hbest' with h | ⟨⟨_, h1⟩, h2, _⟩
      · exact .inl ⟨fun _ => h, fun h' => absurd h' (not_lt.2 hpos.le)⟩
      · exact .inr ⟨h1, h2⟩

/-! ### Example: the objectives `t` and `1 - t` -/

/-- `linprog` on the linear problem of the example, when the answer is on the line between the first two solutions. -/
def exLp2 (A : List (Vec 3 ℚ)) (b : List ℚ) (lo hi : Vec 2 ℚ) : Except Err (Vec 3 ℚ) :=
  match b with
  | m0 :: m1 :: rest =>
    if A = lppMatrix (weights ![0, 0] ![1, 1]) (exEqs.map Prod.fst) ∧ rest = exEqs.map (fun e => -e.2) ∧
      lo = ![0, 0] ∧ hi = ![1, 1] ∧ 0 ≤ m0 + (1 - m0 - m1) / 2 ∧ m0 + (1 - m0 - m1) / 2 ≤ 1 then
      .ok ![(1 - m0 - m1) / 2, m0 + (1 - m0 - m1) / 2, m1 + (1 - m0 - m1) / 2] else .error .refused
  | _ => .error .refused

def exOrc2 : Oracle 2 ℚ ℚ := { exOrc with lp := exLp2 }

theorem exLp2_exact : LpExact (k := 2) exLp2 := by
  intro A b lo hi x h
  unfold exLp2 at h
  split at h
  · rename_i m0 m1 rest
    split_ifs at h with hc
    obtain ⟨rfl, rfl, rfl, rfl, h0, h1⟩ := hc
    cases h
    have e : (m0 :: m1 :: exEqs.map fun e => -e.2) = List.ofFn ![m0, m1] ++ exEqs.map fun e => -e.2 := by
      simp [List.ofFn_succ]
    rw [e]
    generalize ht : (1 - m0 - m1) / 2 = t at h0 h1
    have ht' : m0 + m1 + 2 * t = 1 := by rw [← ht]; ring
    have hx : (![t, m0 + t, m1 + t] : Vec 3 ℚ) = (Fin.cons t ![m0 + t, m1 + t] : Vec 3 ℚ) := rfl
    constructor
    · rw [hx, feasible_iff]
      refine ⟨?_, ?_, ?_⟩
      · intro i; fin_cases i <;> simp [weights]
      · simp [exEqs, dot, Fin.sum_univ_two]
        refine ⟨by linarith, by linarith, by linarith⟩
      · intro i
        fin_cases i
        · exact ⟨h0, h1⟩
        · simp only [Fin.mk_one, Matrix.cons_val_one, Matrix.cons_val_fin_one]
          constructor <;> linarith
    · intro y hy
      have hy' : y = (Fin.cons (y 0) (fun i => y i.succ) : Vec 3 ℚ) := (Fin.cons_self_tail y).symm
      rw [hy', feasible_iff] at hy
      obtain ⟨a1, a2, _⟩ := hy
      have b0 := a1 0
      have b1 := a1 1
      have b2 := a2 (![-1, -1], 1) (by simp [exEqs])
      simp [weights, dot, Fin.sum_univ_two] at b0 b1 b2 ⊢
      linarith
  · simp at h

theorem exOrc2_exact : Exact exOrc2 := ⟨exHull_exact, exLp2_exact⟩

/-- From (0, 1), the reference points (1/2, 1/2) and (1/4, 1/2). -/
example := C166_asking_more (r := {}) (G := Exact) (ex_reached1 exOrc_exact) (fun _ h => h) exOrc2_exact exOrc2_exact
  (by decide +kernel) (q := ![1/2, 1/2]) (q' := ![1/4, 1/2]) (j := 0) (by unfold AsksBetter; decide +kernel)
  ((eq_of_beq (by decide +kernel)) :
    answer exProb exS1 (.nav (some (.vec [0, 1])) ![0, 0] ![1, 1]) (some { ref := some (List.ofFn ![1/2, 1/2]) }) exOrc2 =
      ((answer exProb exS1 (.nav (some (.vec [0, 1])) ![0, 0] ![1, 1])
        (some { ref := some (List.ofFn ![1/2, 1/2]) }) exOrc2).1,
        .ok (.nav (some (.vec [1/20, 19/20])) ![0, 0] ![1, 1])))
  ((eq_of_beq (by decide +kernel)) :
    answer exProb exS1 (.nav (some (.vec [0, 1])) ![0, 0] ![1, 1]) (some { ref := some (List.ofFn ![1/4, 1/2]) }) exOrc2 =
      ((answer exProb exS1 (.nav (some (.vec [0, 1])) ![0, 0] ![1, 1])
        (some { ref := some (List.ofFn ![1/4, 1/2]) }) exOrc2).1,
        .ok (.nav (some (.vec [3/80, 77/80])) ![0, 0] ![1, 1])))

end Verif.ParetoNav
