import Verif.ParetoNav.ExampleData
import Mathlib.Data.Fintype.Lattice

set_option linter.unusedSectionVars false

/-!
# Properties C50 - C52 of Pareto Navigator
-/

namespace Verif.ParetoNav

variable {K : Type} [Field K] [LinearOrder K] {k : Nat} {X D : Type}

/-! ### The approximation in every history -/

/-- The matrix and right-hand side stored belong to these facets and to the box stored. -/
structure Encodes (s : St k X K) (eqs : List (Vec k K × K)) : Prop where
  A : s.lppA = lppMatrix (weights s.ideal s.nadir) (eqs.map Prod.fst)
  b : s.b = eqs.map fun e => -e.2

theorem Encodes.frame {s s' : St k X K} {eqs : List (Vec k K × K)} (h : Encodes s eqs) (hf : Frame s s') :
    Encodes s' eqs :=
  ⟨by rw [hf.lppA, hf.ideal, hf.nadir]; exact h.A, by rw [hf.b]; exact h.b⟩

theorem construct_ok {P : Prob k X D K} {sup : Option (List (Vec k K))} {orc : Oracle k D K} {s : St k X K}
    (h : construct P sup orc = .ok s) : ∃ sols ideal nadir eqs,
      (P.table = some sols ∨ P.table = none ∧ sup = some sols) ∧
      (P.bounds = some (ideal, nadir) ∨ P.bounds = none ∧ extremes sols = .ok (nadir, ideal)) ∧
      orc.hull sols = .ok eqs ∧
      s = { sols := sols, ideal := ideal, nadir := nadir
            lppA := lppMatrix (weights ideal nadir) (eqs.map Prod.fst)
            b := eqs.map fun e => -e.2 } := by
  unfold construct at h
  split at h
  · simp at h
  · rename_i sols hs
    have h1 : P.table = some sols ∨ P.table = none ∧ sup = some sols := by
      split at hs
      · rename_i t ht; cases hs; exact .inl ht
      · simp only [Except.ok.injEq] at hs
        subst hs
        exact .inr ⟨by assumption, rfl⟩
      · simp at hs
    split at h
    · simp at h
    · rename_i nadir ideal hb
      have h2 : P.bounds = some (ideal, nadir) ∨ P.bounds = none ∧ extremes sols = .ok (nadir, ideal) := by
        split at hb
        · rename_i i n hb'; cases hb; exact .inl hb'
        · rename_i hb'; exact .inr ⟨hb', hb⟩
      split at h
      · simp at h
      · rename_i eqs he
        cases h
        exact ⟨sols, ideal, nadir, eqs, h1, h2, he, rfl⟩

/-- Qhull does not fail. -/
def HullWorks (G : Oracle k D K → Prop) : Prop := ∀ orc, G orc → ∀ l e, orc.hull l ≠ .error e

/-- In every history the linear problem uses facets that Qhull returned for solutions stored - for all of
them, if it does not fail. -/
theorem Reached.approx {P : Prob k X D K} {sup G} {s : St k X K} {iss} (h : Reached P sup G s iss) :
    ∃ pts eqs orc, G orc ∧ orc.hull pts = .ok eqs ∧ pts <+: s.sols ∧ (HullWorks G → pts = s.sols) ∧
      Encodes s eqs := by
  induction h with
  | init hG hc =>
    obtain ⟨sols, ideal, nadir, eqs, _, _, he, rfl⟩ := construct_ok hc
    exact ⟨sols, eqs, _, hG, he, List.prefix_refl _, fun _ => rfl, rfl, rfl⟩
  | start _ ih => exact ih
  | @next s iss req r orc s' o hR hr hG ha ih =>
    obtain ⟨pts, eqs, orc0, h1, h2, h3, h5, h4⟩ := ih
    have fr : ∀ {t : St k X K}, Frame s t → ∃ pts eqs orc, G orc ∧ orc.hull pts = .ok eqs ∧
        pts <+: t.sols ∧ (HullWorks G → pts = t.sols) ∧ Encodes t eqs := fun hf =>
      ⟨pts, eqs, orc0, h1, h2, by rw [hf.sols]; exact h3, by rw [hf.sols]; exact h5, h4.frame hf⟩
    have hst := answer_step ha
    cases hst with
    | refused => exact fr (Frame.refl _)
    | noAnswer => exact fr (Frame.refl _)
    | ended => exact fr (Frame.refl _)
    | startFails _ _ hf => exact fr hf
    | started => exact fr ⟨rfl, rfl, rfl, rfl, rfl, rfl, rfl⟩
    | showFails => exact fr (Frame.refl _)
    | showed => exact ⟨pts, eqs, orc0, h1, h2, h3, h5, h4.A, h4.b⟩
    | moveFails _ _ hf => exact fr hf
    | moved => exact fr ⟨rfl, rfl, rfl, rfl, rfl, rfl, rfl⟩
    | satisfied => exact fr (Frame.refl _)
    | addNothing => exact fr (Frame.refl _)
    | addFails _ _ he =>
      exact ⟨pts, eqs, orc0, h1, h2, h3.trans (List.prefix_append _ _), fun hw => absurd he (hw _ hG _ _),
        h4.A, h4.b⟩
    | @added _ _ _ _ f' eqs' hi lo _ hf hh hex =>
      exact ⟨_, eqs', orc, hG, hh, List.prefix_refl _, fun _ => rfl, rfl, rfl⟩

/-! ### C50: the direction problem -/

variable [IsStrictOrderedRing K]

/-- C50: the constraints passed to the solver mean that every weighted distance to the reference point is at
most `t`, that `z` is inside the facets, and in the box. -/
theorem C50_constraints (lo hi m z : Vec k K) (t : K) (eqs : List (Vec k K × K)) (h : ∀ i, lo i < hi i) :
    Feasible (lppMatrix (weights lo hi) (eqs.map Prod.fst)) (List.ofFn m ++ eqs.map fun e => -e.2) lo hi
        (Fin.cons t z) ↔
      (∀ i, 1 / (hi i - lo i) * (z i - m i) ≤ t) ∧ (∀ e ∈ eqs, dot e.1 z + e.2 ≤ 0) ∧
        ∀ i, lo i ≤ z i ∧ z i ≤ hi i := by
  rw [feasible_iff, ← inside_iff]
  refine and_congr (forall_congr' fun i => weight_iff (h i)) Iff.rfl

/-- `z` is the result of minimizing the weighted Chebyshev distance to `m` over the points inside the
facets and the box: any bound on the weighted differences that some other point meets, `z` meets too. -/
def Nearest (lo hi m : Vec k K) (eqs : List (Vec k K × K)) (z : Vec k K) : Prop :=
  Inside eqs z ∧ InBox lo hi z ∧ ∀ z', Inside eqs z' → InBox lo hi z' →
    ∀ t, (∀ i, 1 / (hi i - lo i) * (z' i - m i) ≤ t) → ∀ i, 1 / (hi i - lo i) * (z i - m i) ≤ t

/-- No point inside the facets and the box is better in every objective. -/
theorem Nearest.weak {k : Nat} {lo hi m : Vec (k + 1) K} {eqs : List (Vec (k + 1) K × K)} {z : Vec (k + 1) K}
    (hlt : ∀ i, lo i < hi i) (h : Nearest lo hi m eqs z) :
    ∀ z', Inside eqs z' → InBox lo hi z' → ¬ StrictlyBetter z' z := by
  intro z' h1 h2 hb
  obtain ⟨i0, hi0⟩ := Finite.exists_max fun i => 1 / (hi i - lo i) * (z' i - m i)
  have h3 := h.2.2 z' h1 h2 _ hi0 i0
  have h4 : 0 < 1 / (hi i0 - lo i0) := by
    have := hlt i0
    exact div_pos one_pos (by linarith)
  have h5 := hb i0
  nlinarith

/-- C50 for the whole method: in every history, when navigation goes on, the new solution is nearest (in the
sense above) to the reference point moved by the current step, with respect to facets that Qhull returned
for stored solutions (for all stored solutions, if it does not fail); `cur` is the solution before and `ref` the reference point in force. -/
theorem C50_navigation {P : Prob k X D K} {sup} {G : Oracle k D K → Prop} {s s' : St k X K}
    {iss : List (Req k X K)} {c : Option (Cur K)} {lo hi : Vec k K} {r : Option (Resp K)}
    {orc : Oracle k D K} {c' : Option (Cur K)} {lo' hi' : Vec k K} (hR : Reached P sup G s iss)
    (hlp : LpExact orc.lp) (hlt : ∀ i, s.ideal i < s.nadir i)
    (ha : answer P s (.nav c lo hi) r orc = (s', .ok (.nav c' lo' hi'))) :
    ∃ (pts : List (Vec k K)) (eqs : List (Vec k K × K)) (orc0 : Oracle k D K) (m z : Vec k K) (a : K)
      (ref cur : List K),
      G orc0 ∧ pts <+: s.sols ∧ (HullWorks G → pts = s.sols) ∧ orc0.hull pts = .ok eqs ∧ s.cur = some (.vec cur) ∧ cur.length = k ∧
      s'.ref = some ref ∧ s'.speed = some a ∧
      (∀ l, (r.getD {}).ref = some l → ref = l) ∧
      ((r.getD {}).ref = none → (r.getD {}).classes = none → s.ref = some ref) ∧
      (ref.length = k → ∀ (i : Fin k) x y, cur[i.val]? = some x → ref[i.val]? = some y →
        m i = x + a * (y - x)) ∧
      c' = some (.vec (List.ofFn z)) ∧ s'.cur = c' ∧ Nearest s.ideal s.nadir m eqs z := by
  obtain ⟨pts, eqs, orc0, hG, hh, hp, hpe, hE⟩ := hR.approx
  have h := answer_step ha
  generalize hq : Except.ok (Req.nav c' lo' hi' : Req k X K) = q at h
  cases h with
  | refused => simp at hq
  | showFails => simp at hq
  | showed => simp at hq
  | moveFails => simp at hq
  | @moved _ _ _ _ a0 a l m x hv hs hb hsg hn hm hx =>
    simp only [navReq, stepped, Except.ok.injEq, Req.nav.injEq] at hq
    obtain ⟨rfl, rfl, rfl⟩ := hq
    obtain ⟨hf, hmin⟩ := hlp _ _ _ _ _ hx
    have hxc : x = (Fin.cons (x 0) (fun i => x i.succ) : Vec (k + 1) K) := (Fin.cons_self_tail x).symm
    rw [hE.A, hE.b] at hf hmin
    rw [hxc, C50_constraints _ _ _ _ _ _ hlt] at hf
    have hm' : ∃ ref cur, l = some ref ∧ s.cur = some (.vec cur) ∧ cur.length = k ∧
        (ref.length = k → ∀ (i : Fin k) x y, cur[i.val]? = some x → ref[i.val]? = some y →
          m i = x + a * (y - x)) := by
      unfold ParetoNav.moved at hm
      split at hm
      · simp at hm
      · simp at hm
      · simp at hm
      · rename_i ref cur hcur
        split_ifs at hm with h1 h2 h3
        · cases hm
          refine ⟨ref, cur, rfl, hcur, not_not.1 h1, fun _ i x y hx hy => ?_⟩
          simp [toVec, hx, hy]
        · cases hm
          exact ⟨ref, cur, rfl, hcur, not_not.1 h1, fun h => absurd h h2⟩
    obtain ⟨ref, cur, rfl, hc, hcl, hmm⟩ := hm'
    have hr1 : ∀ l, (r.getD {}).ref = some l → ref = l := by
      intro l hl
      simpa [newRef, hl] using hn.symm
    have hr2 : (r.getD {}).ref = none → (r.getD {}).classes = none → s.ref = some ref := by
      intro h1 h2
      simpa [newRef, h1, h2] using hn
    refine ⟨pts, eqs, orc0, m, fun i => x i.succ, a, ref, cur, hG, hp, hpe, hh, hc, hcl, rfl, rfl, hr1, hr2, hmm, rfl,
      rfl, hf.2.1, hf.2.2, ?_⟩
    intro z' h1 h2 t ht i
    have h3 := hmin (Fin.cons t z') ((C50_constraints _ _ _ _ _ _ hlt).2 ⟨ht, h1, h2⟩)
    exact (hf.1 i).trans h3

example := C50_navigation (r := some exRef) (ex_reached1 (G := Exact) exOrc_exact) exLp_exact
  (by decide +kernel) (c := some (.vec [0, 1])) (lo := ![0, 0]) (hi := ![1, 1])
  ((by rw [← exR2_eq]; exact eq_of_beq (by decide +kernel)) :
    answer exProb exS1 (.nav (some (.vec [0, 1])) ![0, 0] ![1, 1]) (some exRef) exOrc =
      (exS2, .ok (.nav (some (.vec [1/20, 19/20])) ![0, 0] ![1, 1])))

/-! ### C51: box and hull -/

/-- `s'` is the state some time after `s`. -/
inductive Later (P : Prob k X D K) : St k X K → St k X K → Prop
  | refl {s} : Later P s s
  | next {s s1 s2 req r orc o} : Later P s s1 → answer P s1 req r orc = (s2, o) → Later P s s2

theorem foldl_max (ps : List (Vec k K)) (m : K) (i : Fin k) :
    m ≤ ps.foldl (fun m v => max m (v i)) m ∧ ∀ p ∈ ps, p i ≤ ps.foldl (fun m v => max m (v i)) m := by
  induction ps generalizing m with
  | nil => simp
  | cons a ps ih =>
    obtain ⟨h1, h2⟩ := ih (max m (a i))
    simp only [List.foldl_cons, List.mem_cons, forall_eq_or_imp]
    exact ⟨(le_max_left _ _).trans h1, (le_max_right _ _).trans h1, h2⟩

theorem foldl_min (ps : List (Vec k K)) (m : K) (i : Fin k) :
    ps.foldl (fun m v => min m (v i)) m ≤ m ∧ ∀ p ∈ ps, ps.foldl (fun m v => min m (v i)) m ≤ p i := by
  induction ps generalizing m with
  | nil => simp
  | cons a ps ih =>
    obtain ⟨h1, h2⟩ := ih (min m (a i))
    simp only [List.foldl_cons, List.mem_cons, forall_eq_or_imp]
    exact ⟨h1.trans (min_le_left _ _), h1.trans (min_le_right _ _), h2⟩

theorem extremes_box {pts : List (Vec k K)} {hi lo : Vec k K} (h : extremes pts = .ok (hi, lo)) :
    ∀ p ∈ pts, InBox lo hi p := by
  cases pts with
  | nil => simp
  | cons q ps =>
    cases h
    intro p hp j
    obtain ⟨h1, h2⟩ := foldl_max ps (q j) j
    obtain ⟨h3, h4⟩ := foldl_min ps (q j) j
    rcases List.mem_cons.1 hp with rfl | hp
    · exact ⟨h3, h1⟩
    · exact ⟨h4 p hp, h2 p hp⟩

/-- One answer never shrinks the box and never loses a solution. -/
theorem grows {P : Prob k X D K} {s s' : St k X K} {req : Req k X K} {r : Option (Resp K)}
    {orc : Oracle k D K} {o : Except Err (Req k X K)} (ha : answer P s req r orc = (s', o)) :
    AtLeastAsGood s'.ideal s.ideal ∧ AtLeastAsGood s.nadir s'.nadir ∧ s.sols <+: s'.sols := by
  have fr : ∀ {t : St k X K}, Frame s t →
      AtLeastAsGood t.ideal s.ideal ∧ AtLeastAsGood s.nadir t.nadir ∧ s.sols <+: t.sols := by
    intro t hf
    rw [hf.ideal, hf.nadir, hf.sols]
    exact ⟨fun _ => le_rfl, fun _ => le_rfl, List.prefix_refl _⟩
  have h := answer_step ha
  cases h with
  | refused => exact fr (Frame.refl _)
  | noAnswer => exact fr (Frame.refl _)
  | ended => exact fr (Frame.refl _)
  | startFails _ _ hf => exact fr hf
  | started => exact fr ⟨rfl, rfl, rfl, rfl, rfl, rfl, rfl⟩
  | showFails => exact fr (Frame.refl _)
  | showed => exact ⟨fun _ => le_rfl, fun _ => le_rfl, List.prefix_refl _⟩
  | moveFails _ _ hf => exact fr hf
  | moved => exact fr ⟨rfl, rfl, rfl, rfl, rfl, rfl, rfl⟩
  | satisfied => exact fr (Frame.refl _)
  | addNothing => exact fr (Frame.refl _)
  | addFails => exact ⟨fun _ => le_rfl, fun _ => le_rfl, List.prefix_append _ _⟩
  | added => exact ⟨fun _ => min_le_right _ _, fun _ => le_max_right _ _, List.prefix_append _ _⟩

theorem Later.grows {P : Prob k X D K} {s s' : St k X K} (h : Later P s s') :
    AtLeastAsGood s'.ideal s.ideal ∧ AtLeastAsGood s.nadir s'.nadir ∧ s.sols <+: s'.sols := by
  induction h with
  | refl => exact ⟨fun _ => le_rfl, fun _ => le_rfl, List.prefix_refl _⟩
  | next _ ha ih =>
    obtain ⟨a, b, c⟩ := ih
    obtain ⟨a', b', c'⟩ := ParetoNav.grows ha
    exact ⟨fun i => (a' i).trans (a i), fun i => (b i).trans (b' i), c.trans c'⟩

/-- C51: with an exact solver and exact facets, every solution that navigation shows is a convex combination
of the stored solutions and lies between ideal and nadir, at that time and at any later time. -/
theorem C51_shown_inside {P : Prob k X D K} {sup} {G : Oracle k D K → Prop} {s s' s'' : St k X K}
    {iss : List (Req k X K)} {c : Option (Cur K)} {lo hi : Vec k K} {r : Option (Resp K)}
    {orc : Oracle k D K} {c' : Option (Cur K)} {lo' hi' : Vec k K} (hR : Reached P sup G s iss)
    (hG : ∀ orc, G orc → Exact orc) (ho : G orc) (hlt : ∀ i, s.ideal i < s.nadir i)
    (ha : answer P s (.nav c lo hi) r orc = (s', .ok (.nav c' lo' hi'))) (hl : Later P s' s'') :
    ∃ z : Vec k K, c' = some (.vec (List.ofFn z)) ∧ InHull s.sols z ∧ InBox s.ideal s.nadir z ∧
      InHull s''.sols z ∧ InBox s''.ideal s''.nadir z := by
  obtain ⟨pts, eqs, orc0, m, z, a, ref, cur, h0, hp, _, hh, _, _, _, _, _, _, _, hc, _, hn⟩ :=
    C50_navigation hR (hG _ ho).lp hlt ha
  obtain ⟨a1, b1, c1⟩ := ParetoNav.grows ha
  obtain ⟨a2, b2, c2⟩ := hl.grows
  have hz := ((hG _ h0).hull pts eqs hh z).1 hn.1
  refine ⟨z, hc, hz.prefix hp, hn.2.1, hz.prefix (hp.trans (c1.trans c2)), fun j => ?_⟩
  obtain ⟨u, v⟩ := hn.2.1 j
  exact ⟨((a2 j).trans (a1 j)).trans u, v.trans ((b1 j).trans (b2 j))⟩

example := C51_shown_inside (r := some exRef) (ex_reached1 (G := Exact) exOrc_exact) (fun _ h => h) exOrc_exact
  (by decide +kernel) (c := some (.vec [0, 1])) (lo := ![0, 0]) (hi := ![1, 1])
  ((by rw [← exR2_eq]; exact eq_of_beq (by decide +kernel)) :
    answer exProb exS1 (.nav (some (.vec [0, 1])) ![0, 0] ![1, 1]) (some exRef) exOrc =
      (exS2, .ok (.nav (some (.vec [1/20, 19/20])) ![0, 0] ![1, 1])))
  (.next (.next (.next (.next .refl ex_step3) ex_step4) ex_step5) ex_step6)

/-! ### C52: the box -/

/-- C52, monotonicity: whatever happens after a state, the ideal does not increase, the nadir does not
decrease and no stored solution is lost, moved or reordered. -/
theorem C52_monotone {P : Prob k X D K} {s s' : St k X K} (h : Later P s s') :
    AtLeastAsGood s'.ideal s.ideal ∧ AtLeastAsGood s.nadir s'.nadir ∧
      ∀ i, i < s.sols.length → s'.sols[i]? = s.sols[i]? := by
  obtain ⟨a, b, more, c⟩ := h.grows
  refine ⟨a, b, fun i hi => ?_⟩
  rw [← c, List.getElem?_append_left hi]

example := C52_monotone (P := exProb)
  (.next (.next (.next (.next .refl ex_step3) ex_step4) ex_step5) ex_step6 : Later exProb exS2 exS6)

/-- C52, enclosure: if the ideal and nadir of the problem, when they are finite, enclose the solutions the
method starts with, then in every history in which Qhull does not fail they enclose all stored solutions. -/
theorem C52_encloses {P : Prob k X D K} {sup} {G : Oracle k D K → Prop} {s : St k X K}
    {iss : List (Req k X K)} (hR : Reached P sup G s iss) (hG : ∀ orc, G orc → ∀ l e, orc.hull l ≠ .error e)
    (h0 : ∀ b sols, P.bounds = some b → (P.table = some sols ∨ P.table = none ∧ sup = some sols) →
      ∀ p ∈ sols, InBox b.1 b.2 p) : ∀ p ∈ s.sols, InBox s.ideal s.nadir p := by
  induction hR with
  | init hG hc =>
    obtain ⟨sols, ideal, nadir, eqs, h1, h2, he, rfl⟩ := construct_ok hc
    rcases h2 with h2 | ⟨_, h2⟩
    · exact h0 _ _ h2 h1
    · exact extremes_box h2
  | start _ ih => exact ih
  | @next s iss req r orc s' o hR hr ho ha ih =>
    have fr : ∀ {t : St k X K}, Frame s t → ∀ p ∈ t.sols, InBox t.ideal t.nadir p := by
      intro t hf
      rw [hf.ideal, hf.nadir, hf.sols]
      exact ih
    have h := answer_step ha
    cases h with
    | refused => exact fr (Frame.refl _)
    | noAnswer => exact fr (Frame.refl _)
    | ended => exact fr (Frame.refl _)
    | startFails _ _ hf => exact fr hf
    | started => exact fr ⟨rfl, rfl, rfl, rfl, rfl, rfl, rfl⟩
    | showFails => exact fr (Frame.refl _)
    | showed => exact ih
    | moveFails _ _ hf => exact fr hf
    | moved => exact fr ⟨rfl, rfl, rfl, rfl, rfl, rfl, rfl⟩
    | satisfied => exact fr (Frame.refl _)
    | addNothing => exact fr (Frame.refl _)
    | addFails _ _ hh => exact absurd hh (hG _ ho _ _)
    | added _ _ _ hex =>
      intro p hp j
      obtain ⟨u, v⟩ := extremes_box hex p hp j
      exact ⟨(min_le_left _ _).trans u, v.trans (le_max_left _ _)⟩

/-- The same external code, with a Qhull that never fails. -/
def exOrcT : Oracle 2 ℚ ℚ := { exOrc with hull := fun _ => .ok exEqs }

example := C52_encloses (G := fun o => o = exOrcT)
  (.next (r := some exFirst) (.start (.init rfl (eq_of_beq (by decide +kernel) :
    construct exProb (some exSols) exOrcT = .ok exS0))) List.mem_cons_self rfl rfl)
  (by rintro _ rfl l e; simp [exOrcT]) (by simp [exProb])

/-- C52, after an addition: however the box was initialized and whatever happened before, once a rejected
solution has been added the box encloses all stored solutions, the added one included. -/
theorem C52_after_addition {P : Prob k X D K} {s s' : St k X K} {c : Option (Cur K)} {x : Option X}
    {f : Option (Vec k K)} {r : Option (Resp K)} {orc : Oracle k D K} {q : Req k X K}
    (hs : (r.getD {}).satisfied ≠ some true) (ha : answer P s (.solution c x f) r orc = (s', .ok q)) :
    ∃ g, s.poF = some g ∧ s'.sols = s.sols ++ [g] ∧ ∀ p ∈ s'.sols, InBox s'.ideal s'.nadir p := by
  have h := answer_step ha
  generalize hq : Except.ok q = o at h
  cases h with
  | refused => simp at hq
  | satisfied h => exact absurd h hs
  | addNothing => simp at hq
  | addFails => simp at hq
  | added _ hf _ hex =>
    refine ⟨_, hf, rfl, ?_⟩
    intro p hp j
    obtain ⟨u, v⟩ := extremes_box hex p hp j
    exact ⟨(min_le_left _ _).trans u, v.trans (le_max_left _ _)⟩

example := C52_after_addition (P := exProb) (r := none) (by simp)
  ((eq_of_beq (by decide +kernel)) : answer exProb exS5 (.solution exS5.cur exS5.poX exS5.poF) none exOrc =
    (exS6, .ok exR6))

end Verif.ParetoNav
