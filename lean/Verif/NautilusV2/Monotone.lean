import Verif.NautilusV2.Task
import Verif.Rpm.Monotone

/-!
# NAUTILUS 2: asking for more improvement of an objective (C165)
-/

set_option linter.unusedSectionVars false

namespace Verif.NautilusV2

variable {K : Type} [Field K] [LinearOrder K] [IsStrictOrderedRing K] {k m : Nat}

/-- Specification: the degrees of improvement `a'` ask for more improvement of objective `j` than `a`, and for the
same of the others. -/
def AsksMoreOf (a a' : Vec k K) (j : Fin k) : Prop := a j < a' j ∧ ∀ i, i ≠ j → a' i = a i

/-- Specification: `x` minimizes the achievement function of the degrees of improvement `a` from the point `q` within
the bounds: the largest of `(f i - q i) / a i` plus 1e-5 times the sum of `(f i - q i) / range i`, where
`range = nadir - (ideal - eps)`. -/
def BestFrom (c : Cfg (k + 1) m K) (P : Side m K) (eps : K) (a q : Vec (k + 1) K) (x : Vec m K) : Prop :=
  P.inBounds x ∧ ∀ y, P.inBounds y →
    Finset.univ.sup' Finset.univ_nonempty (fun i => (c.evaluate x i - q i) / a i) +
        1 / 100000 * ∑ i, (c.evaluate x i - q i) / (c.nadir i - (c.ideal i - eps)) ≤
      Finset.univ.sup' Finset.univ_nonempty (fun i => (c.evaluate y i - q i) / a i) +
        1 / 100000 * ∑ i, (c.evaluate y i - q i) / (c.nadir i - (c.ideal i - eps))

/-- What the degrees of improvement given as an array are. -/
theorem factors_arr {k : Nat} {a : Vec k K} {meth : Int} {w : Vec k K}
    (hw : factors k meth (.arr (List.ofFn a)) = .ok w) : w = a := by
  simp only [factors, List.length_ofFn, if_true, Except.ok.injEq] at hw
  rw [← hw]
  funext i
  rw [List.getElem?_eq_getElem (by simp only [List.length_ofFn]; exact i.isLt), Option.getD_some,
    List.getElem_ofFn]

/-- The solution found for positive degrees of improvement is best for them. -/
theorem Exact.bestFrom {c : Cfg (k + 1) m K} {P : Side m K} {eps : K} {orc : Oracle (k + 1) m K}
    (h : Exact c P eps orc) {a : Vec (k + 1) K} (ha : ∀ i, 0 < a i) (q : Vec (k + 1) K) :
    BestFrom c P eps a q (orc.asf (weights a) q) := by
  obtain ⟨h1, h2⟩ := h.best (mu := weights a) q fun i => by have := ha i; unfold weights; positivity
  refine ⟨h1, fun y hy => ?_⟩
  have := h2 y hy
  simpa only [refPointASF, vmax, utopianOf, weights, one_div, inv_mul_eq_div] using this

theorem BestFrom.best {c : Cfg (k + 1) m K} {P : Side m K} {eps : K} (hnu : ∀ i, c.ideal i - eps < c.nadir i)
    {a q : Vec (k + 1) K} (ha : ∀ i, 0 < a i) {x : Vec m K} (h : BestFrom c P eps a q x) : Best c P x := by
  refine ⟨h.1, fun y hy hd => ?_⟩
  have := refPointASF_strict (mu := fun i => 1 / a i) (utopian := utopianOf eps c) (rho := 1 / 100000) (q := q)
    (fun i => by have := ha i; positivity) hnu (by norm_num) hd
  simp only [refPointASF, vmax, utopianOf, one_div, inv_mul_eq_div] at this
  have h2 := h.2 y hy
  simp only [one_div, inv_mul_eq_div] at h2
  exact absurd h2 (not_le.2 this)

/-- The core: two points the same way towards solutions that are best for the degrees `a` and `a'`. -/
theorem asked_more {c : Cfg (k + 1) m K} {P : Side m K} {eps : K} (hnu : ∀ i, c.ideal i - eps < c.nadir i)
    (hbox : ∀ x, Best c P x →
      AtLeastAsGood (fun i => c.ideal i - eps) (c.evaluate x) ∧ AtLeastAsGood (c.evaluate x) c.nadir)
    {a a' q z z' : Vec (k + 1) K} {j : Fin (k + 1)} (hpos : ∀ i, 0 < a i) (hm : AsksMoreOf a a' j)
    {x y : Vec m K} (sx : BestFrom c P eps a q x) (sy : BestFrom c P eps a' q y) {L : Int} (hL : 1 ≤ L)
    (hz : ConvexStep L q (c.evaluate x) z) (hz' : ConvexStep L q (c.evaluate y) z') (hup : z' j ≤ q j) :
    (L : K) * (z' j - z j) ≤ (k + 1) / 100000 * a' j ∨
      (BestFrom c P eps a q x ∧ BestFrom c P eps a q y) ∧ BestFrom c P eps a' q x ∧ BestFrom c P eps a' q y := by
  have hpos' : ∀ i, 0 < a' i := by
    intro i
    rcases eq_or_ne i j with rfl | hij
    · exact (hpos i).trans hm.1
    · rw [hm.2 i hij]
      exact hpos i
  have hr : ∀ i, 0 < c.nadir i - (c.ideal i - eps) := fun i => by have := hnu i; linarith
  have hL' : (1 : K) ≤ (L : K) := by exact_mod_cast hL
  have hyj : c.evaluate y j ≤ q j := by
    have := hz' j
    nlinarith
  have bx := sx.best hnu hpos
  have byy := sy.best hnu hpos'
  have h1 := sx.2 y byy.1
  have h2 := sy.2 x bx.1
  have e1 : (∑ i, (c.evaluate x i - q i) / (c.nadir i - (c.ideal i - eps))) -
      ∑ i, (c.evaluate y i - q i) / (c.nadir i - (c.ideal i - eps)) =
      ∑ i, (c.evaluate x i - c.evaluate y i) / (c.nadir i - (c.ideal i - eps)) := by
    rw [← Finset.sum_sub_distrib]
    exact Finset.sum_congr rfl fun i _ => by rw [← sub_div]; congr 1; ring
  have he : ∑ i, (c.evaluate x i - c.evaluate y i) / (c.nadir i - (c.ideal i - eps)) ≤ k + 1 := by
    calc ∑ i, (c.evaluate x i - c.evaluate y i) / (c.nadir i - (c.ideal i - eps)) ≤ ∑ _i : Fin (k + 1), (1 : K) := by
          apply Finset.sum_le_sum
          intro i _
          rw [div_le_one (hr i)]
          have := (hbox x bx).2 i
          have := (hbox y byy).1 i
          linarith
      _ = k + 1 := by simp
  generalize hS : ∑ i, (c.evaluate x i - c.evaluate y i) / (c.nadir i - (c.ideal i - eps)) = S at he e1
  have key := Rpm.raised_component (j := j) (e := 1 / 100000 * S)
    (v := fun i => (c.evaluate x i - q i) / a i) (v' := fun i => (c.evaluate y i - q i) / a i)
    (w := fun i => (c.evaluate x i - q i) / a' i) (w' := fun i => (c.evaluate y i - q i) / a' i)
    (fun i hi => by simp only [hm.2 i hi]) (fun i hi => by simp only [hm.2 i hi]) (by
      show (c.evaluate y j - q j) / a j ≤ (c.evaluate y j - q j) / a' j
      rw [div_le_div_iff₀ (hpos j) (hpos' j)]
      exact mul_le_mul_of_nonpos_left hm.1.le (by linarith)) (by
      unfold vmax
      linear_combination h1 - 1 / 100000 * e1) (by
      unfold vmax
      linear_combination h2 + 1 / 100000 * e1)
  rcases key with hk | ⟨t1, t2⟩
  · left
    have h3 : (c.evaluate y j - c.evaluate x j) / a' j ≤ 1 / 100000 * (k + 1) := by
      have h4 : 1 / 100000 * S ≤ 1 / 100000 * (k + 1) := mul_le_mul_of_nonneg_left he (by norm_num)
      have h5 : (c.evaluate y j - c.evaluate x j) / a' j =
          (c.evaluate y j - q j) / a' j - (c.evaluate x j - q j) / a' j := by
        rw [← sub_div]; congr 1; ring
      rw [h5]
      linarith
    rw [div_le_iff₀ (hpos' j)] at h3
    linear_combination h3 + hz' j - hz j
  · right
    unfold vmax at t1 t2
    refine ⟨⟨sx, byy.1, fun z hz => ?_⟩, ⟨bx.1, fun z hz => ?_⟩, sy⟩
    · refine le_trans (le_of_eq ?_) (sx.2 z hz)
      linear_combination -t1 - 1 / 100000 * e1
    · refine le_trans (le_of_eq ?_) (sy.2 z hz)
      linear_combination -t2 + 1 / 100000 * e1

/-- **C165** (first iteration). With exact minimizers: two answers to the initial request differ only in that the
second asks for more improvement of objective `j`, given directly or relative to another objective. Unless the first
point shown for the second answer is worse than the starting point in `j`, it is not worse in `j` than the point shown
for the first answer, apart from 1e-5 times the number of objectives and the degree of improvement, divided by the
number of iterations; or the two solutions found are best for both answers. -/
theorem C165_first {c : Cfg (k + 1) m K} {P : Side m K} {eps : K} {orc : Oracle (k + 1) m K} (h : Exact c P eps orc)
    (hnu : ∀ i, c.ideal i - eps < c.nadir i)
    (hbox : ∀ x, Best c P x →
      AtLeastAsGood (fun i => c.ideal i - eps) (c.evaluate x) ∧ AtLeastAsGood (c.evaluate x) c.nadir)
    {s s₁ s₂ : St (k + 1) m K} {r : Resp K} {z lo up z' lo' up' : Vec (k + 1) K} {d d' : Fl K} (h0 : s.step = 1)
    {a a' : Vec (k + 1) K} {j : Fin (k + 1)} (hpos : ∀ i, 0 < a i) (hm : AsksMoreOf a a' j)
    (ha : answer c s .initial { r with info := some (.arr (List.ofFn a)) } orc = (s₁, .ok (some (.nav z lo up d))))
    (ha' : answer c s .initial { r with info := some (.arr (List.ofFn a')) } orc =
      (s₂, .ok (some (.nav z' lo' up' d'))))
    (hup : z' j ≤ c.start j) :
    ∃ N x y, r.nIterations = some N ∧ 1 ≤ N.asInt ∧
      ConvexStep N.asInt c.start (c.evaluate x) z ∧ ConvexStep N.asInt c.start (c.evaluate y) z' ∧
      ((N.asInt : K) * (z' j - z j) ≤ (k + 1) / 100000 * a' j ∨
        (BestFrom c P eps a c.start x ∧ BestFrom c P eps a c.start y) ∧
          BestFrom c P eps a' c.start x ∧ BestFrom c P eps a' c.start y) := by
  have hpos' : ∀ i, 0 < a' i := by
    intro i
    rcases eq_or_ne i j with rfl | hij
    · exact (hpos i).trans hm.1
    · rw [hm.2 i hij]
      exact hpos i
  obtain ⟨N, x, meth, info, w, h1, _, h3, h4, h5, h6, h7, _, h9, _⟩ := C64_first h0 ha
  obtain ⟨N', y, meth', info', w', g1, _, _, g4, g5, g6, g7, _, g9, _⟩ := C64_first h0 ha'
  have h1' : r.nIterations = some N := h1
  have g1' : r.nIterations = some N' := g1
  rw [h1'] at g1'
  cases g1'; cases h5; cases g5
  cases factors_arr h6
  cases factors_arr g6
  have sx := h.bestFrom hpos c.start
  have sy := h.bestFrom hpos' c.start
  rw [← h7] at sx
  rw [← g7] at sy
  exact ⟨N, x, y, h1', h3, h9, g9, asked_more hnu hbox hpos hm sx sy h3 h9 g9 hup⟩

/-- The number of iterations left after a step forward depends on the number given only. -/
theorem left_forward {c : Cfg k m K} {orc : Oracle k m K} {s s' : St k m K} {req : Req k m K}
    {r : Resp K} {z lo up : Vec k K} {d : Fl K} (hs : 1 ≤ s.step) (hi : req ≠ .initial)
    (h : answer c s req r orc = (s', .ok (some (.nav z lo up d)))) (hb : r.stepBack = some false) :
    s'.left = (changeN s r.nIterations).left - 1 := by
  have h := answer_ok hs h
  generalize hq : some (Req.nav z lo up d) = q at h
  cases h with
  | ended => simp at hq
  | initial => exact absurd rfl hi
  | stop => simp at hq
  | keep _ e => subst e; rfl
  | change _ e => subst e; rfl
  | _ => simp_all

/-- **C165** (later iterations). The same for two answers that move on with new preferences from any request of any
run, compared with the point shown last. -/
theorem C165_forward {c : Cfg (k + 1) m K} {P : Side m K} {eps : K} {orc : Oracle (k + 1) m K} (h : Exact c P eps orc)
    (hnu : ∀ i, c.ideal i - eps < c.nadir i)
    (hbox : ∀ x, Best c P x →
      AtLeastAsGood (fun i => c.ideal i - eps) (c.evaluate x) ∧ AtLeastAsGood (c.evaluate x) c.nadir)
    {G : Oracle (k + 1) m K → Prop} {s s₁ s₂ : St (k + 1) m K} {iss : List (Req (k + 1) m K)}
    {req : Req (k + 1) m K} {r : Resp K} {q z lo up z' lo' up' : Vec (k + 1) K} {d d' : Fl K}
    (hS : Smooth c G s iss) (hr : req ∈ iss) (hlast : lastPoint iss = some q)
    (hb : r.stepBack = some false) (hp : r.usePrevious = some false)
    {a a' : Vec (k + 1) K} {j : Fin (k + 1)} (hpos : ∀ i, 0 < a i) (hm : AsksMoreOf a a' j)
    (ha : answer c s req { r with info := some (.arr (List.ofFn a)) } orc = (s₁, .ok (some (.nav z lo up d))))
    (ha' : answer c s req { r with info := some (.arr (List.ofFn a')) } orc = (s₂, .ok (some (.nav z' lo' up' d'))))
    (hup : z' j ≤ q j) :
    ∃ L : Int, ∃ x y, 1 ≤ L ∧
      ConvexStep L q (c.evaluate x) z ∧ ConvexStep L q (c.evaluate y) z' ∧
      ((L : K) * (z' j - z j) ≤ (k + 1) / 100000 * a' j ∨
        (BestFrom c P eps a q x ∧ BestFrom c P eps a q y) ∧
          BestFrom c P eps a' q x ∧ BestFrom c P eps a' q y) := by
  have hpos' : ∀ i, 0 < a' i := by
    intro i
    rcases eq_or_ne i j with rfl | hij
    · exact (hpos i).trans hm.1
    · rw [hm.2 i hij]
      exact hpos i
  have hni : req ≠ .initial := fun e => absurd e (hS.session.not_initial _ hr)
  have l1 := left_forward hS.inv.pos hni ha hb
  have l2 := left_forward hS.inv.pos hni ha' hb
  obtain ⟨q1, x, h1, h2, _, _, h5, h6, _⟩ := C64_forward hS hr ha hb
  obtain ⟨q2, y, g1, g2, _, _, g5, g6, _⟩ := C64_forward hS hr ha' hb
  rw [hlast] at h1 g1
  cases h1; cases g1
  obtain ⟨meth, info, w, hm1, hi1, hw1, hx⟩ := h5 hp
  obtain ⟨meth', info', w', hm2, hi2, hw2, hy⟩ := g5 hp
  cases hi1; cases hi2
  cases factors_arr hw1
  cases factors_arr hw2
  have sx := h.bestFrom hpos q
  have sy := h.bestFrom hpos' q
  rw [← hx] at sx
  rw [← hy] at sy
  have hll : s₂.left = s₁.left := l2.trans l1.symm
  rw [hll] at g6
  exact ⟨s₁.left, x, y, h2, h6, g6, asked_more hnu hbox hpos hm sx sy h2 h6 g6 hup⟩

/-- **C165** (stepping back). The same for two answers that step back and give new preferences, compared with the
point shown before the one stepped back from. -/
theorem C165_step_back {c : Cfg (k + 1) m K} {P : Side m K} {eps : K} {orc : Oracle (k + 1) m K}
    (h : Exact c P eps orc) (hnu : ∀ i, c.ideal i - eps < c.nadir i)
    (hbox : ∀ x, Best c P x →
      AtLeastAsGood (fun i => c.ideal i - eps) (c.evaluate x) ∧ AtLeastAsGood (c.evaluate x) c.nadir)
    {G : Oracle (k + 1) m K → Prop} {s s₁ s₂ : St (k + 1) m K} {iss : List (Req (k + 1) m K)}
    {req : Req (k + 1) m K} {r : Resp K} {q z lo up z' lo' up' : Vec (k + 1) K} {d d' : Fl K}
    (hS : Smooth c G s iss) (hr : req ∈ iss) (hprev : s.zs[s.step - 1]? = some (some q))
    (hb : r.stepBack = some true) (hsh : r.shortStep = some false) (hn : r.nIterations = none)
    {a a' : Vec (k + 1) K} {j : Fin (k + 1)} (hpos : ∀ i, 0 < a i) (hm : AsksMoreOf a a' j)
    (ha : answer c s req { r with info := some (.arr (List.ofFn a)) } orc = (s₁, .ok (some (.nav z lo up d))))
    (ha' : answer c s req { r with info := some (.arr (List.ofFn a')) } orc = (s₂, .ok (some (.nav z' lo' up' d'))))
    (hup : z' j ≤ q j) :
    ∃ L : Int, ∃ x y, 1 ≤ L ∧
      ConvexStep L q (c.evaluate x) z ∧ ConvexStep L q (c.evaluate y) z' ∧
      ((L : K) * (z' j - z j) ≤ (k + 1) / 100000 * a' j ∨
        (BestFrom c P eps a q x ∧ BestFrom c P eps a q y) ∧
          BestFrom c P eps a' q x ∧ BestFrom c P eps a' q y) := by
  have hpos' : ∀ i, 0 < a' i := by
    intro i
    rcases eq_or_ne i j with rfl | hij
    · exact (hpos i).trans hm.1
    · rw [hm.2 i hij]
      exact hpos i
  have hL : 1 ≤ s.left := by
    have hst := answer_ok hS.inv.pos ha
    have hcn : changeN s r.nIterations = s := by rw [hn]; rfl
    generalize hq : some (Req.nav z lo up d) = q' at hst
    cases hst with
    | ended => simp at hq
    | initial => exact absurd rfl (hS.session.not_initial _ hr)
    | stop => simp at hq
    | keep _ _ _ hb' => exact absurd (hb.symm.trans hb') (by simp)
    | change _ _ _ hb' => exact absurd (hb.symm.trans hb') (by simp)
    | short _ hs1 hl =>
      have hs1 := hs1.trans hcn
      subst hs1
      omega
    | redo _ hs1 hl =>
      have hs1 := hs1.trans hcn
      subst hs1
      omega
    | nothing => simp at hq
  obtain ⟨_, _, _, _, _, p1, zp1, _, h1, _, h5⟩ := C65_step_back hS hr ha hb hn
  obtain ⟨_, _, _, _, _, p2, zp2, _, g1, _, g5⟩ := C65_step_back hS hr ha' hb hn
  rw [hprev] at h1 g1
  cases h1; cases g1
  obtain ⟨meth, info, w, hm1, hi1, hw1, _, _, hx⟩ := h5 hsh
  obtain ⟨meth', info', w', hm2, hi2, hw2, _, _, hy⟩ := g5 hsh
  cases hi1; cases hi2
  cases factors_arr hw1
  cases factors_arr hw2
  exact ⟨s.left, _, _, hL, hx, hy,
    asked_more hnu hbox hpos hm (h.bestFrom hpos q) (h.bestFrom hpos' q) hL hx hy hup⟩

/-! ### Examples: minimize `x` and `1 - x`, `0 ≤ x ≤ 1` -/

theorem exCfg_box (x : Vec 1 ℚ) (h : Best exCfg (exSide 1) x) :
    AtLeastAsGood (fun i => exCfg.ideal i - 1/100) (exCfg.evaluate x) ∧
      AtLeastAsGood (exCfg.evaluate x) exCfg.nadir := by
  obtain ⟨h0, h1⟩ : 0 ≤ x 0 ∧ x 0 ≤ 1 := h.1
  constructor
  · intro i
    match i with
    | 0 => show (0 - 1/100 : ℚ) ≤ x 0; linarith
    | 1 => show (0 - 1/100 : ℚ) ≤ 1 - x 0; linarith
  · intro i
    match i with
    | 0 => show x 0 ≤ (1 : ℚ); linarith
    | 1 => show 1 - x 0 ≤ (1 : ℚ); linarith

def exDegResp : Resp ℚ := { nIterations := some (.int 2), method := some 1 }
def exDegOn : Resp ℚ := { stepBack := some false, usePrevious := some false, method := some 1 }
def exDegBack : Resp ℚ :=
  { stepBack := some true, shortStep := some false, usePrevious := some false, method := some 1 }

/-- The point, the bounds and the distance of a request. -/
def exPt (q : Req 2 1 ℚ) : Vec 2 ℚ := match q with | .nav z _ _ _ => z | _ => ![0, 0]
def exLo (q : Req 2 1 ℚ) : Vec 2 ℚ := match q with | .nav _ l _ _ => l | _ => ![0, 0]
def exDi (q : Req 2 1 ℚ) : Fl ℚ := match q with | .nav _ _ _ d => d | _ => .nan

/-- The initial request answered with the degrees (1, 1) and (3, 1). -/
def exDeg (a : Vec 2 ℚ) : St 2 1 ℚ × Except Err (Option (Req 2 1 ℚ)) :=
  answer exCfg St.init .initial { exDegResp with info := some (.arr (List.ofFn a)) } (exExact 1)

def exDegZ (a : Vec 2 ℚ) : Req 2 1 ℚ := getReq (exDeg a).2

theorem exDeg_low : exDeg ![1, 1] = ((exDeg ![1, 1]).1, .ok (some (.nav ![9/16, 13/16]
    (exLo (exDegZ ![1, 1])) ![9/16, 13/16] (exDi (exDegZ ![1, 1]))))) := eq_of_beq (by decide +kernel)
theorem exDeg_high : exDeg ![3, 1] = ((exDeg ![3, 1]).1, .ok (some (.nav ![15/32, 29/32]
    (exLo (exDegZ ![3, 1])) ![15/32, 29/32] (exDi (exDegZ ![3, 1]))))) := eq_of_beq (by decide +kernel)

example := C165_first (eps := 1/100) (exExact_exact (b := 1) (by norm_num) (by norm_num)) (c := exCfg)
  (by decide +kernel) exCfg_box
  (s := St.init) (r := exDegResp) rfl (a := ![1, 1]) (a' := ![3, 1]) (j := 0) (by decide +kernel)
  (by unfold AsksMoreOf; decide +kernel) exDeg_low exDeg_high (by decide +kernel)

/-- The next request, after equal degrees. -/
def exDegNext (r : Resp ℚ) (a : Vec 2 ℚ) : St 2 1 ℚ × Except Err (Option (Req 2 1 ℚ)) :=
  answer exCfg (exDeg ![1, 1]).1 (exDegZ ![1, 1]) { r with info := some (.arr (List.ofFn a)) } (exExact 1)

def exDegNextZ (r : Resp ℚ) (a : Vec 2 ℚ) : Req 2 1 ℚ := getReq (exDegNext r a).2

theorem exDegNext_low : exDegNext exDegOn ![1, 2] = ((exDegNext exDegOn ![1, 2]).1, .ok (some (.nav ![7/16, 9/16]
    (exLo (exDegNextZ exDegOn ![1, 2])) ![7/16, 9/16] (exDi (exDegNextZ exDegOn ![1, 2]))))) :=
  eq_of_beq (by decide +kernel)
theorem exDegNext_high : exDegNext exDegOn ![2, 2] = ((exDegNext exDegOn ![2, 2]).1, .ok (some (.nav ![3/8, 5/8]
    (exLo (exDegNextZ exDegOn ![2, 2])) ![3/8, 5/8] (exDi (exDegNextZ exDegOn ![2, 2]))))) :=
  eq_of_beq (by decide +kernel)

theorem exDeg_smooth : Smooth exCfg (Exact exCfg (exSide 1) (1/100)) (exDeg ![1, 1]).1 [exDegZ ![1, 1]] :=
  .first (s0 := St.init) (c := exCfg) (orc := exExact 1)
    (r := ({ exDegResp with info := some (.arr (List.ofFn ![1, 1])) } : Resp ℚ)) rfl
    (exExact_exact (b := 1) (by norm_num) (by norm_num)) (s' := (exDeg ![1, 1]).1) (q := exDegZ ![1, 1])
    (eq_of_beq (by decide +kernel))

example := C165_forward (eps := 1/100) (exExact_exact (b := 1) (by norm_num) (by norm_num)) (c := exCfg)
  (by decide +kernel) exCfg_box
  exDeg_smooth List.mem_cons_self (q := ![9/16, 13/16]) (eq_of_beq (by decide +kernel)) (r := exDegOn) rfl rfl
  (a := ![1, 2]) (a' := ![2, 2]) (j := 0) (by decide +kernel)
  (by unfold AsksMoreOf; decide +kernel) exDegNext_low exDegNext_high (by decide +kernel)

theorem exDegBack_low : exDegNext exDegBack ![1, 2] = ((exDegNext exDegBack ![1, 2]).1, .ok (some (.nav ![5/8, 3/4]
    (exLo (exDegNextZ exDegBack ![1, 2])) ![5/8, 3/4] (exDi (exDegNextZ exDegBack ![1, 2]))))) :=
  eq_of_beq (by decide +kernel)
theorem exDegBack_high : exDegNext exDegBack ![2, 2] = ((exDegNext exDegBack ![2, 2]).1, .ok (some (.nav ![9/16, 13/16]
    (exLo (exDegNextZ exDegBack ![2, 2])) ![9/16, 13/16] (exDi (exDegNextZ exDegBack ![2, 2]))))) :=
  eq_of_beq (by decide +kernel)

example := C165_step_back (eps := 1/100) (exExact_exact (b := 1) (by norm_num) (by norm_num)) (c := exCfg)
  (by decide +kernel) exCfg_box
  exDeg_smooth List.mem_cons_self (q := ![3/4, 1]) (eq_of_beq (by decide +kernel)) (r := exDegBack) rfl rfl rfl
  (a := ![1, 2]) (a' := ![2, 2]) (j := 0) (by decide +kernel)
  (by unfold AsksMoreOf; decide +kernel) exDegBack_low exDegBack_high (by decide +kernel)

end Verif.NautilusV2
