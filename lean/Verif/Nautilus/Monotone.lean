import Verif.Nautilus.Task
import Verif.Rpm.Monotone

/-!
# NAUTILUS: ranking an objective higher (C164)
-/

set_option linter.unusedSectionVars false

namespace Verif.Nautilus

variable {K : Type} [Field K] [LinearOrder K] [IsStrictOrderedRing K] {k m : Nat}

/-- Specification: the ranks `a'` give objective `j` a higher importance than `a`, and the others the same. -/
def RanksHigher (a a' : Vec k K) (j : Fin k) : Prop := a j < a' j ∧ ∀ i, i ≠ j → a' i = a i

/-- Specification: `x` minimizes the achievement function of the ranks `a` from the point `q` within the bounds:
the largest of `(f i - q i) / (a i * range i)` plus 1e-6 times the sum of `(f i - q i) / range i`, where
`range = nadir - utopian`. -/
def BestFrom (c : Cfg (k + 1) m K) (P : Side m K) (a q : Vec (k + 1) K) (x : Vec m K) : Prop :=
  P.inBounds x ∧ ∀ y, P.inBounds y →
    Finset.univ.sup' Finset.univ_nonempty (fun i => (c.evaluate x i - q i) / (a i * (c.nadir i - c.utopian i))) +
        1 / 1000000 * ∑ i, (c.evaluate x i - q i) / (c.nadir i - c.utopian i) ≤
      Finset.univ.sup' Finset.univ_nonempty (fun i => (c.evaluate y i - q i) / (a i * (c.nadir i - c.utopian i))) +
        1 / 1000000 * ∑ i, (c.evaluate y i - q i) / (c.nadir i - c.utopian i)

/-- The solution found for positive ranks is best for them. -/
theorem Exact.bestFrom {c : Cfg (k + 1) m K} {P : Side m K} {orc : Oracle (k + 1) m K} (h : Exact c P orc)
    (hnu : ∀ i, c.utopian i < c.nadir i) {a : Vec (k + 1) K} (ha : ∀ i, 0 < a i) {b : Bool}
    {w : Fin (k + 1) → Fl K} (hw : factors c 1 (List.ofFn a) b = .ok w) (q : Vec (k + 1) K) :
    BestFrom c P a q (orc.asf w q) := by
  have hpos : ∀ i, 0 < a i * (c.nadir i - c.utopian i) := fun i =>
    mul_pos (ha i) (by have := hnu i; linarith)
  have hnum : AreNums w fun i => 1 / (a i * (c.nadir i - c.utopian i)) := by
    intro i
    simp only [factors, if_true, Except.ok.injEq] at hw
    rw [← hw]
    have hg : ((List.ofFn a)[i.val]?).getD 0 = a i := by
      rw [List.getElem?_eq_getElem (by simp only [List.length_ofFn]; exact i.isLt), Option.getD_some,
        List.getElem_ofFn]
    show rankFactor (((List.ofFn a)[i.val]?).getD 0) (c.nadir i) (c.utopian i) = _
    rw [hg]
    simp only [rankFactor, fdiv]
    rw [if_neg (hpos i).ne']
  obtain ⟨h1, h2⟩ := h.best q hnum fun i => by have := hpos i; positivity
  refine ⟨h1, fun y hy => ?_⟩
  have := h2 y hy
  simpa only [refPointASF, vmax, one_div, inv_mul_eq_div] using this

theorem BestFrom.best {c : Cfg (k + 1) m K} {P : Side m K} (hnu : ∀ i, c.utopian i < c.nadir i)
    {a q : Vec (k + 1) K} (ha : ∀ i, 0 < a i) {x : Vec m K} (h : BestFrom c P a q x) : Best c P x := by
  refine ⟨h.1, fun y hy hd => ?_⟩
  have hpos : ∀ i, 0 < a i * (c.nadir i - c.utopian i) := fun i =>
    mul_pos (ha i) (by have := hnu i; linarith)
  have := refPointASF_strict (mu := fun i => 1 / (a i * (c.nadir i - c.utopian i))) (rho := 1 / 1000000) (q := q)
    (fun i => by have := hpos i; positivity) hnu (by norm_num) hd
  simp only [refPointASF, vmax, one_div, inv_mul_eq_div] at this
  have h2 := h.2 y hy
  simp only [one_div, inv_mul_eq_div] at h2
  exact absurd h2 (not_le.2 this)

/-- The core: two points the same way towards solutions that are best for the ranks `a` and `a'`. -/
theorem ranked_higher {c : Cfg (k + 1) m K} {P : Side m K} (hnu : ∀ i, c.utopian i < c.nadir i)
    (hbox : ∀ x, Best c P x → AtLeastAsGood c.utopian (c.evaluate x) ∧ AtLeastAsGood (c.evaluate x) c.nadir)
    {a a' q z z' : Vec (k + 1) K} {j : Fin (k + 1)} (hpos : ∀ i, 0 < a i) (hm : RanksHigher a a' j)
    {x y : Vec m K} (sx : BestFrom c P a q x) (sy : BestFrom c P a' q y) {L : Int} (hL : 1 ≤ L)
    (hz : ConvexStep L q (c.evaluate x) z) (hz' : ConvexStep L q (c.evaluate y) z') (hup : z' j ≤ q j) :
    (L : K) * (z' j - z j) ≤ (k + 1) / 1000000 * (a' j * (c.nadir j - c.utopian j)) ∨
      (BestFrom c P a q x ∧ BestFrom c P a q y) ∧ BestFrom c P a' q x ∧ BestFrom c P a' q y := by
  have hpos' : ∀ i, 0 < a' i := by
    intro i
    rcases eq_or_ne i j with rfl | hij
    · exact (hpos i).trans hm.1
    · rw [hm.2 i hij]
      exact hpos i
  have hr : ∀ i, 0 < c.nadir i - c.utopian i := fun i => by have := hnu i; linarith
  have hL' : (1 : K) ≤ (L : K) := by exact_mod_cast hL
  have hyj : c.evaluate y j ≤ q j := by
    have := hz' j
    nlinarith
  have bx := sx.best hnu hpos
  have byy := sy.best hnu hpos'
  have h1 := sx.2 y byy.1
  have h2 := sy.2 x bx.1
  have e1 : (∑ i, (c.evaluate x i - q i) / (c.nadir i - c.utopian i)) -
      ∑ i, (c.evaluate y i - q i) / (c.nadir i - c.utopian i) =
      ∑ i, (c.evaluate x i - c.evaluate y i) / (c.nadir i - c.utopian i) := by
    rw [← Finset.sum_sub_distrib]
    exact Finset.sum_congr rfl fun i _ => by rw [← sub_div]; congr 1; ring
  have he : ∑ i, (c.evaluate x i - c.evaluate y i) / (c.nadir i - c.utopian i) ≤ k + 1 := by
    calc ∑ i, (c.evaluate x i - c.evaluate y i) / (c.nadir i - c.utopian i) ≤ ∑ _i : Fin (k + 1), (1 : K) := by
          apply Finset.sum_le_sum
          intro i _
          rw [div_le_one (hr i)]
          have := (hbox x bx).2 i
          have := (hbox y byy).1 i
          linarith
      _ = k + 1 := by simp
  generalize hS : ∑ i, (c.evaluate x i - c.evaluate y i) / (c.nadir i - c.utopian i) = S at he e1
  have key := Rpm.raised_component (j := j) (e := 1 / 1000000 * S)
    (v := fun i => (c.evaluate x i - q i) / (a i * (c.nadir i - c.utopian i)))
    (v' := fun i => (c.evaluate y i - q i) / (a i * (c.nadir i - c.utopian i)))
    (w := fun i => (c.evaluate x i - q i) / (a' i * (c.nadir i - c.utopian i)))
    (w' := fun i => (c.evaluate y i - q i) / (a' i * (c.nadir i - c.utopian i)))
    (fun i hi => by simp only [hm.2 i hi]) (fun i hi => by simp only [hm.2 i hi]) (by
      show (c.evaluate y j - q j) / (a j * (c.nadir j - c.utopian j)) ≤
        (c.evaluate y j - q j) / (a' j * (c.nadir j - c.utopian j))
      rw [div_le_div_iff₀ (mul_pos (hpos j) (hr j)) (mul_pos (hpos' j) (hr j))]
      have h3 : (a j * (c.nadir j - c.utopian j)) ≤ (a' j * (c.nadir j - c.utopian j)) :=
        mul_le_mul_of_nonneg_right hm.1.le (hr j).le
      exact mul_le_mul_of_nonpos_left h3 (by linarith)) (by
      unfold vmax
      linear_combination h1 - 1 / 1000000 * e1) (by
      unfold vmax
      linear_combination h2 + 1 / 1000000 * e1)
  rcases key with hk | ⟨t1, t2⟩
  · left
    have hd := mul_pos (hpos' j) (hr j)
    have h3 : (c.evaluate y j - c.evaluate x j) / (a' j * (c.nadir j - c.utopian j)) ≤ 1 / 1000000 * (k + 1) := by
      have h4 : 1 / 1000000 * S ≤ 1 / 1000000 * (k + 1) := mul_le_mul_of_nonneg_left he (by norm_num)
      have h5 : (c.evaluate y j - c.evaluate x j) / (a' j * (c.nadir j - c.utopian j)) =
          (c.evaluate y j - q j) / (a' j * (c.nadir j - c.utopian j)) -
            (c.evaluate x j - q j) / (a' j * (c.nadir j - c.utopian j)) := by
        rw [← sub_div]; congr 1; ring
      rw [h5]
      linarith
    rw [div_le_iff₀ hd] at h3
    linear_combination h3 + hz' j - hz j
  · right
    unfold vmax at t1 t2
    refine ⟨⟨sx, byy.1, fun z hz => ?_⟩, ⟨bx.1, fun z hz => ?_⟩, sy⟩
    · refine le_trans (le_of_eq ?_) (sx.2 z hz)
      linear_combination -t1 - 1 / 1000000 * e1
    · refine le_trans (le_of_eq ?_) (sy.2 z hz)
      linear_combination -t2 + 1 / 1000000 * e1

/-- **C164** (first iteration). With exact minimizers: two answers to the initial request differ only in that the
second ranks objective `j` higher. Unless the first point shown for the second answer is worse than the nadir in
`j`, it is not worse in `j` than the point shown for the first answer, apart from 1e-6 times the number of
objectives, the rank and the range, divided by the number of iterations; or the two solutions found are best for
both rankings. -/
theorem C164_first {c : Cfg (k + 1) m K} {P : Side m K} {orc : Oracle (k + 1) m K} (h : Exact c P orc)
    (hnu : ∀ i, c.utopian i < c.nadir i)
    (hbox : ∀ x, Best c P x → AtLeastAsGood c.utopian (c.evaluate x) ∧ AtLeastAsGood (c.evaluate x) c.nadir)
    {s s₁ s₂ : St (k + 1) m K} {r : Resp K} {z lo up z' lo' up' : Vec (k + 1) K} {d d' : Fl K} (h0 : s.step = 1)
    {a a' : Vec (k + 1) K} {j : Fin (k + 1)} (hmeth : r.method = some 1) (hpos : ∀ i, 0 < a i)
    (hm : RanksHigher a a' j)
    (ha : answer c s .initial { r with info := some (List.ofFn a) } orc = (s₁, .ok (some (.nav z lo up d))))
    (ha' : answer c s .initial { r with info := some (List.ofFn a') } orc = (s₂, .ok (some (.nav z' lo' up' d'))))
    (hup : z' j ≤ c.nadir j) :
    ∃ N x y, r.nIterations = some N ∧ 1 ≤ N.asInt ∧
      ConvexStep N.asInt c.nadir (c.evaluate x) z ∧ ConvexStep N.asInt c.nadir (c.evaluate y) z' ∧
      ((N.asInt : K) * (z' j - z j) ≤ (k + 1) / 1000000 * (a' j * (c.nadir j - c.utopian j)) ∨
        (BestFrom c P a c.nadir x ∧ BestFrom c P a c.nadir y) ∧
          BestFrom c P a' c.nadir x ∧ BestFrom c P a' c.nadir y) := by
  have hpos' : ∀ i, 0 < a' i := by
    intro i
    rcases eq_or_ne i j with rfl | hij
    · exact (hpos i).trans hm.1
    · rw [hm.2 i hij]
      exact hpos i
  obtain ⟨N, x, meth, info, w, h1, _, h3, h4, h5, h6, h7, _, h9, _⟩ := C31_first h0 ha
  obtain ⟨N', y, meth', info', w', g1, _, _, g4, g5, g6, g7, _, g9, _⟩ := C31_first h0 ha'
  have h1' : r.nIterations = some N := h1
  have g1' : r.nIterations = some N' := g1
  have h4' : r.method = some meth := h4
  have g4' : r.method = some meth' := g4
  rw [h1'] at g1'
  rw [hmeth] at h4' g4'
  cases g1'; cases h4'; cases g4'; cases h5; cases g5
  have sx := h.bestFrom hnu hpos h6 c.nadir
  have sy := h.bestFrom hnu hpos' g6 c.nadir
  rw [← h7] at sx
  rw [← g7] at sy
  exact ⟨N, x, y, h1', h3, h9, g9, ranked_higher hnu hbox hpos hm sx sy h3 h9 g9 hup⟩

/-- The number of iterations left after a step forward depends on the number given only. -/
theorem left_forward {c : Cfg k m K} {orc : Oracle k m K} {s s' : St k m K} {req : Req k m K}
    {r : Resp K} {z lo up : Vec k K} {d : Fl K} (hs : 1 ≤ s.step) (hi : req ≠ .initial)
    (h : answer c s req r orc = (s', .ok (some (.nav z lo up d)))) (hb : r.stepBack = some false) :
    s'.left = (changeN s r.nIterations).left - 1 := by
  have h := answer_ok hs h
  generalize hq : some (Req.nav z lo up d) = q at h
  cases h with
  | ended => simp at hq
  | initial => exact absurd rfl hi
  | stop => simp at hq
  | keep _ e => subst e; rfl
  | change _ e => subst e; rfl
  | _ => simp_all

/-- **C164** (later iterations). The same for two answers that move on with new ranks from any request of any run,
compared with the point shown last. -/
theorem C164_forward {c : Cfg (k + 1) m K} {P : Side m K} {orc : Oracle (k + 1) m K} (h : Exact c P orc)
    (hnu : ∀ i, c.utopian i < c.nadir i)
    (hbox : ∀ x, Best c P x → AtLeastAsGood c.utopian (c.evaluate x) ∧ AtLeastAsGood (c.evaluate x) c.nadir)
    {G : Oracle (k + 1) m K → Prop} {s s₁ s₂ : St (k + 1) m K} {iss : List (Req (k + 1) m K)}
    {req : Req (k + 1) m K} {r : Resp K} {q z lo up z' lo' up' : Vec (k + 1) K} {d d' : Fl K}
    (hS : Smooth c G s iss) (hr : req ∈ iss) (hlast : lastPoint iss = some q)
    (hb : r.stepBack = some false) (hp : r.usePrevious = some false)
    {a a' : Vec (k + 1) K} {j : Fin (k + 1)} (hmeth : r.method = some 1) (hpos : ∀ i, 0 < a i)
    (hm : RanksHigher a a' j)
    (ha : answer c s req { r with info := some (List.ofFn a) } orc = (s₁, .ok (some (.nav z lo up d))))
    (ha' : answer c s req { r with info := some (List.ofFn a') } orc = (s₂, .ok (some (.nav z' lo' up' d'))))
    (hup : z' j ≤ q j) :
    ∃ L : Int, ∃ x y, 1 ≤ L ∧
      ConvexStep L q (c.evaluate x) z ∧ ConvexStep L q (c.evaluate y) z' ∧
      ((L : K) * (z' j - z j) ≤ (k + 1) / 1000000 * (a' j * (c.nadir j - c.utopian j)) ∨
        (BestFrom c P a q x ∧ BestFrom c P a q y) ∧ BestFrom c P a' q x ∧ BestFrom c P a' q y) := by
  have hpos' : ∀ i, 0 < a' i := by
    intro i
    rcases eq_or_ne i j with rfl | hij
    · exact (hpos i).trans hm.1
    · rw [hm.2 i hij]
      exact hpos i
  have hni : req ≠ .initial := fun e => absurd e (hS.session.not_initial.2.2 _ hr)
  have l1 := left_forward hS.inv.store.step hni ha hb
  have l2 := left_forward hS.inv.store.step hni ha' hb
  obtain ⟨q1, x, h1, h2, _, _, h5, h6, _⟩ := C31_forward hS hr ha hb
  obtain ⟨q2, y, g1, g2, _, _, g5, g6, _⟩ := C31_forward hS hr ha' hb
  rw [hlast] at h1 g1
  cases h1; cases g1
  obtain ⟨meth, info, w, hm1, hi1, hw1, hx⟩ := h5 hp
  obtain ⟨meth', info', w', hm2, hi2, hw2, hy⟩ := g5 hp
  have hm1' : r.method = some meth := hm1
  have hm2' : r.method = some meth' := hm2
  rw [hmeth] at hm1' hm2'
  cases hm1'; cases hm2'; cases hi1; cases hi2
  have sx := h.bestFrom hnu hpos hw1 q
  have sy := h.bestFrom hnu hpos' hw2 q
  rw [← hx] at sx
  rw [← hy] at sy
  have hll : s₂.left = s₁.left := l2.trans l1.symm
  rw [hll] at g6
  exact ⟨s₁.left, x, y, h2, h6, g6, ranked_higher hnu hbox hpos hm sx sy h2 h6 g6 hup⟩

/-! ### Percentages -/

/-- Specification: of the percentages `p'`, objective `j` gets more than of `p`; the others share the rest in the
same proportions, every one getting the fraction `t` of what it had. -/
def GivesMore (t : K) (p p' : Vec k K) (j : Fin k) : Prop := p j < p' j ∧ ∀ i, i ≠ j → p' i = t * p i

/-- Specification: as `BestFrom`, up to `tol`. -/
def NearlyBestFrom (c : Cfg (k + 1) m K) (P : Side m K) (tol : K) (a q : Vec (k + 1) K) (x : Vec m K) : Prop :=
  P.inBounds x ∧ ∀ y, P.inBounds y →
    Finset.univ.sup' Finset.univ_nonempty (fun i => (c.evaluate x i - q i) / (a i * (c.nadir i - c.utopian i))) +
        1 / 1000000 * ∑ i, (c.evaluate x i - q i) / (c.nadir i - c.utopian i) ≤
      Finset.univ.sup' Finset.univ_nonempty (fun i => (c.evaluate y i - q i) / (a i * (c.nadir i - c.utopian i))) +
        1 / 1000000 * ∑ i, (c.evaluate y i - q i) / (c.nadir i - c.utopian i) + tol

theorem Exact.bestFromPercent {c : Cfg (k + 1) m K} {P : Side m K} {orc : Oracle (k + 1) m K} (h : Exact c P orc)
    (hnu : ∀ i, c.utopian i < c.nadir i) {p : Vec (k + 1) K} (ha : ∀ i, 0 < p i) {b : Bool}
    {w : Fin (k + 1) → Fl K} (hw : factors c 2 (List.ofFn p) b = .ok w) (q : Vec (k + 1) K) :
    BestFrom c P (fun i => p i / 100) q (orc.asf w q) := by
  have e : factors c 2 (List.ofFn p) b = .ok w → factors c 1 (List.ofFn fun i => p i / 100) b = .ok w := by
    intro hw
    unfold factors at hw ⊢
    rw [if_neg (by decide)] at hw
    rw [if_pos rfl]
    split at hw
    · rw [← hw]
      congr 1
      funext i
      have h1 : ((List.ofFn p)[i.val]?).getD 0 = p i := by
        rw [List.getElem?_eq_getElem (by simp only [List.length_ofFn]; exact i.isLt), Option.getD_some,
          List.getElem_ofFn]
      have h2 : ((List.ofFn fun i => p i / 100)[i.val]?).getD 0 = p i / 100 := by
        rw [List.getElem?_eq_getElem (by simp only [List.length_ofFn]; exact i.isLt), Option.getD_some,
          List.getElem_ofFn]
      rw [h1, h2]
    · simp at hw
  exact h.bestFrom hnu (fun i => by have := ha i; positivity) (e hw) q

/-- Two weighted maxima: the second multiplies one component by `1/l ≤ 1` and divides the others by `t ≤ 1`. If no
component of the better vector for the second is positive, it is nearly best for the first as well, or exceeds the
other in the component in question at most by the difference of the additional terms. -/
theorem raised_share {v v' w w' : Vec (k + 1) K} {j : Fin (k + 1)} {e t l : K} (ht : 0 < t) (ht1 : t ≤ 1) (hl : 1 ≤ l)
    (hv : ∀ i, i ≠ j → v i = t * w i) (hv' : ∀ i, i ≠ j → v' i = t * w' i) (hj' : v' j = l * w' j)
    (hneg : ∀ i, w' i ≤ 0) (h2 : vmax w' ≤ vmax w + e) :
    w' j ≤ w j + e ∨ vmax v' ≤ vmax v + t * e := by
  by_cases hc : vmax w ≤ w j
  · left
    have := le_vmax w' j
    linarith
  · right
    push Not at hc
    have h3 : t * vmax w ≤ vmax v := by
      obtain ⟨i, -, hi⟩ := Finset.exists_mem_eq_sup' Finset.univ_nonempty w
      change vmax w = w i at hi
      rcases eq_or_ne i j with rfl | hij
      · rw [hi] at hc
        exact absurd hc (lt_irrefl _)
      · rw [hi, ← hv i hij]
        exact le_vmax v i
    have hw0 : vmax w' ≤ 0 := vmax_le_iff.2 hneg
    have h4 : vmax v' ≤ t * vmax w' := by
      rw [vmax_le_iff]
      intro i
      have hi := le_vmax w' i
      rcases eq_or_ne i j with rfl | hij
      · rw [hj']
        have := mul_le_mul_of_nonneg_left hi (zero_le_one.trans hl)
        have := mul_le_mul_of_nonpos_right (ht1.trans hl) hw0
        linarith
      · rw [hv' i hij]
        exact mul_le_mul_of_nonneg_left hi ht.le
    have := mul_le_mul_of_nonneg_left h2 ht.le
    linarith

theorem given_more {c : Cfg (k + 1) m K} {P : Side m K} (hnu : ∀ i, c.utopian i < c.nadir i)
    (hbox : ∀ x, Best c P x → AtLeastAsGood c.utopian (c.evaluate x) ∧ AtLeastAsGood (c.evaluate x) c.nadir)
    {t : K} (ht : 0 < t) (ht1 : t ≤ 1) {a a' q z z' : Vec (k + 1) K} {j : Fin (k + 1)} (hpos : ∀ i, 0 < a i)
    (hm : GivesMore t a a' j)
    {x y : Vec m K} (sx : BestFrom c P a q x) (sy : BestFrom c P a' q y) {L : Int} (hL : 1 ≤ L)
    (hz : ConvexStep L q (c.evaluate x) z) (hz' : ConvexStep L q (c.evaluate y) z') (hup : AtLeastAsGood z' q) :
    (L : K) * (z' j - z j) ≤ (k + 1) / 1000000 * (a' j * (c.nadir j - c.utopian j)) ∨
      NearlyBestFrom c P ((1 - t) * ((k + 1) / 1000000)) a q y := by
  have hpos' : ∀ i, 0 < a' i := by
    intro i
    rcases eq_or_ne i j with rfl | hij
    · exact (hpos i).trans hm.1
    · rw [hm.2 i hij]
      exact mul_pos ht (hpos i)
  have hr : ∀ i, 0 < c.nadir i - c.utopian i := fun i => by have := hnu i; linarith
  have hL' : (1 : K) ≤ (L : K) := by exact_mod_cast hL
  have hyj : ∀ i, c.evaluate y i ≤ q i := by
    intro i
    have := hz' i
    have := hup i
    nlinarith
  have bx := sx.best hnu hpos
  have byy := sy.best hnu hpos'
  have h2 := sy.2 x bx.1
  have esum : ∀ u v : Vec m K, (∑ i, (c.evaluate u i - q i) / (c.nadir i - c.utopian i)) -
      ∑ i, (c.evaluate v i - q i) / (c.nadir i - c.utopian i) =
      ∑ i, (c.evaluate u i - c.evaluate v i) / (c.nadir i - c.utopian i) := by
    intro u v
    rw [← Finset.sum_sub_distrib]
    exact Finset.sum_congr rfl fun i _ => by rw [← sub_div]; congr 1; ring
  have hle : ∀ u v : Vec m K, Best c P u → Best c P v →
      ∑ i, (c.evaluate u i - c.evaluate v i) / (c.nadir i - c.utopian i) ≤ k + 1 := by
    intro u v hu hv
    calc ∑ i, (c.evaluate u i - c.evaluate v i) / (c.nadir i - c.utopian i) ≤ ∑ _i : Fin (k + 1), (1 : K) := by
          apply Finset.sum_le_sum
          intro i _
          rw [div_le_one (hr i)]
          have := (hbox u hu).2 i
          have := (hbox v hv).1 i
          linarith
      _ = k + 1 := by simp
  have e1 := esum x y
  have e2 := esum y x
  have he := hle x y bx byy
  have he2 := hle y x byy bx
  rw [← e1] at he
  rw [← e2] at he2
  generalize hSx : ∑ i, (c.evaluate x i - q i) / (c.nadir i - c.utopian i) = Sx at *
  generalize hSy : ∑ i, (c.evaluate y i - q i) / (c.nadir i - c.utopian i) = Sy at *
  have key := raised_share (j := j) (e := 1 / 1000000 * (Sx - Sy)) (t := t) (l := a' j / a j)
    (v := fun i => (c.evaluate x i - q i) / (a i * (c.nadir i - c.utopian i)))
    (v' := fun i => (c.evaluate y i - q i) / (a i * (c.nadir i - c.utopian i)))
    (w := fun i => (c.evaluate x i - q i) / (a' i * (c.nadir i - c.utopian i)))
    (w' := fun i => (c.evaluate y i - q i) / (a' i * (c.nadir i - c.utopian i))) ht ht1
    ((one_le_div (hpos j)).2 hm.1.le)
    (fun i hi => by
      have h3 := (hpos i).ne'
      have h4 := (hr i).ne'
      have h5 := ht.ne'
      simp only [hm.2 i hi]
      field_simp)
    (fun i hi => by
      have h3 := (hpos i).ne'
      have h4 := (hr i).ne'
      have h5 := ht.ne'
      simp only [hm.2 i hi]
      field_simp)
    (by
      have h3 := (hpos j).ne'
      have h4 := (hr j).ne'
      have h5 := (hpos' j).ne'
      field_simp)
    (fun i => div_nonpos_of_nonpos_of_nonneg (by have := hyj i; linarith) (mul_pos (hpos' i) (hr i)).le)
    (by
      unfold vmax
      linear_combination h2)
  rcases key with hk | hk
  · left
    have hd := mul_pos (hpos' j) (hr j)
    have h3 : (c.evaluate y j - c.evaluate x j) / (a' j * (c.nadir j - c.utopian j)) ≤ 1 / 1000000 * (k + 1) := by
      have h4 : 1 / 1000000 * (Sx - Sy) ≤ 1 / 1000000 * (k + 1) := mul_le_mul_of_nonneg_left he (by norm_num)
      have h5 : (c.evaluate y j - c.evaluate x j) / (a' j * (c.nadir j - c.utopian j)) =
          (c.evaluate y j - q j) / (a' j * (c.nadir j - c.utopian j)) -
            (c.evaluate x j - q j) / (a' j * (c.nadir j - c.utopian j)) := by
        rw [← sub_div]; congr 1; ring
      rw [h5]
      linarith
    rw [div_le_iff₀ hd] at h3
    linear_combination h3 + hz' j - hz j
  · right
    unfold vmax at hk
    refine ⟨byy.1, fun u hu => ?_⟩
    have h6 := sx.2 u hu
    rw [hSx] at h6
    rw [hSy]
    have h7 : (1 - t) * (1 / 1000000 * (Sy - Sx)) ≤ (1 - t) * ((k + 1) / 1000000) :=
      mul_le_mul_of_nonneg_left (by linear_combination 1 / 1000000 * he2) (by linarith)
    linear_combination h6 + hk + h7

/-- **C164** (percentages). The same for answers that move on with new percentages, the second of which gives
objective `j` more while the others share the rest in the same proportions: unless the new point gives something
up, it is not worse in `j` than the other one apart from the allowance, or the new solution is best for the first
answer up to 1e-6 times the number of objectives. -/
theorem C164_percent {c : Cfg (k + 1) m K} {P : Side m K} {orc : Oracle (k + 1) m K} (h : Exact c P orc)
    (hnu : ∀ i, c.utopian i < c.nadir i)
    (hbox : ∀ x, Best c P x → AtLeastAsGood c.utopian (c.evaluate x) ∧ AtLeastAsGood (c.evaluate x) c.nadir)
    {G : Oracle (k + 1) m K → Prop} {s s₁ s₂ : St (k + 1) m K} {iss : List (Req (k + 1) m K)}
    {req : Req (k + 1) m K} {r : Resp K} {q z lo up z' lo' up' : Vec (k + 1) K} {d d' : Fl K}
    (hS : Smooth c G s iss) (hr : req ∈ iss) (hlast : lastPoint iss = some q)
    (hb : r.stepBack = some false) (hp : r.usePrevious = some false)
    {t : K} (ht : 0 < t) (ht1 : t ≤ 1) {p p' : Vec (k + 1) K} {j : Fin (k + 1)} (hmeth : r.method = some 2)
    (hpos : ∀ i, 0 < p i) (hm : GivesMore t p p' j)
    (ha : answer c s req { r with info := some (List.ofFn p) } orc = (s₁, .ok (some (.nav z lo up d))))
    (ha' : answer c s req { r with info := some (List.ofFn p') } orc = (s₂, .ok (some (.nav z' lo' up' d'))))
    (hup : AtLeastAsGood z' q) :
    ∃ L : Int, ∃ x y, 1 ≤ L ∧
      ConvexStep L q (c.evaluate x) z ∧ ConvexStep L q (c.evaluate y) z' ∧
      BestFrom c P (fun i => p i / 100) q x ∧ BestFrom c P (fun i => p' i / 100) q y ∧
      ((L : K) * (z' j - z j) ≤ (k + 1) / 1000000 * (p' j / 100 * (c.nadir j - c.utopian j)) ∨
        NearlyBestFrom c P ((1 - t) * ((k + 1) / 1000000)) (fun i => p i / 100) q y) := by
  have hpos' : ∀ i, 0 < p' i := by
    intro i
    rcases eq_or_ne i j with rfl | hij
    · exact (hpos i).trans hm.1
    · rw [hm.2 i hij]
      exact mul_pos ht (hpos i)
  have hni : req ≠ .initial := fun e => absurd e (hS.session.not_initial.2.2 _ hr)
  have l1 := left_forward hS.inv.store.step hni ha hb
  have l2 := left_forward hS.inv.store.step hni ha' hb
  obtain ⟨q1, x, h1, h2, _, _, h5, h6, _⟩ := C31_forward hS hr ha hb
  obtain ⟨q2, y, g1, g2, _, _, g5, g6, _⟩ := C31_forward hS hr ha' hb
  rw [hlast] at h1 g1
  cases h1; cases g1
  obtain ⟨meth, info, w, hm1, hi1, hw1, hx⟩ := h5 hp
  obtain ⟨meth', info', w', hm2, hi2, hw2, hy⟩ := g5 hp
  have hm1' : r.method = some meth := hm1
  have hm2' : r.method = some meth' := hm2
  rw [hmeth] at hm1' hm2'
  cases hm1'; cases hm2'; cases hi1; cases hi2
  have sx := h.bestFromPercent hnu hpos hw1 q
  have sy := h.bestFromPercent hnu hpos' hw2 q
  rw [← hx] at sx
  rw [← hy] at sy
  have hll : s₂.left = s₁.left := l2.trans l1.symm
  rw [hll] at g6
  refine ⟨s₁.left, x, y, h2, h6, g6, sx, sy, given_more hnu hbox ht ht1 (fun i => by have := hpos i; positivity)
    ⟨by have := hm.1; linarith, fun i hi => by rw [hm.2 i hi]; ring⟩ sx sy h2 h6 g6 hup⟩

/-! ### Examples: minimize `x` and `1 - x`, `0 ≤ x ≤ 1` -/

theorem exCfg_box (x : Vec 1 ℚ) (h : Best exCfg (exSide 1) x) :
    AtLeastAsGood exCfg.utopian (exCfg.evaluate x) ∧ AtLeastAsGood (exCfg.evaluate x) exCfg.nadir := by
  obtain ⟨h0, h1⟩ : 0 ≤ x 0 ∧ x 0 ≤ 1 := h.1
  constructor
  · intro i
    match i with
    | 0 => show (-1/100 : ℚ) ≤ x 0; linarith
    | 1 => show (-1/100 : ℚ) ≤ 1 - x 0; linarith
  · intro i
    match i with
    | 0 => show x 0 ≤ (1 : ℚ); linarith
    | 1 => show 1 - x 0 ≤ (1 : ℚ); linarith

def exRankResp : Resp ℚ := { nIterations := some (.int 2), method := some 1 }
def exRankOn : Resp ℚ := { stepBack := some false, usePrevious := some false, method := some 1 }

/-- The initial request answered with the ranks (1, 1) and (2, 1). -/
def exRank (a : Vec 2 ℚ) : St 2 1 ℚ × Except Err (Option (Req 2 1 ℚ)) :=
  answer exCfg St.init .initial { exRankResp with info := some (List.ofFn a) } (exExact 1)

def exRankZ (a : Vec 2 ℚ) : Req 2 1 ℚ := getReq (exRank a).2

theorem exRank_equal : exRank ![1, 1] = ((exRank ![1, 1]).1, .ok (some (.nav ![3/4, 3/4]
    (exGL (exRankZ ![1, 1])) ![3/4, 3/4] (exGD (exRankZ ![1, 1]))))) := eq_of_beq (by decide +kernel)
theorem exRank_first : exRank ![2, 1] = ((exRank ![2, 1]).1, .ok (some (.nav ![2/3, 5/6]
    (exGL (exRankZ ![2, 1])) ![2/3, 5/6] (exGD (exRankZ ![2, 1]))))) := eq_of_beq (by decide +kernel)

example := C164_first (exExact_exact (b := 1) (by norm_num) (by norm_num)) (c := exCfg) (by decide +kernel) exCfg_box
  (s := St.init) (r := exRankResp) rfl (a := ![1, 1]) (a' := ![2, 1]) (j := 0) rfl (by decide +kernel)
  (by unfold RanksHigher; decide +kernel) exRank_equal exRank_first (by decide +kernel)

/-- The next request, after equal ranks, answered with the ranks (1, 2) and (2, 2). -/
def exRankNext (a : Vec 2 ℚ) : St 2 1 ℚ × Except Err (Option (Req 2 1 ℚ)) :=
  answer exCfg (exRank ![1, 1]).1 (exRankZ ![1, 1]) { exRankOn with info := some (List.ofFn a) } (exExact 1)

def exRankNextZ (a : Vec 2 ℚ) : Req 2 1 ℚ := getReq (exRankNext a).2

theorem exRankNext_low : exRankNext ![1, 2] = ((exRankNext ![1, 2]).1, .ok (some (.nav ![7/12, 5/12]
    (exGL (exRankNextZ ![1, 2])) ![7/12, 5/12] (exGD (exRankNextZ ![1, 2]))))) := eq_of_beq (by decide +kernel)
theorem exRankNext_high : exRankNext ![2, 2] = ((exRankNext ![2, 2]).1, .ok (some (.nav ![1/2, 1/2]
    (exGL (exRankNextZ ![2, 2])) ![1/2, 1/2] (exGD (exRankNextZ ![2, 2]))))) := eq_of_beq (by decide +kernel)

theorem exRank_smooth : Smooth exCfg (Exact exCfg (exSide 1)) (exRank ![1, 1]).1 [exRankZ ![1, 1]] :=
  .first (s0 := St.init) (c := exCfg) (orc := exExact 1)
    (r := ({ exRankResp with info := some (List.ofFn ![1, 1]) } : Resp ℚ)) rfl
    (exExact_exact (b := 1) (by norm_num) (by norm_num)) (s' := (exRank ![1, 1]).1) (q := exRankZ ![1, 1])
    (eq_of_beq (by decide +kernel))

example := C164_forward (exExact_exact (b := 1) (by norm_num) (by norm_num)) (c := exCfg) (by decide +kernel) exCfg_box
  exRank_smooth List.mem_cons_self (q := ![3/4, 3/4]) (eq_of_beq (by decide +kernel)) (r := exRankOn) rfl rfl
  (a := ![1, 2]) (a' := ![2, 2]) (j := 0) rfl (by decide +kernel)
  (by unfold RanksHigher; decide +kernel) exRankNext_low exRankNext_high (by decide +kernel)

def exPercentOn : Resp ℚ := { stepBack := some false, usePrevious := some false, method := some 2 }

/-- The same request answered with (50, 50) and (75, 25). -/
def exPercentNext (a : Vec 2 ℚ) : St 2 1 ℚ × Except Err (Option (Req 2 1 ℚ)) :=
  answer exCfg (exRank ![1, 1]).1 (exRankZ ![1, 1]) { exPercentOn with info := some (List.ofFn a) } (exExact 1)

def exPercentZ (a : Vec 2 ℚ) : Req 2 1 ℚ := getReq (exPercentNext a).2

theorem exPercent_low : exPercentNext ![50, 50] = ((exPercentNext ![50, 50]).1, .ok (some (.nav ![1/2, 1/2]
    (exGL (exPercentZ ![50, 50])) ![1/2, 1/2] (exGD (exPercentZ ![50, 50]))))) := eq_of_beq (by decide +kernel)
theorem exPercent_high : exPercentNext ![75, 25] = ((exPercentNext ![75, 25]).1, .ok (some (.nav ![3/8, 5/8]
    (exGL (exPercentZ ![75, 25])) ![3/8, 5/8] (exGD (exPercentZ ![75, 25]))))) := eq_of_beq (by decide +kernel)

example := C164_percent (exExact_exact (b := 1) (by norm_num) (by norm_num)) (c := exCfg) (by decide +kernel) exCfg_box
  exRank_smooth List.mem_cons_self (q := ![3/4, 3/4]) (eq_of_beq (by decide +kernel)) (r := exPercentOn) rfl rfl
  (t := 1/2) (by norm_num) (by norm_num) (p := ![50, 50]) (p' := ![75, 25]) (j := 0) rfl (by decide +kernel)
  (by unfold GivesMore; decide +kernel) exPercent_low exPercent_high (by unfold AtLeastAsGood; decide +kernel)

end Verif.Nautilus
