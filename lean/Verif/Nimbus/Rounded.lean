import Verif.Nimbus.Props2
import Verif.Approx
import Mathlib.Tactic.FieldSimp
import Mathlib.Tactic.Ring
import Mathlib.Tactic.GCongr

set_option linter.unusedSectionVars false

/-!
# NIMBUS intermediate points with rounded arithmetic: property C156

The only arithmetic on floats in NIMBUS outside the achievement functions and the constructor is the computation of
the points between two solutions (NIMBUS.py:658-667). Here every operation is rounded. `Cfg.nrm` is the norm as
computed. Without rounding this is the exact model (`rAnswer_exact`).
-/

namespace Verif.Nimbus

variable {K : Type} [Field K] [LinearOrder K] {k m : Nat}

/-! ### Model -/

/-- NIMBUS.py:658-667. Rounded; `i` and `2 + n_desired` are exact integers. -/
def rInterPoints (rnd : K → K) (nrm : Vec m K → K) (a b : Vec m K) (n : Nat) : List (Option (Vec m K)) :=
  let between : Vec m K := fun j => rnd (a j - b j)
  let norm := nrm between
  (List.range n).map fun i : Nat =>
    if norm = 0 then none
    else some fun j =>
      rnd (b j + rnd (rnd (((i : K) + 1) * rnd (norm / (2 + (n : K)))) * rnd (between j / norm)))

/-- NIMBUS.py:548-573 and 641-715. Rounded. -/
def rHandleInter (rnd : K → K) (c : Cfg k m K) (sols : List (Vec m K)) (objs : List (Vec k K)) (idx : List Int)
    (num : Int) (orc : Oracle k m K) : Except Err (Req k m K) :=
  if 0 < idx.length then
    match pick sols idx with
    | .error e => .error e
    | .ok (a :: b :: _) =>
      match mapE (interSolve c orc) (rInterPoints rnd c.nrm a b num.toNat).zipIdx with
      | .error e => .error e
      | .ok l => .ok (.save (l.map (·.1)) (l.map (·.2)))
    | .ok _ => .error .indexError
  else .ok (.preferred sols objs)

/-- NIMBUS.py:980-1059. Rounded; the other phases do not compute with floats outside the achievement functions. -/
def rIterate (rnd : K → K) (c : Cfg k m K) (s : St k m K) (req : Req k m K) (a : Ans K) (orc : Oracle k m K) :
    St k m K × Except Err (Req k m K) :=
  match s.phase, req, a with
  | .intermediate, .inter sols objs, .inter ⟨some idx, some num⟩ =>
    (enterAfter s (rHandleInter rnd c sols objs idx num orc), rHandleInter rnd c sols objs idx num orc)
  | _, _, _ => iterate c s req a orc

/-- Setting the response of a request, then calling `iterate`. Rounded. -/
def rAnswer (rnd : K → K) (c : Cfg k m K) (s : St k m K) (req : Req k m K) (a : Ans K) (orc : Oracle k m K) :
    St k m K × Except Err (Req k m K) :=
  match validate c req a with
  | .error e => (s, .error e)
  | .ok _ => rIterate rnd c s req a orc

/-- Exact arithmetic. -/
theorem rAnswer_exact (c : Cfg k m K) (s : St k m K) (req : Req k m K) (a : Ans K) (orc : Oracle k m K) :
    rAnswer id c s req a orc = answer c s req a orc := by
  have hp : ∀ (nrm : Vec m K → K) (a b : Vec m K) (n : Nat), rInterPoints id nrm a b n = interPoints nrm a b n :=
    fun _ _ _ _ => rfl
  have hh : ∀ sols objs idx num, rHandleInter id c sols objs idx num orc = handleInter c sols objs idx num orc := by
    intro sols objs idx num
    unfold rHandleInter handleInter
    simp only [hp]
    by_cases h : 0 < idx.length
    · rw [if_pos h, if_pos h]
      cases pick sols idx with
      | error e => rfl
      | ok l =>
        cases l with
        | nil => rfl
        | cons a l =>
          cases l with
          | nil => rfl
          | cons b l => rfl
    · rw [if_neg h, if_neg h]
  unfold rAnswer answer
  cases validate c req a with
  | error e => rfl
  | ok u =>
    simp only
    unfold rIterate
    split
    · rename_i sols objs idx num hph
      simp only [iterate, hph, hh]
    · rfl

/-! ### Specification -/

/-- `x` is between `p` and `q`. -/
def Between (p q x : K) : Prop := min p q ≤ x ∧ x ≤ max p q

/-! ### Errors -/

section
variable [IsStrictOrderedRing K] {u : K} {rnd : K → K}

/-- The summand of one point: five roundings, and the sign is right. -/
theorem summand (hr : IsRounding u rnd) (hu : 0 ≤ u) (a b : K) {N : K} (hN : 0 < N) (i : K) (hi : 0 ≤ i) (n : Nat) :
    Approx u 5 (rnd (rnd (i * rnd (N / (2 + (n : K)))) * rnd (rnd (a - b) / N))) (i / ((n : K) + 2) * (a - b)) ∧
    (b ≤ a → 0 ≤ rnd (rnd (i * rnd (N / (2 + (n : K)))) * rnd (rnd (a - b) / N))) ∧
    (a ≤ b → rnd (rnd (i * rnd (N / (2 + (n : K)))) * rnd (rnd (a - b) / N)) ≤ 0) := by
  have hn : (0 : K) < (n : K) + 2 := by positivity
  have hp : 0 ≤ rnd (i * rnd (N / (2 + (n : K)))) :=
    hr.nonneg (mul_nonneg hi (hr.nonneg (by positivity)))
  refine ⟨?_, fun h => ?_, fun h => ?_⟩
  · have h1 : Approx u 2 (rnd (i * rnd (N / (2 + (n : K))))) (i * (N / (2 + (n : K)))) :=
      (((approx_refl _).round hr hu).mul_left i).round hr hu
    have h2 : Approx u 2 (rnd (rnd (a - b) / N)) ((a - b) / N) := by
      have := ((((approx_refl (a - b)).round hr hu).mul_left (1 / N)).round hr hu)
      rwa [one_div_mul_eq_div, one_div_mul_eq_div] at this
    have h3 := (h1.mul hu h2).round hr hu
    have e : i * (N / (2 + (n : K))) * ((a - b) / N) = i / ((n : K) + 2) * (a - b) := by
      field_simp
      ring
    rwa [e] at h3
  · exact hr.nonneg (mul_nonneg hp (hr.nonneg (div_nonneg (hr.nonneg (by linarith)) hN.le)))
  · exact hr.nonpos (mul_nonpos_of_nonneg_of_nonpos hp
      (hr.nonpos (div_nonpos_of_nonpos_of_nonneg (hr.nonpos (by linarith)) hN.le)))

/-- One coordinate of a point. -/
def rPoint (rnd : K → K) (N : K) (n : Nat) (a b i : K) : K :=
  rnd (b + rnd (rnd (i * rnd (N / (2 + (n : K)))) * rnd (rnd (a - b) / N)))

theorem rPoint_between (hr : IsRounding u rnd) (hu : 0 ≤ u) {a b N : K} (ha : Machine rnd a) (hb : Machine rnd b)
    (hN : 0 < N) {i : K} (hi : 0 ≤ i) {n : Nat} (hin : i * (1 + u) ^ 5 ≤ (n : K) + 2) :
    Between a b (rPoint rnd N n a b i) := by
  have hn : (0 : K) < (n : K) + 2 := by positivity
  obtain ⟨h1, h2, h3⟩ := summand hr hu a b hN i hi n
  set x := rnd (rnd (i * rnd (N / (2 + (n : K)))) * rnd (rnd (a - b) / N))
  have h4 := h1.abs_le
  have h5 : |x| ≤ |a - b| := by
    refine h4.trans ?_
    rw [abs_mul, abs_of_nonneg (show 0 ≤ i / ((n : K) + 2) by positivity), ← mul_assoc]
    refine mul_le_of_le_one_left (abs_nonneg _) ?_
    rw [mul_div_assoc', div_le_one hn]
    linarith
  show min a b ≤ rnd (b + x) ∧ rnd (b + x) ≤ max a b
  rcases le_total b a with hab | hab
  · rw [min_eq_right hab, max_eq_left hab]
    rw [abs_of_nonneg (h2 hab), abs_of_nonneg (by linarith)] at h5
    constructor
    · exact (le_of_eq hb.symm).trans (hr.mono b (b + x) (by linarith [h2 hab]))
    · exact (hr.mono (b + x) a (by linarith)).trans (le_of_eq ha)
  · rw [min_eq_left hab, max_eq_right hab]
    rw [abs_of_nonpos (h3 hab), abs_of_nonpos (by linarith)] at h5
    constructor
    · exact (le_of_eq ha.symm).trans (hr.mono a (b + x) (by linarith))
    · exact (hr.mono (b + x) b (by linarith [h3 hab])).trans (le_of_eq hb)

theorem rPoint_order (hr : IsRounding u rnd) {a b N : K} (hN : 0 < N) {i i' : K} (hi : i ≤ i') (n : Nat) :
    (b ≤ a → rPoint rnd N n a b i ≤ rPoint rnd N n a b i') ∧
    (a ≤ b → rPoint rnd N n a b i' ≤ rPoint rnd N n a b i) := by
  have hn : (0 : K) < 2 + (n : K) := by positivity
  have hp : rnd (i * rnd (N / (2 + (n : K)))) ≤ rnd (i' * rnd (N / (2 + (n : K)))) :=
    hr.mono _ _ (mul_le_mul_of_nonneg_right hi (hr.nonneg (by positivity)))
  constructor
  · intro h
    exact hr.mono _ _ (add_le_add le_rfl (hr.mono _ _ (mul_le_mul_of_nonneg_right hp
      (hr.nonneg (div_nonneg (hr.nonneg (by linarith)) hN.le)))))
  · intro h
    exact hr.mono _ _ (add_le_add le_rfl (hr.mono _ _ (mul_le_mul_of_nonpos_right hp
      (hr.nonpos (div_nonpos_of_nonpos_of_nonneg (hr.nonpos (by linarith)) hN.le)))))

theorem rPoint_close (hr : IsRounding u rnd) (hu : 0 ≤ u) {a b N : K} (hN : 0 < N) {i : K} (hi : 0 ≤ i) (n : Nat) :
    |rPoint rnd N n a b i - (b + i / ((n : K) + 2) * (a - b))| ≤
      ((1 + u) ^ 6 - 1) * (|b| + |i / ((n : K) + 2) * (a - b)|) := by
  obtain ⟨h1, _, _⟩ := summand hr hu a b hN i hi n
  unfold rPoint
  set x := rnd (rnd (i * rnd (N / (2 + (n : K)))) * rnd (rnd (a - b) / N))
  set y := i / ((n : K) + 2) * (a - b)
  have h2 := hr.close (b + x)
  have h3 := h1.abs_le
  unfold Approx at h1
  have h4 : |rnd (b + x) - (b + y)| ≤ |rnd (b + x) - (b + x)| + |b + x - (b + y)| := abs_sub_le _ _ _
  have e : b + x - (b + y) = x - y := by ring
  rw [e] at h4
  have h5 := abs_add_le b x
  have h6 : u * |b + x| ≤ u * (|b| + (1 + u) ^ 5 * |y|) := mul_le_mul_of_nonneg_left (by linarith) hu
  have h7 : (1 : K) ≤ (1 + u) ^ 5 := one_le_pow₀ (by linarith)
  have h8 : u * |b| ≤ ((1 + u) ^ 6 - 1) * |b| := by
    refine mul_le_mul_of_nonneg_right ?_ (abs_nonneg _)
    rw [pow_succ]
    nlinarith
  have h9 : u * ((1 + u) ^ 5 * |y|) + ((1 + u) ^ 5 - 1) * |y| = ((1 + u) ^ 6 - 1) * |y| := by ring
  nlinarith

theorem rInterPoints_get (nrm : Vec m K → K) (a b : Vec m K) (n : Nat)
    (hn : nrm (fun j => rnd (a j - b j)) ≠ 0) {i : Nat} (hi : i < n) :
    (rInterPoints rnd nrm a b n)[i]? =
      some (some fun j => rPoint rnd (nrm fun j => rnd (a j - b j)) n (a j) (b j) ((i : K) + 1)) := by
  simp only [rInterPoints, List.getElem?_map, List.getElem?_range hi, Option.map_some, hn, if_false, rPoint]

theorem rInterPoints_length (nrm : Vec m K → K) (a b : Vec m K) (n : Nat) :
    (rInterPoints rnd nrm a b n).length = n := by simp [rInterPoints]

/-- **C156** (between). In floating-point arithmetic: answering an intermediate request with the indices of two
different solutions `a`, `b` and a number `n` shows `n` solutions, projected from points that in every variable lie
between `a` and `b`, hence inside the bounds of the variables, in order from `b` to `a`, and that differ from the evenly
spaced points by at most six roundings. (`n (1+u)^5 ≤ n + 2` holds up to `n = 2^50` for doubles, `double_many`.)
Missing: that the points differ from `a`, `b` and each other, see `C156_fails`. -/
theorem C156_between_partial {c : Cfg k m K} (hr : IsRounding u rnd) (hu : 0 ≤ u) (hu1 : u < 1) (hnrm : Definite c.nrm)
    {s s' : St k m K} (hs : s.phase ≠ .ended) {sols : List (Vec m K)} {objs : List (Vec k K)} {i0 i1 : Nat}
    {rest : List Int} {n : Nat} (hn : (n : K) * (1 + u) ^ 5 ≤ (n : K) + 2) {a b : Vec m K}
    (hia : sols[i0]? = some a) (hib : sols[i1]? = some b) (hab : a ≠ b) (ha : MachineVec rnd a) (hb : MachineVec rnd b)
    {orc : Oracle k m K} {r' : Req k m K}
    (h : rAnswer rnd c s (.inter sols objs) (.inter ⟨some ((i0 : Int) :: (i1 : Int) :: rest), some (n : Int)⟩) orc =
      (s', .ok r')) :
    ∃ (pts : Fin n → Vec m K) (sols' : List (Vec m K)) (objs' : List (Vec k K)), r' = .save sols' objs' ∧
      sols'.length = n ∧ objs'.length = n ∧
      (∀ i j, Between (a j) (b j) (pts i j)) ∧
      (∀ i i' j, i ≤ i' → (b j ≤ a j → pts i j ≤ pts i' j) ∧ (a j ≤ b j → pts i' j ≤ pts i j)) ∧
      (∀ i j, |pts i j - along a b (((i : Nat) + 1 : K) / ((n : K) + 2)) j| ≤
        ((1 + u) ^ 6 - 1) * (|b j| + |((i : Nat) + 1 : K) / ((n : K) + 2) * (a j - b j)|)) ∧
      (∀ ev, c.problem = .mo ev → ∀ i : Fin n, ∃ t, sols'[i.val]? = some (orc.minimize i t) ∧
        objs'[i.val]? = some (ev (orc.minimize i t)) ∧
        Asks t (ev (pts i)) (fun x => c.asf3 (ev (pts i)) (ev x)) (fun x => c.feasible x = true)) ∧
      (∀ N obj dec cl, c.problem = .discrete N obj dec cl → ∀ i : Fin n, ∃ p, sols'[i.val]? = some (dec p) ∧
        objs'[i.val]? = some (obj p) ∧
        ∀ q, c.asf3 (obj (cl (some (pts i)))) (obj p) ≤ c.asf3 (obj (cl (some (pts i)))) (obj q)) := by
  set N := c.nrm fun j => rnd (a j - b j) with hNdef
  have hnz : N ≠ 0 := by
    rw [Ne, hNdef, hnrm.eq_zero]
    intro h0
    apply hab
    funext j
    exact sub_eq_zero.1 (IsRounding.eq_zero hr hu1 (h0 j))
  have hN : 0 < N := lt_of_le_of_ne (hnrm.nonneg _) (Ne.symm hnz)
  unfold rAnswer at h
  cases hv : validate c (.inter sols objs) (.inter ⟨some ((i0 : Int) :: (i1 : Int) :: rest), some (n : Int)⟩) with
  | error e => simp only [hv] at h; cases (Prod.mk.inj h).2
  | ok w =>
    simp only [hv] at h
    cases hph : s.phase with
    | ended => exact absurd hph hs
    | classify => simp only [rIterate, iterate, hph] at h; cases (Prod.mk.inj h).2
    | archive => simp only [rIterate, iterate, hph] at h; cases (Prod.mk.inj h).2
    | preferred => simp only [rIterate, iterate, hph] at h; cases (Prod.mk.inj h).2
    | intermediate =>
      simp only [rIterate, hph] at h
      have h := (Prod.mk.inj h).2
      unfold rHandleInter at h
      rw [if_pos (by simp)] at h
      have hp : ∃ rest', pick sols ((i0 : Int) :: (i1 : Int) :: rest) = .ok (a :: b :: rest') := by
        cases hx : pick sols ((i0 : Int) :: (i1 : Int) :: rest) with
        | error e => simp only [hx] at h; cases h
        | ok l =>
          unfold pick at hx
          rw [mapE_ok_iff] at hx
          cases hx with
          | cons h1 hx =>
            cases hx with
            | cons h2 hx =>
              have e1 := pyGet_nat.1 h1
              have e2 := pyGet_nat.1 h2
              rw [hia] at e1
              rw [hib] at e2
              cases e1
              cases e2
              exact ⟨_, rfl⟩
      obtain ⟨rest', hp⟩ := hp
      simp only [hp, Int.toNat_natCast] at h
      cases hl : mapE (interSolve c orc) (rInterPoints rnd c.nrm a b n).zipIdx with
      | error e => simp only [hl] at h; cases h
      | ok sl =>
        simp only [hl, Except.ok.injEq] at h
        have hlen : sl.length = n := by
          rw [mapE_length hl]; simp [rInterPoints_length]
        rw [mapE_ok_iff] at hl
        have hget : ∀ i : Fin n, interSolve c orc
            (some (fun j => rPoint rnd N n (a j) (b j) ((i.val : K) + 1)), i.val) =
            .ok (sl[i.val]'(by rw [hlen]; exact i.2)) := by
          intro i
          have h1 : i.val < sl.length := by rw [hlen]; exact i.2
          have h1' : i.val < (rInterPoints rnd c.nrm a b n).zipIdx.length := by
            simp [rInterPoints_length]
          have := (List.forall₂_iff_get.1 hl).2 i h1' h1
          have he := rInterPoints_get (rnd := rnd) c.nrm a b n hnz i.2
          rw [List.getElem?_eq_getElem (by rw [rInterPoints_length]; exact i.2)] at he
          simp only [Option.some.injEq] at he
          simp only [List.get_eq_getElem, List.getElem_zipIdx, he, Nat.zero_add] at this
          exact this
        refine ⟨fun i j => rPoint rnd N n (a j) (b j) ((i.val : K) + 1), _, _, h.symm, by simp [hlen], by simp [hlen],
          fun i j => ?_, fun i i' j hi => ?_, fun i j => ?_, fun ev hmo i => ?_, fun M obj dec cl hd i => ?_⟩
        · refine rPoint_between hr hu (ha j) (hb j) hN (by positivity) (le_trans ?_ hn)
          have hi : ((i.val : Nat) : K) + 1 ≤ (n : K) := by
            have := i.2
            exact_mod_cast this
          exact mul_le_mul_of_nonneg_right hi (by positivity)
        · refine rPoint_order hr hN ?_ n
          have : ((i.val : Nat) : K) ≤ (i'.val : K) := by exact_mod_cast hi
          linarith
        · exact rPoint_close hr hu hN (by positivity) n
        · have := hget i
          simp only [interSolve, hmo, Except.ok.injEq] at this
          have h1 : i.val < sl.length := by rw [hlen]; exact i.2
          exact ⟨_, by simp [h1, ← this]; rfl, by simp [h1, ← this], rfl, fun _ => rfl,
            fun _ => by simp [interTask, task]⟩
        · have := hget i
          simp only [interSolve, hd] at this
          split at this
          · simp at this
          · rename_i p hp'
            simp only [Except.ok.injEq] at this
            have h1 : i.val < sl.length := by rw [hlen]; exact i.2
            refine ⟨p, by simp [h1, ← this], by simp [h1, ← this], ?_⟩
            exact fun q => (discreteMin_ok hp').2 q rfl

end

/-- Doubles: the condition on the number of points holds up to `2^50`. -/
theorem double_many {n : Nat} (h : n ≤ 2 ^ 50) : (n : ℚ) * (1 + (1 / 2) ^ 53) ^ 5 ≤ (n : ℚ) + 2 := by
  have h1 : (n : ℚ) ≤ 2 ^ 50 := by exact_mod_cast h
  have h2 : (1 + (1 / 2 : ℚ) ^ 53) ^ 5 ≤ 1 + 1 / 2 ^ 50 := by norm_num
  have h3 : (0 : ℚ) ≤ (n : ℚ) := by positivity
  have h4 : (n : ℚ) * (1 + (1 / 2) ^ 53) ^ 5 ≤ (n : ℚ) * (1 + 1 / 2 ^ 50) := mul_le_mul_of_nonneg_left h2 h3
  have h5 : (n : ℚ) * (1 / 2 ^ 50) ≤ 1 := by
    rw [mul_one_div, div_le_one (by positivity)]
    exact h1
  linarith

/-! ### Examples -/

/-- A session with one variable and the values `x` and `1 - x`; the minimizer returns the first component of the
reference point it is given, that is, the intermediate point itself. -/
def exNear : Cfg 2 1 ℚ := exMo
def exNearS : St 2 1 ℚ := ⟨![1], ![1, 0], [], [], .intermediate⟩
def exNearOrc : Oracle 2 1 ℚ := ⟨fun _ t => match t.ref with
  | some z => ![z 0]
  | none => ![7]⟩

theorem exNear_definite : Definite exNear.nrm where
  nonneg v := abs_nonneg (v 0)
  eq_zero v := by
    show |v 0| = 0 ↔ _
    rw [abs_eq_zero]
    exact ⟨fun h j => by rw [Subsingleton.elim j 0]; exact h, fun h => h 0⟩

/-- C156 fails (distinctness): between two neighbouring doubles, the point asked for is the second of the solutions;
in exact arithmetic it is different from both. -/
theorem C156_fails :
    rAnswer double exNear exNearS (.inter [![1 + (1 / 2) ^ 52], ![1]] [![1 + (1 / 2) ^ 52, -(1 / 2) ^ 52], ![1, 0]])
      (.inter ⟨some [0, 1], some 1⟩) exNearOrc =
      ({ exNearS with phase := .archive }, .ok (.save [![1]] [![1, 0]])) ∧
    answer exNear exNearS (.inter [![1 + (1 / 2) ^ 52], ![1]] [![1 + (1 / 2) ^ 52, -(1 / 2) ^ 52], ![1, 0]])
      (.inter ⟨some [0, 1], some 1⟩) exNearOrc =
      ({ exNearS with phase := .archive },
        .ok (.save [![1 + 1 / 3 * (1 / 2) ^ 52]] [![1 + 1 / 3 * (1 / 2) ^ 52, -(1 / 3 * (1 / 2) ^ 52)]])) :=
  ⟨eq_of_beq (by decide +kernel), eq_of_beq (by decide +kernel)⟩

def exNearObjs : List (Vec 2 ℚ) := [![double (1 / 10), 1 - double (1 / 10)], ![double (3 / 10), 1 - double (3 / 10)]]

/-- Two points between 0.1 and 0.3 (as doubles). -/
example := C156_between_partial (c := exNear) isRounding_double (by norm_num) (by norm_num) exNear_definite
  (s := exNearS) (s' := (rAnswer double exNear exNearS (.inter [![double (1 / 10)], ![double (3 / 10)]] exNearObjs)
    (.inter ⟨some [0, 1], some 2⟩) exNearOrc).1) (by decide) (i0 := 0) (i1 := 1) (rest := []) (n := 2)
  (sols := [![double (1 / 10)], ![double (3 / 10)]]) (objs := exNearObjs) (a := ![double (1 / 10)]) (b := ![double (3 / 10)])
  (double_many (by norm_num)) rfl rfl (fun h => ne_of_beq_false (a := double (1 / 10)) (b := double (3 / 10))
    (by decide +kernel) (congrFun h 0))
  (fun j => by rw [Subsingleton.elim j 0]; exact double_idem _)
  (fun j => by rw [Subsingleton.elim j 0]; exact double_idem _)
  (orc := exNearOrc)
  (r' := getReq (rAnswer double exNear exNearS (.inter [![double (1 / 10)], ![double (3 / 10)]] exNearObjs)
    (.inter ⟨some [0, 1], some 2⟩) exNearOrc).2)
  (eq_of_beq (by decide +kernel))

end Verif.Nimbus
