import Verif.Solvers.Coverage
import Verif.Rounding

set_option linter.unusedSectionVars false

/-!
# Front representations in floating-point arithmetic, C142 and C143

The functions of `Solvers.Model` that compute with floating-point numbers themselves are the ones that make the
grid of reference points; here they are with every operation rounded. Ideal and nadir (minima and maxima of
values) and the comparisons of the loop are exact. The minimizations are external.
-/

namespace Verif.Solvers

open Navigator (pointAsf)

variable {K : Type} [Field K] [LinearOrder K] [FloorRing K] {k : Nat} {X : Type}

/-! ### Model -/

/-- One axis of `np.mgrid[slices]` (solvers.py:225) in rounded arithmetic, numpy 1.23
(numpy/lib/index_tricks.py:146-196): `ceil((stop - start) / (step * 1.0))` values `i * step + start`. -/
def rAxis (rnd : K → K) (start stop step : K) : Except Err (List K) :=
  if step = 0 then .error .valueError
  else if ⌈rnd (rnd (stop - start) / step)⌉ < 0 then .error .valueError
  else .ok ((List.range ⌈rnd (rnd (stop - start) / step)⌉.toNat).map fun i : Nat =>
    rnd (rnd ((i : K) * step) + start))

/-- All axes (solvers.py:225); the first one that fails raises. -/
def rAxesOf (rnd : K → K) : (m : Nat) → Vec m K → Vec m K → Vec m K → Except Err (Fin m → List K)
  | 0, _, _, _ => .ok fun _ => []
  | m + 1, start, stop, step =>
    match rAxis rnd (start 0) (stop 0) (step 0) with
    | .error e => .error e
    | .ok a =>
      match rAxesOf rnd m (fun i => start i.succ) (fun i => stop i.succ) (fun i => step i.succ) with
      | .error e => .error e
      | .ok as => .ok (Fin.cons a as)

/-- solvers.py:209-225: the reference points, `stop + eps` rounded as well. -/
def rReferencePoints (rnd : K → K) (ideal nadir : Vec (k + 1) K) (eps : K) (step : StepArg K) :
    Except Err (List (Vec (k + 1) K)) :=
  match stepsOf step with
  | .error e => .error e
  | .ok s =>
    match rAxesOf rnd (k + 1) (fun i => min (ideal i) (nadir i)) (fun i => rnd (max (ideal i) (nadir i) + eps)) s with
    | .error e => .error e
    | .ok axes => .ok (meshOf (k + 1) axes)

/-- solvers.py:131-255. -/
def rFrontGeneral (rnd : K → K) (obj : X → Vec (k + 1) K) (step : StepArg K) (eps : K) (ideal nadir : Bound (k + 1) K)
    (cons : Option (X → List K)) (table front : Solver X K) : Except Err (List X × List (Vec (k + 1) K)) :=
  match resolveBounds obj cons table ideal nadir with
  | .error e => .error e
  | .ok (lo, hi) =>
    match rReferencePoints rnd lo hi eps step with
    | .error e => .error e
    | .ok zs =>
      let r := frontLoop obj (pointAsf lo hi) (fun i g => front i none g) 0 zs [] []
      .ok (r.1.filterMap id, r.2.filterMap id)

/-- Without rounding this is the exact model. -/
theorem rAxis_id (start stop step : K) : rAxis id start stop step = axis start stop step := by
  unfold rAxis axis
  simp only [id_eq, add_comm]

theorem rAxesOf_id : ∀ (m : Nat) (a b c : Vec m K), rAxesOf id m a b c = axesOf m a b c := by
  intro m
  induction m with
  | zero => intro _ _ _; rfl
  | succ m ih => intro a b c; unfold rAxesOf axesOf; rw [rAxis_id, ih]; rfl

theorem rFrontGeneral_id (obj : X → Vec (k + 1) K) (step : StepArg K) (eps : K) (ideal nadir : Bound (k + 1) K)
    (cons : Option (X → List K)) (table front : Solver X K) :
    rFrontGeneral id obj step eps ideal nadir cons table front = frontGeneral obj step eps ideal nadir cons table front := by
  have h : ∀ lo hi : Vec (k + 1) K, rReferencePoints id lo hi eps step = referencePoints lo hi eps step := by
    intro lo hi
    unfold rReferencePoints referencePoints
    simp only [rAxesOf_id, id_eq]
    rfl
  unfold rFrontGeneral frontGeneral
  simp only [h]
  rfl

/-! ### The axes -/

variable [IsStrictOrderedRing K] {u : K} {rnd : K → K}

/-- What is said of the computed axis between machine numbers `lo` and `hi`: it starts at `lo` (if it is not empty),
is increasing, and stays near `[lo, hi + eps]`. -/
theorem rAxis_ok (hr : IsRounding u rnd) {start stop step : K} (hs : 0 < step) (h : start ≤ stop) :
    ∃ n : Nat, rAxis rnd start stop step = .ok ((List.range n).map fun i : Nat => rnd (rnd ((i : K) * step) + start)) ∧
      (∀ i : Nat, i < n ↔ (i : K) < rnd (rnd (stop - start) / step)) := by
  have h0 : 0 ≤ rnd (rnd (stop - start) / step) :=
    hr.nonneg (div_nonneg (hr.nonneg (by linarith)) hs.le)
  have hnn : 0 ≤ ⌈rnd (rnd (stop - start) / step)⌉ := Int.ceil_nonneg h0
  refine ⟨_, by unfold rAxis; rw [if_neg hs.ne', if_neg (not_lt.2 hnn)], ?_⟩
  intro i
  have : i < ⌈rnd (rnd (stop - start) / step)⌉.toNat ↔ (i : Int) < ⌈rnd (rnd (stop - start) / step)⌉ := by omega
  rw [this, Int.lt_ceil, Int.cast_natCast]

theorem rAxesOf_ok (hr : IsRounding u rnd) : ∀ (m : Nat) (start stop step : Vec m K), (∀ i, 0 < step i) →
    (∀ i, start i ≤ stop i) → ∃ (axes : Fin m → List K) (n : Fin m → Nat), rAxesOf rnd m start stop step = .ok axes ∧
      (∀ j, axes j = (List.range (n j)).map fun i : Nat => rnd (rnd ((i : K) * step j) + start j)) ∧
      ∀ j (i : Nat), i < n j ↔ (i : K) < rnd (rnd (stop j - start j) / step j) := by
  intro m
  induction m with
  | zero => intro _ _ _ _ _; exact ⟨fun i => i.elim0, fun i => i.elim0, by simp [rAxesOf]; exact funext fun i => i.elim0,
      fun i => i.elim0, fun i => i.elim0⟩
  | succ m ih =>
    intro start stop step hs h
    obtain ⟨n, h1, h2⟩ := rAxis_ok hr (hs 0) (h 0)
    obtain ⟨as, ns, h4, h5, h6⟩ := ih (fun i => start i.succ) (fun i => stop i.succ) (fun i => step i.succ)
      (fun i => hs i.succ) (fun i => h i.succ)
    refine ⟨Fin.cons ((List.range n).map fun i : Nat => rnd (rnd ((i : K) * step 0) + start 0)) as, Fin.cons n ns,
      by unfold rAxesOf; simp only [h1, h4], ?_, ?_⟩
    · intro i
      refine Fin.cases ?_ (fun j => ?_) i
      · simp
      · simpa using h5 j
    · intro i
      refine Fin.cases ?_ (fun j => ?_) i
      · simpa using h2
      · simpa using h6 j

/-- Grid value number `i`. -/
theorem grid_error (hr : IsRounding u rnd) (hu : 0 ≤ u) {start s R : K} {i : Nat} (hs : 0 < s) (hR : (i : K) * s ≤ R) :
    |rnd (rnd ((i : K) * s) + start) - ((i : K) * s + start)| ≤ u * ((2 + u) * R + |start|) := by
  have p : 0 ≤ (i : K) * s := mul_nonneg (Nat.cast_nonneg i) hs.le
  have a1 := hr.close ((i : K) * s)
  rw [abs_of_nonneg p] at a1
  have a2 := hr.close (rnd ((i : K) * s) + start)
  have a3 : |rnd ((i : K) * s) + start| ≤ (1 + u) * R + |start| := by
    have b1 := abs_le.1 a1
    have b2 : |rnd ((i : K) * s)| ≤ (1 + u) * R := by
      rw [abs_of_nonneg (hr.nonneg p)]
      have : (1 + u) * ((i : K) * s) ≤ (1 + u) * R := mul_le_mul_of_nonneg_left hR (by linarith)
      linarith [b1.2]
    exact (abs_add_le _ _).trans (by linarith)
  have a4 : u * |rnd ((i : K) * s) + start| ≤ u * ((1 + u) * R + |start|) := mul_le_mul_of_nonneg_left a3 hu
  have a5 : u * ((i : K) * s) ≤ u * R := mul_le_mul_of_nonneg_left hR hu
  have b1 := abs_le.1 a1
  have b2 := abs_le.1 a2
  rw [abs_le]
  constructor <;> nlinarith [b1.1, b1.2, b2.1, b2.2]

/-- How much rounding may add to the step of an axis from `start` to `stop`. -/
def slack (u start stop : K) : K := u * (6 * (stop - start) + 2 * |start|)

/-- The products `i * step` of an axis. -/
theorem index_bound (hr : IsRounding u rnd) (hu : 0 ≤ u) {start stop s : K} (hs : 0 < s) (h : start ≤ stop) {i : K}
    (hi : i ≤ rnd (rnd (stop - start) / s)) : i * s ≤ (1 + u) * ((1 + u) * (stop - start)) := by
  have d : 0 ≤ stop - start := by linarith
  have a1 := (abs_le.1 (hr.close (stop - start))).2
  rw [abs_of_nonneg d] at a1
  have d1 : 0 ≤ rnd (stop - start) / s := div_nonneg (hr.nonneg d) hs.le
  have a2 := (abs_le.1 (hr.close (rnd (stop - start) / s))).2
  rw [abs_of_nonneg d1] at a2
  have a3 : i ≤ (1 + u) * (rnd (stop - start) / s) := by linarith
  have a4 : i * s ≤ (1 + u) * (rnd (stop - start) / s) * s := mul_le_mul_of_nonneg_right a3 hs.le
  have a5 : (1 + u) * (rnd (stop - start) / s) * s = (1 + u) * rnd (stop - start) := by
    rw [mul_assoc, div_mul_cancel₀ _ hs.ne']
  rw [a5] at a4
  exact a4.trans (mul_le_mul_of_nonneg_left (by linarith) (by linarith))

theorem count_bound (hr : IsRounding u rnd) (hu1 : u ≤ 1) {start stop s : K} (hs : 0 < s) (h : start ≤ stop)
    {i : K} (hi : rnd (rnd (stop - start) / s) ≤ i) : (1 - u) * ((1 - u) * (stop - start)) ≤ i * s := by
  have d : 0 ≤ stop - start := by linarith
  have a1 := (abs_le.1 (hr.close (stop - start))).1
  rw [abs_of_nonneg d] at a1
  have d1 : 0 ≤ rnd (stop - start) / s := div_nonneg (hr.nonneg d) hs.le
  have a2 := (abs_le.1 (hr.close (rnd (stop - start) / s))).1
  rw [abs_of_nonneg d1] at a2
  have a3 : (1 - u) * (rnd (stop - start) / s) ≤ i := by linarith
  have a4 : (1 - u) * (rnd (stop - start) / s) * s ≤ i * s := mul_le_mul_of_nonneg_right a3 hs.le
  have a5 : (1 - u) * (rnd (stop - start) / s) * s = (1 - u) * rnd (stop - start) := by
    rw [mul_assoc, div_mul_cancel₀ _ hs.ne']
  rw [a5] at a4
  refine le_trans (mul_le_mul_of_nonneg_left ?_ (by linarith)) a4
  linarith

theorem slack_bound {u start stop : K} (hu : 0 ≤ u) (hu8 : u ≤ 1 / 8) (h : start ≤ stop) :
    2 * (u * ((2 + u) * ((1 + u) * ((1 + u) * (stop - start))) + |start|)) ≤ slack u start stop := by
  have d : 0 ≤ stop - start := by linarith
  unfold slack
  have e : (2 + u) * ((1 + u) * (1 + u)) ≤ 3 := by
    have h1 : (1 + u) * (1 + u) ≤ 81 / 64 := by nlinarith
    have h2 : 0 ≤ (1 + u) * (1 + u) := mul_self_nonneg _
    nlinarith
  have e2 : (2 + u) * ((1 + u) * ((1 + u) * (stop - start))) ≤ 3 * (stop - start) := by
    have := mul_le_mul_of_nonneg_right e d
    calc _ = (2 + u) * ((1 + u) * (1 + u)) * (stop - start) := by ring
      _ ≤ _ := this
  have e3 := mul_le_mul_of_nonneg_left (add_le_add_left e2 |start|) hu
  linarith

/-- Below every value of the range there is a computed grid value, hardly more than one step away. -/
theorem exists_rgrid (hr : IsRounding u rnd) (hu : 0 ≤ u) (hu8 : u ≤ 1 / 8) {lo stop s y : K} (hs : 0 < s)
    (hm : Machine rnd lo) (hlt : lo < stop) (h1 : lo ≤ y) (h2 : y ≤ stop) :
    ∃ n : Nat, (n : K) < rnd (rnd (stop - lo) / s) ∧ rnd (rnd ((n : K) * s) + lo) ≤ y ∧
      y ≤ rnd (rnd ((n : K) * s) + lo) + s + slack u lo stop := by
  classical
  have hd : 0 < stop - lo := by linarith
  have hq : 0 < rnd (rnd (stop - lo) / s) := by
    have pos : ∀ x : K, 0 < x → 0 < rnd x := fun x hx => by
      have := (abs_le.1 (hr.close x)).1
      rw [abs_of_pos hx] at this
      nlinarith
    exact pos _ (div_pos (pos _ hd) hs)
  -- the largest index whose value is at most `y`
  have hex : ∃ n : Nat, ¬ ((((n + 1 : Nat) : K) < rnd (rnd (stop - lo) / s)) ∧
      rnd (rnd (((n + 1 : Nat) : K) * s) + lo) ≤ y) := by
    obtain ⟨n, hn⟩ := exists_nat_ge (rnd (rnd (stop - lo) / s))
    refine ⟨n, fun h => ?_⟩
    have h1 := h.1
    push_cast at h1
    linarith
  let n := Nat.find hex
  have hn : ¬ ((((n + 1 : Nat) : K) < rnd (rnd (stop - lo) / s)) ∧
      rnd (rnd (((n + 1 : Nat) : K) * s) + lo) ≤ y) := Nat.find_spec hex
  have hpre : (n : K) < rnd (rnd (stop - lo) / s) ∧ rnd (rnd ((n : K) * s) + lo) ≤ y := by
    rcases Nat.eq_zero_or_pos n with h0 | h0
    · rw [h0]
      simp only [Nat.cast_zero, zero_mul, hr.zero, zero_add]
      exact ⟨hq, by rw [hm]; exact h1⟩
    · have := Nat.find_min hex (m := n - 1) (by omega)
      rw [not_not] at this
      rw [show n - 1 + 1 = n by omega] at this
      exact this
  refine ⟨n, hpre.1, hpre.2, ?_⟩
  have hsl := slack_bound (start := lo) (stop := stop) hu hu8 hlt.le
  have b1 := grid_error hr hu (start := lo) hs (index_bound hr hu hs hlt.le hpre.1.le)
  have b1' := (abs_le.1 b1).1
  rcases not_and_or.1 hn with h | h
  · have c := count_bound hr (by linarith) hs hlt.le (not_lt.1 h)
    push_cast at c
    have : u * (2 * (stop - lo)) ≤ u * ((2 + u) * ((1 + u) * ((1 + u) * (stop - lo))) + |lo|) := by
      apply mul_le_mul_of_nonneg_left _ hu
      have g1 : (stop - lo) ≤ (1 + u) * ((1 + u) * (stop - lo)) := by nlinarith [mul_nonneg hu hd.le]
      have g2 : 0 ≤ u * ((1 + u) * ((1 + u) * (stop - lo))) :=
        mul_nonneg hu (mul_nonneg (by linarith) (mul_nonneg (by linarith) hd.le))
      nlinarith [abs_nonneg lo]
    nlinarith [mul_nonneg (mul_nonneg hu hu) hd.le]
  · by_cases hlt2 : (((n + 1 : Nat) : K) < rnd (rnd (stop - lo) / s))
    · have b2 := grid_error hr hu (start := lo) hs (index_bound hr hu hs hlt.le hlt2.le)
      have b2' := (abs_le.1 b2).2
      push_cast at b2' h
      push Not at h
      linarith
    · have c := count_bound hr (by linarith) hs hlt.le (not_lt.1 hlt2)
      push_cast at c
      have : u * (2 * (stop - lo)) ≤ u * ((2 + u) * ((1 + u) * ((1 + u) * (stop - lo))) + |lo|) := by
        apply mul_le_mul_of_nonneg_left _ hu
        have g1 : (stop - lo) ≤ (1 + u) * ((1 + u) * (stop - lo)) := by nlinarith [mul_nonneg hu hd.le]
        have g2 : 0 ≤ u * ((1 + u) * ((1 + u) * (stop - lo))) :=
          mul_nonneg hu (mul_nonneg (by linarith) (mul_nonneg (by linarith) hd.le))
        nlinarith [abs_nonneg lo]
      nlinarith [mul_nonneg (mul_nonneg hu hu) hd.le]

/-! ### C142 -/

/-- The reference points are in the box and contain its corners. -/
def Spans (lo hi : Vec k K) (zs : List (Vec k K)) : Prop :=
  lo ∈ zs ∧ hi ∈ zs ∧ ∀ z ∈ zs, AtLeastAsGood lo z ∧ AtLeastAsGood z hi

/-- **C142**, if no step is smaller than `eps`: the reference points start at the ideal and exceed the nadir by less than
`eps`; if the steps divide the ranges, they are between ideal and nadir and both are among them. Missing: steps smaller
than `eps` (`C142_fails`). -/
theorem C142_spans_partial {lo hi : Vec (k + 1) K} {eps : K} {step : StepArg K} (hl : AtLeastAsGood lo hi)
    (hb : ¬ BadStep k step) (hpos : ∀ j : Fin (k + 1), 0 < stepFor step j.val) (heps : 0 < eps) :
    ∃ zs, referencePoints lo hi eps step = .ok zs ∧ lo ∈ zs ∧
      (∀ z ∈ zs, AtLeastAsGood lo z ∧ ∀ j, z j < hi j + eps) ∧
      ((∀ j : Fin (k + 1), eps ≤ stepFor step j.val) →
        (∀ j, ∃ n : Nat, hi j = lo j + n * stepFor step j.val) → Spans lo hi zs) := by
  obtain ⟨zs, hz, _, hmem, _⟩ := (C63_grid (fun _ : Unit => lo) step eps lo hi none (fun _ _ _ => ((), true))
    (fun _ _ _ => ((), true))).2 hb hpos heps.le
  have hlo : lo ∈ zs := by
    rw [hmem]
    intro j
    refine ⟨0, by simp [min_eq_left (hl j)], ?_⟩
    rw [max_eq_right (hl j)]
    have := hl j
    linarith
  have hin : ∀ z ∈ zs, AtLeastAsGood lo z ∧ ∀ j, z j < hi j + eps := by
    intro z h
    rw [hmem] at h
    constructor
    · intro j
      obtain ⟨n, e, _⟩ := h j
      rw [min_eq_left (hl j)] at e
      rw [e]
      have := mul_nonneg (Nat.cast_nonneg (α := K) n) (hpos j).le
      linarith
    · intro j
      obtain ⟨n, _, e⟩ := h j
      rwa [max_eq_right (hl j)] at e
  refine ⟨zs, hz, hlo, hin, fun hstep hdiv => ⟨hlo, ?_, fun z h => ⟨(hin z h).1, fun j => ?_⟩⟩⟩
  · rw [hmem]
    intro j
    obtain ⟨n, e⟩ := hdiv j
    refine ⟨n, by rw [min_eq_left (hl j)]; exact e, ?_⟩
    rw [max_eq_right (hl j)]
    linarith
  · have h' := (hmem z).1 h j
    obtain ⟨m, e, h2⟩ := h'
    obtain ⟨n, e2⟩ := hdiv j
    rw [min_eq_left (hl j)] at e
    rw [max_eq_right (hl j), e, e2] at h2
    have hmn : m ≤ n := by
      by_contra hc
      have : (n : K) + 1 ≤ m := by exact_mod_cast (not_le.1 hc)
      have := mul_le_mul_of_nonneg_right this (hpos j).le
      have := hstep j
      linarith
    have : (m : K) ≤ n := by exact_mod_cast hmn
    have := mul_le_mul_of_nonneg_right this (hpos j).le
    rw [e, e2]
    linarith

/-- C142 applies: the unit square with steps of one half. -/
example : ∃ zs, referencePoints (k := 1) (![0, 0] : Vec 2 ℚ) ![1, 1] (1 / 1000000) (.float (1 / 2)) = .ok zs ∧
    Spans ![0, 0] ![1, 1] zs := by
  obtain ⟨zs, h1, _, _, h2⟩ := C142_spans_partial (lo := (![0, 0] : Vec 2 ℚ)) (hi := ![1, 1]) (eps := 1 / 1000000)
    (step := .float (1 / 2)) (by intro j; fin_cases j <;> norm_num) (by simp [BadStep])
    (by intro j; norm_num [stepFor]) (by norm_num)
  exact ⟨zs, h1, h2 (by intro j; norm_num [stepFor]) (by intro j; exact ⟨2, by fin_cases j <;> norm_num [stepFor]⟩)⟩

/-- C142 fails for ranges and steps below the default `eps = 1e-6`: with the range `[0, 1e-7]` and steps of `1e-7` there are
reference points ten times as far from the ideal as the nadir. -/
theorem C142_fails :
    ∃ zs, referencePoints (k := 1) (![0, 0] : Vec 2 ℚ) ![1 / 10 ^ 7, 1 / 10 ^ 7] (1 / 10 ^ 6) (.float (1 / 10 ^ 7)) = .ok zs ∧
      (![10 / 10 ^ 7, 10 / 10 ^ 7] : Vec 2 ℚ) ∈ zs ∧ zs.length = 121 := by
  obtain ⟨zs, hz, _, hmem, _⟩ := (C63_grid (k := 1) (fun _ : Unit => (![0, 0] : Vec 2 ℚ)) (.float (1 / 10 ^ 7)) (1 / 10 ^ 6)
    ![0, 0] ![1 / 10 ^ 7, 1 / 10 ^ 7] none (fun _ _ _ => ((), true)) (fun _ _ _ => ((), true))).2
    (by simp [BadStep]) (by intro j; norm_num [stepFor]) (by norm_num)
  refine ⟨zs, hz, ?_, ?_⟩
  · rw [hmem]
    intro j
    refine ⟨10, ?_, ?_⟩ <;> fin_cases j <;> norm_num [stepFor]
  · have : (referencePoints (k := 1) (![0, 0] : Vec 2 ℚ) ![1 / 10 ^ 7, 1 / 10 ^ 7] (1 / 10 ^ 6) (.float (1 / 10 ^ 7))).toOption.map
        List.length = some 121 := by decide +kernel
    rw [hz] at this
    simpa [Except.toOption] using this

/-- C142 fails in double precision for large values, which absorb `eps`: the docstring has `eps` keep the nadir among the
reference points, and in exact arithmetic it does, but with the range `[0, 2³⁶]` and steps of `2³⁵` the nadir is not
among the computed points. -/
theorem C142_fails_rounding :
    rReferencePoints (k := 1) double (![0, 0] : Vec 2 ℚ) ![2 ^ 36, 2 ^ 36] (double (1 / 10 ^ 6)) (.float (2 ^ 35)) =
      .ok [![0, 0], ![0, 2 ^ 35], ![2 ^ 35, 0], ![2 ^ 35, 2 ^ 35]] ∧
    ∃ zs, referencePoints (k := 1) (![0, 0] : Vec 2 ℚ) ![2 ^ 36, 2 ^ 36] (double (1 / 10 ^ 6)) (.float (2 ^ 35)) = .ok zs ∧
      (![2 ^ 36, 2 ^ 36] : Vec 2 ℚ) ∈ zs := by
  constructor
  · decide +kernel
  · obtain ⟨zs, h1, _, _, h2⟩ := C142_spans_partial (lo := (![0, 0] : Vec 2 ℚ)) (hi := ![2 ^ 36, 2 ^ 36])
      (eps := double (1 / 10 ^ 6)) (step := .float (2 ^ 35)) (by intro j; fin_cases j <;> norm_num) (by simp [BadStep])
      (by intro j; norm_num [stepFor]) (by decide +kernel)
    refine ⟨zs, h1, (h2 ?_ ?_).2.1⟩
    · intro j
      have : double (1 / 10 ^ 6) ≤ 2 ^ 35 := by decide +kernel
      exact this
    · intro j; exact ⟨2, by fin_cases j <;> norm_num [stepFor]⟩

/-! ### C143 -/

/-- If all optimizations succeed with minima, all solutions are returned. -/
theorem loop_all {obj : X → Vec (k + 1) K} {lo hi : Vec (k + 1) K} {front : Solver X K}
    (hl : AtLeastAsGood lo hi) (ht : Trusty front)
    (hs : ∀ n z, (front n none fun x => pointAsf lo hi z (obj x)).2 = true) (zs : List (Vec (k + 1) K)) :
    (frontLoop obj (pointAsf lo hi) (fun i g => front i none g) 0 zs [] []).1.filterMap id =
      AllSuccesses obj lo hi front zs := by
  cases zs with
  | nil => rfl
  | cons z zs =>
    have hacc : accepts ([] : List (Option (Vec (k + 1) K))) 0
        (obj (front 0 none fun x => pointAsf lo hi z (obj x)).1) = true := by simp [accepts]
    have hall := frontLoop_all (obj := obj) (asf := pointAsf lo hi)
      (solve := fun i g => front i none g) (fun n z hs y => trusty_optimal hl ht n z hs y) zs 1
      [some (front 0 none fun x => pointAsf lo hi z (obj x)).1] (by simp)
    have hs0 : (front 0 none fun x => pointAsf lo hi z (obj x)).2 = true := hs _ _
    unfold AllSuccesses
    rw [← successes_eq]
    unfold frontLoop successes
    simp only []
    rw [if_neg (by rw [hs0]; simp), if_pos hacc, if_pos hs0]
    simpa using hall

/-- **C143**. The front representation in rounded arithmetic, the ideal being a lower bound of all solutions, all numbers
given being machine numbers. If every optimization succeeds and finds a global minimum, the representation contains for
every solution `y` that is nowhere worse than the nadir a solution that is in no objective worse than `y` by more than one
step, the rounding errors of the grid and `k · 1e-6` of the range. Missing: objectives with `nadir = ideal` whose value
absorbs `eps` (`C143_fails_empty`). -/
theorem C143_covers_partial (hr : IsRounding u rnd) (hu : 0 ≤ u) (hu8 : u ≤ 1 / 8)
    {obj : X → Vec (k + 1) K} {step : StepArg K} {eps : K} {lo hi : Vec (k + 1) K}
    (hl : AtLeastAsGood lo hi) (hideal : ∀ y, AtLeastAsGood lo (obj y)) (hb : ¬ BadStep k step)
    (hpos : ∀ j : Fin (k + 1), 0 < stepFor step j.val) (heps : 0 ≤ eps) (hmlo : MachineVec rnd lo) (hmhi : MachineVec rnd hi)
    (hgap : ∀ j, lo j < rnd (hi j + eps))
    {d : K} (hd : ∀ j : Fin (k + 1), stepFor step j.val + u * (6 * (rnd (hi j + eps) - lo j) + 2 * |lo j|) ≤
      d * (hi j - lo j + 1 / 10 ^ 6))
    {cons : Option (X → List K)} {table front : Solver X K} (ht : Trusty front)
    (hs : ∀ n z, (front n none fun x => pointAsf lo hi z (obj x)).2 = true) :
    ∃ xs fs, rFrontGeneral rnd obj step eps (.given lo) (.given hi) cons table front = .ok (xs, fs) ∧
      ∀ y, AtLeastAsGood (obj y) hi → ∃ x ∈ xs, StandsFor obj lo hi (d + (k + 1) / 10 ^ 6) x y := by
  obtain ⟨axes, n, h1, h2, h3⟩ := rAxesOf_ok hr (k + 1) (fun i => min (lo i) (hi i))
    (fun i => rnd (max (lo i) (hi i) + eps)) (fun j => stepFor step j.val) hpos (fun i => by
      rw [min_eq_left (hl i), max_eq_right (hl i)]; exact (hgap i).le)
  have hz : rReferencePoints rnd lo hi eps step = .ok (meshOf (k + 1) axes) := by
    unfold rReferencePoints
    simp only [stepsOf_good hb, h1]
  have hF : rFrontGeneral rnd obj step eps (.given lo) (.given hi) cons table front =
      .ok ((frontLoop obj (pointAsf lo hi) (fun i g => front i none g) 0 (meshOf (k + 1) axes) [] []).1.filterMap id,
        (frontLoop obj (pointAsf lo hi) (fun i g => front i none g) 0 (meshOf (k + 1) axes) [] []).2.filterMap id) := by
    unfold rFrontGeneral
    simp only [resolveBounds, hz]
  refine ⟨_, _, hF, ?_⟩
  intro y hy
  have hstop : ∀ j, hi j ≤ rnd (hi j + eps) := fun j => by
    have := hr.mono (hi j) (hi j + eps) (by linarith)
    rwa [hmhi j] at this
  choose i hi1 hi2 hi3 using fun j : Fin (k + 1) =>
    exists_rgrid hr hu hu8 (hpos j) (hmlo j) (hgap j) (hideal y j) ((hy j).trans (hstop j))
  have hin : (fun j : Fin (k + 1) => rnd (rnd ((i j : K) * stepFor step j.val) + lo j)) ∈ meshOf (k + 1) axes := by
    rw [mem_meshOf]
    intro j
    rw [h2 j]
    simp only [List.mem_map, List.mem_range]
    refine ⟨i j, (h3 j _).2 ?_, by rw [min_eq_left (hl j)]⟩
    simp only [min_eq_left (hl j), max_eq_right (hl j)]
    exact hi1 j
  obtain ⟨m, hm⟩ := List.mem_iff_getElem?.1 hin
  have hx := loop_all (obj := obj) hl ht hs (meshOf (k + 1) axes)
  refine ⟨(front m none fun x => pointAsf lo hi (fun j => rnd (rnd ((i j : K) * stepFor step j.val) + lo j)) (obj x)).1, ?_, ?_⟩
  · rw [hx]
    unfold AllSuccesses
    rw [List.mem_filterMap]
    refine ⟨(fun j => rnd (rnd ((i j : K) * stepFor step j.val) + lo j), m), ?_, ?_⟩
    · rw [List.mem_zipIdx_iff_getElem?]
      exact hm
    · simp only [hs, if_true]
  · intro j
    refine asf_stands (z := fun j => rnd (rnd ((i j : K) * stepFor step j.val) + lo j)) hl (hideal _) hy (fun j => hi2 j) ?_
      (ht m (fun x => pointAsf lo hi (fun j => rnd (rnd ((i j : K) * stepFor step j.val) + lo j)) (obj x)) (hs _ _) y) j
    intro j
    have := hi3 j
    have := hd j
    unfold slack at *
    linarith

/-- Two solutions, `(0, 1)` and `(1, 0)`, and a solver that tries both. -/
def rSolver : Solver Bool ℚ := fun _ _ g => (if g false ≤ g true then false else true, true)

theorem rSolver_trusty : Trusty rSolver := by
  intro n g _ y
  unfold rSolver
  by_cases h : g false ≤ g true
  · simp only [h, if_true]
    cases y
    · exact le_refl _
    · exact h
  · simp only [h, if_false]
    cases y
    · exact (not_le.1 h).le
    · exact le_refl _

/-- C143 applies: steps of one half in double precision. -/
example := C143_covers_partial isRounding_double (by norm_num) (by norm_num) (k := 1)
  (obj := fun b : Bool => if b then ![(0 : ℚ), 1] else ![1, 0]) (step := .float (1 / 2)) (eps := double (1 / 10 ^ 6))
  (lo := ![0, 0]) (hi := ![1, 1]) (by intro j; fin_cases j <;> norm_num)
  (by intro y j; fin_cases j <;> cases y <;> norm_num) (by simp [BadStep]) (by intro j; norm_num [stepFor])
  (by decide +kernel) (by intro j; fin_cases j <;> exact eq_of_beq (by decide +kernel))
  (by intro j; fin_cases j <;> exact eq_of_beq (by decide +kernel)) (by decide +kernel)
  (d := 2 / 3) (by decide +kernel) (cons := none) (table := rSolver) (front := rSolver) rSolver_trusty (fun _ _ => rfl)

/-- C143 fails if an objective has the same large value everywhere: `2⁴⁰ + 1e-6` is computed as `2⁴⁰`, so there is no
reference point and the representation is empty, whatever the solvers do. In exact arithmetic both solutions have a
representative. -/
theorem C143_fails_empty :
    (∀ (cons : Option (Bool → List ℚ)) (table front : Solver Bool ℚ),
      rFrontGeneral (k := 1) double (fun b : Bool => if b then ![(2 : ℚ) ^ 40, 1] else ![2 ^ 40, 0]) (.float (1 / 2))
        (double (1 / 10 ^ 6)) (.given ![2 ^ 40, 0]) (.given ![2 ^ 40, 1]) cons table front = .ok ([], [])) ∧
    ∀ (cons : Option (Bool → List ℚ)) (table : Solver Bool ℚ) (xs : List Bool) (fs : List (Vec 2 ℚ)),
      frontGeneral (k := 1) (fun b : Bool => if b then ![(2 : ℚ) ^ 40, 1] else ![2 ^ 40, 0]) (.float (1 / 2))
        (double (1 / 10 ^ 6)) (.given ![2 ^ 40, 0]) (.given ![2 ^ 40, 1]) cons table rSolver = .ok (xs, fs) → xs ≠ [] := by
  constructor
  · intro cons table front
    have h : rReferencePoints (k := 1) double (![2 ^ 40, 0] : Vec 2 ℚ) ![2 ^ 40, 1] (double (1 / 10 ^ 6)) (.float (1 / 2)) =
        .ok [] := by decide +kernel
    unfold rFrontGeneral
    simp only [resolveBounds, h]
    rfl
  · intro cons table xs fs h
    obtain ⟨x, hx, _⟩ := C113_covers (k := 1) (lo := (![2 ^ 40, 0] : Vec 2 ℚ)) (hi := ![2 ^ 40, 1])
      (by intro j; fin_cases j <;> norm_num) (by intro y j; fin_cases j <;> cases y <;> norm_num) (by simp [BadStep])
      (by intro j; norm_num [stepFor]) (by decide +kernel) (d := 10 ^ 6) (by intro j; fin_cases j <;> norm_num [stepFor])
      rSolver_trusty (fun _ _ => rfl) h (y := false) (by intro j; fin_cases j <;> norm_num)
    exact List.ne_nil_of_mem hx

end Verif.Solvers
