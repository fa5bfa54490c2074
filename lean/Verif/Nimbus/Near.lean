import Verif.Nimbus.Reach

/-!
# NIMBUS: a solution near any Pareto optimal one can be reached (C186)
-/

set_option linter.unusedSectionVars false

namespace Verif.Nimbus

variable {K : Type} [Field K] [LinearOrder K] [IsStrictOrderedRing K] {k m : Nat}

/-- What minimizes the scalarizing function is nowhere worse than `f` by more than `rho * k` ranges. -/
theorem towards_near {ideal range : Vec k K} {rho : K} {asf : (lt le : List Nat) → (ref f : Vec k K) → K}
    (h : IsMaxOfTwo ideal range rho asf) (hrho : 0 ≤ rho) (hrange : ∀ i, 0 < range i) {f g cur : Vec k K}
    (hspan : ∀ i, f i - g i ≤ range i) (hne : ∃ j, f j ≤ cur j) (hh : Honours (towards cur f) cur f g)
    (hle : asf (positions (towards cur f) .lt) (positions (towards cur f) .le) f g ≤
      asf (positions (towards cur f) .lt) (positions (towards cur f) .le) f f) (j : Fin k) :
    g j ≤ f j + rho * k * range j := by
  have hk0 : 0 ≤ rho * k * range j := mul_nonneg (mul_nonneg hrho (Nat.cast_nonneg k)) (hrange j).le
  have hex : ∃ i, towards cur f i = .lt ∨ towards cur f i = .le := by
    obtain ⟨i, hi⟩ := hne
    exact ⟨i, .inr (by simp [towards, hi])⟩
  obtain ⟨A, ⟨a1, a2⟩, eA⟩ := h.value f g hex
  obtain ⟨B, ⟨b1, b2⟩, eB⟩ := h.value f f hex
  have hB : B = 0 := by
    obtain ⟨i, t, ⟨w, _⟩ | ⟨_, rfl⟩, e⟩ := b1
    · unfold towards at w
      split at w <;> cases w
    · rw [e, sub_self, zero_div]
  rw [eA, eB, hB] at hle
  by_cases hj : f j ≤ cur j
  · have hj' : towards cur f j = .le := by simp [towards, hj]
    have hA : (g j - f j) / range j ≤ A := a2 ⟨j, _, .inr ⟨hj', rfl⟩, rfl⟩
    have hs : ∑ i, (f i - g i) / range i = (∑ i, f i / range i) - ∑ i, g i / range i := by
      rw [← Finset.sum_sub_distrib]
      exact Finset.sum_congr rfl fun i _ => sub_div _ _ _
    have hsum : ∑ i, (f i - g i) / range i ≤ k := by
      refine (Finset.sum_le_sum fun i _ => (div_le_one (hrange i)).2 (hspan i)).trans ?_
      simp
    have hm := mul_le_mul_of_nonneg_left hsum hrho
    rw [hs, mul_sub] at hm
    have : (g j - f j) / range j ≤ rho * k := by linarith
    rw [div_le_iff₀ (hrange j)] at this
    linarith
  · have hj' : towards cur f j = .ge := by simp [towards, hj]
    have := (hh j).2 hj'
    linarith

/-- What dominates is better for the scalarizing function. -/
theorem IsMaxOfTwo.better {ideal range : Vec k K} {rho : K} {asf : (lt le : List Nat) → (ref f : Vec k K) → K}
    (h : IsMaxOfTwo ideal range rho asf) (hrho : 0 < rho) (hrange : ∀ i, 0 < range i) {cls : Fin k → Cls}
    (hne : ∃ i, cls i = .lt ∨ cls i = .le) {lv f g : Vec k K} (hd : Dominates g f) :
    asf (positions cls .lt) (positions cls .le) lv g < asf (positions cls .lt) (positions cls .le) lv f := by
  obtain ⟨A, ⟨a1, _⟩, eA⟩ := h.value lv g hne
  obtain ⟨B, ⟨_, b2⟩, eB⟩ := h.value lv f hne
  have hAB : A ≤ B := by
    obtain ⟨i, t, w, rfl⟩ := a1
    exact (div_le_div_of_nonneg_right (sub_le_sub_right (hd.1 i) t) (hrange i).le).trans (b2 ⟨i, t, w, rfl⟩)
  obtain ⟨j, hj⟩ := hd.2
  have hs : ∑ i, g i / range i < ∑ i, f i / range i :=
    Finset.sum_lt_sum (fun i _ => div_le_div_of_nonneg_right (hd.1 i) (hrange i).le)
      ⟨j, Finset.mem_univ _, div_lt_div_of_pos_right hj (hrange j)⟩
  have := mul_lt_mul_of_pos_left hs hrho
  rw [eA, eB]
  linarith

/-- What minimizes the scalarizing function among what honours a classification is not dominated. -/
theorem Honours.undominated {ideal range : Vec k K} {rho : K} {asf : (lt le : List Nat) → (ref f : Vec k K) → K}
    (h : IsMaxOfTwo ideal range rho asf) (hrho : 0 < rho) (hrange : ∀ i, 0 < range i) {cls : Fin k → Cls}
    (hne : ∃ i, cls i = .lt ∨ cls i = .le) {cur lv f g : Vec k K} (hf : Honours cls cur lv f)
    (hmin : Honours cls cur lv g → asf (positions cls .lt) (positions cls .le) lv f ≤
      asf (positions cls .lt) (positions cls .le) lv g) : ¬ Dominates g f := fun hd =>
  absurd (h.better hrho hrange hne hd) (not_lt.2 (hmin fun j =>
    ⟨fun hj => (hd.1 j).trans ((hf j).1 hj), fun hj => (hd.1 j).trans ((hf j).2 hj)⟩))

theorem towards_some {f cur : Vec k K} (hne : ∃ j, f j ≤ cur j) :
    ∃ i, towards cur f i = .lt ∨ towards cur f i = .le := by
  obtain ⟨i, hi⟩ := hne
  exact ⟨i, .inr (by simp [towards, hi])⟩

/-- **C186**, for data-based problems with at least two objectives. In every history in which a classification is asked for,
four answers lead near any row `p` between ideal and nadir that no row dominates: to a row that is in no objective worse by
more than `rho` times the number of objectives, in units of the range, and that no row dominates. -/
theorem C186_data (hk : k ≠ 1) {c : Cfg k m K} {s : St k m K} {f0 : Vec k K} {l : List (Req k m K)}
    (h : Reached c s (.classify f0 :: l)) (hns : ∀ x f, Req.stop x f ∉ Req.classify f0 :: l) {N : Nat}
    {obj : Fin N → Vec k K} {dec : Fin N → Vec m K} {cl : Option (Vec m K) → Fin N}
    (hd : c.problem = .discrete N obj dec cl) {range : Vec k K} {rho : K}
    (hasf : IsMaxOfTwo c.ideal range rho c.asf1) (hrho : 0 < rho) (hrange : ∀ i, 0 < range i)
    (hspan : ∀ i, c.nadir i - c.ideal i ≤ range i) (hid : ∀ q, AtLeastAsGood c.ideal (obj q)) {p : Fin N}
    (hnad : AtLeastAsGood (obj p) c.nadir) (hpar : ∀ q, ¬ Dominates (obj q) (obj p)) (hk0 : 0 < k) :
    ∃ (cls : Fin k → Cls) (i : Int), ∀ (o0 o1 o2 o3 : Oracle k m K) (cont : Bool), ∃ q s1 r1 s2 r2 s3 r3 s4,
      answer c s (.classify f0) (.classify (complete cls (obj p) 1)) o0 = (s1, .ok r1) ∧
      answer c s1 r1 (.save (some [])) o1 = (s2, .ok r2) ∧
      answer c s2 r2 (.inter ⟨some [], some 0⟩) o2 = (s3, .ok r3) ∧
      answer c s3 r3 (.preferred ⟨some (.int i), some (.bool cont)⟩) o3 =
        (s4, .ok (if cont then .classify (obj q) else .stop (dec q) (obj q))) ∧
      (∀ j, obj q j ≤ obj p j + rho * k * range j) ∧ (∀ q', ¬ Dominates (obj q') (obj q)) ∧ s4.sol = dec q ∧ s4.obj = obj q := by
  have hsome : ∃ j, obj p j ≤ s.obj j := by
    have hcur := h.inv.current
    simp only [Genuine, hd] at hcur
    obtain ⟨q, _, hq⟩ := hcur
    by_contra hc
    push Not at hc
    rw [hq] at hc
    exact hpar q ⟨fun j => (hc j).le, ⟨0, hk0⟩, hc _⟩
  refine ⟨towards s.obj (obj p), s.archSols.length, fun o0 o1 o2 o3 cont => ?_⟩
  obtain ⟨r1, hr1⟩ := C27_solution_found_partial h hd (towards_valid hk fun j => ⟨hid p j, hnad j⟩)
    (fun j hj => towards_ge hj) o0
  obtain ⟨s1, hs1⟩ : ∃ s1, answer c s (.classify f0) (.classify (complete (towards s.obj (obj p)) (obj p) 1)) o0 =
      (s1, .ok r1) := ⟨_, Prod.ext rfl hr1⟩
  obtain ⟨sols, objs, q, rfl, hx, hf, hh, hmin, _⟩ := first_row h hns hd hs1
  have hq := towards_near hasf hrho.le hrange (fun i => (sub_le_sub (hnad i) (hid q i)).trans (hspan i)) hsome hh
    (hmin p (towards_self _ _))
  have hst : s1 = { s with phase := .archive } := by
    cases answer_ok hs1 with
    | classify _ _ _ => rfl
  obtain ⟨s2, r2, s3, r3, s4, e1, e2, e3, e4, e5⟩ := towards_answers (c := c) (s1 := s1) (by rw [hst])
    (by rw [hst]; exact h.inv.arch_len) hx hf o1 o2 o3 cont
  refine ⟨q, s1, _, s2, r2, s3, r3, s4, hs1, e1, e2, ?_, hq,
    fun q' => hh.undominated hasf hrho hrange (towards_some hsome) (hmin q'), e4, e5⟩
  rw [hst] at e3
  exact e3

/-- **C186**, for analytic problems with at least two objectives and an exact minimizer. In every history in which a
classification is asked for, the same answers lead near any feasible `y` between ideal and nadir that is not worse than the
current solution in every objective, if the scalarized problems that `y` is admissible for have a solution: to a Pareto
optimal solution. -/
theorem C186_analytic (hk : k ≠ 1) {c : Cfg k m K} {s : St k m K} {f0 : Vec k K} {l : List (Req k m K)}
    (h : Reached c s (.classify f0 :: l)) (hns : ∀ x f, Req.stop x f ∉ Req.classify f0 :: l)
    {ev : Vec m K → Vec k K} (hmo : c.problem = .mo ev) {range : Vec k K} {rho : K}
    (hasf : IsMaxOfTwo c.ideal range rho c.asf1) (hrho : 0 < rho) (hrange : ∀ i, 0 < range i)
    (hspan : ∀ i, c.nadir i - c.ideal i ≤ range i)
    (hid : ∀ x, c.feasible x = true → AtLeastAsGood c.ideal (ev x)) {y : Vec m K} (hy : c.feasible y = true)
    (hnad : AtLeastAsGood (ev y) c.nadir) (hsome : ∃ j, ev y j ≤ s.obj j)
    (hatt : ∀ cls, Honours cls s.obj (ev y) (ev y) → ∃ x, c.feasible x = true ∧ Honours cls s.obj (ev y) (ev x) ∧
      ∀ z, c.feasible z = true → Honours cls s.obj (ev y) (ev z) →
        c.asf1 (positions cls .lt) (positions cls .le) (ev y) (ev x) ≤
          c.asf1 (positions cls .lt) (positions cls .le) (ev y) (ev z)) :
    ∃ (cls : Fin k → Cls) (i : Int), ∀ (o0 o1 o2 o3 : Oracle k m K) (cont : Bool),
      (∀ t, (∃ x, Solves t x) → Solves t (o0.minimize 0 t)) → ∃ x s1 r1 s2 r2 s3 r3 s4,
      answer c s (.classify f0) (.classify (complete cls (ev y) 1)) o0 = (s1, .ok r1) ∧
      answer c s1 r1 (.save (some [])) o1 = (s2, .ok r2) ∧
      answer c s2 r2 (.inter ⟨some [], some 0⟩) o2 = (s3, .ok r3) ∧
      answer c s3 r3 (.preferred ⟨some (.int i), some (.bool cont)⟩) o3 =
        (s4, .ok (if cont then .classify (ev x) else .stop x (ev x))) ∧
      c.feasible x = true ∧ (∀ j, ev x j ≤ ev y j + rho * k * range j) ∧
      (∀ z, c.feasible z = true → ¬ Dominates (ev z) (ev x)) ∧ s4.sol = x ∧ s4.obj = ev x := by
  refine ⟨towards s.obj (ev y), s.archSols.length, fun o0 o1 o2 o3 cont hexact => ?_⟩
  obtain ⟨r1, hr1⟩ := C25_mo_never_raises h hmo (cls := List.ofFn (towards s.obj (ev y))) (lv := List.ofFn (ev y))
    (num := 1) (by simp) (towards_valid hk fun j => ⟨hid y hy j, hnad j⟩) o0
  obtain ⟨s1, hs1⟩ : ∃ s1, answer c s (.classify f0) (.classify (complete (towards s.obj (ev y)) (ev y) 1)) o0 =
      (s1, .ok r1) := ⟨_, Prod.ext rfl hr1⟩
  obtain ⟨sols, objs, x, rfl, hx, hf, hfe, hh, hmin⟩ := C93_first_solution_honours h hns hmo hs1 hexact
    (hatt _ (towards_self _ _))
  have hq := towards_near hasf hrho.le hrange (fun i => (sub_le_sub (hnad i) (hid x hfe i)).trans (hspan i)) hsome hh
    (hmin y hy (towards_self _ _))
  have hst : s1 = { s with phase := .archive } := by
    cases answer_ok hs1 with
    | classify _ _ _ => rfl
  obtain ⟨s2, r2, s3, r3, s4, e1, e2, e3, e4, e5⟩ := towards_answers (c := c) (s1 := s1) (by rw [hst])
    (by rw [hst]; exact h.inv.arch_len) hx hf o1 o2 o3 cont
  refine ⟨x, s1, _, s2, r2, s3, r3, s4, hs1, e1, e2, ?_, hfe, hq,
    fun z hz => hh.undominated hasf hrho hrange (towards_some hsome) (hmin z hz), e4, e5⟩
  rw [hst] at e3
  exact e3

/-! ### Examples -/

/-- Four rows none of which dominates another; the third is not balanced, the last gives up next to nothing for a lot. -/
def exNbyRows : Fin 4 → Vec 2 ℚ := ![![0, 1], ![1, 0], ![1/2, 1/2], ![1/2 + 1/1000000000, 1/4]]

def exNby : Cfg 2 1 ℚ :=
  { exPareto with ideal := ![0, 0], nadir := ![1, 1], problem := .discrete 4 exNbyRows exDec exClosest, asf1 := exTwoAsf,
                  asf3 := fun _ f => f 0 }

def exNbyS : St 2 1 ℚ := ⟨![0], ![0, 1], [], [], .classify⟩

theorem exNby_reached : Reached exNby exNbyS [.classify ![0, 1]] :=
  .init (s := exNbyS) (sp := some [0, 1]) (res := fun _ => none) (eq_of_beq (by decide +kernel))

example := C186_data (by decide) exNby_reached (by simp) (obj := exNbyRows) rfl exTwoAsf_spec (by norm_num)
  (fun _ => one_pos) (by decide +kernel) (by decide +kernel) (p := 2) (by decide +kernel) (by decide +kernel) (by decide)

/-- The row is not balanced, so that C176 does not apply. -/
example : ¬ Balanced (1 / 1000000) (fun _ => 1) (fun g => ∃ q, exNbyRows q = g) (exNbyRows 2) := by
  intro h
  obtain ⟨j, h1, h2⟩ := h _ ⟨3, rfl⟩ (by decide +kernel)
  revert j
  decide +kernel

/-- An analytic problem with values between 0 and 1. -/
def exUnitEv : Vec 1 ℚ → Vec 2 ℚ := fun x => ![x 0 / 3, (1 - x 0 / 3) * (1 - x 0 / 3)]

/-- Among four decision vectors there is always a best one. -/
theorem exFin_min (g : Vec 1 ℚ → ℚ) (Q : Vec 1 ℚ → Prop) (h : ∃ y, exFinOk y = true ∧ Q y) :
    ∃ x, exFinOk x = true ∧ Q x ∧ ∀ z, exFinOk z = true → Q z → g x ≤ g z := by
  classical
  have hcase : ∀ y, exFinOk y = true → ∃ v ∈ ({0, 1, 2, 3} : Finset ℚ), y = ![v] := fun y hy =>
    exFin_cases (P := fun y => ∃ v ∈ ({0, 1, 2, 3} : Finset ℚ), y = ![v])
      (fun v hv => ⟨v, by simpa using hv, rfl⟩) hy
  have hok : ∀ v ∈ ({0, 1, 2, 3} : Finset ℚ), exFinOk ![v] = true := by decide +kernel
  obtain ⟨y, hy, hq⟩ := h
  obtain ⟨v, hv, rfl⟩ := hcase y hy
  obtain ⟨w, hw, hmin⟩ := Finset.exists_min_image (({0, 1, 2, 3} : Finset ℚ).filter fun v => Q ![v]) (fun v => g ![v])
    ⟨v, Finset.mem_filter.2 ⟨hv, hq⟩⟩
  obtain ⟨hw1, hw2⟩ := Finset.mem_filter.1 hw
  refine ⟨![w], hok w hw1, hw2, fun z hz hzq => ?_⟩
  obtain ⟨u, hu, rfl⟩ := hcase z hz
  exact hmin u (Finset.mem_filter.2 ⟨hu, hzq⟩)

def exUnit : Cfg 2 1 ℚ :=
  { exFin with ideal := ![0, 0], nadir := ![1, 1], problem := .mo exUnitEv, asf1 := exTwoAsf }

def exUnitS : St 2 1 ℚ := ⟨![3], ![1, 0], [], [], .classify⟩

theorem exUnit_reached : Reached exUnit exUnitS [.classify ![1, 0]] :=
  .init (s := exUnitS) (sp := none) (res := fun _ => some ![3]) (eq_of_beq (by decide +kernel))

example := (C186_analytic (by decide) exUnit_reached (by simp) (ev := exUnitEv) rfl exTwoAsf_spec (by norm_num)
  (fun _ => one_pos) (by decide +kernel)
  (fun x hx => exFin_cases (P := fun x => AtLeastAsGood ![0, 0] (exUnitEv x)) (by decide +kernel) hx) (y := ![1])
  (by decide +kernel) (by decide +kernel) (by decide +kernel)
  (fun cls hc => exFin_min (fun x => exTwoAsf (positions cls .lt) (positions cls .le) (exUnitEv ![1]) (exUnitEv x))
    (fun x => Honours cls ![1, 0] (exUnitEv ![1]) (exUnitEv x)) ⟨![1], by decide +kernel, hc⟩)).imp
  fun _ h => h.imp fun _ h => h exExact exExact exExact exExact true (exExact_solves 0)

end Verif.Nimbus
