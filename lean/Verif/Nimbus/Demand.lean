import Verif.Nimbus.Relax
import Mathlib.Order.Bounds.Basic
import Mathlib.Tactic.LinearCombination

/-!
# NIMBUS: asking for more of one objective (C167)

Moving an objective from '=' to '<=' or '<', from '<=' to '<', or lowering the level of '<=' does not change which
solutions honour the classification; it adds or raises one term of the first scalarizing function.
-/

set_option linter.unusedSectionVars false

namespace Verif.Nimbus

variable {K : Type} [Field K] [LinearOrder K] [IsStrictOrderedRing K] {k m : Nat}

/-- Specification: the first scalarizing function of synchronous NIMBUS: the largest of `(f i - ideal i) / range i` over
the objectives to be improved ('<') and `(f i - level i) / range i` over those to be improved up to a level ('<='), plus
`rho` times the sum of `f i / range i`. -/
def IsMaxOfTwo (ideal range : Vec k K) (rho : K) (asf : (lt le : List Nat) → (ref f : Vec k K) → K) : Prop :=
  ∀ lt le z f, (∃ i : Fin k, i.val ∈ lt ∨ i.val ∈ le) →
    ∃ t, IsGreatest {v | ∃ i : Fin k, i.val ∈ lt ∧ v = (f i - ideal i) / range i ∨
        i.val ∈ le ∧ v = (f i - z i) / range i} t ∧
      asf lt le z f = t + rho * ∑ i, f i / range i

/-- Specification: the second classification demands more of objective `j` - that it be improved instead of kept, or
improved as much as possible instead of up to a level, or up to a better level - and the same of the others. -/
structure DemandsMore (cls cls' : Fin k → Cls) (lv lv' : Vec k K) (j : Fin k) : Prop where
  more : cls j = .eq ∧ (cls' j = .lt ∨ cls' j = .le) ∨ cls j = .le ∧ cls' j = .le ∧ lv' j ≤ lv j ∨
    cls j = .le ∧ cls' j = .lt
  others : ∀ i, i ≠ j → cls' i = cls i ∧ (cls i = .le ∨ cls i = .ge → lv' i = lv i)

/-- The value an objective to be improved is compared with. -/
def Wants (ideal lv : Vec k K) (cls : Fin k → Cls) (i : Fin k) (t : K) : Prop :=
  cls i = .lt ∧ t = ideal i ∨ cls i = .le ∧ t = lv i

theorem DemandsMore.wants_other {ideal lv lv' : Vec k K} {cls cls' : Fin k → Cls} {j : Fin k}
    (h : DemandsMore cls cls' lv lv' j) {i : Fin k} (hi : i ≠ j) {t : K} :
    Wants ideal lv' cls' i t ↔ Wants ideal lv cls i t := by
  obtain ⟨h1, h2⟩ := h.others i hi
  unfold Wants
  rw [h1]
  constructor
  · rintro (h | ⟨a, b⟩)
    · exact .inl h
    · exact .inr ⟨a, by rw [b, h2 (.inl a)]⟩
  · rintro (h | ⟨a, b⟩)
    · exact .inl h
    · exact .inr ⟨a, by rw [b, h2 (.inl a)]⟩

theorem DemandsMore.wants {ideal lv lv' : Vec k K} {cls cls' : Fin k → Cls} {j : Fin k}
    (h : DemandsMore cls cls' lv lv' j) (hid : cls j = .le → ideal j ≤ lv j) :
    ∃ t', Wants ideal lv' cls' j t' ∧ ∀ t, Wants ideal lv cls j t → t' ≤ t := by
  rcases h.more with ⟨h1, h2 | h2⟩ | ⟨h1, h2, h3⟩ | ⟨h1, h2⟩
  · exact ⟨ideal j, .inl ⟨h2, rfl⟩, fun t ht => by rcases ht with ⟨a, _⟩ | ⟨a, _⟩ <;> rw [h1] at a <;> cases a⟩
  · exact ⟨lv' j, .inr ⟨h2, rfl⟩, fun t ht => by rcases ht with ⟨a, _⟩ | ⟨a, _⟩ <;> rw [h1] at a <;> cases a⟩
  · refine ⟨lv' j, .inr ⟨h2, rfl⟩, fun t ht => ?_⟩
    rcases ht with ⟨a, _⟩ | ⟨_, rfl⟩
    · rw [h1] at a; cases a
    · exact h3
  · refine ⟨ideal j, .inl ⟨h2, rfl⟩, fun t ht => ?_⟩
    rcases ht with ⟨a, _⟩ | ⟨_, rfl⟩
    · rw [h1] at a; cases a
    · exact hid h1

theorem DemandsMore.honours {cls cls' : Fin k → Cls} {lv lv' cur f : Vec k K} {j : Fin k}
    (h : DemandsMore cls cls' lv lv' j) : Honours cls' cur lv' f ↔ Honours cls cur lv f := by
  unfold Honours
  refine forall_congr' fun i => ?_
  rcases eq_or_ne i j with rfl | hi
  · rcases h.more with ⟨h1, h2 | h2⟩ | ⟨h1, h2, _⟩ | ⟨h1, h2⟩ <;> simp [h1, h2]
  · obtain ⟨h1, h2⟩ := h.others i hi
    rw [h1]
    refine and_congr Iff.rfl ⟨fun g hg => ?_, fun g hg => ?_⟩
    · rw [← h2 (.inr hg)]; exact g hg
    · rw [h2 (.inr hg)]; exact g hg

/-- The value of the first scalarizing function for a classification. -/
theorem IsMaxOfTwo.value {ideal range : Vec k K} {rho : K} {asf : (lt le : List Nat) → (ref f : Vec k K) → K}
    (h : IsMaxOfTwo ideal range rho asf) {cls : Fin k → Cls} (lv f : Vec k K)
    (hne : ∃ i, cls i = .lt ∨ cls i = .le) :
    ∃ t, IsGreatest {v | ∃ i t, Wants ideal lv cls i t ∧ v = (f i - t) / range i} t ∧
      asf (positions cls .lt) (positions cls .le) lv f = t + rho * ∑ i, f i / range i := by
  obtain ⟨i, hi⟩ := hne
  obtain ⟨t, h1, h2⟩ := h (positions cls .lt) (positions cls .le) lv f
    ⟨i, hi.imp mem_positions.2 mem_positions.2⟩
  refine ⟨t, ?_, h2⟩
  convert h1 using 1
  ext v
  simp only [Set.mem_ofPred_eq, Wants, mem_positions]
  constructor
  · rintro ⟨i, t, ⟨a, rfl⟩ | ⟨a, rfl⟩, rfl⟩
    · exact ⟨i, .inl ⟨a, rfl⟩⟩
    · exact ⟨i, .inr ⟨a, rfl⟩⟩
  · rintro ⟨i, ⟨a, rfl⟩ | ⟨a, rfl⟩⟩
    · exact ⟨i, _, .inl ⟨a, rfl⟩, rfl⟩
    · exact ⟨i, _, .inr ⟨a, rfl⟩, rfl⟩

/-- The core: two outcomes, the first at least as good as the second for the first classification and the second at
least as good as the first for the second. -/
theorem demanded {ideal range : Vec k K} {rho : K} {asf : (lt le : List Nat) → (ref f : Vec k K) → K}
    (h : IsMaxOfTwo ideal range rho asf) (hr : ∀ i, 0 < range i) {cls cls' : Fin k → Cls} {lv lv' : Vec k K}
    {j : Fin k} (hm : DemandsMore cls cls' lv lv' j) (hid : cls j = .le → ideal j ≤ lv j)
    (hne : ∃ i, cls i = .lt ∨ cls i = .le) {f f' : Vec k K}
    (h1 : asf (positions cls .lt) (positions cls .le) lv f ≤ asf (positions cls .lt) (positions cls .le) lv f')
    (h2 : asf (positions cls' .lt) (positions cls' .le) lv' f' ≤
      asf (positions cls' .lt) (positions cls' .le) lv' f) :
    f' j ≤ f j + range j * (rho * ∑ i, (f i - f' i) / range i) ∨
      asf (positions cls .lt) (positions cls .le) lv f' ≤ asf (positions cls .lt) (positions cls .le) lv f ∧
      asf (positions cls' .lt) (positions cls' .le) lv' f ≤
        asf (positions cls' .lt) (positions cls' .le) lv' f' := by
  obtain ⟨t', hw', ht'⟩ := hm.wants hid
  have hne' : ∃ i, cls' i = .lt ∨ cls' i = .le := ⟨j, hw'.imp And.left And.left⟩
  obtain ⟨A, ⟨a1, a2⟩, eA⟩ := h.value lv f hne
  obtain ⟨B, ⟨b1, b2⟩, eB⟩ := h.value lv f' hne
  obtain ⟨A', ⟨c1, c2⟩, eA'⟩ := h.value lv' f hne'
  obtain ⟨B', ⟨d1, d2⟩, eB'⟩ := h.value lv' f' hne'
  rw [eA, eB] at h1 ⊢
  rw [eA', eB'] at h2 ⊢
  have hs : ∑ i, (f i - f' i) / range i = (∑ i, f i / range i) - ∑ i, f' i / range i := by
    rw [← Finset.sum_sub_distrib]
    exact Finset.sum_congr rfl fun i _ => sub_div _ _ _
  rw [hs]
  generalize (∑ i, f i / range i) = S at *
  generalize (∑ i, f' i / range i) = S' at *
  have wj' : (f' j - t') / range j ≤ B' := d2 ⟨j, t', hw', rfl⟩
  by_cases hc : A' ≤ (f j - t') / range j
  · left
    have h3 : (f' j - t') / range j ≤ (f j - t') / range j + rho * (S - S') := by linarith
    rw [div_le_iff₀ (hr j), add_mul, div_mul_cancel₀ _ (hr j).ne'] at h3
    linear_combination h3
  · right
    push Not at hc
    have hA : A' ≤ A := by
      obtain ⟨i, t, hw, e⟩ := c1
      rcases eq_or_ne i j with rfl | hij
      · have : t = t' := by
          rcases hw with ⟨x1, x2⟩ | ⟨x1, x2⟩ <;> rcases hw' with ⟨y1, y2⟩ | ⟨y1, y2⟩
          · rw [x2, y2]
          · rw [x1] at y1; cases y1
          · rw [x1] at y1; cases y1
          · rw [x2, y2]
        rw [e, this] at hc
        exact absurd hc (lt_irrefl _)
      · exact a2 ⟨i, t, (hm.wants_other hij).1 hw, e⟩
    have hB : B ≤ B' := by
      obtain ⟨i, t, hw, e⟩ := b1
      rcases eq_or_ne i j with rfl | hij
      · rw [e]
        refine le_trans ?_ wj'
        exact div_le_div_of_nonneg_right (by have := ht' t hw; linarith) (hr i).le
      · exact d2 ⟨i, t, (hm.wants_other hij).2 hw, e⟩
    constructor <;> linarith

/-- **C167** (data-based problems). Two complete classifications of the same request in any history; the second demands
more of objective `j`. If the first scalarizing function is the documented one, the first solution for the second
classification is not worse in `j` than the one for the first, apart from `rho` times the range times the sum of the
relative differences of the two solutions (the augmentation term). -/
theorem C167_demanding {c : Cfg k m K} {s s1 s2 : St k m K} {l : List (Req k m K)}
    (h : Reached c s l) (hns : ∀ x f, Req.stop x f ∉ l) {N : Nat} {obj : Fin N → Vec k K}
    {dec : Fin N → Vec m K} {cl : Option (Vec m K) → Fin N} (hd : c.problem = .discrete N obj dec cl)
    {range : Vec k K} {rho : K} (hr : ∀ i, 0 < range i) (hasf : IsMaxOfTwo c.ideal range rho c.asf1)
    {f0 : Vec k K} {cls cls' : Fin k → Cls} {lv lv' : Vec k K} {num num' : Int} {orc orc' : Oracle k m K}
    {r1 r2 : Req k m K}
    (ha : answer c s (.classify f0) (.classify (complete cls lv num)) orc = (s1, .ok r1))
    (ha' : answer c s (.classify f0) (.classify (complete cls' lv' num')) orc' = (s2, .ok r2))
    {j : Fin k} (hm : DemandsMore cls cls' lv lv' j) (hne : ∃ i, cls i = .lt ∨ cls i = .le) :
    ∃ sols objs sols' objs' p p', r1 = .save sols objs ∧ r2 = .save sols' objs' ∧
      sols[0]? = some (dec p) ∧ objs[0]? = some (obj p) ∧ sols'[0]? = some (dec p') ∧ objs'[0]? = some (obj p') ∧
      obj p' j ≤ obj p j + range j * (rho * ∑ i, (obj p i - obj p' i) / range i) := by
  obtain ⟨hv, _⟩ := classify_nth h hns ha
  obtain ⟨_, _, _, hlv⟩ := validate_complete hv
  obtain ⟨sols, objs, p, rfl, hs, ho, hh, hmin, hfst⟩ := first_row h hns hd ha
  obtain ⟨sols', objs', p', rfl, hs', ho', hh', hmin', hfst'⟩ := first_row h hns hd ha'
  refine ⟨sols, objs, sols', objs', p, p', rfl, rfl, hs, ho, hs', ho', ?_⟩
  have g1 := hmin p' (hm.honours.1 hh')
  have g2 := hmin' p (hm.honours.2 hh)
  rcases demanded hasf hr hm (fun e => (hlv j (.inl e)).1) hne g1 g2 with g | ⟨t1, t2⟩
  · exact g
  · have e : p = p' := le_antisymm (hfst p' (hm.honours.1 hh') t1) (hfst' p (hm.honours.2 hh) t2)
    subst e
    simp

/-- **C167** (analytic problems). With an exact minimizer the same holds, unless both first solutions are best for both
classifications. -/
theorem C167_demanding_analytic {c : Cfg k m K} {s s1 s2 : St k m K} {l : List (Req k m K)}
    (h : Reached c s l) (hns : ∀ x f, Req.stop x f ∉ l) {ev : Vec m K → Vec k K} (hmo : c.problem = .mo ev)
    {range : Vec k K} {rho : K} (hr : ∀ i, 0 < range i) (hasf : IsMaxOfTwo c.ideal range rho c.asf1)
    {f0 : Vec k K} {cls cls' : Fin k → Cls} {lv lv' : Vec k K} {num num' : Int} {orc orc' : Oracle k m K}
    {r1 r2 : Req k m K}
    (ha : answer c s (.classify f0) (.classify (complete cls lv num)) orc = (s1, .ok r1))
    (ha' : answer c s (.classify f0) (.classify (complete cls' lv' num')) orc' = (s2, .ok r2))
    (hexact : ∀ t, (∃ x, Solves t x) → Solves t (orc.minimize 0 t))
    (hexact' : ∀ t, (∃ x, Solves t x) → Solves t (orc'.minimize 0 t))
    (hmin : ∃ x, c.feasible x = true ∧ Honours cls s.obj lv (ev x) ∧
      ∀ y, c.feasible y = true → Honours cls s.obj lv (ev y) →
        c.asf1 (positions cls .lt) (positions cls .le) lv (ev x) ≤
          c.asf1 (positions cls .lt) (positions cls .le) lv (ev y))
    (hmin' : ∃ x, c.feasible x = true ∧ Honours cls' s.obj lv' (ev x) ∧
      ∀ y, c.feasible y = true → Honours cls' s.obj lv' (ev y) →
        c.asf1 (positions cls' .lt) (positions cls' .le) lv' (ev x) ≤
          c.asf1 (positions cls' .lt) (positions cls' .le) lv' (ev y))
    {j : Fin k} (hm : DemandsMore cls cls' lv lv' j) (hne : ∃ i, cls i = .lt ∨ cls i = .le) :
    ∃ sols objs sols' objs' x x', r1 = .save sols objs ∧ r2 = .save sols' objs' ∧
      sols[0]? = some x ∧ objs[0]? = some (ev x) ∧ sols'[0]? = some x' ∧ objs'[0]? = some (ev x') ∧
      (ev x' j ≤ ev x j + range j * (rho * ∑ i, (ev x i - ev x' i) / range i) ∨
        (∀ y, c.feasible y = true → Honours cls s.obj lv (ev y) →
          c.asf1 (positions cls .lt) (positions cls .le) lv (ev x') ≤
            c.asf1 (positions cls .lt) (positions cls .le) lv (ev y)) ∧
        ∀ y, c.feasible y = true → Honours cls' s.obj lv' (ev y) →
          c.asf1 (positions cls' .lt) (positions cls' .le) lv' (ev x) ≤
            c.asf1 (positions cls' .lt) (positions cls' .le) lv' (ev y)) := by
  obtain ⟨hv, _⟩ := classify_nth h hns ha
  obtain ⟨_, _, _, hlv⟩ := validate_complete hv
  obtain ⟨sols, objs, x, rfl, hs, ho, hf, hh, hmn⟩ := C93_first_solution_honours h hns hmo ha hexact hmin
  obtain ⟨sols', objs', x', rfl, hs', ho', hf', hh', hmn'⟩ :=
    C93_first_solution_honours h hns hmo ha' hexact' hmin'
  refine ⟨sols, objs, sols', objs', x, x', rfl, rfl, hs, ho, hs', ho', ?_⟩
  have g1 := hmn x' hf' (hm.honours.1 hh')
  have g2 := hmn' x hf (hm.honours.2 hh)
  rcases demanded hasf hr hm (fun e => (hlv j (.inl e)).1) hne g1 g2 with g | ⟨t1, t2⟩
  · exact .inl g
  · exact .inr ⟨fun y hy hy' => t1.trans (hmn y hy hy'), fun y hy hy' => t2.trans (hmn' y hy hy')⟩

/-! ### Examples -/

theorem foldl_max_greatest (l : List ℚ) (a : ℚ) : IsGreatest {v | v ∈ a :: l} (l.foldl max a) := by
  induction l generalizing a with
  | nil =>
    refine ⟨by simp, fun v hv => ?_⟩
    simp only [Set.mem_ofPred_eq, List.mem_singleton] at hv
    rw [hv]
    exact le_refl _
  | cons b l ih =>
    obtain ⟨h1, h2⟩ := ih (max a b)
    refine ⟨?_, fun v hv => ?_⟩
    · rcases List.mem_cons.1 h1 with h | h
      · rw [List.foldl_cons, h]
        rcases max_choice a b with e | e <;> rw [e] <;> simp
      · exact List.mem_cons_of_mem _ (List.mem_cons_of_mem _ h)
    · rcases List.mem_cons.1 hv with h | h
      · rw [h]; exact (le_max_left a b).trans (h2 (List.mem_cons_self))
      · rcases List.mem_cons.1 h with h | h
        · rw [h]; exact (le_max_right a b).trans (h2 (List.mem_cons_self))
        · exact h2 (List.mem_cons_of_mem _ h)

/-- The terms of the first scalarizing function, for ideal 0 and a common unit. -/
def exTerms (lt le : List Nat) (z f : Vec 2 ℚ) : List ℚ :=
  (List.finRange 2).flatMap fun i =>
    (if i.val ∈ lt then [f i] else []) ++ (if i.val ∈ le then [f i - z i] else [])

def exGreatest : List ℚ → ℚ
  | [] => 0
  | a :: l => l.foldl max a

def exTwoAsf (lt le : List Nat) (z f : Vec 2 ℚ) : ℚ := exGreatest (exTerms lt le z f) + 1 / 1000000 * ∑ i, f i / 1

theorem exTwoAsf_spec : IsMaxOfTwo ![0, 0] (fun _ => 1) (1 / 1000000) exTwoAsf := by
  intro lt le z f hne
  have hmem : ∀ v, v ∈ exTerms lt le z f ↔ ∃ i : Fin 2, i.val ∈ lt ∧ v = (f i - (![0, 0] : Vec 2 ℚ) i) / 1 ∨
      i.val ∈ le ∧ v = (f i - z i) / 1 := by
    intro v
    have h0 : ∀ i : Fin 2, (![0, 0] : Vec 2 ℚ) i = 0 := by decide +kernel
    simp only [exTerms, List.mem_flatMap, List.mem_finRange, true_and, List.mem_append, h0, sub_zero, div_one]
    refine exists_congr fun i => or_congr ?_ ?_
    · split <;> simp_all
    · split <;> simp_all
  refine ⟨exGreatest (exTerms lt le z f), ?_, rfl⟩
  have hset : {v | ∃ i : Fin 2, i.val ∈ lt ∧ v = (f i - (![0, 0] : Vec 2 ℚ) i) / 1 ∨
      i.val ∈ le ∧ v = (f i - z i) / 1} = {v | v ∈ exTerms lt le z f} := by
    ext v
    exact (hmem v).symm
  rw [hset]
  cases hl : exTerms lt le z f with
  | nil =>
    exfalso
    obtain ⟨i, hi | hi⟩ := hne
    · have := (hmem _).2 ⟨i, .inl ⟨hi, rfl⟩⟩
      rw [hl] at this
      simp at this
    · have := (hmem _).2 ⟨i, .inr ⟨hi, rfl⟩⟩
      rw [hl] at this
      simp at this
  | cons a l => exact foldl_max_greatest l a

/-- Four rows; the start-up scalarization prefers the second one, so a lot can be improved from there. -/
def exDemRows : Fin 4 → Vec 2 ℚ := ![![1, 3], ![4, 4], ![3, 1], ![2, 2]]

def exDem : Cfg 2 1 ℚ := { exPareto with problem := .discrete 4 exDemRows exDec exClosest, asf1 := exTwoAsf, asf3 := fun _ f => -(f 0 + f 1) }

def exDemS : St 2 1 ℚ := ⟨![1], ![4, 4], [], [], .classify⟩

theorem exDem_reached : Reached exDem exDemS [.classify ![4, 4]] :=
  .init (s := exDemS) (sp := some [2, 3]) (res := fun _ => none) (eq_of_beq (by decide +kernel))

def exDemS' : St 2 1 ℚ := { exDemS with phase := .archive }

/-- Both objectives up to the level 2 lead to (2, 2), ... -/
theorem exDem_low : answer exDem exDemS (.classify ![4, 4]) (.classify (complete ![.le, .le] ![2, 2] 1)) exOrc =
    (exDemS', .ok (.save [![3]] [![2, 2]])) := eq_of_beq (by decide +kernel)

/-- ... the first one as much as possible to (1, 3). -/
theorem exDem_high : answer exDem exDemS (.classify ![4, 4]) (.classify (complete ![.lt, .le] ![0, 2] 1)) exOrc =
    (exDemS', .ok (.save [![0]] [![1, 3]])) := eq_of_beq (by decide +kernel)

example := C167_demanding exDem_reached (by simp) (obj := exDemRows) rfl (fun _ => one_pos) exTwoAsf_spec exDem_low
  exDem_high (j := 0) ⟨.inr (.inr ⟨rfl, rfl⟩), by decide +kernel⟩ ⟨0, .inr rfl⟩

def exDemFin : Cfg 2 1 ℚ := { exFin with asf1 := exTwoAsf }
def exDemFinS : St 2 1 ℚ := ⟨![3], ![3, 1], [], [], .classify⟩

theorem exDemFin_reached : Reached exDemFin exDemFinS [.classify ![3, 1]] :=
  .init (s := exDemFinS) (sp := none) (res := fun _ => some ![3]) (eq_of_beq (by decide +kernel))

theorem exDemFin_min (cls : Fin 2 → Cls) (v : ℚ)
    (h1 : exFinOk ![v] = true ∧ cons1 (List.ofFn cls) ![3, 1] ![0, 0] (exFinEv ![v]) = true)
    (h2 : ∀ w ∈ ([0, 1, 2, 3] : List ℚ), cons1 (List.ofFn cls) ![3, 1] ![0, 0] (exFinEv ![w]) = true →
      exTwoAsf (positions cls .lt) (positions cls .le) ![0, 0] (exFinEv ![v]) ≤
        exTwoAsf (positions cls .lt) (positions cls .le) ![0, 0] (exFinEv ![w])) :
    ∃ x, exDemFin.feasible x = true ∧ Honours cls exDemFinS.obj ![0, 0] (exFinEv x) ∧
      ∀ y, exDemFin.feasible y = true → Honours cls exDemFinS.obj ![0, 0] (exFinEv y) →
        exDemFin.asf1 (positions cls .lt) (positions cls .le) ![0, 0] (exFinEv x) ≤
          exDemFin.asf1 (positions cls .lt) (positions cls .le) ![0, 0] (exFinEv y) := by
  obtain ⟨⟨g1, g2⟩, g3⟩ := (task_asks _ _ _ _ _).solves (exFin_solves (z := ![0, 0]) h1 h2)
  exact ⟨![v], g1, (cons1_iff _ _ _ _).1 g2, fun y hy hy' => g3 y ⟨hy, (cons1_iff _ _ _ _).2 hy'⟩⟩

/-- The hypotheses of `C167_demanding_analytic` are met: improving the second objective only leads to the decision
vector 2, improving both to 1. -/
example : ∃ sols objs sols' objs' x x',
    (answer exDemFin exDemFinS (.classify ![3, 1]) (.classify (complete ![.eq, .lt] ![0, 0] 1)) exExact).2 =
      .ok (.save sols objs) ∧
    (answer exDemFin exDemFinS (.classify ![3, 1]) (.classify (complete ![.lt, .lt] ![0, 0] 1)) exExact).2 =
      .ok (.save sols' objs') ∧ objs[0]? = some (exFinEv x) ∧ objs'[0]? = some (exFinEv x') := by
  have step : ∀ cls : Fin 2 → Cls,
      validate exDemFin (.classify ![3, 1]) (.classify (complete cls ![0, 0] 1)) = .ok () →
      ∃ s' r', answer exDemFin exDemFinS (.classify ![3, 1]) (.classify (complete cls ![0, 0] 1)) exExact =
        (s', .ok r') := by
    intro cls hv
    obtain ⟨r', hr⟩ := C25_mo_never_raises (c := exDemFin) (l := []) exDemFin_reached (ev := exFinEv) rfl
      (cls := List.ofFn cls) (lv := List.ofFn ![0, 0]) (num := 1) rfl hv exExact
    exact ⟨_, r', Prod.ext rfl hr⟩
  obtain ⟨s1, r1, ha⟩ := step ![.eq, .lt] (eq_of_beq (by decide +kernel))
  obtain ⟨s2, r2, ha'⟩ := step ![.lt, .lt] (eq_of_beq (by decide +kernel))
  obtain ⟨sols, objs, sols', objs', x, x', rfl, rfl, _, h2, _, h4, h5⟩ :=
    C167_demanding_analytic exDemFin_reached (by simp) (ev := exFinEv) rfl (fun _ => one_pos) exTwoAsf_spec ha ha'
      (exExact_solves 0) (exExact_solves 0)
      (exDemFin_min ![.eq, .lt] 2 (by decide +kernel) (by decide +kernel))
      (exDemFin_min ![.lt, .lt] 1 (by decide +kernel) (by decide +kernel)) (j := 0)
      ⟨.inl ⟨rfl, .inl rfl⟩, by decide +kernel⟩ ⟨1, .inl rfl⟩
  exact ⟨sols, objs, sols', objs', x, x', by rw [ha], by rw [ha'], h2, h4⟩

end Verif.Nimbus
