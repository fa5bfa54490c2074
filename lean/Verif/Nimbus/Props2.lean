import Verif.Nimbus.Props

set_option linter.unusedSectionVars false

/-!
# Properties C26-C28 and C30 of NIMBUS
-/

namespace Verif.Nimbus

variable {K : Type} [Field K] [LinearOrder K] [IsStrictOrderedRing K] {k m : Nat}

/-- A complete classification response: one class and one level per objective. -/
def complete (cls : Fin k → Cls) (lv : Vec k K) (num : Int) : ClassResp K :=
  ⟨some (List.ofFn cls), some (List.ofFn lv), some num⟩

/-- The value the documentation assigns to an objective in the reference point, by its class. -/
inductive RefValue (ideal nadir current level : K) : Cls → K → Prop
  | improve : RefValue ideal nadir current level .lt ideal
  | improveUntil : RefValue ideal nadir current level .le level
  | keep : RefValue ideal nadir current level .eq current
  | impairUntil : RefValue ideal nadir current level .ge level
  | free : RefValue ideal nadir current level .free nadir

theorem levelVec_ofFn (lv : Vec k K) : levelVec k (List.ofFn lv) = lv := by
  funext j
  simp [levelVec]

theorem ofFn_get (cls : Fin k → Cls) (j : Fin k) : (List.ofFn cls)[j.val]? = some (cls j) := by simp

/-- What acceptance of a complete classification guarantees. -/
theorem validate_complete {c : Cfg k m K} {f : Vec k K} {cls : Fin k → Cls} {lv : Vec k K} {num : Int}
    (h : validate c (.classify f) (.classify (complete cls lv num)) = .ok ()) :
    (∀ j, cls j ≠ .other) ∧ 1 ≤ num ∧ num ≤ 4 ∧
    ∀ j, cls j = .le ∨ cls j = .ge → c.ideal j ≤ lv j ∧ lv j ≤ c.nadir j := by
  simp only [validate] at h
  obtain ⟨cl, lv', nu, he, h1, h2, h3, h4, h5, h6⟩ := validateClassify_ok h
  simp only [complete, ClassResp.mk.injEq, Option.some.injEq] at he
  obtain ⟨rfl, rfl, rfl⟩ := he
  rw [checkLevels_ok_iff] at h5 h6
  refine ⟨?_, h3, h4, ?_⟩
  · intro j hj
    apply h1
    rw [List.mem_ofFn]
    exact ⟨j, hj⟩
  · rintro j (hj | hj)
    · have := h5.2 j (by rw [ofFn_get, hj])
      rwa [levelVec_ofFn] at this
    · have := h6.2 j (by rw [ofFn_get, hj])
      rwa [levelVec_ofFn] at this

theorem zbar_spec {c : Cfg k m K} {cls : Fin k → Cls} {lv cur : Vec k K} (h : ∀ j, cls j ≠ .other)
    (j : Fin k) : RefValue (c.ideal j) (c.nadir j) (cur j) (lv j) (cls j) (zbar c (List.ofFn cls) lv cur j) := by
  unfold zbar
  rw [ofFn_get]
  have := h j
  cases hc : cls j with
  | lt => exact .improve
  | le => exact .improveUntil
  | eq => exact .keep
  | ge => exact .impairUntil
  | free => exact .free
  | other => exact absurd hc this

theorem RefValue.inBox {ideal nadir cur lv z : K} {x : Cls} (h : RefValue ideal nadir cur lv x z)
    (hin : ideal ≤ nadir) (hcur : ideal ≤ cur ∧ cur ≤ nadir)
    (hlv : x = .le ∨ x = .ge → ideal ≤ lv ∧ lv ≤ nadir) : ideal ≤ z ∧ z ≤ nadir := by
  cases h with
  | improve => exact ⟨le_refl _, hin⟩
  | improveUntil => exact hlv (.inl rfl)
  | keep => exact hcur
  | impairUntil => exact hlv (.inr rfl)
  | free => exact ⟨hin, le_refl _⟩

/-- What the `i`-th solution (counted from 0) of an answered classification is. -/
theorem classify_nth {c : Cfg k m K} {s s' : St k m K} {l : List (Req k m K)}
    (h : Reached c s l) (hns : ∀ x f, Req.stop x f ∉ l) {f0 : Vec k K} {cls : Fin k → Cls} {lv : Vec k K}
    {num : Int} {orc : Oracle k m K} {r' : Req k m K}
    (ha : answer c s (.classify f0) (.classify (complete cls lv num)) orc = (s', .ok r')) :
    validate c (.classify f0) (.classify (complete cls lv num)) = .ok () ∧
    ∃ sols objs, r' = .save sols objs ∧ ∀ i : Nat, i < num.toNat →
      ∃ p x f, (problems c s (List.ofFn cls) lv)[i]? = some p ∧ sols[i]? = some x ∧ objs[i]? = some f ∧
        solveOne c orc i p = .ok (x, f) := by
  have hne : s.phase ≠ .ended := by
    intro he
    obtain ⟨x, f, hx⟩ := h.inv.ended he
    exact hns x f hx
  have hst : Step c orc s (.classify f0) (.classify ⟨some (List.ofFn cls), some (List.ofFn lv), some num⟩) s' r' :=
    answer_ok ha
  cases hst with
  | ended he => exact absurd he hne
  | classify hp hv hn =>
    rename_i sl
    refine ⟨hv, _, _, rfl, ?_⟩
    rw [levelVec_ofFn] at hn
    have h4 : num ≤ 4 := by
      have := validate_complete (c := c) (f := f0) (cls := cls) (lv := lv) (num := num) hv
      exact this.2.2.1
    have hlen := newSolutions_length hn h4
    unfold newSolutions at hn
    split at hn
    · simp at hn
    · split at hn
      · simp at hn
      · rw [mapE_ok_iff] at hn
        intro i hi
        have hlt : i < sl.length := by omega
        have hlt' : i < (((problems c s (List.ofFn cls) lv).take num.toNat).zipIdx).length := by
          rw [hn.length_eq]; exact hlt
        have hget := (List.forall₂_iff_get.1 hn).2 i hlt' hlt
        have h5 : i < (problems c s (List.ofFn cls) lv).length := by
          simp only [problems, List.length_cons, List.length_nil]; omega
        refine ⟨(problems c s (List.ofFn cls) lv)[i], sl[i].1, sl[i].2, List.getElem?_eq_getElem h5,
          by simp [hlt], by simp [hlt], ?_⟩
        simpa using hget

/-- The objectives with class `x`, in increasing order. -/
def positions (cls : Fin k → Cls) (x : Cls) : List Nat :=
  ((List.finRange k).filter fun j => decide (cls j = x)).map fun j => j.val

theorem inds_ofFn (cls : Fin k → Cls) (x : Cls) : inds (List.ofFn cls) x = positions cls x := by
  unfold inds positions
  rw [List.length_ofFn, ← List.map_coe_finRange_eq_range, List.filter_map]
  congr 1
  apply List.filter_congr
  intro j _
  simp [Function.comp]

/-- The task `t` is to minimize `value`, with reference point `z`, over the `x` with `ok x`. -/
structure Asks (t : Task k m K) (z : Vec k K) (value : Vec m K → K) (ok : Vec m K → Prop) : Prop where
  ref : t.ref = some z
  value : ∀ x, t.value x = some (value x)
  admits : ∀ x, t.admits x = true ↔ ok x

/-! ## C26 -/

/-- **C26**, for complete classifications. In every history, an answered classification with one class
and one level per objective determines a reference point `z` with the documented entries; the second,
third and fourth solution (as far as asked for) come from minimizing the second, third and fourth
scalarizing function with `z` over the rows of the data or, for an analytic problem, are what the minimizer
returns for that task over the feasible decision vectors; and `z` is between ideal
and nadir if the current objectives are.
What is missing from C26: accepted classification lists that are too short, see
`C26_fails_short_list`. -/
theorem C26_reference_point_partial {c : Cfg k m K} {s s' : St k m K} {l : List (Req k m K)}
    (h : Reached c s l) (hns : ∀ x f, Req.stop x f ∉ l) {f0 : Vec k K} {cls : Fin k → Cls} {lv : Vec k K}
    {num : Int} {orc : Oracle k m K} {r' : Req k m K}
    (ha : answer c s (.classify f0) (.classify (complete cls lv num)) orc = (s', .ok r')) :
    ∃ (z : Vec k K) (sols : List (Vec m K)) (objs : List (Vec k K)), r' = .save sols objs ∧
      (∀ j, RefValue (c.ideal j) (c.nadir j) (s.obj j) (lv j) (cls j) (z j)) ∧
      (AtLeastAsGood c.ideal c.nadir → InBox c.ideal c.nadir s.obj → InBox c.ideal c.nadir z) ∧
      (∀ ev, c.problem = .mo ev → ∀ i : Nat, 1 ≤ i → (i : Int) < num →
        ∃ t, sols[i]? = some (orc.minimize i t) ∧ objs[i]? = some (ev (orc.minimize i t)) ∧
          (i = 1 → Asks t z (fun x => c.asf2 z (ev x)) (fun x => c.feasible x = true)) ∧
          (i = 2 → Asks t z (fun x => c.asf3 z (ev x)) (fun x => c.feasible x = true)) ∧
          (i = 3 → Asks t z (fun x => c.asf4 (positions cls .free) z (ev x)) (fun x => c.feasible x = true))) ∧
      (∀ N obj dec cl, c.problem = .discrete N obj dec cl → ∀ i : Nat, 1 ≤ i → (i : Int) < num →
        ∃ p, sols[i]? = some (dec p) ∧ objs[i]? = some (obj p) ∧
          (i = 1 → ∀ q, c.asf2 z (obj p) ≤ c.asf2 z (obj q)) ∧
          (i = 2 → ∀ q, c.asf3 z (obj p) ≤ c.asf3 z (obj q)) ∧
          (i = 3 → ∀ q, c.asf4 (positions cls .free) z (obj p) ≤
            c.asf4 (positions cls .free) z (obj q))) := by
  obtain ⟨hv, sols, objs, rfl, hnth⟩ := classify_nth h hns ha
  obtain ⟨v1, v2, v3, v4⟩ := validate_complete hv
  refine ⟨zbar c (List.ofFn cls) lv s.obj, sols, objs, rfl, zbar_spec v1, ?_, ?_, ?_⟩
  · intro hin hcur j
    exact (zbar_spec v1 j).inBox (hin j) (hcur j) (v4 j)
  · intro ev hmo i h1 h2
    obtain ⟨p, x, f, hp, hx, hf, hsol⟩ := hnth i (by omega)
    simp only [solveOne, hmo, Except.ok.injEq, Prod.mk.injEq] at hsol
    refine ⟨_, by rw [hx, ← hsol.1], by rw [hf, ← hsol.2], ?_, ?_, ?_⟩
    · rintro rfl
      simp [problems] at hp; subst hp
      exact ⟨rfl, fun _ => rfl, fun _ => by simp [task]⟩
    · rintro rfl
      simp [problems] at hp; subst hp
      exact ⟨rfl, fun _ => rfl, fun _ => by simp [task]⟩
    · rintro rfl
      simp [problems] at hp; subst hp
      exact ⟨rfl, fun _ => by rw [← inds_ofFn]; rfl, fun _ => by simp [task]⟩
  · intro N obj dec cl hd i h1 h2
    obtain ⟨p, x, f, hp, hx, hf, hsol⟩ := hnth i (by omega)
    simp only [solveOne, hd] at hsol
    split at hsol
    · simp at hsol
    · rename_i y hy
      simp only [Except.ok.injEq, Prod.mk.injEq] at hsol
      obtain ⟨rfl, rfl⟩ := hsol
      obtain ⟨_, hmin⟩ := discreteMin_ok hy
      refine ⟨y, hx, hf, ?_, ?_, ?_⟩
      · rintro rfl q
        simp [problems] at hp; subst hp
        exact hmin q rfl
      · rintro rfl q
        simp [problems] at hp; subst hp
        exact hmin q rfl
      · rintro rfl q
        simp [problems] at hp; subst hp
        rw [← inds_ofFn]
        exact hmin q rfl

/-- For discrete problems whose rows are between ideal and nadir, the current objectives always are. -/
theorem C26_current_in_box {c : Cfg k m K} {s : St k m K} {l : List (Req k m K)} (h : Reached c s l)
    {N : Nat} {obj : Fin N → Vec k K} {dec : Fin N → Vec m K} {cl : Option (Vec m K) → Fin N}
    (hd : c.problem = .discrete N obj dec cl) (hbox : ∀ i, InBox c.ideal c.nadir (obj i)) :
    InBox c.ideal c.nadir s.obj := by
  have := h.inv.current
  simp only [Genuine, hd] at this
  obtain ⟨i, _, hi⟩ := this
  rw [hi]
  exact hbox i

example : exA0 = .classify (complete ![.le, .ge] ![0, 4] 3) ∧
    answer exCfg exS0 exR0 exA0 exOrc = (exS1, .ok exR1) ∧
    (∀ i, InBox exCfg.ideal exCfg.nadir (exObj i)) ∧ AtLeastAsGood exCfg.ideal exCfg.nadir :=
  ⟨rfl, ex_step0, by decide +kernel, by decide +kernel⟩

/-- An instance whose ideal is not zero. -/
def exShort : Cfg 2 1 ℚ := { exMo with ideal := ![1, 1], problem := .mo fun x => ![x 0 + 1, 3 - x 0] }
def exShortS : St 2 1 ℚ := ⟨![1], ![2, 2], [], [], .classify⟩

/-- C26 fails: a classification list that is too short is accepted; the reference point is then 0 in the
objectives without a class, which here is outside the box between ideal `(1,1)` and nadir. The minimizer
of the example returns the second component of the reference point it was given. -/
theorem C26_fails_short_list :
    Reached exShort exShortS [.classify ![2, 2]] ∧
    answer exShort exShortS (.classify ![2, 2]) (.classify ⟨some [.lt], some [3, 3], some 2⟩)
      ⟨fun _ t => match t.ref with
        | some z => ![z 1]
        | none => ![7]⟩ =
      ({ exShortS with phase := .archive }, .ok (.save [![3], ![0]] [![4, 0], ![1, 3]])) ∧
    ¬ (exShort.ideal 1 ≤ 0) :=
  ⟨.init (sp := none) (res := fun _ => some ![1]) (eq_of_beq (by decide +kernel)), eq_of_beq (by decide +kernel),
    by decide +kernel⟩

/-! ## C27 -/

/-- What a classification demands of the first solution `f`. -/
def Honours (cls : Fin k → Cls) (current lv f : Vec k K) : Prop :=
  ∀ j, (cls j = .lt ∨ cls j = .le ∨ cls j = .eq → f j ≤ current j) ∧ (cls j = .ge → f j ≤ lv j)

theorem cons1_iff (cls : Fin k → Cls) (cur lv f : Vec k K) :
    cons1 (List.ofFn cls) cur lv f = true ↔ Honours cls cur lv f := by
  unfold cons1 Honours
  simp only [List.all_eq_true, List.mem_finRange, true_implies]
  apply forall_congr'
  intro j
  rw [ofFn_get]
  cases cls j <;> simp

/-- **C27** (honoured). For discrete problems, in every history, the first solution shown after an
answered complete classification honours the classification, and among the rows that do it minimizes the
scalarizing function. -/
theorem C27_first_solution_honours {c : Cfg k m K} {s s' : St k m K} {l : List (Req k m K)}
    (h : Reached c s l) (hns : ∀ x f, Req.stop x f ∉ l) {N : Nat} {obj : Fin N → Vec k K}
    {dec : Fin N → Vec m K} {cl : Option (Vec m K) → Fin N} (hd : c.problem = .discrete N obj dec cl)
    {f0 : Vec k K} {cls : Fin k → Cls} {lv : Vec k K} {num : Int} {orc : Oracle k m K} {r' : Req k m K}
    (ha : answer c s (.classify f0) (.classify (complete cls lv num)) orc = (s', .ok r')) :
    ∃ sols objs, r' = .save sols objs ∧ ∃ p, sols[0]? = some (dec p) ∧ objs[0]? = some (obj p) ∧
      Honours cls s.obj lv (obj p) ∧
      ∀ q, Honours cls s.obj lv (obj q) →
        c.asf1 (positions cls .lt) (positions cls .le) lv (obj p) ≤
          c.asf1 (positions cls .lt) (positions cls .le) lv (obj q) := by
  obtain ⟨hv, sols, objs, rfl, hnth⟩ := classify_nth h hns ha
  obtain ⟨_, v2, _, _⟩ := validate_complete hv
  refine ⟨sols, objs, rfl, ?_⟩
  obtain ⟨p, x, f, hp, hx, hf, hsol⟩ := hnth 0 (by omega)
  simp [problems] at hp
  subst hp
  simp only [← inds_ofFn]
  simp only [solveOne, hd] at hsol
  split at hsol
  · simp at hsol
  · rename_i y hy
    simp only [Except.ok.injEq, Prod.mk.injEq] at hsol
    obtain ⟨rfl, rfl⟩ := hsol
    obtain ⟨h1, h2⟩ := discreteMin_ok hy
    exact ⟨y, hx, hf, (cons1_iff _ _ _ _).1 h1, fun q hq => h2 q ((cons1_iff _ _ _ _).2 hq)⟩

/-- **C27** (found), if no upper bound is below the current value: for a discrete problem, in every
history, an accepted complete classification of the newest request never raises. (The current solution
is always in the data, `C25_shown_pairs_genuine`.) What is missing from C27: accepted levels of class
'>=' below the current value, see `C27_fails_level_below_current`. -/
theorem C27_solution_found_partial {c : Cfg k m K} {s : St k m K} {f0 : Vec k K} {l : List (Req k m K)}
    (h : Reached c s (.classify f0 :: l)) {N : Nat} {obj : Fin N → Vec k K}
    {dec : Fin N → Vec m K} {cl : Option (Vec m K) → Fin N} (hd : c.problem = .discrete N obj dec cl)
    {cls : Fin k → Cls} {lv : Vec k K} {num : Int}
    (hv : validate c (.classify f0) (.classify (complete cls lv num)) = .ok ())
    (hge : ∀ j, cls j = .ge → s.obj j ≤ lv j) (orc : Oracle k m K) :
    ∃ r', (answer c s (.classify f0) (.classify (complete cls lv num)) orc).2 = .ok r' := by
  unfold answer
  rw [hv]
  dsimp only
  by_cases hend : s.phase = .ended
  · exact ⟨.classify f0, by simp [iterate, hend]⟩
  have hph := h.inv.phase _ l rfl hend
  have hcur := h.inv.current
  simp only [Genuine, hd] at hcur
  obtain ⟨i0, _, hi0⟩ := hcur
  unfold iterate
  rw [hph]
  simp only [phaseAfter, handleClassify, complete, levelVec_ofFn]
  have : ∃ l, newSolutions c s (List.ofFn cls) lv num orc = .ok l := by
    unfold newSolutions
    rw [if_neg (by simp; omega), if_neg (by simp)]
    apply mapE_exists
    rintro ⟨p, i⟩ hp
    simp only [solveOne, hd]
    have hp' : p ∈ problems c s (List.ofFn cls) lv := by
      have := List.mem_zipIdx hp
      exact List.mem_of_mem_take (by rw [this.2.2]; exact List.getElem_mem _)
    have : ∃ x, discreteMin obj p.2.1 p.2.2 = .ok x := by
      apply discreteMin_exists (i := i0)
      simp only [problems, List.mem_cons, List.not_mem_nil, or_false] at hp'
      rcases hp' with rfl | rfl | rfl | rfl
      · show cons1 _ _ _ _ = true
        rw [cons1_iff, ← hi0]
        intro j
        exact ⟨fun _ => le_refl _, hge j⟩
      · rfl
      · rfl
      · rfl
    obtain ⟨x, hx⟩ := this
    rw [hx]
    exact ⟨_, rfl⟩
  obtain ⟨sl, hsl⟩ := this
  rw [hsl]
  exact ⟨_, rfl⟩

/-- The session of `ExampleData`: current objectives `(1, 2)`, classes '<=', '>=' with levels 0 and 4. -/
example : validate exCfg exR0 (.classify (complete ![.le, .ge] ![0, 4] 3)) = .ok () ∧
    (∀ j, (![.le, .ge] : Fin 2 → Cls) j = .ge → exS0.obj j ≤ (![0, 4] : Vec 2 ℚ) j) ∧
    Reached exCfg exS0 [exR0] ∧ exCfg.problem = .discrete 4 exObj exDec exClosest :=
  ⟨eq_of_beq (by decide +kernel), by decide +kernel, ex_reached0, rfl⟩

/-- C27 fails: a level of class '>=' below the current value is accepted, and if no row satisfies the
bounds, `ValueError` is raised instead of a solution being shown. -/
theorem C27_fails_level_below_current :
    Reached exCfg exS0 [exR0] ∧
    validate exCfg exR0 (.classify (complete ![.eq, .ge] ![0, 1] 1)) = .ok () ∧
    answer exCfg exS0 exR0 (.classify (complete ![.eq, .ge] ![0, 1] 1)) exOrc = (exS0, .error .valueError) :=
  ⟨ex_reached0, eq_of_beq (by decide +kernel), eq_of_beq (by decide +kernel)⟩

/-! ## C28 -/

/-- The point a fraction `t` of the way from `b` to `a`. -/
def along (a b : Vec m K) (t : K) : Vec m K := fun j => b j + t * (a j - b j)

theorem interPoints_get (nrm : Vec m K → K) (a b : Vec m K) (n : Nat) (hn : nrm (fun j => a j - b j) ≠ 0)
    {i : Nat} (hi : i < n) :
    (interPoints nrm a b n)[i]? = some (some (along a b (((i : K) + 1) / ((n : K) + 2)))) := by
  have h2 : ((n : K) + 2) ≠ 0 := by positivity
  have h3 : (2 + (n : K)) ≠ 0 := by positivity
  simp only [interPoints, List.getElem?_map, List.getElem?_range hi, Option.map_some, hn, if_false,
    Option.some.injEq]
  funext j
  simp only [along]
  field_simp
  ring

theorem interPoints_zero (nrm : Vec m K → K) (a b : Vec m K) (n : Nat) (hn : nrm (fun j => a j - b j) = 0)
    {i : Nat} (hi : i < n) : (interPoints nrm a b n)[i]? = some none := by
  simp only [interPoints, List.getElem?_map, List.getElem?_range hi, Option.map_some, hn, if_true]

theorem interPoints_length (nrm : Vec m K → K) (a b : Vec m K) (n : Nat) :
    (interPoints nrm a b n).length = n := by simp [interPoints]

/-- **C28**. In every history, answering an intermediate request with the indices of two different
solutions `a`, `b` (further indices are ignored) and a number `n` shows exactly `n` solutions; the `i`-th
(from 0) is computed from the point a fraction `(i+1)/(n+2)` of the way from `b` to `a`: the points lie on
the open segment, are pairwise different and consecutive ones are equally far apart.
What is missing from C28: the points are not spread evenly *between the two solutions*, see
`C28_fails_not_centred`; and the case of equal solutions, see `C28_fails_same_solution`. -/
theorem C28_intermediate_points_partial {c : Cfg k m K} (hnrm : NormSpec c.nrm) {s s' : St k m K}
    {l : List (Req k m K)} (h : Reached c s l) (hns : ∀ x f, Req.stop x f ∉ l) {sols : List (Vec m K)}
    {objs : List (Vec k K)} {i0 i1 : Nat} {rest : List Int} {n : Nat} (hn : 0 < n) {a b : Vec m K}
    (hia : sols[i0]? = some a) (hib : sols[i1]? = some b) (hab : a ≠ b) {orc : Oracle k m K} {r' : Req k m K}
    (ha : answer c s (.inter sols objs) (.inter ⟨some ((i0 : Int) :: (i1 : Int) :: rest), some (n : Int)⟩) orc =
      (s', .ok r')) :
    ∃ (pts : Fin n → Vec m K) (sols' : List (Vec m K)) (objs' : List (Vec k K)), r' = .save sols' objs' ∧
      sols'.length = n ∧ objs'.length = n ∧
      (∀ i, pts i = along a b (((i : Nat) + 1 : K) / ((n : K) + 2)) ∧
        (0 : K) < ((i : Nat) + 1 : K) / ((n : K) + 2) ∧ ((i : Nat) + 1 : K) / ((n : K) + 2) < 1) ∧
      (∀ i j, i ≠ j → pts i ≠ pts j) ∧
      (∀ (i : Fin n) (hi : i.val + 1 < n), ∀ t, pts ⟨i + 1, hi⟩ t - pts i t = (a t - b t) / ((n : K) + 2)) ∧
      (∀ ev, c.problem = .mo ev → ∀ i : Fin n, ∃ t, sols'[i.val]? = some (orc.minimize i t) ∧
        objs'[i.val]? = some (ev (orc.minimize i t)) ∧
        Asks t (ev (pts i)) (fun x => c.asf3 (ev (pts i)) (ev x)) (fun x => c.feasible x = true)) ∧
      (∀ N obj dec cl, c.problem = .discrete N obj dec cl → ∀ i : Fin n, ∃ p, sols'[i.val]? = some (dec p) ∧
        objs'[i.val]? = some (obj p) ∧
        ∀ q, c.asf3 (obj (cl (some (pts i)))) (obj p) ≤ c.asf3 (obj (cl (some (pts i)))) (obj q)) := by
  have hne : s.phase ≠ .ended := by
    intro he
    obtain ⟨x, f, hx⟩ := h.inv.ended he
    exact hns x f hx
  have hnz : c.nrm (fun j => a j - b j) ≠ 0 := by
    rw [Ne, hnrm.eq_zero]
    intro h0
    apply hab
    funext j
    exact sub_eq_zero.1 (h0 j)
  have h2 : (0 : K) < (n : K) + 2 := by positivity
  cases answer_ok ha with
  | ended he => exact absurd he hne
  | inter hp hpos hr hx hl =>
    rename_i x y rest' sl
    have hpick := pick_eq (fun i hi => (hr i hi).1) hx
    simp only [List.map_cons, Int.toNat_natCast, hia, hib, List.cons.injEq, Option.some.injEq] at hpick
    obtain ⟨rfl, rfl, _⟩ := hpick
    rw [Int.toNat_natCast] at hl
    have hlen : sl.length = n := by
      rw [mapE_length hl]; simp [interPoints_length]
    rw [mapE_ok_iff] at hl
    have hget : ∀ i : Fin n, interSolve c orc (some (along x y (((i : Nat) + 1 : K) / ((n : K) + 2))), i.val) =
        .ok (sl[i.val]'(by rw [hlen]; exact i.2)) := by
      intro i
      have h1 : i.val < sl.length := by rw [hlen]; exact i.2
      have h1' : i.val < (interPoints c.nrm x y n).zipIdx.length := by
        simp [interPoints_length]
      have := (List.forall₂_iff_get.1 hl).2 i h1' h1
      have he := interPoints_get c.nrm x y n hnz i.2
      rw [List.getElem?_eq_getElem (by rw [interPoints_length]; exact i.2)] at he
      simp only [Option.some.injEq] at he
      simp only [List.get_eq_getElem, List.getElem_zipIdx, he, Nat.zero_add] at this
      exact this
    refine ⟨fun i => along x y (((i : Nat) + 1 : K) / ((n : K) + 2)), _, _, rfl, by simp [hlen], by simp [hlen],
      ?_, ?_, ?_, ?_, ?_⟩
    · intro i
      have hi : ((i.val : Nat) : K) + 1 ≤ (n : K) := by
        have := i.2
        exact_mod_cast this
      refine ⟨rfl, by positivity, ?_⟩
      rw [div_lt_one h2]
      linarith
    · intro i j hij he
      apply hij
      by_contra _
      apply hab
      funext t
      have := congrFun he t
      simp only [along] at this
      have h3 : (((i : Nat) : K) + 1) / ((n : K) + 2) - (((j : Nat) : K) + 1) / ((n : K) + 2) ≠ 0 := by
        rw [← sub_div]
        intro h0
        rw [div_eq_zero_iff] at h0
        rcases h0 with h0 | h0
        · apply hij
          apply Fin.ext
          have : ((i : Nat) : K) = ((j : Nat) : K) := by linarith
          exact_mod_cast this
        · exact absurd h0 (ne_of_gt h2)
      have h4 : ((((i : Nat) : K) + 1) / ((n : K) + 2) - (((j : Nat) : K) + 1) / ((n : K) + 2)) * (x t - y t) = 0 := by
        linarith
      rcases mul_eq_zero.1 h4 with h5 | h5
      · exact absurd h5 h3
      · exact sub_eq_zero.1 h5
    · intro i hi t
      simp only [along]
      push_cast
      field_simp
      ring
    · intro ev hmo i
      have := hget i
      simp only [interSolve, hmo, Except.ok.injEq] at this
      have h1 : i.val < sl.length := by rw [hlen]; exact i.2
      exact ⟨_, by simp [h1, ← this]; rfl, by simp [h1, ← this], rfl, fun _ => rfl,
        fun _ => by simp [interTask, task]⟩
    · intro N obj dec cl hd i
      have := hget i
      simp only [interSolve, hd] at this
      split at this
      · simp at this
      · rename_i p hp'
        simp only [Except.ok.injEq] at this
        have h1 : i.val < sl.length := by rw [hlen]; exact i.2
        refine ⟨p, by simp [h1, ← this], by simp [h1, ← this], ?_⟩
        exact fun q => (discreteMin_ok hp').2 q rfl

theorem exNorm : NormSpec exCfg.nrm where
  nonneg v := abs_nonneg _
  eq_zero v := by
    show |v 0| = 0 ↔ _
    rw [abs_eq_zero]
    constructor
    · intro h j; rw [Fin.fin_one_eq_zero j]; exact h
    · exact fun h => h 0
  homog c v := by
    show |c * v 0| = |c| * |v 0|
    exact abs_mul _ _
  mono u v h := h 0

/-- The session of `ExampleData`: two solutions between the first and the third one shown. -/
example : exR2 = Req.inter [![1], ![0], ![0]] [![1, 2], ![0, 4], ![0, 4]] ∧
    exA2 = .inter ⟨some [((0 : Nat) : Int), ((2 : Nat) : Int)], some ((2 : Nat) : Int)⟩ ∧
    (![1] : Vec 1 ℚ) ≠ ![0] ∧ NormSpec exCfg.nrm ∧
    answer exCfg exS2 exR2 exA2 exOrc = (exS3, .ok exR3) :=
  ⟨eq_of_beq (by decide +kernel), rfl, by decide +kernel, exNorm, ex_step2⟩

/-- C28 fails: for every `n`, the gap between the last point and the first chosen solution `a` is twice
as large as all the other gaps (and as the gap at `b`). For `n = 1` the point is not the midpoint but at
one third of the way. -/
theorem C28_fails_not_centred (nrm : Vec m K → K) (a b : Vec m K) (n : Nat) (hn : 0 < n)
    (hz : nrm (fun j => a j - b j) ≠ 0) :
    ∃ first last, (interPoints nrm a b n)[0]? = some (some first) ∧
      (interPoints nrm a b n)[n - 1]? = some (some last) ∧
      ∀ j, a j - last j = 2 * (first j - b j) ∧ first j - b j = (a j - b j) / ((n : K) + 2) := by
  have h2 : ((n : K) + 2) ≠ 0 := by positivity
  refine ⟨_, _, interPoints_get nrm a b n hz hn, interPoints_get nrm a b n hz (by omega), ?_⟩
  intro j
  have hc : ((n - 1 : Nat) : K) = (n : K) - 1 := by
    rw [Nat.cast_sub (by omega)]; simp
  simp only [along, hc]
  constructor
  · field_simp; push_cast; ring
  · field_simp; push_cast; ring

example : interPoints (fun v : Vec 1 ℚ => |v 0|) ![3] ![0] 1 = [some ![1]] := eq_of_beq (by decide +kernel)

/-- C28 fails: choosing the same solution twice is accepted and makes every point NaN. -/
theorem C28_fails_same_solution (nrm : Vec m K → K) (hnrm : NormSpec nrm) (a : Vec m K) (n i : Nat)
    (hi : i < n) : (interPoints nrm a a n)[i]? = some none := by
  apply interPoints_zero nrm a a n _ hi
  rw [hnrm.eq_zero]
  simp

example : (answer exMo ⟨![1], ![1, 0], [], [], .intermediate⟩ (.inter [![1], ![2]] [![1, 0], ![2, -1]])
    (.inter ⟨some [1, 1], some 1⟩) ⟨fun _ z => if z.ref.isNone then ![7] else ![0]⟩).2 =
      .ok (.save [![7]] [![7, -6]]) := eq_of_beq (by decide +kernel)

/-! ## C30 -/

/-- What acceptance of a classification response guarantees: all keys are present, all classes are valid,
there is one level per objective, the number of solutions is 1 to 4, and objectives of class '<=' or '>='
exist and have levels between ideal and nadir. What is missing from C30: that the number of classes is
the number of objectives, see `C30_fails_short_and_long`. -/
theorem C30_accepted_classification_partial {c : Cfg k m K} {f : Vec k K} {r : ClassResp K}
    (h : validate c (.classify f) (.classify r) = .ok ()) :
    ∃ (cls : List Cls) (lv : Vec k K) (num : Int), r = ⟨some cls, some (List.ofFn lv), some num⟩ ∧
      Cls.other ∉ cls ∧ 1 ≤ num ∧ num ≤ 4 ∧
      ∀ p x, cls[p]? = some x → x = .le ∨ x = .ge →
        ∃ hp : p < k, c.ideal ⟨p, hp⟩ ≤ lv ⟨p, hp⟩ ∧ lv ⟨p, hp⟩ ≤ c.nadir ⟨p, hp⟩ := by
  simp only [validate] at h
  obtain ⟨cls, lv, num, rfl, h1, h2, h3, h4, h5, h6⟩ := validateClassify_ok h
  rw [checkLevels_ok_iff] at h5 h6
  refine ⟨cls, levelVec k lv, num, ?_, h1, h3, h4, ?_⟩
  · simp only [ClassResp.mk.injEq, Option.some.injEq, true_and, and_true]
    apply List.ext_getElem
    · simp [h2]
    · intro i hi hi'
      simp [levelVec, hi]
  · intro p x hx hor
    rcases hor with rfl | rfl
    · exact ⟨h5.1 p hx, h5.2 ⟨p, h5.1 p hx⟩ hx⟩
    · exact ⟨h6.1 p hx, h6.2 ⟨p, h6.1 p hx⟩ hx⟩

/-- C30 fails: lists with too few classes (even none) and with too many are accepted. -/
theorem C30_fails_short_and_long :
    validate exCfg exR0 (.classify ⟨some [], some [0, 4], some 1⟩) = .ok () ∧
    validate exCfg exR0 (.classify ⟨some [.lt], some [0, 4], some 1⟩) = .ok () ∧
    validate exCfg exR0 (.classify ⟨some [.lt, .free, .eq], some [0, 4], some 1⟩) = .ok () :=
  ⟨eq_of_beq (by decide +kernel), eq_of_beq (by decide +kernel), eq_of_beq (by decide +kernel)⟩

/-- Too many classes: answering raises an `IndexError` if more than one solution is asked for, or if an
extra class is not '0'; otherwise the extra classes are ignored. -/
theorem C30_long_list_raises {c : Cfg k m K} {s : St k m K} {f : Vec k K} {l : List (Req k m K)}
    (h : Reached c s (.classify f :: l)) (hns : ∀ x f, Req.stop x f ∉ l) {cls : List Cls} {lv : List K}
    {num : Int} (hlong : k < cls.length) (hbad : 1 < num ∨ ∃ p, k ≤ p ∧ p < cls.length ∧ cls[p]? ≠ some .free)
    (hv : validate c (.classify f) (.classify ⟨some cls, some lv, some num⟩) = .ok ()) (orc : Oracle k m K) :
    answer c s (.classify f) (.classify ⟨some cls, some lv, some num⟩) orc = (s, .error .indexError) := by
  have hne : s.phase ≠ .ended := by
    intro he
    obtain ⟨x, f, hx⟩ := h.inv.ended he
    simp only [List.mem_cons, reduceCtorEq, false_or] at hx
    exact hns x f hx
  have hph := h.inv.phase _ l rfl hne
  have hnew : newSolutions c s cls (levelVec k lv) num orc = .error .indexError := by
    unfold newSolutions
    split
    · rfl
    · rename_i h1
      rw [if_pos]
      refine ⟨?_, hlong⟩
      rcases hbad with h2 | ⟨p, hp, hp', hpf⟩
      · exact h2
      · exfalso
        apply h1
        simp only [List.any_eq_true, List.mem_range, decide_eq_true_eq]
        exact ⟨p, hp', hp, hpf⟩
  unfold answer
  rw [hv]
  dsimp only
  unfold iterate
  rw [hph]
  simp [phaseAfter, handleClassify, hnew, enter]

example : Reached exCfg exS0 [exR0] ∧
    answer exCfg exS0 exR0 (.classify ⟨some [.lt, .free, .eq], some [0, 4], some 1⟩) exOrc =
      (exS0, .error .indexError) ∧
    answer exCfg exS0 exR0 (.classify ⟨some [.lt, .free, .free], some [0, 4], some 2⟩) exOrc =
      (exS0, .error .indexError) :=
  ⟨ex_reached0, eq_of_beq (by decide +kernel), eq_of_beq (by decide +kernel)⟩

end Verif.Nimbus
