import Verif.Nimbus.Demand
import Verif.Nimbus.Numbers

/-!
# NIMBUS: every solution can be reached (C176)
-/

set_option linter.unusedSectionVars false

namespace Verif.Nimbus

variable {K : Type} [Field K] [LinearOrder K] [IsStrictOrderedRing K] {k m : Nat}

/-- Specification: against every other attainable vector `g`, `f` is better in some objective by more than `rho` times
the sum of what it is worse in altogether, in units of `range`: nothing that gives up little gains very much. -/
def Balanced (rho : K) (range : Vec k K) (attainable : Vec k K → Prop) (f : Vec k K) : Prop :=
  ∀ g, attainable g → g ≠ f → ∃ j, f j < g j ∧ rho * ∑ i, (f i - g i) / range i < (g j - f j) / range j

/-- Improve what is to be better up to the level wanted, and let the rest get worse up to the level wanted. -/
def towards (cur f : Vec k K) : Fin k → Cls := fun j => if f j ≤ cur j then .le else .ge

/-- The scalarizing function tells `f` from the other vectors that honour the classification. -/
theorem towards_best {attainable : Vec k K → Prop} {ideal range : Vec k K} {rho : K}
    {asf : (lt le : List Nat) → (ref f : Vec k K) → K} (h : IsMaxOfTwo ideal range rho asf)
    {f g : Vec k K} (hg : attainable g)
    (hb : Balanced rho range attainable f) {cur : Vec k K} (hne : ∃ j, f j ≤ cur j)
    (hh : Honours (towards cur f) cur f g)
    (hle : asf (positions (towards cur f) .lt) (positions (towards cur f) .le) f g ≤
      asf (positions (towards cur f) .lt) (positions (towards cur f) .le) f f) :
    g = f := by
  by_contra hc
  obtain ⟨j, h1, h2⟩ := hb g hg hc
  have hex : ∃ i, towards cur f i = .lt ∨ towards cur f i = .le := by
    obtain ⟨i, hi⟩ := hne
    exact ⟨i, .inr (by simp [towards, hi])⟩
  obtain ⟨A, ⟨a1, a2⟩, eA⟩ := h.value f g hex
  obtain ⟨B, ⟨b1, b2⟩, eB⟩ := h.value f f hex
  have hj : towards cur f j = .le := by
    by_contra hn
    have hw : towards cur f j = .ge := by
      unfold towards at hn ⊢
      split at hn
      · exact absurd rfl hn
      · rename_i hlt
        rw [if_neg hlt]
    exact absurd ((hh j).2 hw) (not_le.2 h1)
  have hA : (g j - f j) / range j ≤ A := a2 ⟨j, _, .inr ⟨hj, rfl⟩, rfl⟩
  have hB : B = 0 := by
    obtain ⟨i, t, ⟨w, _⟩ | ⟨_, rfl⟩, e⟩ := b1
    · unfold towards at w
      split at w <;> cases w
    · rw [e, sub_self, zero_div]
  rw [eA, eB, hB] at hle
  have hs : ∑ i, (f i - g i) / range i = (∑ i, f i / range i) - ∑ i, g i / range i := by
    rw [← Finset.sum_sub_distrib]
    exact Finset.sum_congr rfl fun i _ => sub_div _ _ _
  rw [hs, mul_sub] at h2
  linarith

/-- The four answers: classify, keep nothing, no intermediate solutions, choose the new solution. -/
theorem towards_answers {c : Cfg k m K} {s1 : St k m K} {sols : List (Vec m K)} {objs : List (Vec k K)}
    {x : Vec m K} {f : Vec k K} (hp : s1.phase = .archive) (hlen : s1.archSols.length = s1.archObjs.length)
    (hx : sols[0]? = some x) (hf : objs[0]? = some f) (o1 o2 o3 : Oracle k m K) (cont : Bool) :
    ∃ s2 r2 s3 r3 s4, answer c s1 (.save sols objs) (.save (some [])) o1 = (s2, .ok r2) ∧
      answer c s2 r2 (.inter ⟨some [], some 0⟩) o2 = (s3, .ok r3) ∧
      answer c s3 r3 (.preferred ⟨some (.int s1.archSols.length), some (.bool cont)⟩) o3 =
        (s4, .ok (if cont then .classify f else .stop x f)) ∧ s4.sol = x ∧ s4.obj = f := by
  have e1 : answer c s1 (.save sols objs) (.save (some [])) o1 = ({ s1 with phase := .intermediate },
      .ok (.inter (s1.archSols ++ sols) (s1.archObjs ++ objs))) := by
    have hv : validate c (.save sols objs) (.save (some [])) = .ok () := by simp [validate, validateSave]
    unfold answer
    rw [hv]
    simp only [iterate, hp, handleSave, unsaved_nil]
    rfl
  refine ⟨_, _, { s1 with phase := .preferred }, .preferred (s1.archSols ++ sols) (s1.archObjs ++ objs),
    { s1 with sol := x, obj := f, phase := if cont then .classify else .ended }, e1, ?_, ?_, rfl, rfl⟩
  · have hv : validate c (.inter (s1.archSols ++ sols) (s1.archObjs ++ objs)) (.inter ⟨some [], some 0⟩) = .ok () := by
      simp [validate, validateInter]
    unfold answer
    rw [hv]
    simp only [iterate, handleInter]
    rfl
  · have g1 : (s1.archSols ++ sols)[s1.archSols.length]? = some x := by
      rw [List.getElem?_append_right le_rfl, Nat.sub_self, hx]
    have g2 : (s1.archObjs ++ objs)[s1.archSols.length]? = some f := by
      rw [hlen, List.getElem?_append_right le_rfl, Nat.sub_self, hf]
    have hlt : s1.archSols.length < (s1.archObjs ++ objs).length := (List.getElem?_eq_some_iff.1 g2).1
    have hv : validate c (.preferred (s1.archSols ++ sols) (s1.archObjs ++ objs))
        (.preferred ⟨some (.int s1.archSols.length), some (.bool cont)⟩) = .ok () := by
      simp only [validate, validatePreferred, PyVal.typeIsInt, PyVal.asInt, Bool.not_true, Bool.false_eq_true, if_false]
      exact if_pos ⟨by omega, by exact_mod_cast hlt⟩
    unfold answer
    rw [hv]
    simp only [iterate, handlePreferred, PyVal.asInt, pyGet_nat.2 g1, pyGet_nat.2 g2]
    cases cont <;> rfl

theorem towards_valid (hk : k ≠ 1) {c : Cfg k m K} {cur f f0 : Vec k K} (hbox : InBox c.ideal c.nadir f) :
    validate c (.classify f0) (.classify (complete (towards cur f) f 1)) = .ok () := by
  have hno : (List.ofFn (towards cur f)).any (fun x => decide (x = .other)) = false := by
    rw [List.any_eq_false]
    intro x hx
    obtain ⟨j, rfl⟩ := List.mem_ofFn.1 hx
    unfold towards
    split <;> decide
  have hl : ∀ x, checkLevels c (List.ofFn (towards cur f)) x (List.ofFn f) = .ok () := by
    intro x
    rw [checkLevels_ok_iff, levelVec_ofFn]
    refine ⟨fun a ha => ?_, fun j _ => hbox j⟩
    have := (List.getElem?_eq_some_iff.1 ha).1
    simpa using this
  simp only [validate, validateClassify, complete, hno, hl]
  rw [if_neg (by simp), if_neg (by simpa using hk), if_neg (by simp)]
  rfl

theorem towards_self (cur f : Vec k K) : Honours (towards cur f) cur f f := by
  intro j
  refine ⟨fun hj => ?_, fun _ => le_rfl⟩
  unfold towards at hj
  split at hj
  · assumption
  · rcases hj with hj | hj | hj <;> cases hj

theorem towards_ge {cur f : Vec k K} {j : Fin k} (hj : towards cur f j = .ge) : cur j ≤ f j := by
  unfold towards at hj
  split at hj
  · cases hj
  · rename_i hlt
    exact (not_le.1 hlt).le

/-! ### C176 -/

/-- **C176**, for data-based problems with at least two objectives and rows that are balanced among
the others. In every history in which a
classification is asked for, whatever row `p` the decision maker has in mind: classifying the objectives by whether the
row is better or worse than the current solution, with its values as levels, keeping nothing and choosing the new
solution makes the method continue from, or stop at, a solution with the objective values of the row. -/
theorem C176_data (hk : k ≠ 1) {c : Cfg k m K} {s : St k m K} {f0 : Vec k K} {l : List (Req k m K)}
    (h : Reached c s (.classify f0 :: l)) (hns : ∀ x f, Req.stop x f ∉ Req.classify f0 :: l) {N : Nat}
    {obj : Fin N → Vec k K} {dec : Fin N → Vec m K} {cl : Option (Vec m K) → Fin N}
    (hd : c.problem = .discrete N obj dec cl) {range : Vec k K} {rho : K}
    (hasf : IsMaxOfTwo c.ideal range rho c.asf1) {p : Fin N} (hbox : InBox c.ideal c.nadir (obj p))
    (hb : Balanced rho range (fun g => ∃ q, obj q = g) (obj p)) (hk0 : 0 < k) :
    ∃ (cls : Fin k → Cls) (i : Int), ∀ (o0 o1 o2 o3 : Oracle k m K) (cont : Bool), ∃ q s1 r1 s2 r2 s3 r3 s4,
      answer c s (.classify f0) (.classify (complete cls (obj p) 1)) o0 = (s1, .ok r1) ∧
      answer c s1 r1 (.save (some [])) o1 = (s2, .ok r2) ∧
      answer c s2 r2 (.inter ⟨some [], some 0⟩) o2 = (s3, .ok r3) ∧
      answer c s3 r3 (.preferred ⟨some (.int i), some (.bool cont)⟩) o3 =
        (s4, .ok (if cont then .classify (obj p) else .stop (dec q) (obj p))) ∧
      obj q = obj p ∧ s4.sol = dec q ∧ s4.obj = obj p := by
  -- some objective of the row is not worse than the current one
  have hsome : ∃ j, obj p j ≤ s.obj j := by
    have hcur := h.inv.current
    simp only [Genuine, hd] at hcur
    obtain ⟨q, _, hq⟩ := hcur
    rw [hq]
    by_cases e : obj q = obj p
    · exact ⟨⟨0, hk0⟩, by rw [e]⟩
    · obtain ⟨j, hj, _⟩ := hb _ ⟨q, rfl⟩ e
      exact ⟨j, hj.le⟩
  refine ⟨towards s.obj (obj p), s.archSols.length, fun o0 o1 o2 o3 cont => ?_⟩
  obtain ⟨r1, hr1⟩ := C27_solution_found_partial h hd (towards_valid hk hbox) (fun j hj => towards_ge hj) o0
  obtain ⟨s1, hs1⟩ : ∃ s1, answer c s (.classify f0) (.classify (complete (towards s.obj (obj p)) (obj p) 1)) o0 =
      (s1, .ok r1) := ⟨_, Prod.ext rfl hr1⟩
  obtain ⟨sols, objs, q, rfl, hx, hf, hh, hmin, _⟩ := first_row h hns hd hs1
  have hq := towards_best hasf ⟨q, rfl⟩ hb hsome hh (hmin p (towards_self _ _))
  rw [hq] at hf
  have hst : s1 = { s with phase := .archive } := by
    cases answer_ok hs1 with
    | classify _ _ _ => rfl
  obtain ⟨s2, r2, s3, r3, s4, e1, e2, e3, e4, e5⟩ := towards_answers (c := c) (s1 := s1) (by rw [hst])
    (by rw [hst]; exact h.inv.arch_len) hx hf o1 o2 o3 cont
  refine ⟨q, s1, _, s2, r2, s3, r3, s4, hs1, e1, e2, ?_, hq, e4, e5⟩
  rw [hst] at e3
  exact e3

/-- **C176**, for analytic problems with at least two objectives and an exact minimizer. In every history in which a
classification is asked for, the same answers lead to the objective values of any decision vector `y` the decision maker
has in mind, if it is feasible, balanced among the feasible ones, and not worse than the current solution in every
objective. -/
theorem C176_analytic (hk : k ≠ 1) {c : Cfg k m K} {s : St k m K} {f0 : Vec k K} {l : List (Req k m K)}
    (h : Reached c s (.classify f0 :: l)) (hns : ∀ x f, Req.stop x f ∉ Req.classify f0 :: l)
    {ev : Vec m K → Vec k K} (hmo : c.problem = .mo ev) {range : Vec k K} {rho : K}
    (hasf : IsMaxOfTwo c.ideal range rho c.asf1) {y : Vec m K} (hy : c.feasible y = true)
    (hbox : InBox c.ideal c.nadir (ev y)) (hb : Balanced rho range (fun g => ∃ x, c.feasible x = true ∧ ev x = g) (ev y))
    (hsome : ∃ j, ev y j ≤ s.obj j) :
    ∃ (cls : Fin k → Cls) (i : Int), ∀ (o0 o1 o2 o3 : Oracle k m K) (cont : Bool),
      (∀ t, (∃ x, Solves t x) → Solves t (o0.minimize 0 t)) → ∃ x s1 r1 s2 r2 s3 r3 s4,
      answer c s (.classify f0) (.classify (complete cls (ev y) 1)) o0 = (s1, .ok r1) ∧
      answer c s1 r1 (.save (some [])) o1 = (s2, .ok r2) ∧
      answer c s2 r2 (.inter ⟨some [], some 0⟩) o2 = (s3, .ok r3) ∧
      answer c s3 r3 (.preferred ⟨some (.int i), some (.bool cont)⟩) o3 =
        (s4, .ok (if cont then .classify (ev y) else .stop x (ev y))) ∧
      c.feasible x = true ∧ ev x = ev y ∧ s4.sol = x ∧ s4.obj = ev y := by
  refine ⟨towards s.obj (ev y), s.archSols.length, fun o0 o1 o2 o3 cont hexact => ?_⟩
  obtain ⟨r1, hr1⟩ := C25_mo_never_raises h hmo (cls := List.ofFn (towards s.obj (ev y))) (lv := List.ofFn (ev y))
    (num := 1) (by simp) (towards_valid hk hbox) o0
  obtain ⟨s1, hs1⟩ : ∃ s1, answer c s (.classify f0) (.classify (complete (towards s.obj (ev y)) (ev y) 1)) o0 =
      (s1, .ok r1) := ⟨_, Prod.ext rfl hr1⟩
  obtain ⟨sols, objs, x, rfl, hx, hf, hfe, hh, hmin⟩ := C93_first_solution_honours h hns hmo hs1 hexact
    ⟨y, hy, towards_self _ _, fun z hz hz' => by
      by_contra hc
      push Not at hc
      have e := towards_best hasf ⟨z, hz, rfl⟩ hb hsome hz' hc.le
      rw [e] at hc
      exact lt_irrefl _ hc⟩
  have hq := towards_best hasf ⟨x, hfe, rfl⟩ hb hsome hh (hmin y hy (towards_self _ _))
  rw [hq] at hf
  have hst : s1 = { s with phase := .archive } := by
    cases answer_ok hs1 with
    | classify _ _ _ => rfl
  obtain ⟨s2, r2, s3, r3, s4, e1, e2, e3, e4, e5⟩ := towards_answers (c := c) (s1 := s1) (by rw [hst])
    (by rw [hst]; exact h.inv.arch_len) hx hf o1 o2 o3 cont
  refine ⟨x, s1, _, s2, r2, s3, r3, s4, hs1, e1, e2, ?_, hfe, hq, e4, e5⟩
  rw [hst] at e3
  exact e3

/-- The hypotheses are met by the session of C167, which starts at (4, 4); the row is (2, 2). -/
example := C176_data (by decide) exDem_reached (by simp) (obj := exDemRows) rfl exTwoAsf_spec
  (p := 3) (by decide +kernel) (by rintro _ ⟨q, rfl⟩; revert q; decide +kernel) (by decide)

theorem exFin_cases {P : Vec 1 ℚ → Prop} (h : ∀ v ∈ ([0, 1, 2, 3] : List ℚ), P ![v]) {x : Vec 1 ℚ}
    (hx : exFinOk x = true) : P x := by
  have e : x = ![x 0] := by
    funext j
    fin_cases j
    rfl
  rw [e]
  simp only [exFinOk, Bool.or_eq_true, decide_eq_true_eq] at hx
  rcases hx with ((hx | hx) | hx) | hx <;> rw [hx] <;> exact h _ (by simp)

/-- The hypotheses of the analytic part are met: from (3, 1) to the decision vector 1. -/
example := (C176_analytic (by decide) exDemFin_reached (by simp) (ev := exFinEv) rfl exTwoAsf_spec (y := ![1]) (by decide +kernel)
  (by decide +kernel) (by
    rintro _ ⟨x, hx, rfl⟩
    exact exFin_cases (P := fun x => exFinEv x ≠ exFinEv ![1] → ∃ j, exFinEv ![1] j < exFinEv x j ∧
      1 / 1000000 * ∑ i, (exFinEv ![1] i - exFinEv x i) / 1 < (exFinEv x j - exFinEv ![1] j) / 1) (by decide +kernel) hx)
  (by decide +kernel)).imp fun _ h => h.imp fun _ h => h exExact exExact exExact exExact true (exExact_solves 0)

end Verif.Nimbus
