import Verif.Nimbus.Props2
import Verif.Navigator.Props3

set_option linter.unusedSectionVars false

/-!
# Properties C82 and C83 of NIMBUS: where a session starts, and Pareto optimality of what is shown
-/

namespace Verif.Nimbus

variable {K : Type} [Field K] [LinearOrder K] [IsStrictOrderedRing K] {k m : Nat}

/-! ## C82 -/

/-- The reference point with which the first solution is computed: the starting point, if given; the
midpoint of ideal and nadir otherwise. -/
def StartsFrom (c : Cfg k m K) (sp : Option (Vec k K)) (z : Vec k K) : Prop :=
  match sp with
  | some p => z = p
  | none => ∀ j, 2 * z j = c.ideal j + c.nadir j

theorem startRef_given (c : Cfg k m K) (p : Vec k K) :
    startRef c (some (List.ofFn p)) = .ok p := by
  cases k with
  | zero =>
    simp only [startRef, List.ofFn_zero, List.length_nil, if_true]
    congr 1
    funext j
    exact j.elim0
  | succ k =>
    cases k with
    | zero =>
      simp only [List.ofFn_succ, List.ofFn_zero, startRef]
      congr 1
      funext j
      have : j = 0 := Fin.ext (by omega)
      rw [this]
    | succ k =>
      simp only [List.ofFn_succ, startRef]
      rw [if_pos (by simp)]
      congr 1
      funext j
      have : (List.ofFn p)[j.val]? = some (p j) := by rw [List.getElem?_ofFn, dif_pos j.isLt]
      simp only [List.ofFn_succ] at this
      rw [this]
      rfl

theorem startRef_spec (c : Cfg k m K) (sp : Option (Vec k K)) :
    ∃ z, startRef c (sp.map List.ofFn) = .ok z ∧ StartsFrom c sp z := by
  cases sp with
  | none => exact ⟨_, rfl, fun j => by ring⟩
  | some p => exact ⟨p, startRef_given c p, rfl⟩

/-- **C82** (data-based problems). A session on a data-based problem with at least one row can always be
started; its first request asks to classify the objective vector of the row that minimizes the
achievement function at the starting point - by default the midpoint of ideal and nadir - and that row
is the current solution. -/
theorem C82_discrete_start (c : Cfg k m K) {N : Nat} {obj : Fin N → Vec k K} {dec : Fin N → Vec m K}
    {cl : Option (Vec m K) → Fin N} (hd : c.problem = .discrete N obj dec cl) (hN : 0 < N)
    (sp : Option (Vec k K)) (res : Task k m K → Option (Vec m K)) :
    ∃ s z p, construct c (sp.map List.ofFn) res = .ok s ∧ StartsFrom c sp z ∧
      Nimbus.start s = .classify (obj p) ∧ s.sol = dec p ∧ s.obj = obj p ∧
      (∀ q, c.asf3 z (obj p) ≤ c.asf3 z (obj q)) ∧ s.archSols = [] ∧ s.archObjs = [] := by
  obtain ⟨z, hz, hs⟩ := startRef_spec c sp
  obtain ⟨p, hp⟩ := discreteMin_exists (obj := obj) (asf := c.asf3 z) (fe := fun _ => true)
    (i := ⟨0, hN⟩) rfl
  refine ⟨{ sol := dec p, obj := obj p, archSols := [], archObjs := [], phase := .classify }, z, p, ?_, hs,
    ?_⟩
  · unfold construct
    simp only [hz, hd, hp]
  · exact ⟨rfl, rfl, rfl, fun q => (discreteMin_ok hp).2 q rfl, rfl, rfl⟩

/-- **C82** (analytic problems). The constructor asks the minimizer for the feasible decision vector that
minimizes the achievement function at exactly that reference point; a
reported failure is refused, a solution becomes the current one and its objective vector is what the
first request shows. -/
theorem C82_continuous_start (c : Cfg k m K) {ev : Vec m K → Vec k K} (hmo : c.problem = .mo ev)
    (sp : Option (Vec k K)) (res : Task k m K → Option (Vec m K)) :
    ∃ z t, StartsFrom c sp z ∧ Asks t z (fun x => c.asf3 z (ev x)) (fun x => c.feasible x = true) ∧
      (res t = none → construct c (sp.map List.ofFn) res = .error .refused) ∧
      (∀ x, res t = some x → ∃ s, construct c (sp.map List.ofFn) res = .ok s ∧
        s.sol = x ∧ s.obj = ev x ∧ Nimbus.start s = .classify (ev x) ∧
        s.archSols = [] ∧ s.archObjs = []) := by
  obtain ⟨z, hz, hs⟩ := startRef_spec c sp
  refine ⟨z, task c ev z (c.asf3 z) fun _ => true, hs, ⟨rfl, fun _ => rfl, fun _ => by simp [task]⟩, ?_, ?_⟩
  · intro h
    unfold construct
    simp only [hz, hmo, h]
  · intro x h
    refine ⟨{ sol := x, obj := ev x, archSols := [], archObjs := [], phase := .classify }, ?_, rfl, rfl,
      rfl, rfl, rfl⟩
    unfold construct
    simp only [hz, hmo, h]

/-- **C82** (wrong dimension), except for starting points with a single component: a starting point whose
number of components is not the number of objectives is refused. What is missing: see
`C82_fails_single_component`. -/
theorem C82_wrong_dimension_refused_partial (c : Cfg k m K) {p : List K} (h1 : p.length ≠ 1)
    (hk : p.length ≠ k) (res : Task k m K → Option (Vec m K)) :
    construct c (some p) res = .error .refused := by
  have : startRef c (some p) = .error .refused := by
    match p with
    | [] => simp only [startRef]; rw [if_neg hk]
    | [v] => simp at h1
    | a :: b :: t => simp only [startRef]; rw [if_neg hk]
  unfold construct
  simp only [this]

/-- C82 fails for starting points with a single component: they are accepted for problems with two
objectives. -/
theorem C82_fails_single_component :
    construct exCfg (some [2]) (fun _ => none) = .ok exS0 := eq_of_beq (by decide +kernel)

example : ∃ s z p, construct exCfg (some [4, 0]) (fun _ => none) = .ok s ∧ z = ![4, 0] ∧
    Nimbus.start s = .classify (exObj p) ∧ exObj p = ![4, 0] ∧ s.obj ≠ exS0.obj := by
  refine ⟨⟨![3], ![4, 0], [], [], .classify⟩, _, 3, eq_of_beq (by decide +kernel), rfl, ?_, ?_, ?_⟩
  · exact eq_of_beq (by decide +kernel)
  · exact eq_of_beq (by decide +kernel)
  · decide +kernel

example := C82_discrete_start exCfg (obj := exObj) rfl (by decide) (some ![4, 0]) (fun _ => none)
example := C82_continuous_start exMo rfl none (fun t => t.ref.map fun z => ![z 0])
example := C82_wrong_dimension_refused_partial exCfg (p := [1, 2, 3]) (by decide) (by decide) (fun _ => none)

/-! ## C83 -/

/-- A property of pairs that every freshly computed pair has. -/
structure Fresh (c : Cfg k m K) (P : Vec m K → Vec k K → Prop) : Prop where
  init : ∀ sp res s, construct c sp res = .ok s → P s.sol s.obj
  new : ∀ (s : St k m K) cls lv num orc l, newSolutions c s cls lv num orc = .ok l → ∀ p ∈ l, P p.1 p.2
  inter : ∀ orc p x f, interSolve c orc p = .ok (x, f) → P x f

/-- Whatever holds for every freshly computed pair holds for everything shown. -/
theorem Reached.all {c : Cfg k m K} {P : Vec m K → Vec k K → Prop} (hP : Fresh c P) {s : St k m K}
    {l : List (Req k m K)} (h : Reached c s l) :
    (∀ req ∈ l, ∀ p ∈ req.pairs, P p.1 p.2) ∧ (∀ f, Req.classify f ∈ l → ∃ x, P x f) ∧ P s.sol s.obj := by
  induction h with
  | init h =>
    refine ⟨by simp [Nimbus.start, Req.pairs], ?_, hP.init _ _ _ h⟩
    intro f hf
    simp only [Nimbus.start, List.mem_singleton, Req.classify.injEq] at hf
    subst hf
    exact ⟨_, hP.init _ _ _ h⟩
  | @step s s' l req a orc o hr hmem ha ih =>
    obtain ⟨ih1, ih2, ih3⟩ := ih
    have hI := hr.inv
    cases o with
    | error e =>
      have := answer_error (hI.aligned _ hmem) ha
      subst this
      exact ⟨by simpa [issued] using ih1, by simpa [issued] using ih2, ih3⟩
    | ok r' =>
      simp only [issued, List.singleton_append]
      suffices hh : (∀ p ∈ r'.pairs, P p.1 p.2) ∧ (∀ f, r' = .classify f → ∃ x, P x f) ∧ P s'.sol s'.obj by
        obtain ⟨h1, h2, h3⟩ := hh
        refine ⟨?_, ?_, h3⟩
        · intro q hq
          rcases List.mem_cons.1 hq with rfl | hq
          · exact h1
          · exact ih1 q hq
        · intro f hf
          rcases List.mem_cons.1 hf with hf | hf
          · exact h2 f hf.symm
          · exact ih2 f hf
      cases answer_ok ha with
      | ended he => exact ⟨ih1 _ hmem, fun f hf => ih2 f (hf ▸ hmem), ih3⟩
      | classify hp hv hn =>
        refine ⟨?_, by simp, ih3⟩
        simp only [Req.pairs, zip_map_fst_snd]
        exact hP.new _ _ _ _ _ _ hn
      | save hp hrng hx ho =>
        rename_i sols objs idx xs os
        have hal : sols.length = objs.length := hI.aligned _ hmem
        have h0 : ∀ i ∈ idx, (0 : Int) ≤ i := fun i hi => (hrng i hi).1
        have hxo : xs.length = os.length := by rw [pick_length hx, pick_length ho]
        refine ⟨?_, by simp, ih3⟩
        intro p hp
        simp only [Req.pairs] at hp
        rw [List.zip_append (by simp [hI.arch_len, hxo]), List.zip_append hI.arch_len] at hp
        simp only [List.mem_append] at hp
        rcases hp with (hp | hp) | hp
        · obtain ⟨so, ob, h1, h2⟩ := hI.arch_shown p hp
          exact ih1 _ h1 p h2
        · exact ih1 _ hmem p (pick_mem_zip hx ho h0 hp)
        · rw [unsaved_zip _ _ _ hal] at hp
          exact ih1 _ hmem p (mem_unsaved_mem hp)
      | noInter hp =>
        have := ih1 _ hmem
        exact ⟨this, by simp, ih3⟩
      | inter hp _ _ _ hl =>
        refine ⟨?_, by simp, ih3⟩
        simp only [Req.pairs, zip_map_fst_snd]
        rw [mapE_ok_iff] at hl
        intro p hp
        obtain ⟨q, _, hq⟩ := forall₂_right hl p hp
        exact hP.inter _ _ _ _ hq
      | «continue» hp hx hf =>
        have hg := ih1 _ hmem (_, _)
          (List.mem_of_getElem? (List.getElem?_zip_eq_some (z := (_, _)).2 ⟨hx, hf⟩))
        refine ⟨by simp [Req.pairs], ?_, hg⟩
        intro g he
        simp only [Req.classify.injEq] at he
        exact ⟨_, he ▸ hg⟩
      | stop hp hx hf =>
        have hg := ih1 _ hmem (_, _)
          (List.mem_of_getElem? (List.getElem?_zip_eq_some (z := (_, _)).2 ⟨hx, hf⟩))
        exact ⟨by simpa [Req.pairs] using hg, by simp, hg⟩

/-- A scalarizing function that prefers dominating vectors strictly. -/
def PrefersDominating (g : Vec k K → K) : Prop := ∀ f f', Dominates f f' → g f < g f'

/-- If the constraint is kept by dominating vectors, the minimizer over the rows satisfying it is not
dominated by any row. -/
theorem discreteMin_pareto {N : Nat} {obj : Fin N → Vec k K} {asf : Vec k K → K} {fe : Vec k K → Bool}
    {x : Fin N} (h : discreteMin obj asf fe = .ok x) (hasf : PrefersDominating asf)
    (hfe : ∀ f g, Dominates f g → fe g = true → fe f = true) (q : Fin N) :
    ¬ Dominates (obj q) (obj x) := by
  intro hdom
  obtain ⟨h1, h2⟩ := discreteMin_ok h
  exact absurd (hasf _ _ hdom) (not_lt.2 (h2 q (hfe _ _ hdom h1)))

theorem cons1_mono {cls : List Cls} {cur lv f g : Vec k K} (hd : Dominates f g)
    (h : cons1 cls cur lv g = true) : cons1 cls cur lv f = true := by
  unfold cons1 at h ⊢
  simp only [List.all_eq_true, List.mem_finRange, true_implies] at h ⊢
  intro j
  have hj := h j
  have := hd.1 j
  cases hc : cls[j.val]? with
  | none => rfl
  | some x =>
    cases x <;> simp only [hc, decide_eq_true_eq] at hj ⊢ <;> linarith

/-- **C83**. For data-based problems: if the scalarizing functions strictly prefer dominating vectors,
then in every history no row of the data dominates any solution NIMBUS shows - to be classified, saved,
used for intermediate solutions, chosen, or as the final solution. -/
theorem C83_shown_solutions_pareto_optimal {c : Cfg k m K} {s : St k m K} {l : List (Req k m K)}
    (h : Reached c s l) {N : Nat} {obj : Fin N → Vec k K} {dec : Fin N → Vec m K}
    {cl : Option (Vec m K) → Fin N} (hd : c.problem = .discrete N obj dec cl)
    (h1 : ∀ a b z, PrefersDominating (c.asf1 a b z)) (h2 : ∀ z, PrefersDominating (c.asf2 z))
    (h3 : ∀ z, PrefersDominating (c.asf3 z)) (h4 : ∀ a z, PrefersDominating (c.asf4 a z)) :
    (∀ f, Req.classify f ∈ l → ∀ i, ¬ Dominates (obj i) f) ∧
    (∀ req ∈ l, ∀ x f, (x, f) ∈ req.pairs → ∀ i, ¬ Dominates (obj i) f) := by
  have hP : Fresh c (fun _ f => ∀ i, ¬ Dominates (obj i) f) := by
    refine ⟨?_, ?_, ?_⟩
    · intro sp res s hc
      unfold construct at hc
      split at hc
      · simp at hc
      · simp only [hd] at hc
        split at hc
        · simp at hc
        · rename_i x hx
          simp only [Except.ok.injEq] at hc
          subst hc
          exact discreteMin_pareto hx (h3 _) (fun _ _ _ _ => rfl)
    · intro s cls lv num orc sl hn
      unfold newSolutions at hn
      split at hn
      · simp at hn
      · split at hn
        · simp at hn
        · rw [mapE_ok_iff] at hn
          intro p hp
          obtain ⟨⟨q, i⟩, hq', hq⟩ := forall₂_right hn p hp
          have hq'' : q ∈ problems c s cls lv := by
            have := List.mem_zipIdx hq'
            exact List.mem_of_mem_take (by rw [this.2.2]; exact List.getElem_mem _)
          simp only [solveOne, hd] at hq
          split at hq
          · simp at hq
          · rename_i y hy
            simp only [Except.ok.injEq] at hq
            subst hq
            simp only [problems, List.mem_cons, List.not_mem_nil, or_false] at hq''
            rcases hq'' with rfl | rfl | rfl | rfl
            · exact discreteMin_pareto hy (h1 _ _ _) (fun _ _ hdom hg => cons1_mono hdom hg)
            · exact discreteMin_pareto hy (h2 _) (fun _ _ _ _ => rfl)
            · exact discreteMin_pareto hy (h3 _) (fun _ _ _ _ => rfl)
            · exact discreteMin_pareto hy (h4 _ _) (fun _ _ _ _ => rfl)
    · intro orc p x f hi
      simp only [interSolve, hd] at hi
      split at hi
      · simp at hi
      · rename_i y hy
        simp only [Except.ok.injEq, Prod.mk.injEq] at hi
        obtain ⟨_, rfl⟩ := hi
        exact discreteMin_pareto hy (h3 _) (fun _ _ _ _ => rfl)
  obtain ⟨a1, a2, _⟩ := h.all hP
  refine ⟨?_, fun req hreq x f hp => a1 req hreq (x, f) hp⟩
  intro f hf
  obtain ⟨_, hx⟩ := a2 f hf
  exact hx

/-- The achievement function the constructor and the intermediate solutions use does so. -/
theorem pointAsf_prefersDominating {k : Nat} {ideal nadir : Vec (k + 1) K} (h : AtLeastAsGood ideal nadir)
    (z : Vec (k + 1) K) : PrefersDominating (Navigator.pointAsf ideal nadir z) :=
  fun _ _ hd => Navigator.pointAsf_strict h z hd

/-- A data-based problem with a dominated row, all scalarizing functions as in the library's third
problem. -/
def exPareto : Cfg 2 1 ℚ where
  ideal := ![0, 0]
  nadir := ![4, 4]
  problem := .discrete 4 ![![0, 4], ![1, 2], ![2, 3], ![4, 0]] exDec exClosest
  nrm := fun v => |v 0|
  feasible := fun _ => true
  asf1 := fun _ _ => Navigator.pointAsf ![0, 0] ![4, 4]
  asf2 := Navigator.pointAsf ![0, 0] ![4, 4]
  asf3 := Navigator.pointAsf ![0, 0] ![4, 4]
  asf4 := fun _ => Navigator.pointAsf ![0, 0] ![4, 4]

def exParS : St 2 1 ℚ := ⟨![1], ![1, 2], [], [], .classify⟩

theorem exPar_reached : Reached exPareto
    (answer exPareto exParS (.classify ![1, 2]) exA0 exOrc).1
    (issued (answer exPareto exParS (.classify ![1, 2]) exA0 exOrc).2 ++ [.classify ![1, 2]]) :=
  .step (.init (s := exParS) (sp := some [2, 3]) (res := fun _ => none) (eq_of_beq (by decide +kernel)))
    List.mem_cons_self (a := exA0) (orc := exOrc) Prod.mk.eta.symm

example : (answer exPareto exParS (.classify ![1, 2]) exA0 exOrc).2 =
    .ok (.save [![0], ![0], ![0]] [![0, 4], ![0, 4], ![0, 4]]) ∧
    Dominates (![1, 2] : Vec 2 ℚ) ![2, 3] :=
  ⟨eq_of_beq (by decide +kernel), by decide +kernel⟩

example := C83_shown_solutions_pareto_optimal exPar_reached (obj := ![![0, 4], ![1, 2], ![2, 3], ![4, 0]]) rfl
  (fun _ _ => pointAsf_prefersDominating (by decide +kernel)) (pointAsf_prefersDominating (by decide +kernel))
  (pointAsf_prefersDominating (by decide +kernel)) (fun _ => pointAsf_prefersDominating (by decide +kernel))

end Verif.Nimbus
