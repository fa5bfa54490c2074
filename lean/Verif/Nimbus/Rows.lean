import Verif.Nimbus.Recast
import Verif.Nimbus.Props4

/-!
# NIMBUS: the order of the rows of data-based problems does not matter (C168)

The rows of the data, objective vectors with their decision vectors, may be listed in another order or repeatedly.
-/

set_option linter.unusedSectionVars false

namespace Verif.Nimbus

variable {K : Type} [Field K] [LinearOrder K] [IsStrictOrderedRing K] {k m : Nat}

/-! ### Specification -/

/-- Specification: the row has the smallest value of `g` among the rows that satisfy `P`. -/
def BestRow {N : Nat} (obj : Fin N → Vec k K) (P : Vec k K → Prop) (g : Vec k K → K) (p : Fin N) : Prop :=
  P (obj p) ∧ ∀ q, P (obj q) → g (obj p) ≤ g (obj q)

/-- Specification: there is no tie between different rows for the best value. -/
def Clear {N : Nat} (obj : Fin N → Vec k K) (dec : Fin N → Vec m K) (P : Vec k K → Prop) (g : Vec k K → K) : Prop :=
  ∀ p q, BestRow obj P g p → BestRow obj P g q → obj p = obj q ∧ dec p = dec q

/-- Specification: `l` lists the positions of the class `x`. -/
def Lists (cls : List Cls) (x : Cls) (l : List Nat) : Prop :=
  l.Pairwise (· < ·) ∧ ∀ p, p ∈ l ↔ cls[p]? = some x

/-- Specification: `f` is not worse than the current vector in the objectives to be improved or kept and not worse than
the given level in those that may be impaired to a level. -/
def Permits (cls : List Cls) (cur lv f : Vec k K) : Prop :=
  ∀ j : Fin k, (cls[j.val]? = some .lt ∨ cls[j.val]? = some .le ∨ cls[j.val]? = some .eq → f j ≤ cur j) ∧
    (cls[j.val]? = some .ge → f j ≤ lv j)

/-- Specification: the reference point for a classification: ideal, level, current value, level or nadir by class; 0
without a class. -/
def Target (c : Cfg k m K) (cls : List Cls) (lv cur z : Vec k K) : Prop :=
  ∀ j : Fin k, (cls[j.val]? = some .lt → z j = c.ideal j) ∧ (cls[j.val]? = some .le → z j = lv j) ∧
    (cls[j.val]? = some .eq → z j = cur j) ∧ (cls[j.val]? = some .ge → z j = lv j) ∧
    (cls[j.val]? = some .free → z j = c.nadir j) ∧ (cls[j.val]? = none ∨ cls[j.val]? = some .other → z j = 0)

/-- Specification: none of the four scalarized problems of a classification has a tie. -/
structure Untied (c : Cfg k m K) {N : Nat} (obj : Fin N → Vec k K) (dec : Fin N → Vec m K) (cls : List Cls)
    (lv cur : Vec k K) : Prop where
  first : ∀ lt le, Lists cls .lt lt → Lists cls .le le → Clear obj dec (Permits cls cur lv) (c.asf1 lt le lv)
  second : ∀ z, Target c cls lv cur z → Clear obj dec (fun _ => True) (c.asf2 z)
  third : ∀ z, Target c cls lv cur z → Clear obj dec (fun _ => True) (c.asf3 z)
  fourth : ∀ z free, Target c cls lv cur z → Lists cls .free free → Clear obj dec (fun _ => True) (c.asf4 free z)

/-- Specification: the reference point the method is started with: the midpoint of ideal and nadir, the given vector, or
the given number in every objective. -/
def StartsAt (c : Cfg k m K) (sp : Option (List K)) (z : Vec k K) : Prop :=
  sp = none ∧ (∀ j, z j = (c.ideal j + c.nadir j) / 2) ∨ (∃ v, sp = some [v] ∧ ∀ j, z j = v) ∨
  ∃ p, sp = some p ∧ p.length = k ∧ ∀ j : Fin k, p[j.val]? = some (z j)

/-- Specification: the same data with other rows; row `i` of the new table is row `σ i` of the old one. `cl'` finds the
row closest to a decision vector in the new table. -/
def relist (c : Cfg k m K) {M N : Nat} (obj : Fin N → Vec k K) (dec : Fin N → Vec m K) (σ : Fin M → Fin N)
    (cl' : Option (Vec m K) → Fin M) : Cfg k m K :=
  { c with problem := .discrete M (fun i => obj (σ i)) (fun i => dec (σ i)) cl' }

/-! ### Proofs -/

/-- The chosen row: decision and objective vector. -/
def rowOf {N : Nat} (obj : Fin N → Vec k K) (dec : Fin N → Vec m K) :
    Except Err (Fin N) → Except Err (Vec m K × Vec k K)
  | .error e => .error e
  | .ok x => .ok (dec x, obj x)

theorem discreteMin_best {N : Nat} {obj : Fin N → Vec k K} {asf : Vec k K → K} {fe : Vec k K → Bool} {P : Vec k K → Prop}
    (hP : ∀ f, fe f = true ↔ P f) {x : Fin N} (h : discreteMin obj asf fe = .ok x) : BestRow obj P asf x := by
  obtain ⟨h1, h2⟩ := discreteMin_ok h
  exact ⟨(hP _).1 h1, fun q hq => h2 q ((hP _).2 hq)⟩

theorem discreteMin_relist {M N : Nat} {obj : Fin N → Vec k K} {dec : Fin N → Vec m K} {σ : Fin M → Fin N}
    (hσ : Function.Surjective σ) {asf : Vec k K → K} {fe : Vec k K → Bool} {P : Vec k K → Prop}
    (hP : ∀ f, fe f = true ↔ P f) (hc : Clear obj dec P asf) :
    rowOf (fun i => obj (σ i)) (fun i => dec (σ i)) (discreteMin (fun i => obj (σ i)) asf fe) =
      rowOf obj dec (discreteMin obj asf fe) := by
  by_cases he : ∃ i, fe (obj i) = true
  · obtain ⟨i, hi⟩ := he
    obtain ⟨x, hx⟩ := discreteMin_exists (asf := asf) hi
    obtain ⟨i', rfl⟩ := hσ i
    obtain ⟨x', hx'⟩ := discreteMin_exists (obj := fun i => obj (σ i)) (asf := asf) hi
    have b1 := discreteMin_best hP hx
    have b2 := discreteMin_best hP hx'
    obtain ⟨e1, e2⟩ := hc (σ x') x ⟨b2.1, fun q hq => by
      obtain ⟨q', rfl⟩ := hσ q
      exact b2.2 q' hq⟩ b1
    rw [hx, hx']
    simp only [rowOf, e1, e2]
  · simp only [not_exists, Bool.not_eq_true] at he
    rw [discreteMin_none he, discreteMin_none fun i => he (σ i)]
    rfl

theorem cons1_permits (cls : List Cls) (cur lv f : Vec k K) : cons1 cls cur lv f = true ↔ Permits cls cur lv f := by
  unfold cons1 Permits
  simp only [List.all_eq_true, List.mem_finRange, true_imp_iff]
  refine forall_congr' fun j => ?_
  split <;> rename_i h <;> simp_all

theorem inds_lists (cls : List Cls) (x : Cls) : Lists cls x (inds cls x) :=
  ⟨List.Pairwise.filter _ List.pairwise_lt_range, fun p => mem_inds cls x p⟩

theorem zbar_target (c : Cfg k m K) (cls : List Cls) (lv cur : Vec k K) : Target c cls lv cur (zbar c cls lv cur) := by
  intro j
  unfold zbar
  refine ⟨fun h => ?_, fun h => ?_, fun h => ?_, fun h => ?_, fun h => ?_, fun h => ?_⟩
  on_goal 6 => rcases h with h | h
  all_goals simp only [h]

theorem startRef_startsAt {c : Cfg k m K} {sp : Option (List K)} {z : Vec k K} (h : startRef c sp = .ok z) :
    StartsAt c sp z := by
  unfold startRef at h
  split at h
  · cases h
    exact .inl ⟨rfl, fun _ => rfl⟩
  · cases h
    exact .inr (.inl ⟨_, rfl, fun _ => rfl⟩)
  · rename_i p _
    split at h
    · rename_i hl
      cases h
      refine .inr (.inr ⟨p, rfl, hl, fun j => ?_⟩)
      simp only
      rw [List.getElem?_eq_getElem (by rw [hl]; exact j.isLt)]
      rfl
    · cases h

section
variable {c : Cfg k m K} {M N : Nat} {obj : Fin N → Vec k K} {dec : Fin N → Vec m K} {cl : Option (Vec m K) → Fin N}
  (hd : c.problem = .discrete N obj dec cl) {σ : Fin M → Fin N} (hσ : Function.Surjective σ)
  {cl' : Option (Vec m K) → Fin M}
include hd hσ

theorem construct_relist (sp : Option (List K)) (res : Task k m K → Option (Vec m K))
    (h : ∀ z, StartsAt c sp z → Clear obj dec (fun _ => True) (c.asf3 z)) :
    construct (relist c obj dec σ cl') sp res = construct c sp res := by
  unfold construct
  have e : startRef (relist c obj dec σ cl') sp = startRef c sp := rfl
  rw [e]
  cases hz : startRef c sp with
  | error e => rfl
  | ok z =>
    have key := discreteMin_relist hσ (asf := c.asf3 z) (fe := fun _ => true) (P := fun _ => True) (fun _ => by simp)
      (h z (startRef_startsAt hz))
    simp only [hd, relist]
    cases h1 : discreteMin (fun i => obj (σ i)) (c.asf3 z) (fun _ => true) <;>
      cases h2 : discreteMin obj (c.asf3 z) (fun _ => true) <;> rw [h1, h2] at key <;> simp only [rowOf] at key
    · cases key; rfl
    · cases key
    · cases key
    · simp only [Except.ok.injEq, Prod.mk.injEq] at key
      simp only [key.1, key.2]

theorem solveOne_relist (orc : Oracle k m K) (i : Nat) (p : Vec k K × (Vec k K → K) × (Vec k K → Bool))
    {P : Vec k K → Prop} (hP : ∀ f, p.2.2 f = true ↔ P f) (hc : Clear obj dec P p.2.1) :
    solveOne (relist c obj dec σ cl') orc i p = solveOne c orc i p := by
  have key := discreteMin_relist hσ hP hc
  simp only [solveOne, hd, relist]
  cases h1 : discreteMin (fun i => obj (σ i)) p.2.1 p.2.2 <;> cases h2 : discreteMin obj p.2.1 p.2.2 <;>
    rw [h1, h2] at key <;> exact key

theorem newSolutions_relist (s : St k m K) (cls : List Cls) (lv : Vec k K) (num : Int) (orc : Oracle k m K)
    (h : Untied c obj dec cls lv s.obj) :
    newSolutions (relist c obj dec σ cl') s cls lv num orc = newSolutions c s cls lv num orc := by
  unfold newSolutions
  have e : problems (relist c obj dec σ cl') s cls lv = problems c s cls lv := rfl
  rw [e]
  have key : mapE (fun (p : (Vec k K × (Vec k K → K) × (Vec k K → Bool)) × Nat) =>
      solveOne (relist c obj dec σ cl') orc p.2 p.1) (((problems c s cls lv).take num.toNat).zipIdx) =
      mapE (fun (p : (Vec k K × (Vec k K → K) × (Vec k K → Bool)) × Nat) => solveOne c orc p.2 p.1)
        (((problems c s cls lv).take num.toNat).zipIdx) := by
    refine mapE_congr ?_
    rintro ⟨q, i⟩ hq
    have hq' : q ∈ problems c s cls lv := by
      have := List.mem_zipIdx hq
      exact List.mem_of_mem_take (by rw [this.2.2]; exact List.getElem_mem _)
    have ht := zbar_target c cls lv s.obj
    simp only [problems, List.mem_cons, List.not_mem_nil, or_false] at hq'
    rcases hq' with rfl | rfl | rfl | rfl
    · exact solveOne_relist hd hσ orc i _ (cons1_permits cls s.obj lv)
        (h.first _ _ (inds_lists _ _) (inds_lists _ _))
    · exact solveOne_relist hd hσ orc i _ (P := fun _ => True) (fun _ => by simp) (h.second _ ht)
    · exact solveOne_relist hd hσ orc i _ (P := fun _ => True) (fun _ => by simp) (h.third _ ht)
    · exact solveOne_relist hd hσ orc i _ (P := fun _ => True) (fun _ => by simp)
        (h.fourth _ _ ht (inds_lists _ _))
  rw [key]

theorem interSolve_relist (hcl : ∀ x, obj (σ (cl' x)) = obj (cl x))
    (h : ∀ p, Clear obj dec (fun _ => True) (c.asf3 (obj p))) (orc : Oracle k m K) (p : Option (Vec m K) × Nat) :
    interSolve (relist c obj dec σ cl') orc p = interSolve c orc p := by
  have key := discreteMin_relist hσ (asf := c.asf3 (obj (cl p.1))) (fe := fun _ => true) (P := fun _ => True)
    (fun _ => by simp) (h (cl p.1))
  simp only [interSolve, hd, relist, hcl]
  cases h1 : discreteMin (fun i => obj (σ i)) (c.asf3 (obj (cl p.1))) (fun _ => true) <;>
    cases h2 : discreteMin obj (c.asf3 (obj (cl p.1))) (fun _ => true) <;>
    rw [h1, h2] at key <;> exact key

theorem answer_relist (hcl : ∀ x, obj (σ (cl' x)) = obj (cl x))
    (hi : ∀ p, Clear obj dec (fun _ => True) (c.asf3 (obj p))) (s : St k m K) (req : Req k m K) (a : Ans K)
    (orc : Oracle k m K)
    (hu : ∀ cls lv num (z : Vec k K), a = .classify ⟨some cls, some lv, some num⟩ → lv.length = k →
      (∀ j : Fin k, lv[j.val]? = some (z j)) → Untied c obj dec cls z s.obj) :
    answer (relist c obj dec σ cl') s req a orc = answer c s req a orc := by
  unfold answer
  have e : validate (relist c obj dec σ cl') req a = validate c req a := rfl
  rw [e]
  cases hv : validate c req a with
  | error e => rfl
  | ok u =>
    unfold iterate
    cases hp : s.phase with
    | classify =>
      cases req <;> cases a <;> try rfl
      rename_i f r
      have hk : handleClassify (relist c obj dec σ cl') s r orc = handleClassify c s r orc := by
        obtain ⟨cls, lv, num⟩ := r
        cases cls <;> cases lv <;> cases num <;> try rfl
        rename_i cls lv num
        have hl : lv.length = k := by
          simp only [validate, validateClassify] at hv
          by_contra hne
          split at hv
          · cases hv
          · split at hv
            · cases hv
            · cases hv
        have := hu cls lv num (levelVec k lv) rfl hl fun j => by
          unfold levelVec
          rw [List.getElem?_eq_getElem (by rw [hl]; exact j.isLt)]
          rfl
        unfold handleClassify
        simp only
        rw [newSolutions_relist hd hσ s cls (levelVec k lv) num orc this]
      simp only [hk]
    | archive => rfl
    | intermediate =>
      cases req <;> cases a <;> try rfl
      rename_i sols objs r
      obtain ⟨idx, num⟩ := r
      cases idx <;> cases num <;> try rfl
      rename_i idx num
      have hk : handleInter (relist c obj dec σ cl') sols objs idx num orc = handleInter c sols objs idx num orc := by
        have hf : interSolve (relist c obj dec σ cl') orc = interSolve c orc :=
          funext fun p => interSolve_relist hd hσ hcl hi orc p
        unfold handleInter
        rw [hf]
        rfl
      simp only [hk]
    | preferred => rfl
    | ended => rfl

theorem replay_relist (hcl : ∀ x, obj (σ (cl' x)) = obj (cl x))
    (hi : ∀ p, Clear obj dec (fun _ => True) (c.asf3 (obj p))) (steps : List (Nat × Ans K × Oracle k m K))
    (hu : ∀ st ∈ steps, ∀ cls lv num (z : Vec k K), st.2.1 = .classify ⟨some cls, some lv, some num⟩ → lv.length = k →
      (∀ j : Fin k, lv[j.val]? = some (z j)) → ∀ p, Untied c obj dec cls z (obj p))
    {s : St k m K} {l : List (Req k m K)} (h : Reached c s l) :
    replay (relist c obj dec σ cl') s l steps = replay c s l steps := by
  induction steps generalizing s l with
  | nil => rfl
  | cons st rest ih =>
    obtain ⟨i, a, orc⟩ := st
    have ih' := fun {s l} => @ih (fun st hst => hu st (List.mem_cons_of_mem _ hst)) s l
    unfold replay
    cases hr : l[i]? with
    | none => exact ih' h
    | some req =>
      have hcur := h.inv.current
      simp only [Genuine, hd] at hcur
      obtain ⟨p, _, hp⟩ := hcur
      have e := answer_relist hd hσ hcl hi s req a orc fun cls lv num z ha hl hz => by
        rw [hp]
        exact hu _ List.mem_cons_self cls lv num z ha hl hz p
      simp only [e]
      rw [ih' (.step (a := a) (orc := orc) (s' := (answer c s req a orc).1) (o := (answer c s req a orc).2) h
        (List.mem_of_getElem? hr) rfl)]

end

/-! ### C168 -/

/-- The full claim: whatever the starting point and the responses, data that list the same rows in another order, or some
of them repeatedly, lead to the same results. -/
def RowOrderIrrelevant (c : Cfg k m K) {N : Nat} (obj : Fin N → Vec k K) (dec : Fin N → Vec m K)
    (cl : Option (Vec m K) → Fin N) : Prop :=
  ∀ (M : Nat) (σ : Fin M → Fin N) (cl' : Option (Vec m K) → Fin M), Function.Surjective σ →
    (∀ x, obj (σ (cl' x)) = obj (cl x)) → ∀ (sp : Option (List K)) (res : Task k m K → Option (Vec m K))
    (steps : List (Nat × Ans K × Oracle k m K)), use (relist c obj dec σ cl') sp res steps = use c sp res steps

/-- **C168**, for histories in which no two different rows have the same best scalarized value: the same rows listed in
another order, or some of them repeatedly, lead to the same requests and errors in the whole use of the method, whatever
the responses and the requests they are given to. Missing: ties, where the first row is taken (`C168_fails`). -/
theorem C168_rows_partial {c : Cfg k m K} {M N : Nat} {obj : Fin N → Vec k K} {dec : Fin N → Vec m K}
    {cl : Option (Vec m K) → Fin N} (hd : c.problem = .discrete N obj dec cl) {σ : Fin M → Fin N}
    (hσ : Function.Surjective σ) {cl' : Option (Vec m K) → Fin M} (hcl : ∀ x, obj (σ (cl' x)) = obj (cl x))
    (sp : Option (List K)) (res : Task k m K → Option (Vec m K)) (steps : List (Nat × Ans K × Oracle k m K))
    (hstart : ∀ z, StartsAt c sp z → Clear obj dec (fun _ => True) (c.asf3 z))
    (hi : ∀ p, Clear obj dec (fun _ => True) (c.asf3 (obj p)))
    (hu : ∀ st ∈ steps, ∀ cls lv num (z : Vec k K), st.2.1 = .classify ⟨some cls, some lv, some num⟩ → lv.length = k →
      (∀ j : Fin k, lv[j.val]? = some (z j)) → ∀ p, Untied c obj dec cls z (obj p)) :
    use (relist c obj dec σ cl') sp res steps = use c sp res steps := by
  unfold use
  rw [construct_relist hd hσ sp res hstart]
  cases hc : construct c sp res with
  | error e => rfl
  | ok s =>
    simp only
    rw [replay_relist hd hσ hcl hi steps hu (.init hc)]

/-! ### Examples -/

/-- The objective vectors of the example. -/
def exListed : Fin 4 → Vec 2 ℚ := ![![0, 4], ![1, 2], ![2, 3], ![4, 0]]

def exListCfg : Cfg 2 1 ℚ := pointed ![0, 0] ![4, 4] (.discrete 4 exListed exDec exClosest) (fun v => |v 0|) fun _ => true

/-- In reverse order, the second row twice. -/
def exRelist : Fin 5 → Fin 4 := ![3, 2, 1, 0, 1]

def exRelistClosest (x : Option (Vec 1 ℚ)) : Fin 5 :=
  match exClosest x with
  | 0 => 3
  | 1 => 4
  | 2 => 1
  | 3 => 0

theorem exRelist_closest (x : Option (Vec 1 ℚ)) : exListed (exRelist (exRelistClosest x)) = exListed (exClosest x) := by
  have h : ∀ i : Fin 4, exListed (exRelist (match i with | 0 => 3 | 1 => 4 | 2 => 1 | 3 => 0)) = exListed i := by
    decide +kernel
  exact h (exClosest x)

/-- Four new solutions, one saved, two solutions between the first two, all saved, go on with the second one. -/
def exListTalk : List (Nat × Ans ℚ × Oracle 2 1 ℚ) :=
  [(0, .classify ⟨some [.ge, .lt], some [4, 1], some 4⟩, exOracle), (0, .save (some [0]), exOracle),
   (0, .inter ⟨some [0, 1], some 2⟩, exOracle), (0, .save (some [0, 1]), exOracle),
   (0, .inter ⟨some [], some 0⟩, exOracle), (0, .preferred ⟨some (.int 1), some (.bool true)⟩, exOracle)]

theorem exTarget {cur z : Vec 2 ℚ} (h : Target exListCfg [.ge, .lt] ![4, 1] cur z) : z = ![4, 0] := by
  have h0 := (h 0).2.2.2.1 rfl
  have h1 := (h 1).1 rfl
  funext j
  match j with
  | 0 => exact h0
  | 1 => exact h1

theorem exUntied (p : Fin 4) : Untied exListCfg exListed exDec [.ge, .lt] ![4, 1] (exListed p) where
  first := fun _ _ _ _ => by
    change Clear exListed exDec (Permits [.ge, .lt] (exListed p) ![4, 1])
      (Navigator.pointAsf ![0, 0] ![4, 4] ![4, 1])
    revert p
    simp only [Clear, BestRow, ← cons1_permits]
    decide +kernel
  second := fun z hz => by
    rw [exTarget hz]
    simp only [Clear, BestRow]
    decide +kernel
  third := fun z hz => by
    rw [exTarget hz]
    simp only [Clear, BestRow]
    decide +kernel
  fourth := fun z _ hz _ => by
    rw [exTarget hz]
    change Clear exListed exDec (fun _ => True) (Navigator.pointAsf ![0, 0] ![4, 4] ![4, 0])
    simp only [Clear, BestRow]
    decide +kernel

example := C168_rows_partial (c := exListCfg) (obj := exListed) (dec := exDec) (cl := exClosest) rfl (σ := exRelist)
  (by unfold Function.Surjective; decide +kernel) exRelist_closest (some [1, 3]) exRes exListTalk
  (by
    intro z hz
    have e : z = ![1, 3] := by
      rcases hz with ⟨h, _⟩ | ⟨v, h, _⟩ | ⟨p, h, _, hp⟩
      · cases h
      · cases h
      · cases h
        funext j
        have := hp j
        match j with
        | 0 => exact (Option.some.inj this).symm
        | 1 => exact (Option.some.inj this).symm
    rw [e]
    simp only [Clear, BestRow]
    decide +kernel)
  (by
    simp only [Clear, BestRow]
    decide +kernel)
  (by
    intro st hst cls lv num z ha hl hz p
    simp only [exListTalk, List.mem_cons, List.not_mem_nil, or_false] at hst
    rcases hst with rfl | rfl | rfl | rfl | rfl | rfl <;> cases ha
    have e : z = ![4, 1] := by
      funext j
      have := hz j
      match j with
      | 0 => exact (Option.some.inj this).symm
      | 1 => exact (Option.some.inj this).symm
    rw [e]
    exact exUntied p)

/-- What is returned on the relisted example: seven requests, no error. -/
example : (use (relist exListCfg exListed exDec exRelist exRelistClosest) (some [1, 3]) exRes exListTalk).length = 7 ∧
    (use (relist exListCfg exListed exDec exRelist exRelistClosest) (some [1, 3]) exRes exListTalk).all
      (fun o => o matches .ok _) = true := by decide +kernel

/-- The data with the objective vectors (0, 1) and (1, 0). -/
def exTwo : Fin 2 → Vec 2 ℚ := ![![0, 1], ![1, 0]]

def exTwoDec : Fin 2 → Vec 1 ℚ := ![![0], ![1]]

def exTwoCfg : Cfg 2 1 ℚ := pointed ![0, 0] ![1, 1] (.discrete 2 exTwo exTwoDec fun _ => 0) (fun v => |v 0|) fun _ => true

/-- **C168 fails.** Both rows are equally good for the midpoint of ideal and nadir; the method starts at the one that is
listed first. -/
theorem C168_fails : ¬ RowOrderIrrelevant exTwoCfg exTwo exTwoDec fun _ => 0 := by
  intro h
  have h1 := h 2 ![1, 0] (fun _ => 1) (by unfold Function.Surjective; decide +kernel) (fun _ => rfl) none exRes []
  exact absurd h1 (ne_of_beq_false (by decide +kernel))

end Verif.Nimbus
