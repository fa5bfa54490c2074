import Verif.Nimbus.Props
import Mathlib.Algebra.Order.Floor.Ring
import Mathlib.Data.Rat.Floor

set_option linter.unusedSectionVars false

/-!
# NIMBUS: numbers of solutions that are not integers (C149), and whether the interaction can always be finished (C150)

The validators compare `number_of_solutions` and `number_of_desired_solutions` with numbers and do not check their type;
the handlers convert them with `int`. Here they are arbitrary floats.
-/

namespace Verif.Nimbus

variable {K : Type} [Field K] [LinearOrder K] [IsStrictOrderedRing K] {k m : Nat}

/-! ### C150 for integer numbers -/

/-- Specification: the decision maker, answering only the last request, can bring about a stop request with at most `n`
answers, whatever the minimizers return. -/
inductive CanFinish (c : Cfg k m K) : St k m K → Req k m K → Nat → Prop
  | done {s x f n} : CanFinish c s (.stop x f) n
  | step {s r n} (a : Ans K) (next : Oracle k m K → St k m K × Req k m K) :
      (∀ orc, answer c s r a orc = ((next orc).1, .ok (next orc).2)) →
      (∀ orc, CanFinish c (next orc).1 (next orc).2 n) → CanFinish c s r (n + 1)

/-- The request shows at least one solution, if it shows solutions at all. -/
def Req.Shows : Req k m K → Prop
  | .save sols objs => sols ≠ [] ∧ objs ≠ []
  | .inter sols objs => sols ≠ [] ∧ objs ≠ []
  | .preferred sols objs => sols ≠ [] ∧ objs ≠ []
  | _ => True

theorem unsaved_or_picked {α : Type} {l r : List α} {idx : List Int} (h : pick l idx = .ok r) (hl : l ≠ []) :
    r ++ unsaved l idx ≠ [] := by
  by_cases hi : idx = []
  · subst hi
    rw [unsaved_nil]
    simp [hl]
  · have := pick_length h
    intro h0
    have h1 : r = [] := (List.append_eq_nil_iff.1 h0).1
    rw [h1] at this
    exact hi (List.length_eq_zero_iff.1 this.symm)

theorem interPoints_length (nrm : Vec m K → K) (a b : Vec m K) (n : Nat) : (interPoints nrm a b n).length = n := by
  simp [interPoints]

theorem Reached.shows {c : Cfg k m K} {s : St k m K} {l : List (Req k m K)} (h : Reached c s l) :
    ∀ r ∈ l, r.Shows := by
  induction h with
  | init h => intro r hr; simp only [List.mem_singleton] at hr; subst hr; trivial
  | @step s s' l req a orc o hre hmem ha ih =>
    intro r hr
    rcases List.mem_append.1 hr with hr | hr
    · cases o with
      | error e => simp [issued] at hr
      | ok r' =>
        simp only [issued, List.mem_singleton] at hr
        subst hr
        have hq := ih req hmem
        cases answer_ok ha with
        | ended he => exact hq
        | @classify f cls lv num sl hp hv hn =>
          obtain ⟨_, _, num', he, _, _, h1, h4, _⟩ := validateClassify_ok hv
          simp only [ClassResp.mk.injEq, Option.some.injEq] at he
          obtain ⟨_, _, rfl⟩ := he
          have hl := newSolutions_length hn h4
          have : sl ≠ [] := by
            intro h0; rw [h0] at hl; simp at hl; omega
          exact ⟨by simpa using this, by simpa using this⟩
        | save hp hidx hx ho =>
          refine ⟨?_, ?_⟩
          · rw [List.append_assoc]; exact List.append_ne_nil_of_right_ne_nil _ (unsaved_or_picked hx hq.1)
          · rw [List.append_assoc]; exact List.append_ne_nil_of_right_ne_nil _ (unsaved_or_picked ho hq.2)
        | noInter hp => exact hq
        | @inter sols objs idx num x y rest sl hp hnum hidx hx hm =>
          have hl := mapE_length hm
          rw [List.length_zipIdx, interPoints_length] at hl
          have : sl ≠ [] := by
            intro h0; rw [h0] at hl; simp at hl; omega
          exact ⟨by simpa using this, by simpa using this⟩
        | «continue» hp _ _ => trivial
        | stop hp _ _ => trivial
    · exact ih r hr

/-! Answering the last request in the different phases. -/

theorem finish_preferred {c : Cfg k m K} {s : St k m K} {sols : List (Vec m K)} {objs : List (Vec k K)}
    (hp : s.phase = .preferred) (h1 : sols ≠ []) (h2 : objs ≠ []) : CanFinish c s (.preferred sols objs) 1 := by
  cases sols with
  | nil => exact absurd rfl h1
  | cons x xs =>
    cases objs with
    | nil => exact absurd rfl h2
    | cons f fs =>
      refine .step (.preferred ⟨some (.int 0), some (.bool false)⟩)
        (fun _ => ({ s with sol := x, obj := f, phase := .ended }, .stop x f)) (fun orc => ?_) fun _ => .done
      have hv : validate c (.preferred (x :: xs) (f :: fs)) (.preferred ⟨some (.int 0), some (.bool false)⟩) = .ok () := by
        simp [validate, validatePreferred, PyVal.typeIsInt, PyVal.asInt]
      unfold answer
      rw [hv]
      simp only [iterate, hp, handlePreferred, PyVal.asInt]
      rfl

theorem finish_inter {c : Cfg k m K} {s : St k m K} {sols : List (Vec m K)} {objs : List (Vec k K)}
    (hp : s.phase = .intermediate) (h1 : sols ≠ []) (h2 : objs ≠ []) : CanFinish c s (.inter sols objs) 2 := by
  refine .step (.inter ⟨some [], some 0⟩) (fun _ => ({ s with phase := .preferred }, .preferred sols objs)) (fun orc => ?_)
    fun _ => finish_preferred rfl h1 h2
  have hv : validate c (.inter sols objs) (.inter ⟨some [], some 0⟩) = .ok () := by simp [validate, validateInter]
  unfold answer
  rw [hv]
  simp only [iterate, hp, handleInter]
  rfl

theorem finish_save {c : Cfg k m K} {s : St k m K} {sols : List (Vec m K)} {objs : List (Vec k K)}
    (hp : s.phase = .archive) (h1 : sols ≠ []) (h2 : objs ≠ []) : CanFinish c s (.save sols objs) 3 := by
  refine .step (.save (some [])) (fun _ => ({ s with phase := .intermediate },
      .inter (s.archSols ++ sols) (s.archObjs ++ objs))) (fun orc => ?_)
    fun _ => finish_inter rfl (List.append_ne_nil_of_right_ne_nil _ h1) (List.append_ne_nil_of_right_ne_nil _ h2)
  have hv : validate c (.save sols objs) (.save (some [])) = .ok () := by simp [validate, validateSave]
  unfold answer
  rw [hv]
  simp only [iterate, hp, handleSave, unsaved_nil]
  rfl

theorem checkLevels_none (c : Cfg k m K) (x : Cls) (lv : List K) {cls : List Cls} (h : inds cls x = []) :
    checkLevels c cls x lv = .ok () := by
  unfold checkLevels
  simp [h]

theorem inds_replicate_free (n : Nat) {x : Cls} (h : x ≠ .free) : inds (List.replicate n .free) x = [] := by
  rw [List.eq_nil_iff_forall_not_mem]
  intro p hp
  rw [mem_inds, List.getElem?_replicate] at hp
  split at hp
  · exact h (Option.some.inj hp).symm
  · cases hp

theorem newSolutions_free {c : Cfg k m K} {s : St k m K} (hcur : Genuine c s.sol s.obj) (lv : Vec k K) (orc : Oracle k m K) :
    ∃ l, newSolutions c s (List.replicate k .free) lv 1 orc = .ok l ∧ l ≠ [] := by
  have h : ∃ l, newSolutions c s (List.replicate k .free) lv 1 orc = .ok l := by
    unfold newSolutions
    rw [if_neg, if_neg (by simp)]
    · apply mapE_exists
      intro p hp
      cases hc : c.problem with
      | mo ev => exact ⟨_, by simp only [solveOne, hc]; rfl⟩
      | discrete N obj dec closest =>
        have hp' : p.1 = (lv, c.asf1 (inds (List.replicate k .free) .lt) (inds (List.replicate k .free) .le) lv,
            cons1 (List.replicate k .free) s.obj lv) := by
          simpa [problems] using congrArg Prod.fst (show p = _ by simpa [problems] using hp)
        simp only [solveOne, hc, hp']
        simp only [Genuine, hc] at hcur
        obtain ⟨i, _, _⟩ := hcur
        obtain ⟨x, hx⟩ := discreteMin_exists (obj := obj)
          (asf := c.asf1 (inds (List.replicate k .free) .lt) (inds (List.replicate k .free) .le) lv)
          (fe := cons1 (List.replicate k .free) s.obj lv) (i := i) (by
            unfold cons1
            rw [List.all_eq_true]
            intro j _
            rw [List.getElem?_replicate, if_pos j.isLt])
        rw [hx]
        exact ⟨_, rfl⟩
    · rw [List.any_eq_true]
      rintro ⟨p, hp, h2⟩
      simp only [List.length_replicate, List.mem_range] at hp
      simp only [decide_eq_true_eq] at h2
      omega
  obtain ⟨l, hl⟩ := h
  refine ⟨l, hl, ?_⟩
  have := newSolutions_length hl (by decide)
  intro h0
  rw [h0] at this
  simp at this

theorem finish_classify {c : Cfg k m K} {s : St k m K} {f : Vec k K} (hk : k ≠ 1) (hp : s.phase = .classify)
    (hcur : Genuine c s.sol s.obj) : CanFinish c s (.classify f) 4 := by
  have hv : validate c (.classify f) (.classify ⟨some (List.replicate k .free), some (List.replicate k 0), some 1⟩) =
      .ok () := by
    simp only [validate, validateClassify]
    rw [if_neg (by simp), if_neg (by simpa using hk), if_neg (by simp), checkLevels_none c .le _ (inds_replicate_free k (by decide)),
      checkLevels_none c .ge _ (inds_replicate_free k (by decide))]
    simp
  choose l hl hne using fun orc => newSolutions_free (c := c) hcur (levelVec k (List.replicate k 0)) orc
  refine .step (.classify ⟨some (List.replicate k .free), some (List.replicate k 0), some 1⟩)
    (fun orc => ({ s with phase := .archive }, .save ((l orc).map (·.1)) ((l orc).map (·.2)))) (fun orc => ?_) fun orc =>
    finish_save rfl (by simpa using hne orc) (by simpa using hne orc)
  unfold answer
  rw [hv]
  simp only [iterate, hp, handleClassify, hl]
  rfl

/-- **C150**, for responses with integer numbers of solutions (the others are missing, see `C150_fails`): in every history
in which no stop request was issued yet, the decision maker can bring about a stop request by at most four answers to the
last request, whatever the minimizers return. (With one objective no classification is accepted, see C30.) -/
theorem C150_can_finish_partial (hk : k ≠ 1) {c : Cfg k m K} {s : St k m K} {r : Req k m K} {l : List (Req k m K)}
    (h : Reached c s (r :: l)) (hne : s.phase ≠ .ended) : CanFinish c s r 4 := by
  have hI := h.inv
  have hph := hI.phase r l rfl hne
  have hs := h.shows r List.mem_cons_self
  have up : ∀ {s : St k m K} {r : Req k m K} {n n'}, CanFinish c s r n → n ≤ n' → CanFinish c s r n' := by
    intro s r n n' hc
    induction hc generalizing n' with
    | done => intro _; exact .done
    | step a next h1 _ ih =>
      intro hle
      obtain ⟨n'', rfl⟩ : ∃ n'', n' = n'' + 1 := ⟨n' - 1, by omega⟩
      exact .step a next h1 fun orc => ih orc (by omega)
  cases r with
  | classify f => exact finish_classify hk hph hI.current
  | save sols objs => exact up (finish_save hph hs.1 hs.2) (by omega)
  | inter sols objs => exact up (finish_inter hph hs.1 hs.2) (by omega)
  | preferred sols objs => exact up (finish_preferred hph hs.1 hs.2) (by omega)
  | stop x f => exact .done

/-- C150 applies: the session of the example in the middle of the intermediate solutions. -/
example := C150_can_finish_partial (by decide) ex_reached3 (by decide +kernel)

/-! ### The model with floats as numbers of solutions -/

/-- `x > a` for a float `x`. -/
def above (x : Fl K) (a : K) : Bool :=
  match x with
  | .num y => decide (a < y)
  | .pinf => true
  | _ => false

/-- `x < a` for a float `x`. -/
def below (x : Fl K) (a : K) : Bool :=
  match x with
  | .num y => decide (y < a)
  | .ninf => true
  | _ => false

/-- `x == 0` for a float `x`. -/
def isZero (x : Fl K) : Bool :=
  match x with
  | .num y => decide (y = 0)
  | _ => false

variable [FloorRing K]

/-- Python's `int(x)` for a float (NIMBUS.py:519, 568): towards zero; NaN raises `ValueError`, infinities `OverflowError`
(the model does not tell these two apart). -/
def pyInt (x : Fl K) : Except Err Int :=
  match x with
  | .num y => .ok (if 0 ≤ y then ⌊y⌋ else ⌈y⌉)
  | _ => .error .valueError

/-- A response; the numbers of solutions are floats. -/
inductive AnsN (K : Type)
  | classify (classifications : Option (List Cls)) (levels : Option (List K)) (number : Option (Fl K))
  | save (indices : Option (List Int))
  | inter (indices : Option (List Int)) (number : Option (Fl K))
  | preferred (r : PrefResp)
  | none

omit [IsStrictOrderedRing K] [FloorRing K] in
/-- NIMBUS.py:59-120. -/
def validateClassifyN (c : Cfg k m K) (classifications : Option (List Cls)) (levels : Option (List K))
    (number : Option (Fl K)) : Except Err Unit :=
  match classifications, levels, number with
  | some cls, some lv, some num =>
    if cls.any (fun x => decide (x = .other)) then .error .refused
    else if lv.length = 1 then .error .typeError
    else if lv.length ≠ k then .error .refused
    else match checkLevels c cls .le lv with
      | .error e => .error e
      | .ok _ =>
        match checkLevels c cls .ge lv with
        | .error e => .error e
        | .ok _ => if above num 4 || below num 1 then .error .refused else .ok ()
  | _, _, _ => .error .refused

omit [IsStrictOrderedRing K] [FloorRing K] in
/-- NIMBUS.py:220-253. -/
def validateInterN (n : Nat) (indices : Option (List Int)) (number : Option (Fl K)) : Except Err Unit :=
  match indices, number with
  | some idx, some num =>
    if below num 0 then .error .refused
    else if 0 < idx.length ∧ isZero num then .error .refused
    else if idx.length = 0 ∧ above num 0 then .error .refused
    else if idx.length = 0 then .ok ()
    else if idx.any (fun i => decide ((n : Int) ≤ i)) || idx.any (fun i => decide (i < 0)) then
      .error .refused
    else .ok ()
  | _, _ => .error .refused

omit [IsStrictOrderedRing K] [FloorRing K] in
/-- The validator called when the response is set. -/
def validateN (c : Cfg k m K) (req : Req k m K) (a : AnsN K) : Except Err Unit :=
  match req, a with
  | .classify _, .classify cls lv num => validateClassifyN c cls lv num
  | .save _ objs, .save idx => validateSave objs.length idx
  | .inter _ objs, .inter idx num => validateInterN objs.length idx num
  | .preferred _ objs, .preferred r => validatePreferred objs.length r
  | .stop .., .none => .ok ()
  | _, _ => .error .refused

omit [IsStrictOrderedRing K] in
/-- NIMBUS.py:494-526: `int` is evaluated before anything else happens. -/
def handleClassifyN (c : Cfg k m K) (s : St k m K) (cls : List Cls) (lv : List K) (num : Fl K) (orc : Oracle k m K) :
    Except Err (Req k m K) :=
  match pyInt num with
  | .error e => .error e
  | .ok n => handleClassify c s ⟨some cls, some lv, some n⟩ orc

omit [IsStrictOrderedRing K] in
/-- NIMBUS.py:548-573. With nothing to choose from, the plot of the solutions raises `ValueError` (638: `pd.DataFrame` of an
empty one-dimensional array with named columns). -/
def handleInterN (c : Cfg k m K) (sols : List (Vec m K)) (objs : List (Vec k K)) (idx : List Int) (num : Fl K)
    (orc : Oracle k m K) : Except Err (Req k m K) :=
  if 0 < idx.length then
    match pick sols idx with
    | .error e => .error e
    | .ok _ =>
      match pyInt num with
      | .error e => .error e
      | .ok n => handleInter c sols objs idx n orc
  else if objs = [] then .error .valueError
  else .ok (.preferred sols objs)

omit [IsStrictOrderedRing K] in
/-- NIMBUS.py:980-1059. -/
def iterateN (c : Cfg k m K) (s : St k m K) (req : Req k m K) (a : AnsN K) (orc : Oracle k m K) :
    St k m K × Except Err (Req k m K) :=
  match s.phase with
  | .classify =>
    match req, a with
    | .classify _, .classify (some cls) (some lv) (some num) =>
      (enter s (handleClassifyN c s cls lv num orc) .archive, handleClassifyN c s cls lv num orc)
    | _, _ => (s, .error .refused)
  | .archive =>
    match req, a with
    | .save sols objs, .save (some idx) =>
      (enter (handleSave s sols objs idx).1 (handleSave s sols objs idx).2 .intermediate, (handleSave s sols objs idx).2)
    | _, _ => (s, .error .refused)
  | .intermediate =>
    match req, a with
    | .inter sols objs, .inter (some idx) (some num) =>
      (enterAfter s (handleInterN c sols objs idx num orc), handleInterN c sols objs idx num orc)
    | _, _ => (s, .error .refused)
  | .preferred =>
    match req, a with
    | .preferred sols objs, .preferred ⟨some i, some b⟩ =>
      (enterAfter (handlePreferred s sols objs i.asInt (decide (b = .bool true))).1
        (handlePreferred s sols objs i.asInt (decide (b = .bool true))).2,
        (handlePreferred s sols objs i.asInt (decide (b = .bool true))).2)
    | _, _ => (s, .error .refused)
  | .ended => (s, .ok req)

omit [IsStrictOrderedRing K] in
/-- Setting the response of a request, then calling `iterate`. -/
def answerN (c : Cfg k m K) (s : St k m K) (req : Req k m K) (a : AnsN K) (orc : Oracle k m K) :
    St k m K × Except Err (Req k m K) :=
  match validateN c req a with
  | .error e => (s, .error e)
  | .ok _ => iterateN c s req a orc

/-! ### With integers it is the model of `Nimbus.Model` -/

/-- The same response with a float that is an integer. -/
def withFloats : Ans K → AnsN K
  | .classify r => .classify r.classifications r.levels (r.number.map fun n : Int => Fl.num (n : K))
  | .save idx => .save idx
  | .inter r => .inter r.indices (r.number.map fun n : Int => Fl.num (n : K))
  | .preferred r => .preferred r
  | .none => .none

theorem pyInt_int (n : Int) : pyInt (.num (n : K) : Fl K) = .ok n := by
  unfold pyInt
  by_cases h : 0 ≤ (n : K)
  · simp [h]
  · simp [h]

theorem validateN_int (c : Cfg k m K) (req : Req k m K) (a : Ans K) : validateN c req (withFloats a) = validate c req a := by
  cases req <;> cases a <;> try rfl
  · rename_i r
    obtain ⟨cls, lv, num⟩ := r
    cases cls <;> cases lv <;> cases num <;> try rfl
    rename_i cls lv num
    have h4 : above (.num (num : K) : Fl K) 4 = decide (num > 4) := by
      unfold above
      exact decide_eq_decide.2 (by rw [gt_iff_lt]; exact_mod_cast Iff.rfl)
    have h1 : below (.num (num : K) : Fl K) 1 = decide (num < 1) := by
      unfold below
      exact decide_eq_decide.2 (by exact_mod_cast Iff.rfl)
    simp only [withFloats, Option.map_some, validateN, validate, validateClassifyN, validateClassify, h4, h1,
      Bool.or_eq_true, decide_eq_true_eq]
    rfl
  · rename_i r
    obtain ⟨idx, num⟩ := r
    cases idx <;> cases num <;> try rfl
    rename_i idx num
    have h1 : below (.num (num : K) : Fl K) 0 = decide (num < 0) := by
      unfold below
      exact decide_eq_decide.2 (by exact_mod_cast Iff.rfl)
    have h2 : isZero (.num (num : K) : Fl K) = decide (num = 0) := by
      unfold isZero
      exact decide_eq_decide.2 (by exact_mod_cast Iff.rfl)
    have h3 : above (.num (num : K) : Fl K) 0 = decide (0 < num) := by
      unfold above
      exact decide_eq_decide.2 (by exact_mod_cast Iff.rfl)
    simp only [withFloats, Option.map_some, validateN, validate, validateInterN, validateInter, h1, h2, h3,
      decide_eq_true_eq]

/-- **C149**, integers: a response whose numbers of solutions are floats without fractional part (or `True`) has the same
effect as with the integer, in every state; so all theorems about integers apply. (Requests that show nothing do not occur
with integers, `Reached.shows`.) -/
theorem C149_integers_partial (c : Cfg k m K) (s : St k m K) {req : Req k m K} (hs : req.Shows) (a : Ans K) (orc : Oracle k m K) :
    answerN c s req (withFloats a) orc = answer c s req a orc := by
  unfold answerN answer
  rw [validateN_int]
  cases hv : validate c req a with
  | error e => rfl
  | ok u =>
    simp only
    unfold iterateN iterate
    cases s.phase <;> simp only
    · cases req <;> cases a <;> try rfl
      rename_i r
      obtain ⟨cls, lv, num⟩ := r
      cases cls <;> cases lv <;> cases num <;> simp only [validate, validateClassify, reduceCtorEq] at hv
      simp only [withFloats, Option.map_some, handleClassifyN, pyInt_int]
    · cases req <;> cases a <;> try rfl
      rename_i o
      cases o <;> rfl
    · cases req <;> cases a <;> try rfl
      rename_i sols objs r
      obtain ⟨idx, num⟩ := r
      cases idx <;> cases num <;> try rfl
      rename_i idx num
      have h : handleInterN c sols objs idx (.num (num : K)) orc = handleInter c sols objs idx num orc := by
        unfold handleInterN
        rw [pyInt_int]
        unfold handleInter
        by_cases h : 0 < idx.length
        · rw [if_pos h, if_pos h]
          cases pick sols idx with
          | error e => rfl
          | ok l => simp only [if_pos h]
        · rw [if_neg h, if_neg h, if_neg hs.2]
      simp only [withFloats, Option.map_some, h]
    · cases req <;> cases a <;> try rfl
      rename_i r
      obtain ⟨i, b⟩ := r
      cases i <;> cases b <;> rfl

/-- C149 applies: a classification with `3.0`. -/
example := C149_integers_partial exCfg exS0 (req := exR0) trivial exA0 exOrc

/-! ### C149 -/

theorem validateClassifyN_ok {c : Cfg k m K} {cls : List Cls} {lv : List K} {num : Fl K}
    (h : validateClassifyN c (some cls) (some lv) (some num) = .ok ()) : above num 4 = false ∧ below num 1 = false := by
  unfold validateClassifyN at h
  simp only at h
  split at h
  · simp at h
  · split at h
    · simp at h
    · split at h
      · simp at h
      · split at h
        · simp at h
        · split at h
          · simp at h
          · split at h
            · simp at h
            · rename_i hn
              simpa using hn

/-- **C149**, new solutions: if a classification is answered with new solutions, then the number asked for was a number
between 1 and 4 - infinities, negative numbers and numbers above 4 never yield solutions -, and as many solutions are shown
as its integral part says. Missing: fractional numbers and NaN are accepted by the request, see `C149_fails`. -/
theorem C149_classification_partial {c : Cfg k m K} {s s' : St k m K} (hp : s.phase ≠ .ended) {f : Vec k K}
    {cls : List Cls} {lv : List K} {num : Fl K} {orc : Oracle k m K} {r : Req k m K}
    (h : answerN c s (.classify f) (.classify (some cls) (some lv) (some num)) orc = (s', .ok r)) :
    ∃ x : K, num = .num x ∧ 1 ≤ x ∧ x ≤ 4 ∧ ∃ sols objs, r = .save sols objs ∧ (sols.length : Int) = ⌊x⌋ ∧
      (objs.length : Int) = ⌊x⌋ := by
  unfold answerN at h
  cases hv : validateN c (.classify f) (.classify (some cls) (some lv) (some num)) with
  | error e => rw [hv] at h; cases (Prod.mk.inj h).2
  | ok u =>
    rw [hv] at h
    simp only [iterateN] at h
    have hb := validateClassifyN_ok hv
    cases hph : s.phase <;> simp only [hph] at h
    case ended => exact absurd hph hp
    case classify =>
      have h := (Prod.mk.inj h).2
      unfold handleClassifyN at h
      cases num with
      | nan => cases h
      | pinf => cases h
      | ninf => cases h
      | num x =>
        simp only [above, below, decide_eq_false_iff_not, not_lt] at hb
        refine ⟨x, rfl, hb.2, hb.1, ?_⟩
        have h0 : (0 : K) ≤ x := le_trans zero_le_one hb.2
        simp only [pyInt, if_pos h0, handleClassify] at h
        cases hn : newSolutions c s cls (levelVec k lv) ⌊x⌋ orc with
        | error e => rw [hn] at h; cases h
        | ok l =>
          rw [hn] at h
          have h4 : ⌊x⌋ ≤ 4 := by
            have := Int.floor_le_floor hb.1
            simpa using this
          have h1 : 0 ≤ ⌊x⌋ := Int.floor_nonneg.2 h0
          have hl := newSolutions_length hn h4
          refine ⟨_, _, (Except.ok.inj h).symm, ?_, ?_⟩ <;> simp [hl] <;> omega
    all_goals exact absurd (Prod.mk.inj h).2 (by simp)

theorem validateInterN_ok {n : Nat} {idx : List Int} (hi : idx ≠ []) {num : Fl K}
    (h : validateInterN n (some idx) (some num) = .ok ()) : below num 0 = false ∧ isZero num = false := by
  have hl : 0 < idx.length := List.length_pos_iff.2 hi
  unfold validateInterN at h
  simp only at h
  split at h
  · simp at h
  · rename_i h1
    split at h
    · simp at h
    · rename_i h2
      exact ⟨by simpa using h1, by simpa [hl] using h2⟩

/-- **C149**, intermediate solutions: if two solutions were chosen and solutions between them are shown, the number asked
for was positive and finite, and as many are shown as its integral part says. Missing: this may be none at all, see
`C149_fails`. -/
theorem C149_intermediate_partial {c : Cfg k m K} {s s' : St k m K} (hp : s.phase ≠ .ended) {sols : List (Vec m K)}
    {objs : List (Vec k K)} {idx : List Int} (hi : idx ≠ []) {num : Fl K} {orc : Oracle k m K} {r : Req k m K}
    (h : answerN c s (.inter sols objs) (.inter (some idx) (some num)) orc = (s', .ok r)) :
    ∃ x : K, num = .num x ∧ 0 < x ∧ ∃ sols' objs', r = .save sols' objs' ∧ (sols'.length : Int) = ⌊x⌋ ∧
      (objs'.length : Int) = ⌊x⌋ := by
  have hl : 0 < idx.length := List.length_pos_iff.2 hi
  unfold answerN at h
  cases hv : validateN c (.inter sols objs) (.inter (some idx) (some num)) with
  | error e => rw [hv] at h; cases (Prod.mk.inj h).2
  | ok u =>
    rw [hv] at h
    simp only [iterateN] at h
    have hb := validateInterN_ok hi hv
    cases hph : s.phase <;> simp only [hph] at h
    case ended => exact absurd hph hp
    case intermediate =>
      have h := (Prod.mk.inj h).2
      unfold handleInterN at h
      rw [if_pos hl] at h
      cases hx : pick sols idx with
      | error e => rw [hx] at h; cases h
      | ok xs =>
        rw [hx] at h
        simp only at h
        cases num with
        | nan => cases h
        | pinf => cases h
        | ninf => cases h
        | num x =>
          simp only [below, isZero, decide_eq_false_iff_not, not_lt] at hb
          have h0 : 0 < x := lt_of_le_of_ne hb.1 (Ne.symm hb.2)
          refine ⟨x, rfl, h0, ?_⟩
          simp only [pyInt, if_pos h0.le, handleInter, if_pos hl, hx] at h
          have h1 : 0 ≤ ⌊x⌋ := Int.floor_nonneg.2 h0.le
          rcases xs with _ | ⟨a, _ | ⟨b, rest⟩⟩
          · cases h
          · cases h
          · simp only at h
            cases hm : mapE (interSolve c orc) (interPoints c.nrm a b ⌊x⌋.toNat).zipIdx with
            | error e => rw [hm] at h; cases h
            | ok l =>
              rw [hm] at h
              have hl := mapE_length hm
              rw [List.length_zipIdx, interPoints_length] at hl
              refine ⟨_, _, (Except.ok.inj h).symm, ?_, ?_⟩ <;> simp [hl] <;> omega
    all_goals exact absurd (Prod.mk.inj h).2 (by simp)

/-- The state and the request after asking for two solutions and saving none. -/
def nbS : St 2 1 ℚ := { exS0 with phase := .intermediate }
def nbR : Req 2 1 ℚ := .inter [![0], ![1]] [![0, 4], ![1, 2]]

/-- **C149 fails**: a classification that asks for 2.7 solutions is accepted and answered with two; one that asks for NaN
solutions is accepted, and `iterate` raises `ValueError`; half a solution between two solutions is accepted and answered with
a request that shows no solution. -/
theorem C149_fails :
    answerN exCfg exS0 exR0 (.classify (some [.le, .ge]) (some [0, 4]) (some (.num (27 / 10)))) exOrc =
      ({ exS0 with phase := .archive }, .ok (.save [![0], ![1]] [![0, 4], ![1, 2]])) ∧
    validateN exCfg exR0 (.classify (some [.le, .ge]) (some [0, 4]) (some .nan)) = .ok () ∧
    answerN exCfg exS0 exR0 (.classify (some [.le, .ge]) (some [0, 4]) (some .nan)) exOrc = (exS0, .error .valueError) ∧
    answerN exCfg { exS0 with phase := .archive } (.save [![0], ![1]] [![0, 4], ![1, 2]]) (.save (some [])) exOrc =
      (nbS, .ok nbR) ∧
    answerN exCfg nbS nbR (.inter (some [0, 1]) (some (.num (1 / 2)))) exOrc =
      ({ nbS with phase := .archive }, .ok (.save [] [])) := by
  refine ⟨eq_of_beq (by decide +kernel), by decide +kernel, eq_of_beq (by decide +kernel), eq_of_beq (by decide +kernel),
    eq_of_beq (by decide +kernel)⟩

/-- C149 applies to this. -/
example := C149_classification_partial (by decide) C149_fails.1
example := C149_intermediate_partial (by decide) (by decide) C149_fails.2.2.2.2

/-! ### C150 -/

/-- Specification: the decision maker answers the last request again and again, with any responses; a response that raises
leaves the last request. -/
inductive Talk (c : Cfg k m K) : St k m K → Req k m K → St k m K → Req k m K → Prop
  | refl {s r} : Talk c s r s r
  | ok {s r s1 r1 s2 r2} {a : AnsN K} {orc : Oracle k m K} : Talk c s r s1 r1 → answerN c s1 r1 a orc = (s2, .ok r2) →
      Talk c s r s2 r2
  | raise {s r s1 r1 s2} {a : AnsN K} {orc : Oracle k m K} {e : Err} : Talk c s r s1 r1 →
      answerN c s1 r1 a orc = (s2, .error e) → Talk c s r s2 r1

/-- Nothing saved and nothing shown. -/
theorem answerN_empty {c : Cfg k m K} {s s' : St k m K} {r : Req k m K} {a : AnsN K} {orc : Oracle k m K}
    {o : Except Err (Req k m K)} (h1 : s.archSols = []) (h2 : s.archObjs = [])
    (hr : (r = .save [] [] ∧ s.phase = .archive) ∨ (r = .inter [] [] ∧ s.phase = .intermediate))
    (h : answerN c s r a orc = (s', o)) :
    s'.archSols = [] ∧ s'.archObjs = [] ∧
      ((∃ e, o = .error e ∧ s' = s) ∨ (o = .ok (.inter [] []) ∧ s'.phase = .intermediate)) := by
  unfold answerN at h
  cases hv : validateN c r a with
  | error e =>
    rw [hv] at h
    obtain ⟨rfl, rfl⟩ := Prod.mk.inj h
    exact ⟨h1, h2, .inl ⟨_, rfl, rfl⟩⟩
  | ok u =>
    rw [hv] at h
    simp only at h
    unfold iterateN at h
    rcases hr with ⟨rfl, hp⟩ | ⟨rfl, hp⟩
    · simp only [hp] at h
      cases a <;> simp only [validateN, reduceCtorEq] at hv
      rename_i idx
      obtain ⟨l, rfl, hl⟩ := validateSave_ok hv
      have : l = [] := by
        rw [List.eq_nil_iff_forall_not_mem]
        intro i hi
        have := hl i hi
        simp only [List.length_nil] at this
        omega
      subst this
      simp only [handleSave, List.length_nil, if_true, unsaved_nil, List.append_nil, h1, h2, enter] at h
      obtain ⟨rfl, rfl⟩ := Prod.mk.inj h
      exact ⟨rfl, rfl, .inr ⟨rfl, rfl⟩⟩
    · simp only [hp] at h
      cases a <;> simp only [validateN, reduceCtorEq] at hv
      rename_i idx num
      cases idx with
      | none => simp only [validateInterN, reduceCtorEq] at hv
      | some idx =>
        cases num with
        | none => simp only [validateInterN, reduceCtorEq] at hv
        | some num =>
          have : idx = [] := by
            by_contra hi
            have hl : 0 < idx.length := List.length_pos_iff.2 hi
            unfold validateInterN at hv
            simp only [List.length_nil] at hv
            split at hv
            · simp at hv
            · split at hv
              · simp at hv
              · split at hv
                · simp at hv
                · rw [if_neg (by omega)] at hv
                  split at hv
                  · simp at hv
                  · rename_i hh
                    obtain ⟨i, hi'⟩ := List.exists_mem_of_ne_nil _ hi
                    simp only [Bool.or_eq_true, List.any_eq_true, decide_eq_true_eq, not_or, not_exists, not_and] at hh
                    have a1 := hh.1 i hi'
                    have a2 := hh.2 i hi'
                    simp only [Nat.cast_zero] at a1
                    omega
          subst this
          simp only [handleInterN, List.length_nil, lt_irrefl, if_false, if_true, enterAfter] at h
          obtain ⟨rfl, rfl⟩ := Prod.mk.inj h
          exact ⟨h1, h2, .inl ⟨_, rfl, rfl⟩⟩

/-- Once a request shows nothing and nothing is saved, only such requests follow. -/
theorem talk_empty {c : Cfg k m K} {s s' : St k m K} {r' : Req k m K} (h1 : s.archSols = []) (h2 : s.archObjs = [])
    (hp : s.phase = .archive) (h : Talk c s (.save [] []) s' r') : r' = .save [] [] ∨ r' = .inter [] [] := by
  have key : ∀ {s0 r0 s' r'}, Talk c s0 r0 s' r' → s0 = s → r0 = .save [] [] → s'.archSols = [] ∧ s'.archObjs = [] ∧
      ((r' = .save [] [] ∧ s'.phase = .archive) ∨ (r' = .inter [] [] ∧ s'.phase = .intermediate)) := by
    intro s0 r0 s' r' h
    induction h with
    | refl => rintro rfl rfl; exact ⟨h1, h2, .inl ⟨rfl, hp⟩⟩
    | ok _ ha ih =>
      intro e1 e2
      obtain ⟨g1, g2, g3⟩ := ih e1 e2
      obtain ⟨f1, f2, f3⟩ := answerN_empty g1 g2 g3 ha
      rcases f3 with ⟨e, he, _⟩ | ⟨he, hq⟩
      · cases he
      · exact ⟨f1, f2, .inr ⟨Except.ok.inj he, hq⟩⟩
    | raise _ ha ih =>
      intro e1 e2
      obtain ⟨g1, g2, g3⟩ := ih e1 e2
      obtain ⟨f1, f2, f3⟩ := answerN_empty g1 g2 g3 ha
      rcases f3 with ⟨e, he, hs⟩ | ⟨he, _⟩
      · rw [hs]; exact ⟨g1, g2, g3⟩
      · cases he
  rcases (key h rfl rfl).2.2 with ⟨e, _⟩ | ⟨e, _⟩
  · exact .inl e
  · exact .inr e

/-- **C150 fails**: after the session of `C149_fails`, which started as usual, every response to the last request (and to the
ones that follow) raises or leads to another request that shows nothing: the decision maker never gets to choose a preferred
solution, to classify again or to stop. -/
theorem C150_fails :
    construct exCfg none (fun _ => none) = .ok exS0 ∧
    Talk exCfg exS0 (Nimbus.start exS0) { nbS with phase := .archive } (.save [] []) ∧
    ∀ s' r', Talk exCfg { nbS with phase := .archive } (.save [] []) s' r' → r' = .save [] [] ∨ r' = .inter [] [] := by
  refine ⟨ex_construct, ?_, fun s' r' h => talk_empty rfl rfl rfl h⟩
  exact .ok (.ok (.ok .refl C149_fails.1) C149_fails.2.2.2.1) C149_fails.2.2.2.2

end Verif.Nimbus
