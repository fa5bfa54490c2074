import Verif.Nimbus.Props4
import Verif.Navigator.Units

/-!
# NIMBUS: the order, origins and units of the objectives (C138, C139)
-/

set_option linter.unusedSectionVars false

namespace Verif.Nimbus

open Verif.Navigator (Recast reorder shift rescale)

variable {K : Type} [Field K] [LinearOrder K] [IsStrictOrderedRing K] {k m : Nat}

/-! ### Specification: the same things, presented anew -/

/-- The same problem: its objective vectors are converted. -/
def convProblem (u : Recast k K) : Problem k m K → Problem k m K
  | .mo ev => .mo fun x => u.conv (ev x)
  | .discrete N obj dec cl => .discrete N (fun i => u.conv (obj i)) dec cl

/-- The same request. -/
def convReq (u : Recast k K) : Req k m K → Req k m K
  | .classify f => .classify (u.conv f)
  | .save xs fs => .save xs (fs.map u.conv)
  | .inter xs fs => .inter xs (fs.map u.conv)
  | .preferred xs fs => .preferred xs (fs.map u.conv)
  | .stop x f => .stop x (u.conv f)

/-- A list with one class per objective, in the new order (other lists are unchanged). -/
def convClasses (u : Recast k K) (l : List Cls) : List Cls :=
  if l.length = k then List.ofFn fun j => (l[(u.perm j).val]?).getD .other else l

/-- A list with one number per objective, converted (other lists are unchanged). -/
def convNumbers (u : Recast k K) (l : List K) : List K :=
  if l.length = k then List.ofFn fun j => u.scale j * (l[(u.perm j).val]?).getD 0 + u.origin j else l

/-- The same response: classes and levels are given for the objectives as they are listed now. -/
def convAns (u : Recast k K) : Ans K → Ans K
  | .classify r => .classify ⟨r.classifications.map (convClasses u), r.levels.map (convNumbers u), r.number⟩
  | a => a

/-- What is presented to the decision maker is the same up to the presentation: `c'` is the method `c` for the
converted problem, ideal and nadir. Its scalarizing functions may be others. -/
structure SameProblem (u : Recast k K) (c c' : Cfg k m K) : Prop where
  ideal : c'.ideal = u.conv c.ideal
  nadir : c'.nadir = u.conv c.nadir
  problem : c'.problem = convProblem u c.problem
  nrm : c'.nrm = c.nrm
  feasible : c'.feasible = c.feasible

/-- `g'` ranks the converted vectors as `g` ranks the vectors. -/
def SameRanking (u : Recast k K) (g g' : Vec k K → K) : Prop :=
  ∀ f h, g' (u.conv f) < g' (u.conv h) ↔ g f < g h

/-- The scalarizing functions rank converted vectors for converted reference points and classes as before. -/
structure SameRankings (u : Recast k K) (c c' : Cfg k m K) : Prop where
  asf1 : ∀ (cls : Fin k → Cls) z, SameRanking u (c.asf1 (positions cls .lt) (positions cls .le) z)
    (c'.asf1 (positions (fun j => cls (u.perm j)) .lt) (positions (fun j => cls (u.perm j)) .le) (u.conv z))
  asf2 : ∀ z, SameRanking u (c.asf2 z) (c'.asf2 (u.conv z))
  asf3 : ∀ z, SameRanking u (c.asf3 z) (c'.asf3 (u.conv z))
  asf4 : ∀ (cls : Fin k → Cls) z, SameRanking u (c.asf4 (positions cls .free) z)
    (c'.asf4 (positions (fun j => cls (u.perm j)) .free) (u.conv z))

/-- Two minimizations that differ at most in the numbers used to rank the decision vectors: the same vectors are
admitted, ranked in the same way, and the same values are NaN. -/
structure SameTask (t t' : Task k m K) : Prop where
  admits : t.admits = t'.admits
  nan : ∀ x, (t.value x).isSome = (t'.value x).isSome
  order : ∀ x y a b a' b', t.value x = some a → t.value y = some b → t'.value x = some a' → t'.value y = some b' →
    (a < b ↔ a' < b')

/-- The minimizers give the same result for such minimizations. -/
def SameSolver (o o' : Oracle k m K) : Prop := ∀ i t t', SameTask t t' → o.minimize i t = o'.minimize i t'

/-- Everything `iterate` returns or raises when the responses are given in turn, each to one of the requests issued
so far (newest first; the number says which one, a response to a request that does not exist is skipped), with the
minimizers of each call. -/
def replay (c : Cfg k m K) (s : St k m K) (reqs : List (Req k m K)) :
    List (Nat × Ans K × Oracle k m K) → List (Except Err (Req k m K))
  | [] => []
  | (i, a, orc) :: rest =>
    match reqs[i]? with
    | none => replay c s reqs rest
    | some req =>
      (answer c s req a orc).2 ::
        replay c (answer c s req a orc).1 (issued (answer c s req a orc).2 ++ reqs) rest

/-- A whole use of the method: construction with a starting point, `start`, and the responses. -/
def use (c : Cfg k m K) (sp : Option (List K)) (res : Task k m K → Option (Vec m K))
    (steps : List (Nat × Ans K × Oracle k m K)) : List (Except Err (Req k m K)) :=
  match construct c sp res with
  | .error e => [.error e]
  | .ok s => .ok (Nimbus.start s) :: replay c s [Nimbus.start s] steps

/-- The responses of the two uses: converted, with minimizers that find the same solutions. -/
inductive SameSteps (u : Recast k K) :
    List (Nat × Ans K × Oracle k m K) → List (Nat × Ans K × Oracle k m K) → Prop
  | nil : SameSteps u [] []
  | cons {i a o o' l l'} : SameSolver o o' → SameSteps u l l' →
      SameSteps u ((i, a, o) :: l) ((i, convAns u a, o') :: l')

/-- Every classification response has one class per objective. -/
def FullClasses (k : Nat) (a : Ans K) : Prop :=
  ∀ r cls, a = .classify r → r.classifications = some cls → cls.length = k

/-! ### Proofs -/

/-- The same state. -/
def convSt (u : Recast k K) (s : St k m K) : St k m K :=
  { s with obj := u.conv s.obj, archObjs := s.archObjs.map u.conv }

/-- The same pair. -/
def convPair (u : Recast k K) (p : Vec m K × Vec k K) : Vec m K × Vec k K := (p.1, u.conv p.2)

/-- The same result of a handler. -/
def convOut (u : Recast k K) (o : Except Err (Req k m K)) : Except Err (Req k m K) := o.map (convReq u)

theorem discreteMin_conv (u : Recast k K) {N : Nat} (obj : Fin N → Vec k K) {asf asf' : Vec k K → K}
    {fe fe' : Vec k K → Bool} (h : SameRanking u asf asf') (hf : ∀ f, fe' (u.conv f) = fe f) :
    discreteMin (fun i => u.conv (obj i)) asf' fe' = discreteMin obj asf fe := by
  unfold discreteMin
  rw [Navigator.npNanArgmin_order (fun i => if fe' (u.conv (obj i)) then some (asf' (u.conv (obj i))) else none)
    (fun i => if fe (obj i) then some (asf (obj i)) else none)]
  · intro i
    rw [hf]
    split <;> rfl
  · intro i j x y x' y' h1 h2 h3 h4
    rw [hf] at h1 h2
    split at h1
    · rename_i hi
      rw [if_pos hi] at h3
      split at h2
      · rename_i hj
        rw [if_pos hj] at h4
        simp only [Option.some.injEq] at h1 h2 h3 h4
        rw [← h1, ← h2, ← h3, ← h4]
        exact h _ _
      · cases h2
    · cases h1

theorem mapE_forall₂ {α α' β β' : Type} {f : α → Except Err β} {f' : α' → Except Err β'} {g : β → β'}
    {l : List α} {l' : List α'} (h : List.Forall₂ (fun a a' => f' a' = (f a).map g) l l') :
    mapE f' l' = (mapE f l).map (List.map g) := by
  induction h with
  | nil => rfl
  | @cons a a' _ _ h1 _ ih =>
    simp only [mapE, h1]
    cases f a with
    | error e => rfl
    | ok b =>
      simp only [Except.map] at ih ⊢
      rw [ih]
      cases mapE f _ <;> rfl

/-- The two problems of a pair of sessions correspond. -/
structure SameSub (u : Recast k K) (p p' : Vec k K × (Vec k K → K) × (Vec k K → Bool)) : Prop where
  rank : SameRanking u p.2.1 p'.2.1
  ok : ∀ f, p'.2.2 (u.conv f) = p.2.2 f

theorem sameTask (u : Recast k K) {c c' : Cfg k m K} (h : SameProblem u c c') {ev : Vec m K → Vec k K}
    {p p' : Vec k K × (Vec k K → K) × (Vec k K → Bool)} (hp : SameSub u p p') :
    SameTask (task c ev p.1 p.2.1 p.2.2) (task c' (fun x => u.conv (ev x)) p'.1 p'.2.1 p'.2.2) where
  admits := by
    funext x
    simp only [task, h.feasible, hp.ok]
  nan := fun _ => rfl
  order := by
    intro x y a b a' b' h1 h2 h3 h4
    simp only [task, Option.some.injEq] at h1 h2 h3 h4
    rw [← h1, ← h2, ← h3, ← h4]
    exact (hp.rank _ _).symm

theorem solveOne_conv (u : Recast k K) {c c' : Cfg k m K} (h : SameProblem u c c') {o o' : Oracle k m K}
    (ho : SameSolver o o') (i : Nat) {p p' : Vec k K × (Vec k K → K) × (Vec k K → Bool)} (hp : SameSub u p p') :
    solveOne c' o' i p' = (solveOne c o i p).map (convPair u) := by
  unfold solveOne
  rw [h.problem]
  cases c.problem with
  | mo ev =>
    simp only [convProblem]
    rw [← ho i _ _ (sameTask u h hp)]
    rfl
  | discrete N obj dec cl =>
    simp only [convProblem]
    rw [discreteMin_conv u obj hp.rank hp.ok]
    cases discreteMin obj p.2.1 p.2.2 <;> rfl

theorem interSolve_conv (u : Recast k K) {c c' : Cfg k m K} (h : SameProblem u c c') (hr : SameRankings u c c')
    {o o' : Oracle k m K} (ho : SameSolver o o') (p : Option (Vec m K) × Nat) :
    interSolve c' o' p = (interSolve c o p).map (convPair u) := by
  unfold interSolve
  rw [h.problem]
  cases c.problem with
  | mo ev =>
    simp only [convProblem]
    have ht : SameTask (interTask c ev p.1) (interTask c' (fun x => u.conv (ev x)) p.1) := by
      cases p.1 with
      | none => exact ⟨h.feasible.symm, fun _ => rfl, fun x y a b a' b' h1 => by cases h1⟩
      | some x =>
        exact sameTask u h (ev := ev) (p := (ev x, c.asf3 (ev x), fun _ => true))
          (p' := (u.conv (ev x), c'.asf3 (u.conv (ev x)), fun _ => true)) ⟨hr.asf3 _, fun _ => rfl⟩
    rw [← ho _ _ _ ht]
    rfl
  | discrete N obj dec cl =>
    simp only [convProblem]
    rw [discreteMin_conv u obj (hr.asf3 (obj (cl p.1))) (fe := fun _ => true) (fun _ => rfl)]
    cases discreteMin obj (c.asf3 (obj (cl p.1))) fun _ => true <;> rfl

theorem convClasses_ofFn (u : Recast k K) (cls : Fin k → Cls) :
    convClasses u (List.ofFn cls) = List.ofFn fun j => cls (u.perm j) := by
  unfold convClasses
  rw [if_pos (by simp)]
  congr 1
  funext j
  simp

theorem convNumbers_ofFn (u : Recast k K) (v : Vec k K) :
    convNumbers u (List.ofFn v) = List.ofFn (u.conv v) := by
  unfold convNumbers
  rw [if_pos (by simp)]
  congr 1
  funext j
  simp [Recast.conv]

theorem convNumbers_length (u : Recast k K) (l : List K) : (convNumbers u l).length = l.length := by
  unfold convNumbers
  split
  · simp [*]
  · rfl

theorem exists_ofFn {α : Type} {l : List α} (h : l.length = k) : ∃ v : Fin k → α, l = List.ofFn v := by
  subst h
  exact ⟨fun i => l[i.val], by simp⟩

theorem cons1_conv (u : Recast k K) (cls : Fin k → Cls) (cur lv f : Vec k K) :
    cons1 (List.ofFn fun j => cls (u.perm j)) (u.conv cur) (u.conv lv) (u.conv f) =
      cons1 (List.ofFn cls) cur lv f := by
  rw [Bool.eq_iff_iff, cons1_iff, cons1_iff]
  unfold Honours
  rw [← u.perm.forall_congr_right (q := fun j => (cls j = .lt ∨ cls j = .le ∨ cls j = .eq → f j ≤ cur j) ∧
    (cls j = .ge → f j ≤ lv j))]
  refine forall_congr' fun j => ?_
  have h1 := u.le_iff (f (u.perm j)) (cur (u.perm j)) j
  have h2 := u.le_iff (f (u.perm j)) (lv (u.perm j)) j
  simp only [Recast.conv] at h1 h2 ⊢
  rw [h1, h2]

theorem zbar_conv (u : Recast k K) {c c' : Cfg k m K} (h : SameProblem u c c') {cls : Fin k → Cls}
    (ho : ∀ j, cls j ≠ .other) (lv cur : Vec k K) :
    zbar c' (List.ofFn fun j => cls (u.perm j)) (u.conv lv) (u.conv cur) = u.conv (zbar c (List.ofFn cls) lv cur) := by
  funext j
  have h1 := ho (u.perm j)
  simp only [zbar, ofFn_get, Recast.conv, h.ideal, h.nadir]
  cases hc : cls (u.perm j) <;> simp_all

theorem problems_conv (u : Recast k K) {c c' : Cfg k m K} (h : SameProblem u c c') (hr : SameRankings u c c')
    (s : St k m K) {cls : Fin k → Cls} (ho : ∀ j, cls j ≠ .other) (lv : Vec k K) :
    List.Forall₂ (SameSub u) (problems c s (List.ofFn cls) lv)
      (problems c' (convSt u s) (List.ofFn fun j => cls (u.perm j)) (u.conv lv)) := by
  have e : (convSt u s).obj = u.conv s.obj := rfl
  simp only [problems, e, zbar_conv u h ho, inds_ofFn]
  refine .cons ⟨hr.asf1 cls lv, fun f => cons1_conv u cls _ _ _⟩ (.cons ⟨hr.asf2 _, fun _ => rfl⟩
    (.cons ⟨hr.asf3 _, fun _ => rfl⟩ (.cons ⟨hr.asf4 cls _, fun _ => rfl⟩ .nil)))

theorem forall₂_take {α β : Type} {R : α → β → Prop} {l : List α} {l' : List β} (h : List.Forall₂ R l l') :
    ∀ n, List.Forall₂ R (l.take n) (l'.take n) := by
  induction h with
  | nil => intro n; simp
  | cons h1 _ ih =>
    intro n
    cases n with
    | zero => simp
    | succ n => simpa using ⟨h1, ih n⟩

theorem forall₂_zipIdx {α β : Type} {R : α → β → Prop} {l : List α} {l' : List β} (h : List.Forall₂ R l l') :
    ∀ n, List.Forall₂ (fun p q => R p.1 q.1 ∧ p.2 = q.2) (l.zipIdx n) (l'.zipIdx n) := by
  induction h with
  | nil => intro n; simp
  | cons h1 _ ih =>
    intro n
    simp only [List.zipIdx_cons]
    exact .cons ⟨h1, rfl⟩ (ih _)

theorem newSolutions_conv (u : Recast k K) {c c' : Cfg k m K} (h : SameProblem u c c') (hr : SameRankings u c c')
    {o o' : Oracle k m K} (hs : SameSolver o o') (s : St k m K) {cls : Fin k → Cls} (ho : ∀ j, cls j ≠ .other)
    (lv : Vec k K) (num : Int) :
    newSolutions c' (convSt u s) (List.ofFn fun j => cls (u.perm j)) (u.conv lv) num o' =
      (newSolutions c s (List.ofFn cls) lv num o).map (List.map (convPair u)) := by
  have h1 : ∀ cl : Fin k → Cls, ((List.range (List.ofFn cl).length).any
      fun p => decide (k ≤ p ∧ (List.ofFn cl)[p]? ≠ some .free)) = false := by
    intro cl
    rw [List.any_eq_false]
    intro p hp
    simp only [List.length_ofFn, List.mem_range] at hp
    simp only [decide_eq_true_eq, not_and]
    omega
  unfold newSolutions
  rw [h1, h1]
  simp only [List.length_ofFn, lt_irrefl, and_false, if_false, Bool.false_eq_true]
  refine mapE_forall₂ ((forall₂_zipIdx (forall₂_take (problems_conv u h hr s ho lv) _) 0).imp ?_)
  rintro ⟨p, i⟩ ⟨p', i'⟩ ⟨hp, hi⟩
  dsimp only at hp hi
  subst hi
  exact solveOne_conv u h hs i hp

/-! #### Validators -/

theorem checkLevels_conv (u : Recast k K) {c c' : Cfg k m K} (h : SameProblem u c c') (cls : Fin k → Cls) (x : Cls)
    (lv : Vec k K) :
    checkLevels c' (List.ofFn fun j => cls (u.perm j)) x (List.ofFn (u.conv lv)) =
      checkLevels c (List.ofFn cls) x (List.ofFn lv) := by
  have h1 : ∀ cl : Fin k → Cls, ((inds (List.ofFn cl) x).any fun p => decide (k ≤ p)) = false := by
    intro cl
    rw [List.any_eq_false]
    intro p hp
    rw [mem_inds] at hp
    simp only [decide_eq_true_eq, not_le]
    by_contra hge
    rw [List.getElem?_eq_none (by simpa using hge)] at hp
    cases hp
  have h2 : ((List.finRange k).all fun j => !decide (j.val ∈ inds (List.ofFn fun j => cls (u.perm j)) x) ||
      (decide (c'.ideal j ≤ levelVec k (List.ofFn (u.conv lv)) j) &&
        decide (levelVec k (List.ofFn (u.conv lv)) j ≤ c'.nadir j))) =
      ((List.finRange k).all fun j => !decide (j.val ∈ inds (List.ofFn cls) x) ||
      (decide (c.ideal j ≤ levelVec k (List.ofFn lv) j) && decide (levelVec k (List.ofFn lv) j ≤ c.nadir j))) := by
    rw [Bool.eq_iff_iff, List.all_eq_true, List.all_eq_true]
    simp only [List.mem_finRange, forall_const, levelVec_ofFn, mem_inds, ofFn_get, Option.some.injEq,
      Bool.or_eq_true, Bool.not_eq_true', decide_eq_false_iff_not, Bool.and_eq_true, decide_eq_true_eq]
    rw [← u.perm.forall_congr_right (q := fun j => ¬ cls j = x ∨ c.ideal j ≤ lv j ∧ lv j ≤ c.nadir j)]
    refine forall_congr' fun j => ?_
    rw [h.ideal, h.nadir]
    have e1 := u.le_iff (c.ideal (u.perm j)) (lv (u.perm j)) j
    have e2 := u.le_iff (lv (u.perm j)) (c.nadir (u.perm j)) j
    simp only [Recast.conv] at e1 e2 ⊢
    rw [e1, e2]
  unfold checkLevels
  rw [h1, h1, h2]

theorem any_other (u : Recast k K) (cls : Fin k → Cls) :
    ((List.ofFn fun j => cls (u.perm j)).any fun x => decide (x = Cls.other)) =
      (List.ofFn cls).any fun x => decide (x = Cls.other) := by
  rw [Bool.eq_iff_iff, List.any_eq_true, List.any_eq_true]
  simp only [List.mem_ofFn, decide_eq_true_eq]
  constructor
  · rintro ⟨x, ⟨j, rfl⟩, h⟩
    exact ⟨_, ⟨u.perm j, rfl⟩, h⟩
  · rintro ⟨x, ⟨j, rfl⟩, h⟩
    exact ⟨_, ⟨u.perm.symm j, rfl⟩, by simpa using h⟩

theorem validate_conv (u : Recast k K) {c c' : Cfg k m K} (h : SameProblem u c c') (req : Req k m K) {a : Ans K}
    (ha : FullClasses k a) : validate c' (convReq u req) (convAns u a) = validate c req a := by
  cases a with
  | classify r =>
    cases req with
    | classify f =>
      simp only [convReq, convAns, validate]
      obtain ⟨cls, lv, num⟩ := r
      cases cls with
      | none => rfl
      | some cls =>
        obtain ⟨cls, rfl⟩ := exists_ofFn (ha _ _ rfl rfl)
        cases lv with
        | none => rfl
        | some lv =>
          cases num with
          | none => rfl
          | some num =>
            simp only [Option.map_some, validateClassify, convClasses_ofFn, any_other, convNumbers_length]
            by_cases hk : lv.length = k
            · obtain ⟨lv, rfl⟩ := exists_ofFn hk
              simp only [convNumbers_ofFn, checkLevels_conv u h]
            · simp only [hk, ne_eq, not_false_eq_true, if_true]
    | _ => rfl
  | save idx =>
    cases req with
    | save xs fs => simp only [convReq, convAns, validate, List.length_map]
    | _ => rfl
  | inter r =>
    cases req with
    | inter xs fs => simp only [convReq, convAns, validate, List.length_map]
    | _ => rfl
  | preferred r =>
    cases req with
    | preferred xs fs => simp only [convReq, convAns, validate, List.length_map]
    | _ => rfl
  | none => cases req <;> rfl

/-! #### Handlers -/

theorem pyGet_map {α β : Type} (g : α → β) (l : List α) (i : Int) :
    pyGet (l.map g) i = (pyGet l i).map g := by
  unfold pyGet
  simp only [List.length_map, List.getElem?_map]
  generalize (if i < 0 then i + (l.length : Int) else i) = j
  by_cases hj : j < 0
  · rw [if_pos hj, if_pos hj]; rfl
  · rw [if_neg hj, if_neg hj]
    cases l[j.toNat]? <;> rfl

theorem pick_map {α β : Type} (g : α → β) (l : List α) (idx : List Int) :
    pick (l.map g) idx = (pick l idx).map (List.map g) := by
  unfold pick
  exact mapE_forall₂ (List.forall₂_same.2 fun i _ => pyGet_map g l i)

theorem unsaved_map {α β : Type} (g : α → β) (l : List α) (idx : List Int) :
    unsaved (l.map g) idx = (unsaved l idx).map g := by
  unfold unsaved
  rw [List.zipIdx_map, List.filter_map, List.map_map, List.map_map]
  rfl

theorem handleClassify_conv (u : Recast k K) {c c' : Cfg k m K} (h : SameProblem u c c') (hr : SameRankings u c c')
    {o o' : Oracle k m K} (hs : SameSolver o o') (s : St k m K) {f : Vec k K} {r r' : ClassResp K}
    (ha : FullClasses k (.classify r)) (hv : validate c (.classify f) (.classify r) = .ok ())
    (hr' : convAns u (.classify r) = .classify r') :
    handleClassify c' (convSt u s) r' o' = convOut u (handleClassify c s r o) := by
  obtain ⟨cls, lv, num, rfl, hno, _, _, _⟩ := C30_accepted_classification_partial hv
  obtain ⟨cls, rfl⟩ := exists_ofFn (ha _ _ rfl rfl)
  have hno' : ∀ j, cls j ≠ .other := fun j hj => hno (List.mem_ofFn.2 ⟨j, hj⟩)
  simp only [convAns, Option.map_some, convClasses_ofFn, convNumbers_ofFn, Ans.classify.injEq] at hr'
  subst hr'
  simp only [handleClassify, levelVec_ofFn]
  rw [newSolutions_conv u h hr hs s hno' lv num]
  cases newSolutions c s (List.ofFn cls) lv num o with
  | error e => rfl
  | ok l =>
    simp only [Except.map, convOut, convReq, List.map_map]
    rfl

theorem handleSave_conv (u : Recast k K) (s : St k m K) (sols : List (Vec m K)) (objs : List (Vec k K))
    (idx : List Int) :
    handleSave (convSt u s) sols (objs.map u.conv) idx =
      (convSt u (handleSave s sols objs idx).1, convOut u (handleSave s sols objs idx).2) := by
  rw [handleSave_eq, handleSave_eq, pick_map]
  cases pick objs idx with
  | error e => rfl
  | ok os =>
    cases pick sols idx with
    | error e => simp [Except.map, convSt, convOut]
    | ok xs => simp [Except.map, convSt, convOut, convReq, unsaved_map]

theorem handleInter_conv (u : Recast k K) {c c' : Cfg k m K} (h : SameProblem u c c') (hr : SameRankings u c c')
    {o o' : Oracle k m K} (hs : SameSolver o o') (sols : List (Vec m K)) (objs : List (Vec k K)) (idx : List Int)
    (num : Int) :
    handleInter c' sols (objs.map u.conv) idx num o' = convOut u (handleInter c sols objs idx num o) := by
  unfold handleInter
  split
  · cases pick sols idx with
    | error e => rfl
    | ok xs =>
      rcases xs with _ | ⟨x, _ | ⟨y, rest⟩⟩
      · rfl
      · rfl
      · dsimp only
        rw [h.nrm, mapE_forall₂ (f := interSolve c o) (g := convPair u)
          (List.forall₂_same.2 fun p _ => interSolve_conv u h hr hs p)]
        cases mapE (interSolve c o) (interPoints c.nrm x y num.toNat).zipIdx with
        | error e => rfl
        | ok l =>
          simp only [Except.map, convOut, convReq, List.map_map]
          rfl
  · rfl

theorem handlePreferred_conv (u : Recast k K) (s : St k m K) (sols : List (Vec m K)) (objs : List (Vec k K))
    (i : Int) (cont : Bool) :
    handlePreferred (convSt u s) sols (objs.map u.conv) i cont =
      (convSt u (handlePreferred s sols objs i cont).1, convOut u (handlePreferred s sols objs i cont).2) := by
  unfold handlePreferred
  rw [pyGet_map]
  cases pyGet sols i with
  | error e => rfl
  | ok x =>
    cases pyGet objs i with
    | error e => rfl
    | ok f => cases cont <;> rfl

theorem enter_conv (u : Recast k K) (s : St k m K) (o : Except Err (Req k m K)) (ph : Phase) :
    enter (convSt u s) (convOut u o) ph = convSt u (enter s o ph) := by cases o <;> rfl

theorem enterAfter_conv (u : Recast k K) (s : St k m K) (o : Except Err (Req k m K)) :
    enterAfter (convSt u s) (convOut u o) = convSt u (enterAfter s o) := by
  cases o with
  | error e => rfl
  | ok r => cases r <;> rfl

/-- One answered request. -/
theorem answer_conv (u : Recast k K) {c c' : Cfg k m K} (h : SameProblem u c c') (hr : SameRankings u c c')
    {o o' : Oracle k m K} (hs : SameSolver o o') (s : St k m K) (req : Req k m K) {a : Ans K}
    (ha : FullClasses k a) :
    answer c' (convSt u s) (convReq u req) (convAns u a) o' =
      (convSt u (answer c s req a o).1, convOut u (answer c s req a o).2) := by
  unfold answer
  rw [validate_conv u h req ha]
  cases hv : validate c req a with
  | error e => rfl
  | ok _ =>
    dsimp only
    have hph : (convSt u s).phase = s.phase := rfl
    unfold iterate
    rw [hph]
    cases s.phase with
    | ended => rfl
    | classify =>
      dsimp only
      cases req with
      | classify f =>
        cases a with
        | classify r =>
          have e := handleClassify_conv u h hr hs s ha hv rfl
          simp only [convReq, convAns]
          rw [e, enter_conv]
        | _ => rfl
      | _ => cases a <;> rfl
    | archive =>
      dsimp only
      cases req with
      | save xs fs =>
        cases a with
        | save idx =>
          cases idx with
          | none => rfl
          | some idx =>
            simp only [convReq, convAns]
            rw [handleSave_conv, enter_conv]
        | _ => rfl
      | _ => cases a <;> rfl
    | intermediate =>
      dsimp only
      cases req with
      | inter xs fs =>
        cases a with
        | inter r =>
          obtain ⟨_ | idx, _ | num⟩ := r
          · rfl
          · rfl
          · rfl
          · simp only [convReq, convAns]
            rw [handleInter_conv u h hr hs, enterAfter_conv]
        | _ => rfl
      | _ => cases a <;> rfl
    | preferred =>
      dsimp only
      cases req with
      | preferred xs fs =>
        cases a with
        | preferred r =>
          obtain ⟨_ | i, _ | b⟩ := r
          · rfl
          · rfl
          · rfl
          · simp only [convReq, convAns]
            rw [handlePreferred_conv, enterAfter_conv]
        | _ => rfl
      | _ => cases a <;> rfl

theorem issued_conv (u : Recast k K) (o : Except Err (Req k m K)) :
    issued (convOut u o) = (issued o).map (convReq u) := by cases o <;> rfl

theorem replay_conv (u : Recast k K) {c c' : Cfg k m K} (h : SameProblem u c c') (hr : SameRankings u c c')
    {steps steps' : List (Nat × Ans K × Oracle k m K)} (hs : SameSteps u steps steps')
    (ha : ∀ p ∈ steps, FullClasses k p.2.1) (s : St k m K) (reqs : List (Req k m K)) :
    replay c' (convSt u s) (reqs.map (convReq u)) steps' = (replay c s reqs steps).map (convOut u) := by
  induction hs generalizing s reqs with
  | nil => rfl
  | @cons i a o o' l l' ho _ ih =>
    have ih := ih fun p hp => ha p (List.mem_cons_of_mem _ hp)
    simp only [replay, List.getElem?_map]
    cases reqs[i]? with
    | none => exact ih s reqs
    | some req =>
      have e := answer_conv u h hr ho s req (ha _ List.mem_cons_self)
      dsimp only at e
      simp only [Option.map_some, e, List.map_cons]
      rw [issued_conv, ← List.map_append, ih]

theorem startRef_conv (u : Recast k K) {c c' : Cfg k m K} (h : SameProblem u c c') {sp : Option (List K)}
    (hsp : ∀ p, sp = some p → p.length = 1 → k = 1) :
    startRef c' (sp.map (convNumbers u)) = (startRef c sp).map u.conv := by
  cases sp with
  | none =>
    simp only [Option.map_none, startRef, Except.map, h.ideal, h.nadir]
    congr 1
    funext j
    simp only [Recast.conv]
    ring
  | some p =>
    by_cases hk : p.length = k
    · obtain ⟨v, rfl⟩ := exists_ofFn hk
      rw [Option.map_some, convNumbers_ofFn, startRef_given, startRef_given]
      rfl
    · have h1 : p.length ≠ 1 := fun h1 => hk (h1.trans (hsp p rfl h1).symm)
      have e : ∀ c : Cfg k m K, startRef c (some p) = .error .refused := by
        intro c
        rcases p with _ | ⟨a, _ | ⟨b, p⟩⟩
        · simp only [startRef]; rw [if_neg hk]
        · simp at h1
        · simp only [startRef]; rw [if_neg hk]
      have e2 : convNumbers u p = p := by unfold convNumbers; rw [if_neg hk]
      rw [Option.map_some, e2, e, e]
      rfl

theorem construct_conv (u : Recast k K) {c c' : Cfg k m K} (h : SameProblem u c c') (hr : SameRankings u c c')
    {sp : Option (List K)} (hsp : ∀ p, sp = some p → p.length = 1 → k = 1)
    {res res' : Task k m K → Option (Vec m K)} (hres : ∀ t t', SameTask t t' → res t = res' t') :
    construct c' (sp.map (convNumbers u)) res' = (construct c sp res).map (convSt u) := by
  unfold construct
  rw [startRef_conv u h hsp, h.problem]
  cases startRef c sp with
  | error e => rfl
  | ok ref =>
    simp only [Except.map]
    cases c.problem with
    | mo ev =>
      simp only [convProblem]
      rw [← hres _ _ (sameTask u h (ev := ev) (p := (ref, c.asf3 ref, fun _ => true))
        (p' := (u.conv ref, c'.asf3 (u.conv ref), fun _ => true)) ⟨hr.asf3 _, fun _ => rfl⟩)]
      cases res (task c ev ref (c.asf3 ref) fun _ => true) <;> rfl
    | discrete N obj dec cl =>
      simp only [convProblem]
      rw [discreteMin_conv u obj (hr.asf3 ref) (fe := fun _ => true) (fun _ => rfl)]
      cases discreteMin obj (c.asf3 ref) fun _ => true <;> rfl

/-- A whole use. -/
theorem use_conv (u : Recast k K) {c c' : Cfg k m K} (h : SameProblem u c c') (hr : SameRankings u c c')
    {sp : Option (List K)} (hsp : ∀ p, sp = some p → p.length = 1 → k = 1)
    {res res' : Task k m K → Option (Vec m K)} (hres : ∀ t t', SameTask t t' → res t = res' t')
    {steps steps' : List (Nat × Ans K × Oracle k m K)} (hs : SameSteps u steps steps')
    (ha : ∀ p ∈ steps, FullClasses k p.2.1) :
    use c' (sp.map (convNumbers u)) res' steps' = (use c sp res steps).map (convOut u) := by
  unfold use
  rw [construct_conv u h hr hsp hres]
  cases construct c sp res with
  | error e => rfl
  | ok s =>
    have e := replay_conv u h hr hs ha s [Nimbus.start s]
    simp only [Except.map, List.map_cons, List.map_nil] at e ⊢
    exact congrArg₂ List.cons rfl e

/-! ### C138 -/

/-- The method with the library's `PointMethodASF` in all four problems (the code uses it in the third one, for
the starting point and for intermediate solutions). -/
def pointed {k : Nat} (ideal nadir : Vec (k + 1) K) (p : Problem (k + 1) m K) (nrm : Vec m K → K)
    (feasible : Vec m K → Bool) : Cfg (k + 1) m K where
  ideal := ideal
  nadir := nadir
  problem := p
  nrm := nrm
  feasible := feasible
  asf1 := fun _ _ => Navigator.pointAsf ideal nadir
  asf2 := Navigator.pointAsf ideal nadir
  asf3 := Navigator.pointAsf ideal nadir
  asf4 := fun _ => Navigator.pointAsf ideal nadir

theorem pointed_same {k : Nat} (u : Recast (k + 1) K) (ideal nadir : Vec (k + 1) K) (p : Problem (k + 1) m K)
    (nrm : Vec m K → K) (fe : Vec m K → Bool) :
    SameProblem u (pointed ideal nadir p nrm fe) (pointed (u.conv ideal) (u.conv nadir) (convProblem u p) nrm fe) :=
  ⟨rfl, rfl, rfl, rfl, rfl⟩

theorem pointed_rankings {k : Nat} (u : Recast (k + 1) K) {ideal nadir : Vec (k + 1) K}
    (p p' : Problem (k + 1) m K) (nrm : Vec m K → K) (fe : Vec m K → Bool)
    (h : ∀ z, SameRanking u (Navigator.pointAsf ideal nadir z)
      (Navigator.pointAsf (u.conv ideal) (u.conv nadir) (u.conv z))) :
    SameRankings u (pointed ideal nadir p nrm fe) (pointed (u.conv ideal) (u.conv nadir) p' nrm fe) :=
  ⟨fun _ => h, h, h, fun _ => h⟩

theorem pointAsf_ranking_reorder {k : Nat} (σ : Equiv.Perm (Fin (k + 1))) (ideal nadir z : Vec (k + 1) K) :
    SameRanking (reorder σ) (Navigator.pointAsf ideal nadir z)
      (Navigator.pointAsf ((reorder σ).conv ideal) ((reorder σ).conv nadir) ((reorder σ).conv z)) := by
  intro f h
  rw [Navigator.pointAsf_reorder, Navigator.pointAsf_reorder]

theorem pointAsf_ranking_shift {k : Nat} (o ideal nadir z : Vec (k + 1) K) :
    SameRanking (shift o) (Navigator.pointAsf ideal nadir z)
      (Navigator.pointAsf ((shift o).conv ideal) ((shift o).conv nadir) ((shift o).conv z)) := by
  intro f h
  rw [Navigator.pointAsf_shift, Navigator.pointAsf_shift, add_lt_add_iff_right]

/-- **C138**, partial. Present the same problem anew (list the objectives in another order, measure them from
other origins): if the scalarizing functions rank objective vectors as before and the minimizers find the same
solutions when only the numbers used to rank change, then the whole use of the method is the same: the same
errors, the same solutions, and the objective vectors shown are the converted ones, provided that every
classification gives a class for each objective and the starting point is not a single number for several
objectives. Missing: shorter classification lists, see `C138_fails`. -/
theorem C138_presentation_partial (u : Recast k K) {c c' : Cfg k m K} (h : SameProblem u c c')
    (hr : SameRankings u c c') {sp : Option (List K)} (hsp : ∀ p, sp = some p → p.length = 1 → k = 1)
    {res res' : Task k m K → Option (Vec m K)} (hres : ∀ t t', SameTask t t' → res t = res' t')
    {steps steps' : List (Nat × Ans K × Oracle k m K)} (hs : SameSteps u steps steps')
    (ha : ∀ p ∈ steps, FullClasses k p.2.1) :
    use c' (sp.map (convNumbers u)) res' steps' = (use c sp res steps).map fun o => o.map (convReq u) :=
  use_conv u h hr hsp hres hs ha

/-- **C138**, partial: the order of the objectives, with the achievement function of the library. -/
theorem C138_order_partial {k : Nat} (σ : Equiv.Perm (Fin (k + 1))) (ideal nadir : Vec (k + 1) K)
    (p : Problem (k + 1) m K) (nrm : Vec m K → K) (fe : Vec m K → Bool) {sp : Option (List K)}
    (hsp : ∀ p, sp = some p → p.length = 1 → k + 1 = 1)
    {res res' : Task (k + 1) m K → Option (Vec m K)} (hres : ∀ t t', SameTask t t' → res t = res' t')
    {steps steps' : List (Nat × Ans K × Oracle (k + 1) m K)} (hs : SameSteps (reorder σ) steps steps')
    (ha : ∀ p ∈ steps, FullClasses (k + 1) p.2.1) :
    use (pointed ((reorder σ).conv ideal) ((reorder σ).conv nadir) (convProblem (reorder σ) p) nrm fe)
        (sp.map (convNumbers (reorder σ))) res' steps' =
      (use (pointed ideal nadir p nrm fe) sp res steps).map fun o => o.map (convReq (reorder σ)) :=
  use_conv _ (pointed_same _ ideal nadir p nrm fe)
    (pointed_rankings _ _ _ nrm fe (pointAsf_ranking_reorder σ ideal nadir)) hsp hres hs ha

/-- **C138**, partial: the origins of the objectives, with the achievement function of the library. -/
theorem C138_origins_partial {k : Nat} (o ideal nadir : Vec (k + 1) K)
    (p : Problem (k + 1) m K) (nrm : Vec m K → K) (fe : Vec m K → Bool) {sp : Option (List K)}
    (hsp : ∀ p, sp = some p → p.length = 1 → k + 1 = 1)
    {res res' : Task (k + 1) m K → Option (Vec m K)} (hres : ∀ t t', SameTask t t' → res t = res' t')
    {steps steps' : List (Nat × Ans K × Oracle (k + 1) m K)} (hs : SameSteps (shift o) steps steps')
    (ha : ∀ p ∈ steps, FullClasses (k + 1) p.2.1) :
    use (pointed ((shift o).conv ideal) ((shift o).conv nadir) (convProblem (shift o) p) nrm fe)
        (sp.map (convNumbers (shift o))) res' steps' =
      (use (pointed ideal nadir p nrm fe) sp res steps).map fun o' => o'.map (convReq (shift o)) :=
  use_conv _ (pointed_same _ ideal nadir p nrm fe)
    (pointed_rankings _ _ _ nrm fe (pointAsf_ranking_shift o ideal nadir)) hsp hres hs ha

/-! ### C139 -/

/-- **C139**, partial. Other units too: the same, if the scalarizing functions rank objective vectors as before.
Missing: the achievement functions of the library do not, see `C139_fails`. -/
theorem C139_units_partial (u : Recast k K) {c c' : Cfg k m K} (h : SameProblem u c c')
    (hr : SameRankings u c c') {sp : Option (List K)} (hsp : ∀ p, sp = some p → p.length = 1 → k = 1)
    {res res' : Task k m K → Option (Vec m K)} (hres : ∀ t t', SameTask t t' → res t = res' t')
    {steps steps' : List (Nat × Ans K × Oracle k m K)} (hs : SameSteps u steps steps')
    (ha : ∀ p ∈ steps, FullClasses k p.2.1) :
    use c' (sp.map (convNumbers u)) res' steps' = (use c sp res steps).map fun o => o.map (convReq u) :=
  use_conv u h hr hsp hres hs ha

/-- The largest relative excess over a reference point: the achievement function without the absolute terms. -/
def relativeAsf {k : Nat} (ideal nadir z f : Vec (k + 1) K) : K :=
  Navigator.vmax fun j => (f j - z j) / (nadir j - ideal j)

theorem relativeAsf_rescale {k : Nat} (w : Vec (k + 1) K) (hw : ∀ j, 0 < w j) (ideal nadir z : Vec (k + 1) K) :
    SameRanking (rescale w hw) (relativeAsf ideal nadir z)
      (relativeAsf ((rescale w hw).conv ideal) ((rescale w hw).conv nadir) ((rescale w hw).conv z)) := by
  have e : ∀ f, relativeAsf ((rescale w hw).conv ideal) ((rescale w hw).conv nadir) ((rescale w hw).conv z)
      ((rescale w hw).conv f) = relativeAsf ideal nadir z f := by
    intro f
    unfold relativeAsf
    congr 1
    funext j
    simp only [Recast.conv, rescale, Equiv.Perm.coe_one, id_eq, add_zero]
    rw [← mul_sub, ← mul_sub, mul_div_mul_left _ _ (hw j).ne']
  intro f h
  rw [e, e]

/-! ### Examples and counterexamples -/

/-- Four rows, one of them dominated. -/
def exRows : Problem 2 1 ℚ := .discrete 4 ![![0, 4], ![1, 2], ![2, 3], ![4, 0]] exDec exClosest

/-- The minimizer of the examples (not used for data). -/
def exRes : Task 2 1 ℚ → Option (Vec 1 ℚ) := fun _ => none

def exOracle : Oracle 2 1 ℚ := ⟨fun _ _ => ![0]⟩

/-- Two classes, four new solutions, nothing saved, no intermediate solutions, and go on with the last one. -/
def exTalk : List (Nat × Ans ℚ × Oracle 2 1 ℚ) :=
  [(0, .classify ⟨some [.ge, .lt], some [4, 1], some 4⟩, exOracle), (0, .save (some [0]), exOracle),
   (0, .inter ⟨some [], some 0⟩, exOracle), (0, .preferred ⟨some (.int 0), some (.bool true)⟩, exOracle)]

/-- The same responses with the objectives swapped. -/
def exTalkSwapped : List (Nat × Ans ℚ × Oracle 2 1 ℚ) :=
  [(0, .classify ⟨some [.lt, .ge], some [1, 4], some 4⟩, exOracle), (0, .save (some [0]), exOracle),
   (0, .inter ⟨some [], some 0⟩, exOracle), (0, .preferred ⟨some (.int 0), some (.bool true)⟩, exOracle)]

/-- Swap the two objectives. -/
def exSwap : Equiv.Perm (Fin 2) := Equiv.swap 0 1

theorem exTalk_swapped : SameSteps (reorder exSwap) exTalk exTalkSwapped := by
  have h : SameSolver exOracle exOracle := fun _ _ _ _ => rfl
  have e1 : convClasses (reorder exSwap : Recast 2 ℚ) [.ge, .lt] = [.lt, .ge] := by decide +kernel
  have e2 : convNumbers (reorder exSwap : Recast 2 ℚ) [4, 1] = [1, 4] := by decide +kernel
  have e : convAns (reorder exSwap) (.classify ⟨some [.ge, .lt], some [4, 1], some 4⟩) =
      (.classify ⟨some [.lt, .ge], some [1, 4], some 4⟩ : Ans ℚ) := by
    simp only [convAns, Option.map_some, e1, e2]
  unfold exTalk exTalkSwapped
  rw [← e]
  exact .cons h (.cons h (.cons h (.cons h .nil)))

theorem exTalk_full : ∀ p ∈ exTalk, FullClasses 2 p.2.1 := by
  intro p hp r cls h1 h2
  simp only [exTalk, List.mem_cons, List.not_mem_nil, or_false] at hp
  rcases hp with rfl | rfl | rfl | rfl <;> cases h1
  cases h2
  rfl

/-- The use is a full round of the method without errors. -/
example : (use (pointed ![0, 0] ![4, 4] exRows (fun v => |v 0|) fun _ => true) none exRes exTalk).length = 5 ∧
    (use (pointed ![0, 0] ![4, 4] exRows (fun v => |v 0|) fun _ => true) none exRes exTalk).all
      (fun o => match o with | .ok _ => true | .error _ => false) = true := by decide +kernel

example := C138_order_partial exSwap ![0, 0] ![4, 4] exRows (fun v => |v 0|) (fun _ => true) (sp := none)
  (res := exRes) (res' := exRes) (fun _ h => nomatch h) (fun _ _ _ => rfl) exTalk_swapped exTalk_full

/-- One class for two objectives: accepted by the method. -/
def exBrief : List (Nat × Ans ℚ × Oracle 2 1 ℚ) :=
  [(0, .classify ⟨some [.lt], some [0, 0], some 2⟩, exOracle)]

/-- The same response when the second objective is measured from an origin ten units away. -/
def exBriefMoved : List (Nat × Ans ℚ × Oracle 2 1 ℚ) :=
  [(0, .classify ⟨some [.lt], some [0, 10], some 2⟩, exOracle)]

theorem exBrief_moved : SameSteps (shift ![0, 10]) exBrief exBriefMoved := by
  have h : SameSolver exOracle exOracle := fun _ _ _ _ => rfl
  have e1 : convClasses (shift ![0, 10] : Recast 2 ℚ) [.lt] = [.lt] := by decide +kernel
  have e2 : convNumbers (shift ![0, 10] : Recast 2 ℚ) [0, 0] = [0, 10] := by decide +kernel
  have e : convAns (shift ![0, 10]) (.classify ⟨some [.lt], some [0, 0], some 2⟩) =
      (.classify ⟨some [.lt], some [0, 10], some 2⟩ : Ans ℚ) := by
    simp only [convAns, Option.map_some, e1, e2]
  unfold exBrief exBriefMoved
  rw [← e]
  exact .cons h .nil

/-- **C138 fails.** A classification list with one class for two objectives is accepted; the reference point is
then `0` in the second objective, wherever its origin is. With the origin ten units away the method proposes the
row `(4, 0)`, in the old units, instead of `(1, 2)`. -/
theorem C138_fails :
    SameSteps (shift ![0, 10]) exBrief exBriefMoved ∧
    use (pointed ![0, 0] ![4, 4] exRows (fun v => |v 0|) fun _ => true) none exRes exBrief =
      [.ok (.classify ![1, 2]), .ok (.save [exDec 1, exDec 1] [![1, 2], ![1, 2]])] ∧
    use (pointed ((shift ![0, 10]).conv ![0, 0]) ((shift ![0, 10]).conv ![4, 4])
        (convProblem (shift ![0, 10]) exRows) (fun v => |v 0|) fun _ => true) none exRes exBriefMoved =
      [.ok (.classify ![1, 12]), .ok (.save [exDec 1, exDec 3] [![1, 12], ![4, 10]])] :=
  ⟨exBrief_moved, eq_of_beq (by decide +kernel), eq_of_beq (by decide +kernel)⟩

/-- Other origins for both objectives. -/
def exOrigin : Vec 2 ℚ := ![-3, 10]

def exTalkMoved : List (Nat × Ans ℚ × Oracle 2 1 ℚ) :=
  [(0, .classify ⟨some [.ge, .lt], some [1, 11], some 4⟩, exOracle), (0, .save (some [0]), exOracle),
   (0, .inter ⟨some [], some 0⟩, exOracle), (0, .preferred ⟨some (.int 0), some (.bool true)⟩, exOracle)]

theorem exTalk_moved : SameSteps (shift exOrigin) exTalk exTalkMoved := by
  have h : SameSolver exOracle exOracle := fun _ _ _ _ => rfl
  have e1 : convClasses (shift exOrigin : Recast 2 ℚ) [.ge, .lt] = [.ge, .lt] := by decide +kernel
  have e2 : convNumbers (shift exOrigin : Recast 2 ℚ) [4, 1] = [1, 11] := by decide +kernel
  have e : convAns (shift exOrigin) (.classify ⟨some [.ge, .lt], some [4, 1], some 4⟩) =
      (.classify ⟨some [.ge, .lt], some [1, 11], some 4⟩ : Ans ℚ) := by
    simp only [convAns, Option.map_some, e1, e2]
  unfold exTalk exTalkMoved
  rw [← e]
  exact .cons h (.cons h (.cons h (.cons h .nil)))

example := C138_origins_partial exOrigin ![0, 0] ![4, 4] exRows (fun v => |v 0|) (fun _ => true) (sp := some [2, 3])
  (res := exRes) (res' := exRes) (fun p h h1 => by cases h; cases h1) (fun _ _ _ => rfl) exTalk_moved exTalk_full

/-- The method with an achievement function without absolute terms. -/
def relative (ideal nadir : Vec 2 ℚ) (p : Problem 2 1 ℚ) : Cfg 2 1 ℚ where
  ideal := ideal
  nadir := nadir
  problem := p
  nrm := fun v => |v 0|
  feasible := fun _ => true
  asf1 := fun _ _ => relativeAsf ideal nadir
  asf2 := relativeAsf ideal nadir
  asf3 := relativeAsf ideal nadir
  asf4 := fun _ => relativeAsf ideal nadir

/-- Both objectives in other units. -/
def exFactors : Vec 2 ℚ := ![1000, 1 / 3]

theorem exFactors_pos : ∀ j, 0 < exFactors j := by decide +kernel

def exTalkScaled : List (Nat × Ans ℚ × Oracle 2 1 ℚ) :=
  [(0, .classify ⟨some [.ge, .lt], some [4000, 1 / 3], some 4⟩, exOracle), (0, .save (some [0]), exOracle),
   (0, .inter ⟨some [], some 0⟩, exOracle), (0, .preferred ⟨some (.int 0), some (.bool true)⟩, exOracle)]

theorem exTalk_scaled : SameSteps (rescale exFactors exFactors_pos) exTalk exTalkScaled := by
  have h : SameSolver exOracle exOracle := fun _ _ _ _ => rfl
  have e1 : convClasses (rescale exFactors exFactors_pos) [.ge, .lt] = [.ge, .lt] := by decide +kernel
  have e2 : convNumbers (rescale exFactors exFactors_pos) [4, 1] = [4000, 1 / 3] := by decide +kernel
  have e : convAns (rescale exFactors exFactors_pos) (.classify ⟨some [.ge, .lt], some [4, 1], some 4⟩) =
      (.classify ⟨some [.ge, .lt], some [4000, 1 / 3], some 4⟩ : Ans ℚ) := by
    simp only [convAns, Option.map_some, e1, e2]
  unfold exTalk exTalkScaled
  rw [← e]
  exact .cons h (.cons h (.cons h (.cons h .nil)))

example := C139_units_partial (rescale exFactors exFactors_pos) (c := relative ![0, 0] ![4, 4] exRows)
  (c' := relative ((rescale exFactors exFactors_pos).conv ![0, 0]) ((rescale exFactors exFactors_pos).conv ![4, 4])
    (convProblem (rescale exFactors exFactors_pos) exRows)) ⟨rfl, rfl, rfl, rfl, rfl⟩
  ⟨fun _ => relativeAsf_rescale _ exFactors_pos _ _, relativeAsf_rescale _ exFactors_pos _ _,
    relativeAsf_rescale _ exFactors_pos _ _, fun _ => relativeAsf_rescale _ exFactors_pos _ _⟩ (sp := none)
  (res := exRes) (res' := exRes) (fun _ h => nomatch h) (fun _ _ _ => rfl) exTalk_scaled exTalk_full

/-- The second objective in a unit in which its range is `4 · 10^-9`. -/
def exTiny : Vec 2 ℚ := ![1, 1 / 1000000000]

theorem exTiny_pos : ∀ j, 0 < exTiny j := by decide +kernel

/-- **C139 fails.** `PointMethodASF` adds an absolute `1e-6` to the ranges: with the second objective in a unit in
which its range is `4 · 10^-9`, the method, started at `(1/2, 1)`,
takes the row `(0, 4)` instead of `(1, 2)`. -/
theorem C139_fails :
    use (pointed ![0, 0] ![4, 4] exRows (fun v => |v 0|) fun _ => true) (some [1 / 2, 1]) exRes [] =
      [.ok (.classify ![1, 2])] ∧
    use (pointed ((rescale exTiny exTiny_pos).conv ![0, 0]) ((rescale exTiny exTiny_pos).conv ![4, 4])
        (convProblem (rescale exTiny exTiny_pos) exRows) (fun v => |v 0|) fun _ => true)
        (some (convNumbers (rescale exTiny exTiny_pos) [1 / 2, 1])) exRes [] =
      [.ok (.classify ((rescale exTiny exTiny_pos).conv ![0, 4]))] :=
  ⟨eq_of_beq (by decide +kernel), eq_of_beq (by decide +kernel)⟩

end Verif.Nimbus
