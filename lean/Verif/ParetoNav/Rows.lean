import Verif.ParetoNav.Recast

/-!
# Pareto Navigator: the order of the given solutions does not matter (C173)

The Pareto optimal solutions the method is given may be listed in another order or repeatedly.
-/

set_option linter.unusedSectionVars false

namespace Verif.ParetoNav

variable {K : Type} [Field K] [LinearOrder K] [IsStrictOrderedRing K] {k : Nat} {X D : Type}

/-! ### Specification -/

/-- Specification: the same members, in any order and number. -/
def SameMembers {α : Type} (l l' : List α) : Prop := ∀ v, v ∈ l ↔ v ∈ l'

/-- Specification: both calls raise the same exception, or both return results that correspond. -/
def Both {α β : Type} (R : α → β → Prop) : Except Err α → Except Err β → Prop
  | .error e, .error e' => e = e'
  | .ok a, .ok b => R a b
  | _, _ => False

/-- Specification: the external code of the two calls does the same: both minimizers find the same, both descriptions of
the convex hull are exact, and the linear problem is solved alike if its feasible points are the same. -/
structure SameCode (P : Prob k X D K) (o o' : Oracle k D K) : Prop where
  asf : ∀ l, Both (fun d d' => P.asCur d = P.asCur d') (o.asf l) (o'.asf l)
  project : ∀ p, Both (fun d d' => P.vars d = P.vars d' ∧ P.obj d = P.obj d') (o.project p) (o'.project p)
  exact : HullExact o.hull
  exact' : HullExact o'.hull
  hull : ∀ pts pts', SameMembers pts pts' → Both (fun _ _ => True) (o.hull pts) (o'.hull pts')
  lp : ∀ A b A' b' lo hi, (∀ x, Feasible A b lo hi x ↔ Feasible A' b' lo hi x) → o.lp A b lo hi = o'.lp A' b' lo hi

/-- Specification: the two responses say the same; a preferred solution is the same row of the two lists. -/
structure SameResp (pts pts' : List (Vec k K)) (r r' : Resp K) : Prop where
  ref : r.ref = r'.ref
  speed : r.speed = r'.speed
  showSolution : r.showSolution = r'.showSolution
  stepBack : r.stepBack = r'.stepBack
  classes : r.classes = r'.classes
  satisfied : r.satisfied = r'.satisfied
  preferred : (r.preferred = none ∧ r'.preferred = none) ∨
    ∃ (a b : Nat) (v : Vec k K), r.preferred = some (a : Int) ∧ r'.preferred = some (b : Int) ∧
      pts[a]? = some v ∧ pts'[b]? = some v

/-- Specification: the steps of the two uses. -/
inductive SameTalk (P : Prob k X D K) (pts pts' : List (Vec k K)) :
    List (Nat × Option (Resp K) × Oracle k D K) → List (Nat × Option (Resp K) × Oracle k D K) → Prop
  | nil : SameTalk P pts pts' [] []
  | silent {i o o' l l'} : SameCode P o o' → SameTalk P pts pts' l l' →
      SameTalk P pts pts' ((i, none, o) :: l) ((i, none, o') :: l')
  | cons {i r r' o o' l l'} : SameResp pts pts' r r' → SameCode P o o' → SameTalk P pts pts' l l' →
      SameTalk P pts pts' ((i, some r, o) :: l) ((i, some r', o') :: l')

/-- Specification: the two requests are the same, except for the order of the solutions listed in the first one. -/
inductive SameReq : Req k X K → Req k X K → Prop
  | initial {a b l l'} : SameMembers l l' → SameReq (.initial a b l) (.initial a b l')
  | same (q) : SameReq q q

/-- Specification: the solutions the method works with: the table of a data-based problem, else those supplied. -/
def Given (P : Prob k X D K) (sup : Option (List (Vec k K))) (pts : List (Vec k K)) : Prop :=
  P.table = some pts ∨ P.table = none ∧ sup = some pts

/-- Specification: the same problem, given with another list of solutions. -/
structure SameProblem (P P' : Prob k X D K) : Prop where
  bounds : P.bounds = P'.bounds
  vars : P.vars = P'.vars
  obj : P.obj = P'.obj
  asCur : P.asCur = P'.asCur

/-! ### Proofs: the data -/

theorem SameMembers.add {l l' more : List (Vec k K)} (h : SameMembers l l') : SameMembers (l ++ more) (l' ++ more) := by
  intro v
  rw [List.mem_append, List.mem_append, h v]

/-- The weighted sum of a list of weights is one of members of another list. -/
theorem InHull.subset {pts pts' : List (Vec k K)} {z : Vec k K} (h : InHull pts z) (hs : ∀ v ∈ pts, v ∈ pts') :
    InHull pts' z := by
  have key : ∀ (w : List K) (pts : List (Vec k K)), w.length = pts.length → (∀ a ∈ w, 0 ≤ a) → (∀ v ∈ pts, v ∈ pts') →
      ∃ w' : List K, w'.length = pts'.length ∧ (∀ a ∈ w', 0 ≤ a) ∧ w'.sum = w.sum ∧
        ∀ j, ((w'.zip pts').map fun p => p.1 * p.2 j).sum = ((w.zip pts).map fun p => p.1 * p.2 j).sum := by
    intro w
    induction w with
    | nil =>
      intro pts _ _ _
      refine ⟨List.replicate pts'.length 0, by simp, ?_, by simp, ?_⟩
      · intro a ha; rw [List.eq_of_mem_replicate ha]
      · intro j
        have : ∀ l : List (Vec k K), (((List.replicate l.length (0 : K)).zip l).map fun p => p.1 * p.2 j).sum = 0 := by
          intro l
          induction l with
          | nil => simp
          | cons a l ih => simpa [List.replicate_succ] using ih
        rw [this]
        simp
    | cons a w ih =>
      intro pts hl hw hp
      cases pts with
      | nil => simp at hl
      | cons p pts =>
        obtain ⟨w', h1, h2, h3, h4⟩ := ih pts (by simpa using hl) (fun b hb => hw b (List.mem_cons_of_mem _ hb))
          (fun v hv => hp v (List.mem_cons_of_mem _ hv))
        obtain ⟨l1, l2, hl12⟩ := List.append_of_mem (hp p List.mem_cons_self)
        subst hl12
        obtain ⟨w1, b, w2, e, e1, e2⟩ : ∃ (w1 : List K) (b : K) (w2 : List K), w' = w1 ++ b :: w2 ∧
            w1.length = l1.length ∧ w2.length = l2.length := by
          have hlt : l1.length < w'.length := by rw [h1]; simp
          refine ⟨w'.take l1.length, w'[l1.length], w'.drop (l1.length + 1), ?_, ?_, ?_⟩
          · rw [← List.drop_eq_getElem_cons hlt, List.take_append_drop]
          · simp only [List.length_take]; omega
          · simp only [List.length_drop, h1, List.length_append, List.length_cons]; omega
        subst e
        have ha := hw a List.mem_cons_self
        have hb := h2 b (by simp)
        refine ⟨w1 ++ (a + b) :: w2, by simp [e1, e2], ?_, ?_, ?_⟩
        · intro c hc
          simp only [List.mem_append, List.mem_cons] at hc
          rcases hc with hc | rfl | hc
          · exact h2 c (by simp [hc])
          · exact add_nonneg ha hb
          · exact h2 c (by simp [hc])
        · simp only [List.sum_append, List.sum_cons] at h3 ⊢
          rw [← h3]; ring
        · intro j
          have := h4 j
          rw [List.zip_append e1] at this ⊢
          simp only [List.zip_cons_cons, List.map_append, List.map_cons, List.sum_append, List.sum_cons] at this ⊢
          rw [← this]; ring
  obtain ⟨w, h1, h2, h3, h4⟩ := h
  obtain ⟨w', i1, i2, i3, i4⟩ := key w pts h1 h2 hs
  exact ⟨w', i1, i2, by rw [i3, h3], fun j => by rw [h4, i4]⟩

theorem inHull_members {pts pts' : List (Vec k K)} (h : SameMembers pts pts') (z : Vec k K) :
    InHull pts z ↔ InHull pts' z :=
  ⟨fun hz => hz.subset fun v hv => (h v).1 hv, fun hz => hz.subset fun v hv => (h v).2 hv⟩

theorem foldl_max_spec (l : List (Vec k K)) (j : Fin k) (a : K) :
    a ≤ l.foldl (fun m v => max m (v j)) a ∧ (∀ v ∈ l, v j ≤ l.foldl (fun m v => max m (v j)) a) ∧
      (l.foldl (fun m v => max m (v j)) a = a ∨ ∃ v ∈ l, l.foldl (fun m v => max m (v j)) a = v j) := by
  induction l generalizing a with
  | nil => exact ⟨le_rfl, fun v hv => by simp at hv, Or.inl rfl⟩
  | cons w l ih =>
    obtain ⟨h1, h2, h3⟩ := ih (max a (w j))
    simp only [List.foldl_cons]
    refine ⟨(le_max_left _ _).trans h1, ?_, ?_⟩
    · intro v hv
      rcases List.mem_cons.1 hv with rfl | hv
      · exact (le_max_right _ _).trans h1
      · exact h2 v hv
    · rcases h3 with h3 | ⟨v, hv, h3⟩
      · rw [h3]
        rcases max_choice a (w j) with h | h
        · left; exact h
        · right; exact ⟨w, List.mem_cons_self, h⟩
      · right; exact ⟨v, List.mem_cons_of_mem _ hv, h3⟩

theorem foldl_min_spec (l : List (Vec k K)) (j : Fin k) (a : K) :
    l.foldl (fun m v => min m (v j)) a ≤ a ∧ (∀ v ∈ l, l.foldl (fun m v => min m (v j)) a ≤ v j) ∧
      (l.foldl (fun m v => min m (v j)) a = a ∨ ∃ v ∈ l, l.foldl (fun m v => min m (v j)) a = v j) := by
  induction l generalizing a with
  | nil => exact ⟨le_rfl, fun v hv => by simp at hv, Or.inl rfl⟩
  | cons w l ih =>
    obtain ⟨h1, h2, h3⟩ := ih (min a (w j))
    simp only [List.foldl_cons]
    refine ⟨h1.trans (min_le_left _ _), ?_, ?_⟩
    · intro v hv
      rcases List.mem_cons.1 hv with rfl | hv
      · exact h1.trans (min_le_right _ _)
      · exact h2 v hv
    · rcases h3 with h3 | ⟨v, hv, h3⟩
      · rw [h3]
        rcases min_choice a (w j) with h | h
        · left; exact h
        · right; exact ⟨w, List.mem_cons_self, h⟩
      · right; exact ⟨v, List.mem_cons_of_mem _ hv, h3⟩

theorem extremes_spec {pts : List (Vec k K)} {hi lo : Vec k K} (h : extremes pts = .ok (hi, lo)) (j : Fin k) :
    (∀ v ∈ pts, v j ≤ hi j ∧ lo j ≤ v j) ∧ (∃ v ∈ pts, hi j = v j) ∧ ∃ v ∈ pts, lo j = v j := by
  cases pts with
  | nil => cases h
  | cons p ps =>
    simp only [extremes, Except.ok.injEq, Prod.mk.injEq] at h
    obtain ⟨rfl, rfl⟩ := h
    obtain ⟨a1, a2, a3⟩ := foldl_max_spec ps j (p j)
    obtain ⟨b1, b2, b3⟩ := foldl_min_spec ps j (p j)
    refine ⟨?_, ?_, ?_⟩
    · intro v hv
      rcases List.mem_cons.1 hv with rfl | hv
      · exact ⟨a1, b1⟩
      · exact ⟨a2 v hv, b2 v hv⟩
    · rcases a3 with h | ⟨v, hv, h⟩
      · exact ⟨p, List.mem_cons_self, h⟩
      · exact ⟨v, List.mem_cons_of_mem _ hv, h⟩
    · rcases b3 with h | ⟨v, hv, h⟩
      · exact ⟨p, List.mem_cons_self, h⟩
      · exact ⟨v, List.mem_cons_of_mem _ hv, h⟩

theorem extremes_members {pts pts' : List (Vec k K)} (h : SameMembers pts pts') : extremes pts = extremes pts' := by
  cases hp : pts with
  | nil =>
    cases hp' : pts' with
    | nil => rfl
    | cons q qs =>
      have := (h q).2 (by rw [hp']; exact List.mem_cons_self)
      rw [hp] at this; simp at this
  | cons p ps =>
    cases hp' : pts' with
    | nil =>
      have := (h p).1 (by rw [hp]; exact List.mem_cons_self)
      rw [hp'] at this; simp at this
    | cons q qs =>
      rw [← hp, ← hp']
      obtain ⟨⟨hi, lo⟩, e⟩ : ∃ x, extremes pts = .ok x := by rw [hp]; exact ⟨_, rfl⟩
      obtain ⟨⟨hi', lo'⟩, e'⟩ : ∃ x, extremes pts' = .ok x := by rw [hp']; exact ⟨_, rfl⟩
      rw [e, e']
      have e1 : hi = hi' := by
        funext j
        obtain ⟨a1, ⟨v, hv, a2⟩, _⟩ := extremes_spec e j
        obtain ⟨b1, ⟨w, hw, b2⟩, _⟩ := extremes_spec e' j
        apply le_antisymm
        · rw [a2]; exact (b1 v ((h v).1 hv)).1
        · rw [b2]; exact (a1 w ((h w).2 hw)).1
      have e2 : lo = lo' := by
        funext j
        obtain ⟨a1, _, ⟨v, hv, a2⟩⟩ := extremes_spec e j
        obtain ⟨b1, _, ⟨w, hw, b2⟩⟩ := extremes_spec e' j
        apply le_antisymm
        · rw [b2]; exact (a1 w ((h w).2 hw)).2
        · rw [a2]; exact (b1 v ((h v).1 hv)).2
      rw [e1, e2]

/-! ### Proofs: the methods -/

/-- The two objects hold the same information. -/
structure SameSt (pts pts' : List (Vec k K)) (s s' : St k X K) : Prop where
  sols : ∃ more, s.sols = pts ++ more ∧ s'.sols = pts' ++ more
  ideal : s.ideal = s'.ideal
  nadir : s.nadir = s'.nadir
  speed : s.speed = s'.speed
  ref : s.ref = s'.ref
  cur : s.cur = s'.cur
  poX : s.poX = s'.poX
  poF : s.poF = s'.poF
  lp : ∀ (m : Vec k K) (x : Vec (k + 1) K), Feasible s.lppA (List.ofFn m ++ s.b) s.ideal s.nadir x ↔
    Feasible s'.lppA (List.ofFn m ++ s'.b) s.ideal s.nadir x

/-- Two method bodies that do the same. -/
def Alike {α : Type} (pts pts' : List (Vec k K)) (R : α → α → Prop) (x x' : Exec (St k X K) α) : Prop :=
  ∀ s s', SameSt pts pts' s s' → SameSt pts pts' (x s).1 (x' s').1 ∧ Both R (x s).2 (x' s').2

section
variable {α β : Type} {pts pts' : List (Vec k K)}

theorem Alike.bind {R : α → α → Prop} {S : β → β → Prop} {x x' : Exec (St k X K) α} {f f' : α → Exec (St k X K) β}
    (hx : Alike pts pts' R x x') (hf : ∀ a a', R a a' → Alike pts pts' S (f a) (f' a')) :
    Alike pts pts' S (x >>= f) (x' >>= f') := by
  intro s s' hs
  have e' : (x' >>= f') s' = Exec.bind x' f' s' := rfl
  have e : (x >>= f) s = Exec.bind x f s := rfl
  rw [e, e']
  unfold Exec.bind
  obtain ⟨h1, h2⟩ := hx s s' hs
  cases ha : (x s).2 with
  | error e =>
    cases hb : (x' s').2 with
    | error e' => rw [ha, hb] at h2; exact ⟨h1, h2⟩
    | ok b => rw [ha, hb] at h2; exact h2.elim
  | ok a =>
    cases hb : (x' s').2 with
    | error e' => rw [ha, hb] at h2; exact h2.elim
    | ok b => rw [ha, hb] at h2; exact hf a b h2 _ _ h1

theorem Alike.get {R : β → β → Prop} {f f' : St k X K → Exec (St k X K) β}
    (hf : ∀ s s', SameSt pts pts' s s' → SameSt pts pts' (f s s).1 (f' s' s').1 ∧ Both R (f s s).2 (f' s' s').2) :
    Alike pts pts' R (Exec.get >>= f) (Exec.get >>= f') := fun s s' hs => hf s s' hs

theorem Alike.lift {R : α → α → Prop} {x x' : Except Err α} (h : Both R x x') :
    Alike pts pts' R (Exec.lift x : Exec (St k X K) α) (Exec.lift x') := fun _ _ hs => ⟨hs, h⟩

theorem Alike.pure {R : α → α → Prop} {a a' : α} (h : R a a') :
    Alike pts pts' R (pure a : Exec (St k X K) α) (pure a') := fun _ _ hs => ⟨hs, h⟩

theorem Alike.raise {R : α → α → Prop} (e : Err) :
    Alike pts pts' R (Exec.raise e : Exec (St k X K) α) (Exec.raise e) := fun _ _ hs => ⟨hs, rfl⟩

theorem Alike.modify {f f' : St k X K → St k X K} (h : ∀ s s', SameSt pts pts' s s' → SameSt pts pts' (f s) (f' s')) :
    Alike pts pts' (fun _ _ => True) (Exec.modify f) (Exec.modify f') := fun s s' hs => ⟨h s s' hs, trivial⟩

theorem both_rfl {R : α → α → Prop} (hR : ∀ a, R a a) (x : Except Err α) : Both R x x := by
  cases x
  · exact rfl
  · exact hR _

end

variable {pts pts' : List (Vec k K)}

theorem alike_navReq {s s' : St k X K} (h : SameSt pts pts' s s') : SameReq (navReq s) (navReq s') := by
  have e : navReq s = navReq s' := by simp only [navReq, h.cur, h.ideal, h.nadir]
  rw [e]; exact .same _

theorem alike_nav : Alike pts pts' SameReq (do let s ← Exec.get; pure (navReq s) : Exec (St k X K) (Req k X K))
    (do let s ← Exec.get; pure (navReq s)) := fun _ _ hs => ⟨hs, alike_navReq hs⟩

theorem alike_speed (a : K) : Alike pts pts' (fun _ _ => True) (Exec.modify fun s : St k X K => { s with speed := some a })
    (Exec.modify fun s => { s with speed := some a }) :=
  Alike.modify fun _ _ h => { h with speed := rfl }

theorem alike_ref (l : List K) : Alike pts pts' (fun _ _ => True) (Exec.modify fun s : St k X K => { s with ref := some l })
    (Exec.modify fun s => { s with ref := some l }) :=
  Alike.modify fun _ _ h => { h with ref := rfl }

theorem alike_cur (p : Cur K) : Alike pts pts' (fun _ _ => True) (Exec.modify fun s : St k X K => { s with cur := some p })
    (Exec.modify fun s => { s with cur := some p }) :=
  Alike.modify fun _ _ h => { h with cur := rfl }

/-- What follows from reading the same attribute. -/
theorem alike_start {P P' : Prob k X D K} (hP : SameProblem P P') {o o' : Oracle k D K} (ho : SameCode P o o')
    {r r' : Resp K} (hr : SameResp pts pts' r r') :
    Alike pts pts' (fun p p' => p = p') (startingPoint P r o) (startingPoint P' r' o') := by
  unfold startingPoint
  rw [← hr.ref]
  cases r.ref with
  | some l =>
    refine Alike.bind (alike_ref l) fun _ _ _ => ?_
    refine Alike.bind (Alike.lift (ho.asf l)) fun d d' hd => ?_
    exact Alike.pure (by rw [← hP.asCur]; exact hd)
  | none =>
    rcases hr.preferred with ⟨h1, h2⟩ | ⟨a, b, v, h1, h2, h3, h4⟩
    · rw [h1, h2]
      exact Alike.raise _
    · rw [h1, h2]
      refine Alike.get fun s s' hs => ?_
      obtain ⟨more, e1, e2⟩ := hs.sols
      have g1 : pyGet s.sols (a : Int) = .ok v := pyGet_nat.2 (by
        rw [e1, List.getElem?_append_left (List.getElem?_eq_some_iff.1 h3).1]; exact h3)
      have g2 : pyGet s'.sols (b : Int) = .ok v := pyGet_nat.2 (by
        rw [e2, List.getElem?_append_left (List.getElem?_eq_some_iff.1 h4).1]; exact h4)
      rw [g1, g2]
      exact ⟨hs, rfl⟩

theorem alike_initial {P P' : Prob k X D K} (hP : SameProblem P P') {o o' : Oracle k D K} (ho : SameCode P o o')
    {r r' : Resp K} (hr : SameResp pts pts' r r') :
    Alike pts pts' SameReq (handleInitial P r o) (handleInitial P' r' o') := by
  unfold handleInitial
  refine Alike.bind (alike_start hP ho hr) fun p p' hp => ?_
  subst hp
  refine Alike.bind (alike_cur p) fun _ _ _ => ?_
  rw [← hr.speed]
  cases r.speed with
  | none => exact Alike.raise _
  | some v =>
    refine Alike.bind (Alike.lift (both_rfl (R := fun a b => a = b) (fun _ => rfl) _)) fun a a' ha => ?_
    subst ha
    exact Alike.bind (alike_speed a) fun _ _ _ => alike_nav

theorem alike_show {P P' : Prob k X D K} (hP : SameProblem P P') {o o' : Oracle k D K} (ho : SameCode P o o') :
    Alike pts pts' SameReq (handleShow P o) (handleShow P' o') := by
  unfold handleShow
  refine Alike.get fun s s' hs => ?_
  rw [← hs.cur]
  cases s.cur with
  | none => exact Alike.raise _ s s' hs
  | some p =>
    refine Alike.bind (Alike.lift (ho.project p)) (fun d d' hd => ?_) s s' hs
    rw [← hP.vars, ← hP.obj, ← hd.1, ← hd.2]
    refine Alike.bind (Alike.modify fun _ _ h => { h with poX := rfl, poF := rfl }) fun _ _ _ => ?_
    exact Alike.pure (.same _)

theorem alike_setSpeed {r r' : Resp K} (hr : r.speed = r'.speed) :
    Alike (X := X) pts pts' (fun _ _ => True) (setSpeed r) (setSpeed r') := by
  unfold setSpeed
  rw [← hr]
  cases r.speed with
  | none => exact Alike.pure trivial
  | some v =>
    refine Alike.bind (Alike.lift (both_rfl (R := fun a b => a = b) (fun _ => rfl) _)) fun a a' ha => ?_
    subst ha
    exact alike_speed a

theorem alike_setSign {r r' : Resp K} (hr : r.stepBack = r'.stepBack) :
    Alike (X := X) pts pts' (fun a a' => a = a') (setSign r) (setSign r') := by
  unfold setSign
  rw [← hr]
  refine Alike.get fun s s' hs => ?_
  rw [← hs.speed]
  cases s.speed with
  | none => exact Alike.raise _ s s' hs
  | some a => exact Alike.bind (alike_speed _) (fun _ _ _ => Alike.pure rfl) s s' hs

theorem alike_setRef {r r' : Resp K} (h1 : r.ref = r'.ref) (h2 : r.classes = r'.classes) :
    Alike (X := X) pts pts' (fun _ _ => True) (setRef r) (setRef r') := by
  unfold setRef
  rw [← h1, ← h2]
  cases r.ref with
  | some l => exact alike_ref l
  | none =>
    cases r.classes with
    | none => exact Alike.pure trivial
    | some cs =>
      refine Alike.get fun s s' hs => ?_
      rw [← hs.ideal, ← hs.nadir, ← hs.cur]
      refine Alike.bind (Alike.lift (both_rfl (R := fun a b => a = b) (fun _ => rfl) _)) (fun l l' hl => ?_) s s' hs
      subst hl
      exact alike_ref l

theorem alike_step {P : Prob k X D K} {o o' : Oracle k D K} (ho : SameCode P o o') (a : K) :
    Alike (X := X) pts pts' SameReq (step o a) (step o' a) := by
  unfold step
  refine Alike.get fun s s' hs => ?_
  rw [← hs.ref, ← hs.cur]
  refine Alike.bind (Alike.lift (both_rfl (R := fun a b => a = b) (fun _ => rfl) _)) (fun m m' hm => ?_) s s' hs
  subst hm
  have e : o.lp s.lppA (List.ofFn m ++ s.b) s.ideal s.nadir = o'.lp s'.lppA (List.ofFn m ++ s'.b) s'.ideal s'.nadir := by
    rw [← hs.ideal, ← hs.nadir]
    exact ho.lp _ _ _ _ _ _ (hs.lp m)
  rw [e]
  refine Alike.bind (Alike.lift (both_rfl (R := fun a b => a = b) (fun _ => rfl) _)) fun x x' hx => ?_
  subst hx
  exact Alike.bind (alike_cur _) fun _ _ _ => alike_nav

theorem hulls_alike {P : Prob k X D K} {o o' : Oracle k D K} (ho : SameCode P o o') {l l' : List (Vec k K)}
    (h : SameMembers l l') :
    Both (fun eqs eqs' => ∀ z, Inside eqs z ↔ Inside eqs' z) (o.hull l) (o'.hull l') := by
  have hb := ho.hull l l' h
  cases h1 : o.hull l with
  | error e =>
    cases h2 : o'.hull l' with
    | error e' => rw [h1, h2] at hb; exact hb
    | ok b => rw [h1, h2] at hb; exact hb.elim
  | ok eqs =>
    cases h2 : o'.hull l' with
    | error e' => rw [h1, h2] at hb; exact hb.elim
    | ok eqs' =>
      intro z
      rw [ho.exact _ _ h1, ho.exact' _ _ h2]
      exact inHull_members h z

theorem feasible_alike {eqs eqs' : List (Vec k K × K)} (h : ∀ z, Inside eqs z ↔ Inside eqs' z) (w m lo hi : Vec k K)
    (x : Vec (k + 1) K) :
    Feasible (lppMatrix w (eqs.map Prod.fst)) (List.ofFn m ++ eqs.map fun e => -e.2) lo hi x ↔
      Feasible (lppMatrix w (eqs'.map Prod.fst)) (List.ofFn m ++ eqs'.map fun e => -e.2) lo hi x := by
  obtain ⟨t, z, rfl⟩ : ∃ t z, x = Fin.cons t z := ⟨x 0, fun i => x i.succ, by
    funext i
    refine Fin.cases rfl (fun i => rfl) i⟩
  rw [feasible_iff, feasible_iff, ← inside_iff, ← inside_iff, h z]

theorem alike_add (hp : SameMembers pts pts') {P : Prob k X D K} {o o' : Oracle k D K} (ho : SameCode P o o') :
    Alike (X := X) pts pts' SameReq (addSolution o) (addSolution o') := by
  intro s s' hs
  obtain ⟨more, e1, e2⟩ := hs.sols
  rcases add_cases o s with ⟨h1, h2⟩ | ⟨f, h1, h⟩
  · rcases add_cases o' s' with ⟨h3, h4⟩ | ⟨f', h3, _⟩
    · rw [h2, h4]; exact ⟨hs, rfl⟩
    · rw [← hs.poF, h1] at h3; cases h3
  · rcases add_cases o' s' with ⟨h3, _⟩ | ⟨f', h3, h'⟩
    · rw [← hs.poF, h1] at h3; cases h3
    · obtain rfl : f = f' := by rw [← hs.poF, h1] at h3; exact Option.some.inj h3
      have hm : SameMembers (s.sols ++ [f]) (s'.sols ++ [f]) := by
        rw [e1, e2]
        exact (hp.add).add
      have hb := hulls_alike ho hm
      have hx := extremes_members hm
      have hsols : ∃ more, s.sols ++ [f] = pts ++ more ∧ s'.sols ++ [f] = pts' ++ more :=
        ⟨more ++ [f], by rw [e1, List.append_assoc], by rw [e2, List.append_assoc]⟩
      rcases h with ⟨e, h5, h6⟩ | ⟨eqs, hi, lo, h5, h6, h7⟩
      · rcases h' with ⟨e', i5, i6⟩ | ⟨eqs', hi', lo', i5, i6, i7⟩
        · rw [h5, i5] at hb
          rw [h6, i6]
          exact ⟨{ hs with sols := hsols }, hb⟩
        · rw [h5, i5] at hb; exact hb.elim
      · rcases h' with ⟨e', i5, i6⟩ | ⟨eqs', hi', lo', i5, i6, i7⟩
        · rw [h5, i5] at hb; exact hb.elim
        · rw [h5, i5] at hb
          rw [h6, i6] at hx
          obtain ⟨rfl, rfl⟩ := Prod.mk.inj (Except.ok.inj hx)
          rw [h7, i7]
          have hS : SameSt pts pts' (addedSt s f eqs hi lo) (addedSt s' f eqs' hi lo) := by
            refine ⟨hsols, ?_, ?_, hs.speed, hs.ref, hs.cur, hs.poX, ?_, ?_⟩
            · simp only [addedSt, hs.ideal]
            · simp only [addedSt, hs.nadir]
            · simp only [addedSt]; exact hs.poF
            · intro m x
              simp only [addedSt, ← hs.ideal, ← hs.nadir]
              exact feasible_alike hb _ _ _ _ _
          exact ⟨hS, alike_navReq hS⟩

theorem alike_solution (hp : SameMembers pts pts') {P : Prob k X D K} {o o' : Oracle k D K} (ho : SameCode P o o')
    {r r' : Option (Resp K)} (hr : (r.getD {}).satisfied = (r'.getD {}).satisfied) :
    Alike (X := X) pts pts' SameReq (handleSolution r o) (handleSolution r' o') := by
  unfold handleSolution
  rw [← hr]
  by_cases h : (r.getD {}).satisfied = some true
  · rw [if_pos h, if_pos h]
    refine Alike.get fun s s' hs => ?_
    rw [← hs.cur, ← hs.poX, ← hs.poF]
    exact ⟨hs, .same _⟩
  · rw [if_neg h, if_neg h]
    exact alike_add hp ho

theorem alike_handleNav {P P' : Prob k X D K} (hP : SameProblem P P') {o o' : Oracle k D K} (ho : SameCode P o o')
    {r r' : Option (Resp K)} (hr : SameResp pts pts' (r.getD {}) (r'.getD {})) :
    Alike pts pts' SameReq (handleNav P r o) (handleNav P' r' o') := by
  unfold handleNav
  simp only [← hr.showSolution]
  by_cases h : (r.getD {}).showSolution = some true
  · rw [if_pos h, if_pos h]
    exact alike_show hP ho
  · rw [if_neg h, if_neg h]
    refine Alike.bind (alike_setSpeed hr.speed) fun _ _ _ => ?_
    refine Alike.bind (alike_setSign hr.stepBack) fun a a' ha => ?_
    subst ha
    exact Alike.bind (alike_setRef hr.ref hr.classes) fun _ _ _ => alike_step ho a

theorem alike_answer (hp : SameMembers pts pts') {P P' : Prob k X D K} (hP : SameProblem P P') {o o' : Oracle k D K}
    (ho : SameCode P o o') {req req' : Req k X K} (hq : SameReq req req') {r r' : Option (Resp K)}
    (hr : (r = none ∧ r' = none) ∨ ∃ r0 r0', r = some r0 ∧ r' = some r0' ∧ SameResp pts pts' r0 r0') {s s' : St k X K}
    (hs : SameSt pts pts' s s') :
    SameSt pts pts' (answer P s req r o).1 (answer P' s' req' r' o').1 ∧
      Both SameReq (answer P s req r o).2 (answer P' s' req' r' o').2 := by
  have hd : SameResp pts pts' (r.getD {}) (r'.getD {}) := by
    rcases hr with ⟨rfl, rfl⟩ | ⟨r0, r0', rfl, rfl, h⟩
    · exact ⟨rfl, rfl, rfl, rfl, rfl, rfl, Or.inl ⟨rfl, rfl⟩⟩
    · exact h
  have go : Alike pts pts' SameReq (iterate P req r o) (iterate P' req' r' o') := by
    cases hq with
    | initial hm =>
      rcases hr with ⟨rfl, rfl⟩ | ⟨r0, r0', rfl, rfl, h⟩
      · exact Alike.raise _
      · exact alike_initial hP ho h
    | same =>
      cases req with
      | initial a b l =>
        rcases hr with ⟨rfl, rfl⟩ | ⟨r0, r0', rfl, rfl, h⟩
        · exact Alike.raise _
        · exact alike_initial hP ho h
      | nav c a b => exact alike_handleNav hP ho hd
      | solution a x f => exact alike_solution hp ho hd.satisfied
      | stop a x f => exact Alike.pure (.same _)
  have hv : ∀ r0 r0', SameResp pts pts' r0 r0' → validate req r0 = validate req' r0' := by
    intro r0 r0' h
    have hvi : ∀ n : Vec k K, validateInitial n r0 = validateInitial n r0' := by
      intro n
      unfold validateInitial
      rw [← h.ref, ← h.speed]
      rcases h.preferred with ⟨h1, h2⟩ | ⟨a, b, v, h1, h2, _, _⟩
      · rw [h1, h2]
      · rw [h1, h2]; cases r0.ref <;> simp only [Option.isSome_some]
    cases hq with
    | initial hm => exact hvi _
    | same =>
      cases req with
      | initial a b l => exact hvi _
      | nav c a b =>
        simp only [validate, validateNav, validatePref, ← h.showSolution, ← h.speed, ← h.ref, ← h.classes]
      | solution a x f => rfl
      | stop a x f => rfl
  unfold answer
  rcases hr with ⟨rfl, rfl⟩ | ⟨r0, r0', rfl, rfl, h⟩
  · exact go s s' hs
  · simp only [← hv r0 r0' h]
    cases validate req r0 with
    | error e => exact ⟨hs, rfl⟩
    | ok _ => exact go s s' hs

theorem alike_extend {a b : Except Err (Req k X K)} (h : Both SameReq a b) {l l' : List (Req k X K)}
    (hl : List.Forall₂ SameReq l l') : List.Forall₂ SameReq (extend a l) (extend b l') := by
  cases a <;> cases b <;> first | exact h.elim | exact hl | exact .cons h hl

theorem forall₂_get {l l' : List (Req k X K)} (hl : List.Forall₂ SameReq l l') (i : Nat) :
    (l[i]? = none ∧ l'[i]? = none) ∨ ∃ a b, l[i]? = some a ∧ l'[i]? = some b ∧ SameReq a b := by
  induction hl generalizing i with
  | nil => left; simp
  | cons h _ ih =>
    cases i with
    | zero => right; exact ⟨_, _, rfl, rfl, h⟩
    | succ i => simpa using ih i

theorem alike_replay (hp : SameMembers pts pts') {P P' : Prob k X D K} (hP : SameProblem P P')
    {steps steps' : List (Nat × Option (Resp K) × Oracle k D K)} (hst : SameTalk P pts pts' steps steps')
    {s s' : St k X K} (hs : SameSt pts pts' s s') {reqs reqs' : List (Req k X K)} (hl : List.Forall₂ SameReq reqs reqs') :
    List.Forall₂ (Both SameReq) (replay P s reqs steps) (replay P' s' reqs' steps') := by
  induction hst generalizing s s' reqs reqs' with
  | nil => exact .nil
  | @silent i o o' l l' ho _ ih =>
    simp only [replay]
    rcases forall₂_get hl i with ⟨h1, h2⟩ | ⟨a, b, h1, h2, h3⟩
    · rw [h1, h2]; exact ih hs hl
    · rw [h1, h2]
      obtain ⟨g1, g2⟩ := alike_answer hp hP ho h3 (r := none) (r' := none) (Or.inl ⟨rfl, rfl⟩) hs
      exact .cons g2 (ih g1 (alike_extend g2 hl))
  | @cons i r r' o o' l l' hr ho _ ih =>
    simp only [replay]
    rcases forall₂_get hl i with ⟨h1, h2⟩ | ⟨a, b, h1, h2, h3⟩
    · rw [h1, h2]; exact ih hs hl
    · rw [h1, h2]
      obtain ⟨g1, g2⟩ := alike_answer hp hP ho h3 (r := some r) (r' := some r') (Or.inr ⟨r, r', rfl, rfl, hr⟩) hs
      exact .cons g2 (ih g1 (alike_extend g2 hl))

/-- The constructor, once the solutions are known. -/
def build (P : Prob k X D K) (orc : Oracle k D K) (sols : List (Vec k K)) : Except Err (St k X K) :=
  match (match P.bounds with
    | some (ideal, nadir) => .ok (nadir, ideal)
    | none => extremes sols : Except Err (Vec k K × Vec k K)) with
  | .error e => .error e
  | .ok (nadir, ideal) =>
    match orc.hull sols with
    | .error e => .error e
    | .ok eqs => .ok
        { sols := sols, ideal := ideal, nadir := nadir
          lppA := lppMatrix (weights ideal nadir) (eqs.map Prod.fst)
          b := eqs.map fun e => -e.2 }

theorem construct_build {P : Prob k X D K} {sup : Option (List (Vec k K))} (h : Given P sup pts) (o : Oracle k D K) :
    construct P sup o = build P o pts := by
  unfold construct
  rcases h with h | ⟨h1, h2⟩
  · rw [h]; cases sup <;> rfl
  · rw [h1, h2]; rfl

theorem alike_build (hp : SameMembers pts pts') {P P' : Prob k X D K} (hP : SameProblem P P') {o o' : Oracle k D K}
    (ho : SameCode P o o') :
    Both (SameSt pts pts') (build P o pts) (build P' o' pts') := by
  have key : ∀ nadir ideal : Vec k K,
      Both (SameSt (X := X) pts pts')
        (match o.hull pts with
          | .error e => .error e
          | .ok eqs => .ok
            { sols := pts, ideal := ideal, nadir := nadir
              lppA := lppMatrix (weights ideal nadir) (eqs.map Prod.fst)
              b := eqs.map fun e => -e.2 })
        (match o'.hull pts' with
          | .error e => .error e
          | .ok eqs => .ok
            { sols := pts', ideal := ideal, nadir := nadir
              lppA := lppMatrix (weights ideal nadir) (eqs.map Prod.fst)
              b := eqs.map fun e => -e.2 }) := by
    intro nadir ideal
    have hb := hulls_alike ho hp
    cases h1 : o.hull pts with
    | error e =>
      cases h2 : o'.hull pts' with
      | error e' => rw [h1, h2] at hb; exact hb
      | ok b => rw [h1, h2] at hb; exact hb.elim
    | ok eqs =>
      cases h2 : o'.hull pts' with
      | error e' => rw [h1, h2] at hb; exact hb.elim
      | ok eqs' =>
        rw [h1, h2] at hb
        exact ⟨⟨[], by simp, by simp⟩, rfl, rfl, rfl, rfl, rfl, rfl, rfl, fun m x => feasible_alike hb _ _ _ _ _⟩
  unfold build
  rw [← hP.bounds]
  cases P.bounds with
  | some b => exact key b.2 b.1
  | none =>
    dsimp only
    rw [← extremes_members hp]
    cases extremes pts with
    | error e => exact rfl
    | ok p => exact key p.1 p.2

/-! ### C173 -/

/-- **C173**, partial. Two lists with the same solutions, in any order and with any repetitions, lead to the same requests
and the same exceptions in the whole use, if the same solutions are preferred and the external code does the same.
Missing: data-based problems started from a reference point, where the minimizer returns the number of a row
(`SameCode.asf`, `C173_fails`). -/
theorem C173_rows_partial {P P' : Prob k X D K} (hP : SameProblem P P') {sup sup' : Option (List (Vec k K))}
    (hg : Given P sup pts) (hg' : Given P' sup' pts') (hp : SameMembers pts pts') {o o' : Oracle k D K}
    (ho : SameCode P o o') {steps steps' : List (Nat × Option (Resp K) × Oracle k D K)}
    (hst : SameTalk P pts pts' steps steps') :
    List.Forall₂ (Both SameReq) (use P sup o steps) (use P' sup' o' steps') := by
  unfold use
  rw [construct_build hg, construct_build hg']
  have hb := alike_build hp hP ho
  cases h1 : build P o pts with
  | error e =>
    cases h2 : build P' o' pts' with
    | error e' => rw [h1, h2] at hb; exact .cons hb .nil
    | ok b => rw [h1, h2] at hb; exact hb.elim
  | ok s =>
    cases h2 : build P' o' pts' with
    | error e' => rw [h1, h2] at hb; exact hb.elim
    | ok s' =>
      rw [h1, h2] at hb
      have hs : SameReq (start s) (start s') := by
        obtain ⟨more, e1, e2⟩ := hb.sols
        have e : ∀ s : St k X K, start s = .initial s.ideal s.nadir s.sols := fun _ => rfl
        rw [e, e, ← hb.ideal, ← hb.nadir, e1, e2]
        exact .initial hp.add
      exact .cons hs (alike_replay hp hP hst hb (.cons hs .nil))

/-! The example: three solutions, listed in another order and one of them twice; the solution shown is not satisfactory. -/

def rowsSols : List (Vec 2 ℚ) := [![1, 1], ![0, 1], ![1, 0], ![0, 1]]

def rowsHull (pts : List (Vec 2 ℚ)) : Except Err (List (Vec 2 ℚ × ℚ)) :=
  if (∀ v ∈ exSols, v ∈ pts) ∧ ∀ v ∈ pts, v ∈ exSols then .ok exEqs else .error .valueError

/-- The same facets in another order. -/
def rowsHull' (pts : List (Vec 2 ℚ)) : Except Err (List (Vec 2 ℚ × ℚ)) :=
  if (∀ v ∈ exSols, v ∈ pts) ∧ ∀ v ∈ pts, v ∈ exSols then .ok exEqs.reverse else .error .valueError

def rowsOrc : Oracle 2 ℚ ℚ where
  asf := fun l => .ok ((l[0]?).getD 0)
  project := fun _ => .ok 0
  hull := rowsHull
  lp := fun A b lo hi => tabChoice (Feasible A b lo hi)

def rowsOrc' : Oracle 2 ℚ ℚ where
  asf := fun l => .ok ((l[0]?).getD 0)
  project := fun _ => .ok 0
  hull := rowsHull'
  lp := fun A b lo hi => tabChoice (Feasible A b lo hi)

theorem rowsHull_exact : HullExact rowsHull := by
  intro pts eqs h z
  unfold rowsHull at h
  split_ifs at h with hc
  cases h
  have e : exHull exSols = .ok exEqs := by
    unfold exHull
    rw [if_pos ⟨List.prefix_rfl, by simp [exSols]⟩]
  rw [exHull_exact _ _ e z]
  exact inHull_members (fun v => ⟨hc.1 v, hc.2 v⟩) z

theorem rowsHull'_exact : HullExact rowsHull' := by
  intro pts eqs h z
  unfold rowsHull' at h
  split_ifs at h with hc
  cases h
  have e : rowsHull pts = .ok exEqs := by
    unfold rowsHull
    rw [if_pos hc]
  rw [← rowsHull_exact _ _ e z]
  unfold Inside
  simp only [List.mem_reverse]

theorem rows_code (P : Prob 2 ℚ ℚ ℚ) : SameCode P rowsOrc rowsOrc' where
  asf := fun _ => rfl
  project := fun _ => ⟨rfl, rfl⟩
  exact := rowsHull_exact
  exact' := rowsHull'_exact
  hull := by
    intro pts pts' h
    have e : ((∀ v ∈ exSols, v ∈ pts) ∧ ∀ v ∈ pts, v ∈ exSols) ↔ (∀ v ∈ exSols, v ∈ pts') ∧ ∀ v ∈ pts', v ∈ exSols := by
      constructor
      · rintro ⟨a, b⟩
        exact ⟨fun v hv => (h v).1 (a v hv), fun v hv => b v ((h v).2 hv)⟩
      · rintro ⟨a, b⟩
        exact ⟨fun v hv => (h v).2 (a v hv), fun v hv => b v ((h v).1 hv)⟩
    show Both _ (rowsHull pts) (rowsHull' pts')
    unfold rowsHull rowsHull'
    by_cases hc : (∀ v ∈ exSols, v ∈ pts) ∧ ∀ v ∈ pts, v ∈ exSols
    · rw [if_pos hc, if_pos (e.1 hc)]; trivial
    · rw [if_neg hc, if_neg fun h' => hc (e.2 h')]; exact rfl
  lp := by
    intro A b A' b' lo hi h
    rfl

/-- Start from a preferred solution, navigate by a classification, show the nearest solution, go on. -/
def rowsTalk (i : Int) (o : Oracle 2 ℚ ℚ) : List (Nat × Option (Resp ℚ) × Oracle 2 ℚ ℚ) :=
  [(0, some { preferred := some i, speed := some (.int 5) }, o), (0, some { classes := some ["<", ">"] }, o),
   (0, none, o), (0, some { showSolution := some true }, o), (0, some { satisfied := some false }, o), (0, none, o)]

theorem rows_talk : SameTalk exProb exSols rowsSols (rowsTalk 1 rowsOrc) (rowsTalk 2 rowsOrc') := by
  have hc := rows_code exProb
  refine .cons ⟨rfl, rfl, rfl, rfl, rfl, rfl, Or.inr ⟨1, 2, ![1, 0], rfl, rfl, rfl, rfl⟩⟩ hc ?_
  refine .cons ⟨rfl, rfl, rfl, rfl, rfl, rfl, Or.inl ⟨rfl, rfl⟩⟩ hc (.silent hc ?_)
  refine .cons ⟨rfl, rfl, rfl, rfl, rfl, rfl, Or.inl ⟨rfl, rfl⟩⟩ hc ?_
  exact .cons ⟨rfl, rfl, rfl, rfl, rfl, rfl, Or.inl ⟨rfl, rfl⟩⟩ hc (.silent hc .nil)

example := C173_rows_partial (P := exProb) (P' := exProb) ⟨rfl, rfl, rfl, rfl⟩ (sup := some exSols) (sup' := some rowsSols)
  (Or.inr ⟨rfl, rfl⟩) (Or.inr ⟨rfl, rfl⟩) (pts := exSols) (pts' := rowsSols)
  (fun v => by simp only [exSols, rowsSols, List.mem_cons, List.not_mem_nil, or_false]; tauto) (rows_code _) rows_talk

/-- The use has no errors: seven requests. -/
example : (use exProb (some exSols) rowsOrc (rowsTalk 1 rowsOrc)).length = 7 ∧
    (use exProb (some exSols) rowsOrc (rowsTalk 1 rowsOrc)).all
      (fun o => match o with | .ok _ => true | .error _ => false) = true := by decide +kernel

/-- The data of a `DiscreteDataProblem`. -/
def listedProb (t : List (Vec 2 ℚ)) : Prob 2 Nat Nat ℚ where
  table := some t
  bounds := none
  vars := fun d => d
  obj := fun d => (t[d]?).getD ![0, 0]
  asCur := fun d => .scalar d

/-- The number of the row of `t` with the smallest larger distance to the reference point. -/
def listedOrc (t : List (Vec 2 ℚ)) : Oracle 2 Nat ℚ where
  asf := fun l => .ok (nearestRow (listedProb t) ![(l[0]?).getD 0, (l[1]?).getD 0])
  project := fun _ => .ok 0
  hull := rowsHull
  lp := fun A b lo hi => tabChoice (Feasible A b lo hi)

/-- The exception to C173: started from a reference point, a data-based problem takes the number of the best row as the
current solution, and the number depends on the order. The row itself is the same. -/
theorem C173_fails : ∃ t t' : List (Vec 2 ℚ), t.Perm t' ∧
    ∃ (l : List ℚ) (c c' : Nat) (ideal nadir : Vec 2 ℚ),
      (use (listedProb t) none (listedOrc t) [(0, some { ref := some l, speed := some (.int 1) }, listedOrc t)])[1]? =
        some (.ok (.nav (some (.scalar (c : ℚ))) ideal nadir)) ∧
      (use (listedProb t') none (listedOrc t') [(0, some { ref := some l, speed := some (.int 1) }, listedOrc t')])[1]? =
        some (.ok (.nav (some (.scalar (c' : ℚ))) ideal nadir)) ∧ t[c]? = t'[c']? ∧ t[c]?.isSome = true ∧ c ≠ c' := by
  refine ⟨exSols, [![1, 0], ![0, 1], ![1, 1]], List.Perm.swap _ _ _, [0, 1], 0, 1, ![0, 0], ![1, 1],
    eq_of_beq (by decide +kernel), eq_of_beq (by decide +kernel), rfl, rfl, by decide⟩

end Verif.ParetoNav
