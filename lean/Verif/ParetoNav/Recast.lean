import Verif.ParetoNav.Task
import Verif.Navigator.Units

/-!
# Pareto Navigator: the order, origins and units of the objectives (C140)
-/

set_option linter.unusedSectionVars false

namespace Verif.ParetoNav

open Verif.Navigator (Recast reorder shift rescale)

variable {K : Type} [Field K] [LinearOrder K] [IsStrictOrderedRing K] {k : Nat} {X D : Type}

/-! ### Specification: the same things, presented anew -/

/-- A list with one number per objective, converted (other lists are unchanged). -/
def convNumbers (u : Recast k K) (l : List K) : List K :=
  if l.length = k then List.ofFn fun j => u.scale j * (l[(u.perm j).val]?).getD 0 + u.origin j else l

/-- A list with one class per objective, in the new order (other lists are unchanged). -/
def convClasses (u : Recast k K) (l : List String) : List String :=
  if l.length = k then List.ofFn fun j => (l[(u.perm j).val]?).getD "" else l

/-- The same current solution; a row number stays what it is. -/
def convCur (u : Recast k K) : Cur K → Cur K
  | .vec l => .vec (convNumbers u l)
  | .scalar x => .scalar x

/-- The same request. -/
def convReq (u : Recast k K) : Req k X K → Req k X K
  | .initial ideal nadir sols => .initial (u.conv ideal) (u.conv nadir) (sols.map u.conv)
  | .nav cur ideal nadir => .nav (cur.map (convCur u)) (u.conv ideal) (u.conv nadir)
  | .solution a x f => .solution (a.map (convCur u)) x (f.map u.conv)
  | .stop a x f => .stop (a.map (convCur u)) x (f.map u.conv)

/-- The same response. -/
def convResp (u : Recast k K) (r : Resp K) : Resp K :=
  { r with ref := r.ref.map (convNumbers u), classes := r.classes.map (convClasses u) }

/-- The same problem. -/
def convProb (u : Recast k K) (P : Prob k X D K) : Prob k X D K where
  table := P.table.map (List.map u.conv)
  bounds := P.bounds.map fun b => (u.conv b.1, u.conv b.2)
  vars := P.vars
  obj := fun d => u.conv (P.obj d)
  asCur := P.asCur

/-- A point of the linear problem with its objectives converted. -/
def convPoint (u : Recast k K) (x : Vec (k + 1) K) : Vec (k + 1) K :=
  Fin.cons (x 0) (u.conv fun i => x i.succ)

/-- Qhull describes the same set, and `linprog` finds the same point of linear problems with the same feasible
points. -/
structure SameLinear (u : Recast k K) (o o' : Oracle k D K) : Prop where
  hull_error : ∀ pts e, o.hull pts = .error e → o'.hull (pts.map u.conv) = .error e
  hull_ok : ∀ pts eqs, o.hull pts = .ok eqs →
    ∃ eqs', o'.hull (pts.map u.conv) = .ok eqs' ∧ ∀ f, Inside eqs' (u.conv f) ↔ Inside eqs f
  lp : ∀ A b lo hi A' b', (∀ x, Feasible A b lo hi x ↔ Feasible A' b' (u.conv lo) (u.conv hi) (convPoint u x)) →
    o'.lp A' b' (u.conv lo) (u.conv hi) = (o.lp A b lo hi).map (convPoint u)

/-- The external code treats the two presentations alike: the minimizers find the same solutions for converted
points, and `SameLinear`. -/
structure SameExternal (u : Recast k K) (o o' : Oracle k D K) : Prop extends SameLinear u o o' where
  asf : ∀ l, o'.asf (convNumbers u l) = o.asf l
  project : ∀ p, o'.project (convCur u p) = o.project p

/-- What the minimizer of the first call returns is not a vector (but a row number), or there is no such
call that succeeds. -/
def NoVector (P : Prob k X D K) (o : Oracle k D K) : Prop := ∀ l d v, o.asf l = .ok d → P.asCur d ≠ .vec v

/-- A classification given has one class per objective. -/
def FullClasses (k : Nat) (r : Resp K) : Prop := ∀ cs, r.classes = some cs → cs.length = k

/-- Everything `iterate` returns or raises when the responses are given in turn, each to one of the requests
issued so far (newest first; the number says which one), or without a response, with the external code of
each call. -/
def replay (P : Prob k X D K) (s : St k X K) (reqs : List (Req k X K)) :
    List (Nat × Option (Resp K) × Oracle k D K) → List (Except Err (Req k X K))
  | [] => []
  | (i, r, orc) :: rest =>
    match reqs[i]? with
    | none => replay P s reqs rest
    | some req =>
      (answer P s req r orc).2 ::
        replay P (answer P s req r orc).1 (extend (answer P s req r orc).2 reqs) rest

/-- A whole use of the method: construction, `start`, and the responses. -/
def use (P : Prob k X D K) (supplied : Option (List (Vec k K))) (orc : Oracle k D K)
    (steps : List (Nat × Option (Resp K) × Oracle k D K)) : List (Except Err (Req k X K)) :=
  match construct P supplied orc with
  | .error e => [.error e]
  | .ok s => .ok (start s) :: replay P s [start s] steps

/-- The responses of the two uses: converted, with external code that treats the presentations alike. -/
inductive SameSteps (u : Recast k K) :
    List (Nat × Option (Resp K) × Oracle k D K) → List (Nat × Option (Resp K) × Oracle k D K) → Prop
  | nil : SameSteps u [] []
  | cons {i r o o' l l'} : SameExternal u o o' → SameSteps u l l' →
      SameSteps u ((i, r, o) :: l) ((i, r.map (convResp u), o') :: l')

/-- The responses of the two uses, when nothing is assumed about how the current solution is projected. -/
inductive SameMoves (u : Recast k K) :
    List (Nat × Option (Resp K) × Oracle k D K) → List (Nat × Option (Resp K) × Oracle k D K) → Prop
  | nil : SameMoves u [] []
  | cons {i r o o' l l'} : SameLinear u o o' → (∀ l, o'.asf (convNumbers u l) = o.asf l) → SameMoves u l l' →
      SameMoves u ((i, r, o) :: l) ((i, r.map (convResp u), o') :: l')

/-- No response asks for the solution nearest to the current one. -/
def NeverShows (steps : List (Nat × Option (Resp K) × Oracle k D K)) : Prop :=
  ∀ p ∈ steps, ∀ r, p.2.1 = some r → r.showSolution ≠ some true

/-! ### Proofs: the data -/

theorem exists_ofFn {α : Type} {l : List α} (h : l.length = k) : ∃ v : Fin k → α, l = List.ofFn v := by
  subst h
  exact ⟨fun i => l[i], List.ofFn_getElem.symm⟩

theorem convNumbers_ofFn (u : Recast k K) (v : Vec k K) :
    convNumbers u (List.ofFn v) = List.ofFn (u.conv v) := by
  unfold convNumbers
  rw [if_pos (by simp)]
  congr 1
  funext j
  simp [Recast.conv]

theorem convNumbers_length (u : Recast k K) (l : List K) : (convNumbers u l).length = l.length := by
  unfold convNumbers
  split_ifs with h
  · simp [h]
  · rfl

theorem convClasses_ofFn (u : Recast k K) (v : Fin k → String) :
    convClasses u (List.ofFn v) = List.ofFn fun j => v (u.perm j) := by
  unfold convClasses
  rw [if_pos (by simp)]
  congr 1
  funext j
  simp

theorem toVec_ofFn (v : Vec k K) : toVec k (List.ofFn v) = v := by
  funext i
  simp [toVec]

theorem neg_one_div_weight (x : K) : -1 / (1 / x) = -x := by
  rw [neg_div, one_div_one_div]

theorem conv_le (u : Recast k K) (v w : Vec k K) (j : Fin k) : u.conv v j ≤ u.conv w j ↔ v (u.perm j) ≤ w (u.perm j) := by
  unfold Recast.conv
  exact u.le_iff _ _ j

theorem inBox_conv (u : Recast k K) (lo hi z : Vec k K) :
    InBox (u.conv lo) (u.conv hi) (u.conv z) ↔ InBox lo hi z := by
  unfold InBox
  constructor
  · intro h j
    have := h (u.perm.symm j)
    rw [conv_le, conv_le, Equiv.apply_symm_apply] at this
    exact this
  · intro h j
    rw [conv_le, conv_le]
    exact h _

/-- The feasible points of the linear problem are the same. -/
theorem feasible_conv (u : Recast k K) {ideal nadir : Vec k K} {eqs eqs' : List (Vec k K × K)}
    (h : ∀ f, Inside eqs' (u.conv f) ↔ Inside eqs f) (m : Vec k K) (x : Vec (k + 1) K) :
    Feasible (lppMatrix (weights ideal nadir) (eqs.map Prod.fst)) (List.ofFn m ++ eqs.map fun e => -e.2)
        ideal nadir x ↔
      Feasible (lppMatrix (weights (u.conv ideal) (u.conv nadir)) (eqs'.map Prod.fst))
        (List.ofFn (u.conv m) ++ eqs'.map fun e => -e.2) (u.conv ideal) (u.conv nadir) (convPoint u x) := by
  obtain ⟨t, z, rfl⟩ : ∃ t z, x = Fin.cons t z := ⟨x 0, fun i => x i.succ, by
    funext i
    refine Fin.cases rfl (fun i => rfl) i⟩
  have e : convPoint u (Fin.cons t z : Vec (k + 1) K) = Fin.cons t (u.conv z) := rfl
  rw [e, feasible_iff, feasible_iff, ← inside_iff, ← inside_iff, h z, inBox_conv]
  refine and_congr ?_ Iff.rfl
  have key : ∀ i, (-1 / weights (u.conv ideal) (u.conv nadir) i * t + u.conv z i ≤ u.conv m i ↔
      -1 / weights ideal nadir (u.perm i) * t + z (u.perm i) ≤ m (u.perm i)) := by
    intro i
    unfold weights
    rw [neg_one_div_weight, neg_one_div_weight]
    rw [← u.le_iff (-(nadir (u.perm i) - ideal (u.perm i)) * t + z (u.perm i)) (m (u.perm i)) i]
    unfold Recast.conv
    have : -(u.scale i * nadir (u.perm i) + u.origin i - (u.scale i * ideal (u.perm i) + u.origin i)) * t +
        (u.scale i * z (u.perm i) + u.origin i) =
        u.scale i * (-(nadir (u.perm i) - ideal (u.perm i)) * t + z (u.perm i)) + u.origin i := by ring
    rw [this]
  constructor
  · intro h i
    exact (key i).2 (h _)
  · intro h i
    have := (key (u.perm.symm i)).1 (h _)
    rwa [Equiv.apply_symm_apply] at this

theorem mono_max (u : Recast k K) (j : Fin k) (x y : K) :
    u.scale j * max x y + u.origin j = max (u.scale j * x + u.origin j) (u.scale j * y + u.origin j) := by
  rw [mul_max_of_nonneg _ _ (u.pos j).le, max_add_add_right]

theorem mono_min (u : Recast k K) (j : Fin k) (x y : K) :
    u.scale j * min x y + u.origin j = min (u.scale j * x + u.origin j) (u.scale j * y + u.origin j) := by
  rw [mul_min_of_nonneg _ _ (u.pos j).le, min_add_add_right]

theorem extremes_conv (u : Recast k K) (l : List (Vec k K)) :
    extremes (l.map u.conv) = (extremes l).map fun p => (u.conv p.1, u.conv p.2) := by
  cases l with
  | nil => rfl
  | cons p ps =>
    simp only [List.map_cons, extremes, Except.map, List.foldl_map]
    have hmax : ∀ (l : List (Vec k K)) (j : Fin k) (a : K),
        l.foldl (fun m v => max m (u.conv v j)) (u.scale j * a + u.origin j) =
          u.scale j * l.foldl (fun m v => max m (v (u.perm j))) a + u.origin j := by
      intro l j
      induction l with
      | nil => intro a; rfl
      | cons v l ih =>
        intro a
        simp only [List.foldl_cons]
        rw [← ih, mono_max]
        rfl
    have hmin : ∀ (l : List (Vec k K)) (j : Fin k) (a : K),
        l.foldl (fun m v => min m (u.conv v j)) (u.scale j * a + u.origin j) =
          u.scale j * l.foldl (fun m v => min m (v (u.perm j))) a + u.origin j := by
      intro l j
      induction l with
      | nil => intro a; rfl
      | cons v l ih =>
        intro a
        simp only [List.foldl_cons]
        rw [← ih, mono_min]
        rfl
    congr 2
    · funext j
      exact hmax ps j (p (u.perm j))
    · funext j
      exact hmin ps j (p (u.perm j))

theorem pyGet_map {α β : Type} (g : α → β) (l : List α) (i : Int) :
    pyGet (l.map g) i = (pyGet l i).map g := by
  unfold pyGet
  simp only [List.length_map, List.getElem?_map]
  generalize (if i < 0 then i + (l.length : Int) else i) = j
  by_cases hj : j < 0
  · rw [if_pos hj, if_pos hj]; rfl
  · rw [if_neg hj, if_neg hj]
    cases l[j.toNat]? <;> rfl

/-- The current solution is not set, a number, or a vector with one component per objective. -/
def GoodCur (k : Nat) (p : Option (Cur K)) : Prop := ∀ l, p = some (.vec l) → l.length = k

/-- The entry for one class. -/
def classValue (ideal nadir : Vec k K) (cur : Vec k K) (i : Fin k) (c : String) : K :=
  if c = "<" then ideal i else if c = ">" then nadir i else cur i

theorem mapClasses_vec (ideal nadir cur : Vec k K) (cs : Fin k → String) :
    mapClasses ideal nadir (some (.vec (List.ofFn cur))) 0 (List.ofFn cs) =
      .ok (List.ofFn fun i => classValue ideal nadir cur i (cs i)) := by
  have key : ∀ (cs : List String) (n : Nat), n + cs.length ≤ k →
      mapClasses ideal nadir (some (.vec (List.ofFn cur))) n cs =
        .ok (cs.mapIdx fun j c => if h : n + j < k then classValue ideal nadir cur ⟨n + j, h⟩ c else 0) := by
    intro cs
    induction cs with
    | nil => intro n _; rfl
    | cons c cs ih =>
      intro n hn
      have hn' : n < k := by simp at hn; omega
      have e : mapClass ideal nadir (some (.vec (List.ofFn cur))) n c = .ok (classValue ideal nadir cur ⟨n, hn'⟩ c) := by
        unfold mapClass classValue
        split_ifs
        · rfl
        · rfl
        · simp [hn']
      simp only [mapClasses, e]
      rw [ih (n + 1) (by simp at hn; omega)]
      simp only [List.mapIdx_cons, Nat.add_zero, dif_pos hn']
      congr 2
      apply List.ext_getElem
      · simp
      · intro i h1 h2
        simp [Nat.add_assoc, Nat.add_comm 1 i]
  rw [key _ 0 (by simp)]
  congr 1
  apply List.ext_getElem
  · simp
  · intro i h1 h2
    have : i < k := by simpa using h2
    simp [this]

theorem mapClasses_none (ideal nadir : Vec k K) (p : Option (Cur K)) (e : Err)
    (hp : ∀ i c, c ≠ "<" → c ≠ ">" → mapClass ideal nadir p i c = .error e) (cs : List String) (n : Nat)
    (hn : n + cs.length ≤ k) :
    (∃ c ∈ cs, c ≠ "<" ∧ c ≠ ">") ∧ mapClasses ideal nadir p n cs = .error e ∨
    (∀ c ∈ cs, c = "<" ∨ c = ">") ∧ mapClasses ideal nadir p n cs =
      mapClasses ideal nadir (some (.vec (List.ofFn fun _ : Fin k => (0 : K)))) n cs := by
  induction cs generalizing n with
  | nil => right; exact ⟨by simp, rfl⟩
  | cons c cs ih =>
    have hn' : n < k := by simp at hn; omega
    by_cases hc : c = "<" ∨ c = ">"
    · have e1 : ∃ x, mapClass ideal nadir p n c = .ok x ∧
          mapClass ideal nadir (some (.vec (List.ofFn fun _ : Fin k => (0 : K)))) n c = .ok x := by
        unfold mapClass
        rcases hc with rfl | rfl
        · simp [hn']
        · simp [hn']
      obtain ⟨x, e1, e2⟩ := e1
      rcases ih (n + 1) (by simp at hn; omega) with ⟨⟨d, hd, h1⟩, h2⟩ | ⟨h1, h2⟩
      · left
        refine ⟨⟨d, List.mem_cons_of_mem _ hd, h1⟩, ?_⟩
        simp only [mapClasses, e1, h2]
      · right
        refine ⟨?_, ?_⟩
        · intro d hd
          rcases List.mem_cons.1 hd with rfl | hd
          · exact hc
          · exact h1 d hd
        · simp only [mapClasses, e1, e2, h2]
    · left
      push Not at hc
      refine ⟨⟨c, List.mem_cons_self, hc⟩, ?_⟩
      simp only [mapClasses, hp n c hc.1 hc.2]

theorem classValue_conv (u : Recast k K) (ideal nadir cur : Vec k K) (cs : Fin k → String) :
    (List.ofFn fun i => classValue (u.conv ideal) (u.conv nadir) (u.conv cur) i (cs (u.perm i))) =
      convNumbers u (List.ofFn fun i => classValue ideal nadir cur i (cs i)) := by
  rw [convNumbers_ofFn]
  congr 1
  funext i
  unfold Recast.conv classValue
  dsimp only
  split_ifs <;> rfl

theorem convCur_vec (u : Recast k K) (v : Vec k K) : convCur u (.vec (List.ofFn v)) = .vec (List.ofFn (u.conv v)) := by
  simp only [convCur, convNumbers_ofFn]

theorem mapClasses_conv (u : Recast k K) (ideal nadir : Vec k K) {p : Option (Cur K)} (hp : GoodCur k p)
    {cs : List String} (hcs : cs.length = k) :
    mapClasses (u.conv ideal) (u.conv nadir) (p.map (convCur u)) 0 (convClasses u cs) =
      (mapClasses ideal nadir p 0 cs).map (convNumbers u) ∧
    ∀ l, mapClasses ideal nadir p 0 cs = .ok l → l.length = k := by
  obtain ⟨cs, rfl⟩ := exists_ofFn hcs
  rw [convClasses_ofFn]
  have vec : ∀ cur : Vec k K, mapClasses (u.conv ideal) (u.conv nadir) (some (.vec (List.ofFn (u.conv cur)))) 0
      (List.ofFn fun j => cs (u.perm j)) =
        (mapClasses ideal nadir (some (.vec (List.ofFn cur))) 0 (List.ofFn cs)).map (convNumbers u) := by
    intro cur
    rw [mapClasses_vec, mapClasses_vec, classValue_conv]
    rfl
  have bad : ∀ (q : Option (Cur K)) (e : Err), (∀ ideal nadir : Vec k K, ∀ i c, c ≠ "<" → c ≠ ">" →
      mapClass ideal nadir q i c = .error e) →
      mapClasses (u.conv ideal) (u.conv nadir) q 0 (List.ofFn fun j => cs (u.perm j)) =
        (mapClasses ideal nadir q 0 (List.ofFn cs)).map (convNumbers u) ∧
      ∀ l, mapClasses ideal nadir q 0 (List.ofFn cs) = .ok l → l.length = k := by
    intro q e hq
    have hmem : ∀ c, c ∈ List.ofFn (fun j => cs (u.perm j)) ↔ c ∈ List.ofFn cs := by
      intro c
      simp only [List.mem_ofFn]
      constructor
      · rintro ⟨j, rfl⟩; exact ⟨_, rfl⟩
      · rintro ⟨j, rfl⟩; exact ⟨u.perm.symm j, by simp⟩
    have h1 := mapClasses_none ideal nadir q e (hq ideal nadir) (List.ofFn cs) 0 (by simp)
    have h2 := mapClasses_none (u.conv ideal) (u.conv nadir) q e (hq _ _) (List.ofFn fun j => cs (u.perm j)) 0
      (by simp)
    rcases h1 with ⟨⟨c, hc, hb⟩, h1⟩ | ⟨ha, h1⟩
    · rcases h2 with ⟨_, h2⟩ | ⟨ha', _⟩
      · rw [h1, h2]
        exact ⟨rfl, fun l h => by cases h⟩
      · rcases ha' c ((hmem c).2 hc) with h | h
        · exact absurd h hb.1
        · exact absurd h hb.2
    · rcases h2 with ⟨⟨c, hc, hb⟩, _⟩ | ⟨_, h2⟩
      · rcases ha c ((hmem c).1 hc) with h | h
        · exact absurd h hb.1
        · exact absurd h hb.2
      · rw [h1, h2]
        have ez : ∀ (ideal nadir : Vec k K) (a b : Vec k K) (cs : Fin k → String),
            (∀ c ∈ List.ofFn cs, c = "<" ∨ c = ">") →
            mapClasses ideal nadir (some (.vec (List.ofFn a))) 0 (List.ofFn cs) =
              mapClasses ideal nadir (some (.vec (List.ofFn b))) 0 (List.ofFn cs) := by
          intro ideal nadir a b cs h
          rw [mapClasses_vec, mapClasses_vec]
          congr 2
          funext i
          unfold classValue
          rcases h (cs i) (List.mem_ofFn.2 ⟨i, rfl⟩) with h | h
          · rw [if_pos h, if_pos h]
          · rw [h]; rfl
        rw [ez (u.conv ideal) (u.conv nadir) (fun _ => 0) (u.conv fun _ => 0) _ fun c hc => ha c ((hmem c).1 hc), vec]
        refine ⟨rfl, fun l h => ?_⟩
        rw [mapClasses_vec] at h
        cases h
        simp
  cases p with
  | none =>
    refine bad none .typeError fun ideal nadir i c h1 h2 => ?_
    unfold mapClass
    rw [if_neg h1, if_neg h2]
  | some p =>
    cases p with
    | scalar x =>
      refine bad (some (.scalar x)) .indexError fun ideal nadir i c h1 h2 => ?_
      unfold mapClass
      rw [if_neg h1, if_neg h2]
    | vec l =>
      obtain ⟨v, rfl⟩ := exists_ofFn (hp l rfl)
      rw [Option.map_some, convCur_vec]
      refine ⟨vec v, fun l h => ?_⟩
      rw [mapClasses_vec] at h
      cases h
      simp

theorem moved_conv (u : Recast k K) {ref : Option (List K)} (hr : ∀ l, ref = some l → l.length = k)
    {p : Option (Cur K)} (hp : GoodCur k p) (a : K) :
    moved k (ref.map (convNumbers u)) (p.map (convCur u)) a = (moved k ref p a).map u.conv := by
  cases ref with
  | none => rfl
  | some r =>
    obtain ⟨r, rfl⟩ := exists_ofFn (hr r rfl)
    cases p with
    | none => rfl
    | some p =>
      cases p with
      | scalar x => rfl
      | vec l =>
        obtain ⟨v, rfl⟩ := exists_ofFn (hp l rfl)
        rw [Option.map_some, Option.map_some, convCur_vec, convNumbers_ofFn]
        unfold moved
        simp only [List.length_ofFn, ne_eq, not_true_eq_false, if_false, if_true, toVec_ofFn, Except.map]
        congr 1
        funext i
        unfold Recast.conv
        ring

theorem validateRef_conv (u : Recast k K) (nadir : Vec k K) (l : List K) :
    validateRef (u.conv nadir) (convNumbers u l) = validateRef nadir l := by
  unfold validateRef
  rw [convNumbers_length]
  by_cases hl : l.length = k
  · obtain ⟨v, rfl⟩ := exists_ofFn hl
    have h0 : ¬ (List.ofFn v).length ≠ k := by simp
    rw [convNumbers_ofFn, toVec_ofFn, toVec_ofFn, if_neg h0, if_neg h0]
    have : (∀ i, u.conv nadir i < u.conv v i) ↔ ∀ i, nadir i < v i := by
      unfold Recast.conv
      constructor
      · intro h i
        have := (u.lt_iff _ _ _).1 (h (u.perm.symm i))
        rwa [Equiv.apply_symm_apply] at this
      · intro h i
        exact (u.lt_iff _ _ _).2 (h _)
    by_cases h : ∀ i, nadir i < v i
    · rw [if_pos h, if_pos (this.2 h)]
    · rw [if_neg h, if_neg fun h' => h (this.1 h')]
  · rw [if_pos hl, if_pos hl]

theorem validatePref_conv (u : Recast k K) (nadir : Vec k K) (r : Resp K) (hr : FullClasses k r) :
    validatePref (u.conv nadir) (convResp u r) = validatePref nadir r := by
  unfold validatePref convResp
  cases hr0 : r.ref with
  | some l =>
    cases hc : r.classes with
    | some cs => rfl
    | none => exact validateRef_conv u nadir l
  | none =>
    cases hc : r.classes with
    | none => rfl
    | some cs =>
      obtain ⟨cs, rfl⟩ := exists_ofFn (hr cs hc)
      simp only [Option.map_none, Option.map_some, convClasses_ofFn]
      have : (List.ofFn fun j => cs (u.perm j)).all validClass = (List.ofFn cs).all validClass := by
        rw [Bool.eq_iff_iff, List.all_eq_true, List.all_eq_true]
        simp only [List.mem_ofFn, forall_exists_index, forall_apply_eq_imp_iff]
        constructor
        · intro h i
          have := h (u.perm.symm i)
          rwa [Equiv.apply_symm_apply] at this
        · intro h i
          exact h _
      rw [this]

theorem validate_conv (u : Recast k K) (req : Req k X K) (r : Resp K) (hr : FullClasses k r) :
    validate (convReq u req) (convResp u r) = validate req r := by
  cases req with
  | initial i n sols =>
    obtain ⟨ref, pref, speed, sh, sb, cl, sat⟩ := r
    simp only [convReq, validate, validateInitial, convResp]
    cases ref with
    | none => cases pref <;> rfl
    | some l => simp only [Option.map_some, validateRef_conv, Option.isSome_some]
  | nav cur i n =>
    simp only [convReq, validate, validateNav, validatePref_conv u n r hr]
    rfl
  | solution a x f => rfl
  | stop a x f => rfl

/-! ### Proofs: the methods -/

/-- The two objects hold the same information. -/
structure Rel (u : Recast k K) (s s' : St k X K) : Prop where
  sols : s'.sols = s.sols.map u.conv
  ideal : s'.ideal = u.conv s.ideal
  nadir : s'.nadir = u.conv s.nadir
  speed : s'.speed = s.speed
  ref : s'.ref = s.ref.map (convNumbers u)
  refLength : ∀ l, s.ref = some l → l.length = k
  cur : s'.cur = s.cur.map (convCur u)
  curGood : GoodCur k s.cur
  poX : s'.poX = s.poX
  poF : s'.poF = s.poF.map u.conv
  lp : ∀ m x, Feasible s.lppA (List.ofFn m ++ s.b) s.ideal s.nadir x ↔
    Feasible s'.lppA (List.ofFn (u.conv m) ++ s'.b) (u.conv s.ideal) (u.conv s.nadir) (convPoint u x)

/-- Two method bodies that do the same. -/
def Sim {α β : Type} (u : Recast k K) (g : α → β) (x : Exec (St k X K) α) (x' : Exec (St k X K) β) : Prop :=
  ∀ s s', Rel u s s' → Rel u (x s).1 (x' s').1 ∧ (x' s').2 = (x s).2.map g

section
variable {α β γ δ : Type} {u : Recast k K}

theorem Sim.bind {g : α → β} {h : γ → δ} {x : Exec (St k X K) α} {x' : Exec (St k X K) β}
    {f : α → Exec (St k X K) γ} {f' : β → Exec (St k X K) δ} (hx : Sim u g x x')
    (hf : ∀ a, Sim u h (f a) (f' (g a))) : Sim u h (x >>= f) (x' >>= f') := by
  intro s s' hs
  have e' : (x' >>= f') s' = Exec.bind x' f' s' := rfl
  have e : (x >>= f) s = Exec.bind x f s := rfl
  rw [e, e']
  unfold Exec.bind
  obtain ⟨h1, h2⟩ := hx s s' hs
  rw [h2]
  cases hxs : (x s).2 with
  | error e => exact ⟨h1, rfl⟩
  | ok a => exact hf a _ _ h1

theorem Sim.bindOk {g : α → β} {h : γ → δ} {x : Exec (St k X K) α} {x' : Exec (St k X K) β}
    {f : α → Exec (St k X K) γ} {f' : β → Exec (St k X K) δ} (hx : Sim u g x x')
    (hf : ∀ a s, (x s).2 = .ok a → Sim u h (f a) (f' (g a))) : Sim u h (x >>= f) (x' >>= f') := by
  intro s s' hs
  have e' : (x' >>= f') s' = Exec.bind x' f' s' := rfl
  have e : (x >>= f) s = Exec.bind x f s := rfl
  rw [e, e']
  unfold Exec.bind
  obtain ⟨h1, h2⟩ := hx s s' hs
  rw [h2]
  cases hxs : (x s).2 with
  | error e => exact ⟨h1, rfl⟩
  | ok a => exact hf a s hxs _ _ h1

theorem Sim.get {h : γ → δ} {f f' : St k X K → Exec (St k X K) _}
    (hf : ∀ s s', Rel u s s' → Rel u (f s s).1 (f' s' s').1 ∧ (f' s' s').2 = (f s s).2.map h) :
    Sim u h (Exec.get >>= f) (Exec.get >>= f') := fun s s' hs => hf s s' hs

theorem Sim.lift {g : α → β} {x : Except Err α} {x' : Except Err β} (h : x' = x.map g) :
    Sim u g (Exec.lift x : Exec (St k X K) α) (Exec.lift x') := fun _ _ hs => ⟨hs, h⟩

theorem Sim.pure {g : α → β} {a : α} {b : β} (h : b = g a) :
    Sim u g (pure a : Exec (St k X K) α) (pure b : Exec (St k X K) β) := fun _ _ hs => ⟨hs, by subst h; rfl⟩

theorem Sim.raise {g : α → β} (e : Err) : Sim u g (Exec.raise e : Exec (St k X K) α) (Exec.raise e) :=
  fun _ _ hs => ⟨hs, rfl⟩

theorem Sim.modify {f f' : St k X K → St k X K} (h : ∀ s s', Rel u s s' → Rel u (f s) (f' s')) :
    Sim u id (Exec.modify f) (Exec.modify f') := fun s s' hs => ⟨h s s' hs, rfl⟩

end

variable {u : Recast k K}

theorem rel_navReq {s s' : St k X K} (h : Rel u s s') : navReq s' = convReq u (navReq s) := by
  simp only [navReq, convReq, h.cur, h.ideal, h.nadir]

theorem sim_nav : Sim u (convReq u) (do let s ← Exec.get; pure (navReq s) : Exec (St k X K) (Req k X K))
    (do let s ← Exec.get; pure (navReq s)) :=
  fun _ _ hs => ⟨hs, by
    show Except.ok _ = Except.ok _
    rw [rel_navReq hs]⟩

theorem sim_speed (a : K) : Sim u id (Exec.modify fun s : St k X K => { s with speed := some a })
    (Exec.modify fun s => { s with speed := some a }) :=
  Sim.modify fun _ _ h => { h with speed := rfl }

theorem sim_ref {l : List K} (hl : l.length = k) :
    Sim u id (Exec.modify fun s : St k X K => { s with ref := some l })
      (Exec.modify fun s => { s with ref := some (convNumbers u l) }) :=
  Sim.modify fun _ _ h => { h with
    ref := rfl
    refLength := fun l' e => by cases e; exact hl }

theorem sim_cur {p : Cur K} (hp : GoodCur k (some p)) :
    Sim u id (Exec.modify fun s : St k X K => { s with cur := some p })
      (Exec.modify fun s => { s with cur := some (convCur u p) }) :=
  Sim.modify fun _ _ h => { h with
    cur := rfl
    curGood := hp }

theorem convCur_noVector {p : Cur K} (h : ∀ v, p ≠ .vec v) : convCur u p = p := by
  cases p with
  | vec v => exact absurd rfl (h v)
  | scalar x => rfl

theorem sim_start {P : Prob k X D K} {o o' : Oracle k D K} (ho : SameExternal u o o') (hv : NoVector P o)
    (r : Resp K) (hr : ∀ l, r.ref = some l → l.length = k) :
    Sim u (convCur u) (startingPoint P r o) (startingPoint (convProb u P) (convResp u r) o') := by
  unfold startingPoint
  cases hr0 : r.ref with
  | some l =>
    have e : (convResp u r).ref = some (convNumbers u l) := by simp [convResp, hr0]
    rw [e]
    refine Sim.bind (g := id) (sim_ref (hr l hr0)) fun _ => ?_
    refine Sim.bindOk (g := id) (Sim.lift ?_) fun d s hd => ?_
    · rw [ho.asf]
      cases o.asf l <;> rfl
    · exact Sim.pure (convCur_noVector fun v => hv l d v hd).symm
  | none =>
    have e : (convResp u r).ref = none := by simp [convResp, hr0]
    rw [e]
    show Sim u (convCur u) (match r.preferred with
      | none => _
      | some i => _) (match r.preferred with
      | none => _
      | some i => _)
    cases r.preferred with
    | none => exact Sim.raise _
    | some i =>
      refine Sim.get fun s s' hs => ?_
      have h : Sim u (convCur u) (X := X) (do let p ← Exec.lift (pyGet s.sols i); pure (Cur.vec (List.ofFn p)))
          (do let p ← Exec.lift (pyGet s'.sols i); pure (Cur.vec (List.ofFn p))) := by
        refine Sim.bind (g := u.conv) (Sim.lift ?_) fun v => Sim.pure (convCur_vec u v).symm
        rw [hs.sols, pyGet_map]
      exact h s s' hs

theorem start_good {P : Prob k X D K} {o : Oracle k D K} (hv : NoVector P o) (r : Resp K) (s : St k X K) {p : Cur K}
    (h : (startingPoint P r o s).2 = .ok p) : GoodCur k (some p) := by
  have h : startingPoint P r o s = ((startingPoint P r o s).1, .ok p) := by rw [← h]
  generalize (startingPoint P r o s).1 = s1 at h
  unfold startingPoint at h
  cases hr0 : r.ref with
  | some l =>
    rw [hr0] at h
    obtain ⟨s2, _, h1, h⟩ := Exec.bind_ok.1 h
    obtain ⟨s3, d, h2, h⟩ := Exec.bind_ok.1 h
    have e1 : o.asf l = .ok d := (Prod.mk.inj h2).2
    have e2 : P.asCur d = p := Except.ok.inj (Prod.mk.inj h).2
    intro v hp
    cases hp
    exact absurd e2 (hv l d v e1)
  | none =>
    rw [hr0] at h
    dsimp only at h
    cases hp : r.preferred with
    | none => rw [hp] at h; exact nomatch (Prod.mk.inj h).2
    | some i =>
      rw [hp] at h
      obtain ⟨s2, _, h1, h⟩ := Exec.bind_ok.1 h
      obtain ⟨s3, d, h2, h⟩ := Exec.bind_ok.1 h
      have e2 : Cur.vec (List.ofFn d) = p := Except.ok.inj (Prod.mk.inj h).2
      intro v hp
      cases hp
      cases e2
      simp

theorem sim_initial {P : Prob k X D K} {o o' : Oracle k D K} (ho : SameExternal u o o') (hv : NoVector P o)
    (r : Resp K) (hr : ∀ l, r.ref = some l → l.length = k) :
    Sim u (convReq u) (handleInitial P r o) (handleInitial (convProb u P) (convResp u r) o') := by
  unfold handleInitial
  refine Sim.bindOk (sim_start ho hv r hr) fun p s hp => ?_
  refine Sim.bind (g := id) (sim_cur (start_good hv r s hp)) fun _ => ?_
  show Sim u (convReq u) (match r.speed with
      | none => _
      | some v => _) (match r.speed with
      | none => _
      | some v => _)
  cases r.speed with
  | none => exact Sim.raise _
  | some v =>
    refine Sim.bind (g := id) (Sim.lift ?_) fun a => ?_
    · cases (calcSpeed v : Except Err K) <;> rfl
    · exact Sim.bind (g := id) (sim_speed a) fun _ => sim_nav

theorem sim_show {P : Prob k X D K} {o o' : Oracle k D K} (ho : SameExternal u o o') :
    Sim u (convReq u) (handleShow P o) (handleShow (convProb u P) o') := by
  unfold handleShow
  refine Sim.get fun s s' hs => ?_
  rw [hs.cur]
  cases s.cur with
  | none => exact ⟨hs, rfl⟩
  | some p =>
    have h : Sim u (convReq u) (do
          let d ← Exec.lift (o.project p)
          Exec.modify fun s : St k X K => { s with poX := some (P.vars d), poF := some (P.obj d) }
          pure (.solution (some p) (some (P.vars d)) (some (P.obj d))))
        (do
          let d ← Exec.lift (o'.project (convCur u p))
          Exec.modify fun s : St k X K =>
            { s with poX := some ((convProb u P).vars d), poF := some ((convProb u P).obj d) }
          pure (.solution (some (convCur u p)) (some ((convProb u P).vars d)) (some ((convProb u P).obj d)))) := by
      refine Sim.bind (g := id) (Sim.lift ?_) fun d => ?_
      · rw [ho.project]
        cases o.project p <;> rfl
      · refine Sim.bind (g := id) (Sim.modify fun _ _ h => { h with poX := rfl, poF := rfl }) fun _ => ?_
        exact Sim.pure rfl
    exact h s s' hs

theorem sim_setSpeed (r : Resp K) : Sim u id (setSpeed r : Exec (St k X K) Unit) (setSpeed (convResp u r)) := by
  unfold setSpeed
  show Sim u id (match r.speed with
      | none => _
      | some v => _) (match r.speed with
      | none => _
      | some v => _)
  cases r.speed with
  | none => exact Sim.pure rfl
  | some v =>
    refine Sim.bind (g := id) (Sim.lift ?_) fun a => sim_speed a
    cases (calcSpeed v : Except Err K) <;> rfl

theorem sim_setSign (r : Resp K) : Sim u id (setSign r : Exec (St k X K) K) (setSign (convResp u r)) := by
  unfold setSign
  refine Sim.get fun s s' hs => ?_
  rw [hs.speed]
  cases s.speed with
  | none => exact ⟨hs, rfl⟩
  | some a =>
    have h : ∀ a' : K, Sim u id (do
          Exec.modify fun s : St k X K => { s with speed := some a' }
          pure a')
        (do
          Exec.modify fun s : St k X K => { s with speed := some a' }
          pure a') := fun a' => Sim.bind (g := id) (sim_speed a') fun _ => Sim.pure rfl
    exact h (if r.stepBack = some true then a * (-1) else |a|) s s' hs

theorem sim_setRef (r : Resp K) (hr : ∀ l, r.ref = some l → l.length = k) (hc : FullClasses k r) :
    Sim u id (setRef r : Exec (St k X K) Unit) (setRef (convResp u r)) := by
  unfold setRef
  cases hr0 : r.ref with
  | some l =>
    have e : (convResp u r).ref = some (convNumbers u l) := by simp [convResp, hr0]
    rw [e]
    exact sim_ref (hr l hr0)
  | none =>
    have e : (convResp u r).ref = none := by simp [convResp, hr0]
    rw [e]
    cases hc0 : r.classes with
    | none =>
      have e : (convResp u r).classes = none := by simp [convResp, hc0]
      rw [e]
      exact Sim.pure rfl
    | some cs =>
      have e : (convResp u r).classes = some (convClasses u cs) := by simp [convResp, hc0]
      rw [e]
      refine Sim.get fun s s' hs => ?_
      obtain ⟨h1, h2⟩ := mapClasses_conv u s.ideal s.nadir hs.curGood (hc cs hc0)
      have h : Sim u id (X := X) (do
            let l ← Exec.lift (mapClasses s.ideal s.nadir s.cur 0 cs)
            Exec.modify fun s : St k X K => { s with ref := some l })
          (do
            let l ← Exec.lift (mapClasses s'.ideal s'.nadir s'.cur 0 (convClasses u cs))
            Exec.modify fun s : St k X K => { s with ref := some l }) := by
        rw [hs.ideal, hs.nadir, hs.cur, h1]
        exact Sim.bindOk (g := convNumbers u) (Sim.lift rfl) fun l _ hl => sim_ref (h2 l hl)
      exact h s s' hs

theorem sim_step {o o' : Oracle k D K} (ho : SameExternal u o o') (a : K) :
    Sim u (convReq u) (step o a : Exec (St k X K) (Req k X K)) (step o' a) := by
  unfold step
  refine Sim.get fun s s' hs => ?_
  have h : Sim u (convReq u) (X := X) (do
        let m ← Exec.lift (moved k s.ref s.cur a)
        let x ← Exec.lift (o.lp s.lppA (List.ofFn m ++ s.b) s.ideal s.nadir)
        Exec.modify fun s : St k X K => { s with cur := some (.vec (List.ofFn fun i : Fin k => x i.succ)) }
        let s ← Exec.get
        pure (navReq s))
      (do
        let m ← Exec.lift (moved k s'.ref s'.cur a)
        let x ← Exec.lift (o'.lp s'.lppA (List.ofFn m ++ s'.b) s'.ideal s'.nadir)
        Exec.modify fun s : St k X K => { s with cur := some (.vec (List.ofFn fun i : Fin k => x i.succ)) }
        let s ← Exec.get
        pure (navReq s)) := by
    rw [hs.ref, hs.cur, moved_conv u hs.refLength hs.curGood]
    refine Sim.bind (g := u.conv) (Sim.lift rfl) fun m => ?_
    rw [hs.ideal, hs.nadir]
    refine Sim.bind (g := convPoint u) (Sim.lift (ho.lp _ _ _ _ _ _ (hs.lp m))) fun x => ?_
    refine Sim.bind (g := id) ?_ fun _ => sim_nav
    have e : (.vec (List.ofFn fun i : Fin k => convPoint u x i.succ) : Cur K) =
        convCur u (.vec (List.ofFn fun i : Fin k => x i.succ)) := by
      rw [convCur_vec]
      rfl
    rw [e]
    exact sim_cur fun l hl => by cases hl; simp
  exact h s s' hs

theorem sim_nav_step {P : Prob k X D K} {o o' : Oracle k D K} (ho : SameExternal u o o') (r : Option (Resp K))
    (hr : ∀ r0, r = some r0 → r0.showSolution ≠ some true →
      (∀ l, r0.ref = some l → l.length = k) ∧ FullClasses k r0) :
    Sim u (convReq u) (handleNav P r o) (handleNav (convProb u P) (r.map (convResp u)) o') := by
  have e : (r.map (convResp u)).getD {} = convResp u (r.getD {}) := by cases r <;> rfl
  unfold handleNav
  dsimp only
  rw [e]
  have e2 : (convResp u (r.getD {})).showSolution = (r.getD {}).showSolution := rfl
  rw [e2]
  by_cases hsh : (r.getD {}).showSolution = some true
  · rw [if_pos hsh, if_pos hsh]
    exact sim_show ho
  · rw [if_neg hsh, if_neg hsh]
    have h : (∀ l, (r.getD {}).ref = some l → l.length = k) ∧ FullClasses k (r.getD {}) := by
      cases r with
      | none => exact ⟨(fun l h => nomatch h), (fun l h => nomatch h)⟩
      | some r0 => exact hr r0 rfl hsh
    refine Sim.bind (sim_setSpeed _) fun _ => ?_
    refine Sim.bind (sim_setSign _) fun a => ?_
    exact Sim.bind (sim_setRef _ h.1 h.2) fun _ => sim_step ho a

theorem added_rel {s s' : St k X K} (hs : Rel u s s') {f hi lo : Vec k K} {eqs eqs' : List (Vec k K × K)}
    (h : ∀ f, Inside eqs' (u.conv f) ↔ Inside eqs f) :
    Rel u (addedSt s f eqs hi lo) (addedSt s' (u.conv f) eqs' (u.conv hi) (u.conv lo)) := by
  have e1 : (fun i => max (u.conv hi i) (s'.nadir i)) = u.conv fun i => max (hi i) (s.nadir i) := by
    funext i
    rw [hs.nadir]
    exact (mono_max u i _ _).symm
  have e2 : (fun i => min (u.conv lo i) (s'.ideal i)) = u.conv fun i => min (lo i) (s.ideal i) := by
    funext i
    rw [hs.ideal]
    exact (mono_min u i _ _).symm
  unfold addedSt
  rw [e1, e2]
  refine { hs with sols := ?_, ideal := rfl, nadir := rfl, lp := ?_ }
  · simp only [hs.sols, List.map_append, List.map_cons, List.map_nil]
  · intro m x
    exact feasible_conv u h m x

theorem sim_add {o o' : Oracle k D K} (ho : SameExternal u o o') :
    Sim u (convReq u) (addSolution o : Exec (St k X K) (Req k X K)) (addSolution o') := by
  intro s s' hs
  have esol : ∀ f, s'.sols ++ [u.conv f] = (s.sols ++ [f]).map u.conv := by
    intro f
    simp only [hs.sols, List.map_append, List.map_cons, List.map_nil]
  rcases add_cases o s with ⟨hn, e⟩ | ⟨f, hf, ⟨e0, he, e⟩ | ⟨eqs, hi, lo, he, hx, e⟩⟩
  · have hn' : s'.poF = none := by rw [hs.poF, hn]; rfl
    rcases add_cases o' s' with ⟨_, e'⟩ | ⟨f', hf', _⟩
    · rw [e, e']; exact ⟨hs, rfl⟩
    · rw [hn'] at hf'; cases hf'
  · have hf1 : s'.poF = some (u.conv f) := by rw [hs.poF, hf]; rfl
    have hh := ho.hull_error _ _ he
    rcases add_cases o' s' with ⟨hn', _⟩ | ⟨f', hf', h⟩
    · rw [hf1] at hn'; cases hn'
    · rw [hf1] at hf'
      cases hf'
      rw [esol] at h
      rcases h with ⟨e1, he', e'⟩ | ⟨eqs', hi', lo', he', hx', e'⟩
      · rw [hh] at he'
        cases he'
        rw [e, e']
        exact ⟨{ hs with sols := rfl }, rfl⟩
      · rw [hh] at he'
        cases he'
  · have hf1 : s'.poF = some (u.conv f) := by rw [hs.poF, hf]; rfl
    obtain ⟨eqs1, hh, hin⟩ := ho.hull_ok _ _ he
    have hx1 := extremes_conv u (s.sols ++ [f])
    rw [hx] at hx1
    rcases add_cases o' s' with ⟨hn', _⟩ | ⟨f', hf', h⟩
    · rw [hf1] at hn'; cases hn'
    · rw [hf1] at hf'
      cases hf'
      rw [esol] at h
      rcases h with ⟨e1, he', e'⟩ | ⟨eqs', hi', lo', he', hx', e'⟩
      · rw [hh] at he'
        cases he'
      · rw [hh] at he'
        cases he'
        rw [hx1] at hx'
        cases hx'
        rw [e, e']
        have hr := added_rel (f := f) (hi := hi) (lo := lo) hs hin
        refine ⟨hr, ?_⟩
        show Except.ok _ = Except.ok _
        rw [rel_navReq hr]

theorem sim_solution {o o' : Oracle k D K} (ho : SameExternal u o o') (r : Option (Resp K)) :
    Sim u (convReq u) (handleSolution r o : Exec (St k X K) (Req k X K))
      (handleSolution (r.map (convResp u)) o') := by
  have e : ((r.map (convResp u)).getD {}).satisfied = (r.getD {}).satisfied := by cases r <;> rfl
  unfold handleSolution
  rw [e]
  split_ifs
  · intro s s' hs
    refine ⟨hs, ?_⟩
    show Except.ok _ = Except.ok _
    simp only [convReq, hs.cur, hs.poX, hs.poF]
  · exact sim_add ho

theorem validRef_length {nadir : Vec k K} {l : List K} (h : validateRef nadir l = .ok ()) : l.length = k := by
  unfold validateRef at h
  by_contra hl
  rw [if_pos hl] at h
  cases h

theorem initial_length {nadir : Vec k K} {r : Resp K} (h : validateInitial nadir r = .ok ()) :
    ∀ l, r.ref = some l → l.length = k := by
  intro l hl
  unfold validateInitial at h
  rw [hl] at h
  split at h
  · cases h
  · dsimp only at h
    split at h
    · cases h
    · rename_i h'
      exact validRef_length h'

theorem nav_length {nadir : Vec k K} {r : Resp K} (h : validateNav nadir r = .ok ())
    (hs : r.showSolution ≠ some true) : ∀ l, r.ref = some l → l.length = k := by
  intro l hl
  have key : validatePref nadir r = .ok () → l.length = k := by
    intro h
    unfold validatePref at h
    rw [hl] at h
    cases hc : r.classes with
    | none => rw [hc] at h; exact validRef_length h
    | some cs => rw [hc] at h; cases h
  unfold validateNav at h
  rw [if_neg hs] at h
  split at h
  · split at h
    · cases h
    · exact key h
  · exact key h

/-- One call. -/
theorem answer_conv {P : Prob k X D K} {o o' : Oracle k D K} (ho : SameExternal u o o') (hv : NoVector P o)
    (req : Req k X K) (r : Option (Resp K)) (hr : ∀ r0, r = some r0 → FullClasses k r0) {s s' : St k X K}
    (hs : Rel u s s') :
    Rel u (answer P s req r o).1 (answer (convProb u P) s' (convReq u req) (r.map (convResp u)) o').1 ∧
    (answer (convProb u P) s' (convReq u req) (r.map (convResp u)) o').2 =
      (answer P s req r o).2.map (convReq u) := by
  have go : ∀ (hr1 : ∀ r0, r = some r0 → validate req r0 = .ok ()),
      Sim u (convReq u) (iterate P req r o) (iterate (convProb u P) (convReq u req) (r.map (convResp u)) o') := by
    intro hr1
    cases req with
    | initial i n sols =>
      cases r with
      | none => exact Sim.raise _
      | some r0 => exact sim_initial ho hv r0 (initial_length (hr1 r0 rfl))
    | nav c i n =>
      exact sim_nav_step ho r fun r0 h0 h1 => ⟨nav_length (hr1 r0 h0) h1, hr r0 h0⟩
    | solution a x f => exact sim_solution ho r
    | stop a x f => exact Sim.pure rfl
  unfold answer
  cases r with
  | none => exact go (fun r0 h => nomatch h) s s' hs
  | some r0 =>
    simp only [Option.map_some, validate_conv u req r0 (hr r0 rfl)]
    cases hvd : validate req r0 with
    | error e => exact ⟨hs, rfl⟩
    | ok _ =>
      exact go (fun r1 h => by cases h; exact hvd) s s' hs

theorem extend_conv (o : Except Err (Req k X K)) (reqs : List (Req k X K)) :
    extend (o.map (convReq u)) (reqs.map (convReq u)) = (extend o reqs).map (convReq u) := by
  cases o <;> rfl

theorem replay_conv {P : Prob k X D K} {steps steps' : List (Nat × Option (Resp K) × Oracle k D K)}
    (hst : SameSteps u steps steps') (hv : ∀ p ∈ steps, NoVector P p.2.2)
    (hc : ∀ p ∈ steps, ∀ r, p.2.1 = some r → FullClasses k r) {s s' : St k X K} (hs : Rel u s s')
    (reqs : List (Req k X K)) :
    replay (convProb u P) s' (reqs.map (convReq u)) steps' =
      (replay P s reqs steps).map fun o => o.map (convReq u) := by
  induction hst generalizing s s' reqs with
  | nil => rfl
  | @cons i r o o' l l' ho _ ih =>
    have ih := @ih (fun p hp => hv p (List.mem_cons_of_mem _ hp)) (fun p hp => hc p (List.mem_cons_of_mem _ hp))
    simp only [replay, List.getElem?_map]
    cases reqs[i]? with
    | none => exact ih hs reqs
    | some req =>
      obtain ⟨h1, h2⟩ := answer_conv ho (hv _ List.mem_cons_self) req r (hc _ List.mem_cons_self) hs
      simp only [Option.map_some, List.map_cons]
      rw [h2, extend_conv, ih h1]

theorem construct_conv {P : Prob k X D K} {o o' : Oracle k D K} (ho : SameExternal u o o')
    (sup : Option (List (Vec k K))) :
    (∃ e, construct P sup o = .error e ∧ construct (convProb u P) (sup.map (List.map u.conv)) o' = .error e) ∨
    ∃ s s', construct P sup o = .ok s ∧ construct (convProb u P) (sup.map (List.map u.conv)) o' = .ok s' ∧
      Rel u s s' := by
  have key : ∀ (sols : List (Vec k K)) (nadir ideal : Vec k K),
      let f (o : Oracle k D K) (sols : List (Vec k K)) (nadir ideal : Vec k K) : Except Err (St k X K) :=
        match o.hull sols with
        | .error e => .error e
        | .ok eqs => .ok
          { sols := sols, ideal := ideal, nadir := nadir
            lppA := lppMatrix (weights ideal nadir) (eqs.map Prod.fst)
            b := eqs.map fun e => -e.2 }
      (∃ e, f o sols nadir ideal = .error e ∧ f o' (sols.map u.conv) (u.conv nadir) (u.conv ideal) = .error e) ∨
      ∃ s s', f o sols nadir ideal = .ok s ∧ f o' (sols.map u.conv) (u.conv nadir) (u.conv ideal) = .ok s' ∧
        Rel u s s' := by
    intro sols nadir ideal
    dsimp only
    cases hh : o.hull sols with
    | error e =>
      left
      rw [ho.hull_error _ _ hh]
      exact ⟨e, rfl, rfl⟩
    | ok eqs =>
      right
      obtain ⟨eqs', hh', hin⟩ := ho.hull_ok _ _ hh
      rw [hh']
      exact ⟨_, _, rfl, rfl, ⟨rfl, rfl, rfl, rfl, rfl, (fun l h => nomatch h), rfl, (fun l h => nomatch h), rfl, rfl,
        fun m x => feasible_conv u hin m x⟩⟩
  have key2 : ∀ sols : List (Vec k K),
      let f (P : Prob k X D K) (o : Oracle k D K) (sols : List (Vec k K)) : Except Err (St k X K) :=
        match (match P.bounds with
          | some (ideal, nadir) => .ok (nadir, ideal)
          | none => extremes sols : Except Err (Vec k K × Vec k K)) with
        | .error e => .error e
        | .ok (nadir, ideal) =>
          match o.hull sols with
          | .error e => .error e
          | .ok eqs => .ok
            { sols := sols, ideal := ideal, nadir := nadir
              lppA := lppMatrix (weights ideal nadir) (eqs.map Prod.fst)
              b := eqs.map fun e => -e.2 }
      (∃ e, f P o sols = .error e ∧ f (convProb u P) o' (sols.map u.conv) = .error e) ∨
      ∃ s s', f P o sols = .ok s ∧ f (convProb u P) o' (sols.map u.conv) = .ok s' ∧ Rel u s s' := by
    intro sols
    dsimp only
    cases hb : P.bounds with
    | some b =>
      have e : (convProb u P).bounds = some (u.conv b.1, u.conv b.2) := by simp [convProb, hb]
      rw [e]
      exact key sols b.2 b.1
    | none =>
      have e : (convProb u P).bounds = none := by simp [convProb, hb]
      rw [e]
      dsimp only
      rw [extremes_conv]
      cases extremes sols with
      | error e => left; exact ⟨e, rfl, rfl⟩
      | ok p => exact key sols p.1 p.2
  unfold construct
  cases ht : P.table with
  | some t =>
    have e : (convProb u P).table = some (t.map u.conv) := by simp [convProb, ht]
    rw [e]
    cases sup <;> exact key2 t
  | none =>
    have e : (convProb u P).table = none := by simp [convProb, ht]
    rw [e]
    cases sup with
    | none => left; exact ⟨_, rfl, rfl⟩
    | some l => exact key2 l

/-! ### C140 -/

/-- **C140**, partial. Present the same problem anew (list the objectives in another order, measure them from
other origins): the whole use of Pareto Navigator is the same, in the new presentation,
provided that the external code treats both presentations alike, every classification has one class per
objective, and no use starts from a reference point with a minimizer that returns decision vectors. Missing: see
`C140_fails_start` and `C140_fails_classes`. -/
theorem C140_presentation_partial (u : Recast k K) {P : Prob k X D K} {sup : Option (List (Vec k K))}
    {o o' : Oracle k D K} (ho : SameExternal u o o')
    {steps steps' : List (Nat × Option (Resp K) × Oracle k D K)} (hst : SameSteps u steps steps')
    (hv : ∀ p ∈ steps, NoVector P p.2.2) (hc : ∀ p ∈ steps, ∀ r, p.2.1 = some r → FullClasses k r) :
    use (convProb u P) (sup.map (List.map u.conv)) o' steps' =
      (use P sup o steps).map fun q => q.map (convReq u) := by
  unfold use
  rcases construct_conv (P := P) ho sup with ⟨e, h1, h2⟩ | ⟨s, s', h1, h2, hs⟩
  · rw [h1, h2]; rfl
  · rw [h1, h2]
    have e : start s' = convReq u (start s) := by
      simp only [start, convReq, hs.ideal, hs.nadir, hs.sols]
    have h := replay_conv hst hv hc hs [start s]
    simp only [List.map_cons, List.map_nil] at h ⊢
    rw [e]
    exact congrArg₂ List.cons rfl h

/-! ### C141 -/

/-- External code that cannot project. -/
def blind (o : Oracle k D K) : Oracle k D K := { o with project := fun _ => .error .refused }

theorem answer_blind {P : Prob k X D K} {s : St k X K} {req : Req k X K} {r : Option (Resp K)} {o : Oracle k D K}
    (h : ∀ r0, r = some r0 → r0.showSolution ≠ some true) :
    answer P s req r (blind o) = answer P s req r o := by
  have hs : (r.getD {}).showSolution ≠ some true := by
    cases r with
    | none => exact nofun
    | some r0 => exact h r0 rfl
  have e : iterate P req r (blind o) = iterate P req r o := by
    cases req with
    | initial i n sols => cases r <;> rfl
    | nav c i n =>
      show handleNav P r (blind o) = handleNav P r o
      unfold handleNav
      dsimp only
      rw [if_neg hs, if_neg hs]
      rfl
    | solution a x f => rfl
    | stop a x f => rfl
  unfold answer
  rw [e]

theorem replay_blind {P : Prob k X D K} {steps : List (Nat × Option (Resp K) × Oracle k D K)}
    (h : NeverShows steps) (s : St k X K) (reqs : List (Req k X K)) :
    replay P s reqs (steps.map fun p => (p.1, p.2.1, blind p.2.2)) = replay P s reqs steps := by
  induction steps generalizing s reqs with
  | nil => rfl
  | cons p l ih =>
    have ih := @ih fun q hq => h q (List.mem_cons_of_mem _ hq)
    obtain ⟨i, r, o⟩ := p
    simp only [List.map_cons, replay]
    cases reqs[i]? with
    | none => exact ih s reqs
    | some req =>
      dsimp only
      rw [answer_blind (h _ List.mem_cons_self), ih]

theorem SameLinear.blind {o o' : Oracle k D K} (h : SameLinear u o o')
    (ha : ∀ l, o'.asf (convNumbers u l) = o.asf l) : SameExternal u (blind o) (blind o') :=
  ⟨⟨h.hull_error, h.hull_ok, h.lp⟩, ha, fun _ => rfl⟩

theorem SameMoves.blind {steps steps' : List (Nat × Option (Resp K) × Oracle k D K)} (h : SameMoves u steps steps') :
    SameSteps u (steps.map fun p => (p.1, p.2.1, blind p.2.2)) (steps'.map fun p => (p.1, p.2.1, ParetoNav.blind p.2.2)) := by
  induction h with
  | nil => exact .nil
  | cons h1 h2 _ ih => exact .cons (h1.blind h2) ih

theorem SameMoves.neverShows {steps steps' : List (Nat × Option (Resp K) × Oracle k D K)}
    (h : SameMoves u steps steps') (hn : NeverShows steps) : NeverShows steps' := by
  induction h with
  | nil => exact hn
  | @cons i r o o' l l' _ _ _ ih =>
    intro p hp
    rcases List.mem_cons.1 hp with rfl | hp
    · intro r' hr'
      cases r with
      | none => cases hr'
      | some r0 =>
        cases hr'
        exact hn _ List.mem_cons_self r0 rfl
    · exact ih (fun q hq => hn q (List.mem_cons_of_mem _ hq)) p hp

theorem construct_blind (P : Prob k X D K) (sup : Option (List (Vec k K))) (o : Oracle k D K) :
    construct P sup (blind o) = construct P sup o := rfl

/-- **C141**, partial. Measure the objectives in other units (and list them in another order, from other origins):
as long as no response asks for the nearest solution, the whole use of Pareto Navigator is the same, in the new
units. Nothing is assumed about the projection. Missing: the solutions shown, see `C141_fails`; and what is
missing from C140. -/
theorem C141_navigation_partial (u : Recast k K) {P : Prob k X D K} {sup : Option (List (Vec k K))}
    {o o' : Oracle k D K} (ho : SameLinear u o o')
    {steps steps' : List (Nat × Option (Resp K) × Oracle k D K)} (hst : SameMoves u steps steps')
    (hn : NeverShows steps)
    (hv : ∀ p ∈ steps, NoVector P p.2.2) (hc : ∀ p ∈ steps, ∀ r, p.2.1 = some r → FullClasses k r) :
    use (convProb u P) (sup.map (List.map u.conv)) o' steps' =
      (use P sup o steps).map fun q => q.map (convReq u) := by
  have h := C140_presentation_partial u (P := P) (sup := sup)
    (o := { blind o with asf := fun _ => .error .refused }) (o' := { blind o' with asf := fun _ => .error .refused })
    ⟨⟨ho.hull_error, ho.hull_ok, ho.lp⟩, fun _ => rfl, fun _ => rfl⟩ hst.blind
    (by
      intro p hp
      obtain ⟨q, hq, rfl⟩ := List.mem_map.1 hp
      exact hv q hq)
    (by
      intro p hp
      obtain ⟨q, hq, rfl⟩ := List.mem_map.1 hp
      exact hc q hq)
  have e : ∀ (P : Prob k X D K) (sup : Option (List (Vec k K))) (o : Oracle k D K)
      (steps : List (Nat × Option (Resp K) × Oracle k D K)), NeverShows steps →
      use P sup { blind o with asf := fun _ => .error .refused } (steps.map fun p => (p.1, p.2.1, blind p.2.2)) =
        use P sup o steps := by
    intro P sup o steps hn
    unfold use
    rw [show construct P sup { blind o with asf := fun _ => .error .refused } = construct P sup o from rfl]
    cases construct P sup o with
    | error e => rfl
    | ok s =>
      dsimp only
      rw [replay_blind hn]
  rw [e _ _ _ _ hn, e _ _ _ _ (hst.neverShows hn)] at h
  exact h

/-! ### Examples and counterexamples -/

/-- **C140**, the projection: with the library's achievement function the value minimized when the current solution
is projected is the same in every order and from every origin. -/
theorem C140_projection {k : Nat} (u : Recast (k + 1) K) (hu : ∀ j, u.scale j = 1) (p f : Vec (k + 1) K) :
    projValue (u.conv p) (u.conv f) = projValue p f := by
  unfold projValue
  apply le_antisymm
  · rw [vmax_le_iff]
    intro i
    have h := le_vmax (fun i => 1 * (f i - p i)) (u.perm i)
    simp only [Recast.conv, hu] at h ⊢
    linarith
  · rw [vmax_le_iff]
    intro i
    have h := le_vmax (fun i => 1 * (u.conv f i - u.conv p i)) (u.perm.symm i)
    simp only [Recast.conv, hu, Equiv.apply_symm_apply] at h ⊢
    linarith

/-- Every solver that chooses a point by the set of feasible points gives external code for the two
presentations that agrees. -/
theorem linear_of_choice (u : Recast k K) (choice : (Vec (k + 1) K → Prop) → Except Err (Vec (k + 1) K))
    {o o' : Oracle k D K} {eqs eqs' : List (Vec k K × K)} (h1 : o.hull = fun _ => .ok eqs)
    (h2 : o'.hull = fun _ => .ok eqs') (hin : ∀ f, Inside eqs' (u.conv f) ↔ Inside eqs f)
    (h3 : o.lp = fun A b lo hi => choice (Feasible A b lo hi))
    (h4 : o'.lp = fun A b lo hi => (choice fun x => Feasible A b lo hi (convPoint u x)).map (convPoint u)) :
    SameLinear u o o' where
  hull_error := fun pts e h => by rw [h1] at h; cases h
  hull_ok := fun pts e h => by
    rw [h1] at h
    cases h
    exact ⟨eqs', by rw [h2], hin⟩
  lp := fun A b lo hi A' b' h => by
    rw [h3, h4]
    dsimp only
    congr 2
    funext x
    exact propext (h x).symm

/-- The data of the example: three rows of a table. -/
def tabRows : List (Vec 2 ℚ) := [![0, 1], ![1, 0], ![1, 1]]

def tabProb : Prob 2 Nat Nat ℚ where
  table := some tabRows
  bounds := none
  vars := fun d => d
  obj := fun d => (tabRows[d]?).getD ![0, 0]
  asCur := fun d => .scalar d

/-- A `linprog` that returns the same point whatever it is asked. -/
def tabChoice : (Vec 3 ℚ → Prop) → Except Err (Vec 3 ℚ) := fun _ => .ok ![0, 1 / 2, 1 / 2]

def tabOrc : Oracle 2 Nat ℚ where
  asf := fun _ => .ok 1
  project := fun _ => .ok 0
  hull := fun _ => .ok exEqs
  lp := fun A b lo hi => tabChoice (Feasible A b lo hi)

/-- Another order, other origins and other units. -/
def tabView : Recast 2 ℚ where
  perm := Equiv.swap 0 1
  scale := ![2, 1 / 3]
  origin := ![10, -1]
  pos := by decide +kernel

/-- The same order and units. -/
def tabMove : Recast 2 ℚ where
  perm := Equiv.swap 0 1
  scale := ![1, 1]
  origin := ![10, -1]
  pos := by decide +kernel

def viewEqs : List (Vec 2 ℚ × ℚ) := [(![-1 / 2, -3], 3), (![0, 3], 2), (![1 / 2, 0], -6)]

def moveEqs : List (Vec 2 ℚ × ℚ) := [(![-1, -1], 10), (![0, 1], 0), (![1, 0], -11)]

theorem viewEqs_inside : ∀ f, Inside viewEqs (tabView.conv f) ↔ Inside exEqs f := by
  intro f
  simp only [Inside, viewEqs, exEqs, List.mem_cons, List.not_mem_nil, or_false, forall_eq_or_imp, forall_eq, dot,
    Fin.sum_univ_two, Recast.conv, tabView, Equiv.swap_apply_left, Equiv.swap_apply_right, Matrix.cons_val_zero,
    Matrix.cons_val_one]
  constructor <;> rintro ⟨h1, h2, h3⟩ <;> refine ⟨?_, ?_, ?_⟩ <;> linarith

theorem moveEqs_inside : ∀ f, Inside moveEqs (tabMove.conv f) ↔ Inside exEqs f := by
  intro f
  simp only [Inside, moveEqs, exEqs, List.mem_cons, List.not_mem_nil, or_false, forall_eq_or_imp, forall_eq, dot,
    Fin.sum_univ_two, Recast.conv, tabMove, Equiv.swap_apply_left, Equiv.swap_apply_right, Matrix.cons_val_zero,
    Matrix.cons_val_one]
  constructor <;> rintro ⟨h1, h2, h3⟩ <;> refine ⟨?_, ?_, ?_⟩ <;> linarith

def tabOrcMoved : Oracle 2 Nat ℚ where
  asf := fun _ => .ok 1
  project := fun _ => .ok 0
  hull := fun _ => .ok moveEqs
  lp := fun A b lo hi => (tabChoice fun x => Feasible A b lo hi (convPoint tabMove x)).map (convPoint tabMove)

def tabOrcViewed : Oracle 2 Nat ℚ where
  asf := fun _ => .ok 1
  project := fun _ => .ok 2
  hull := fun _ => .ok viewEqs
  lp := fun A b lo hi => (tabChoice fun x => Feasible A b lo hi (convPoint tabView x)).map (convPoint tabView)

theorem tab_moved : SameExternal tabMove tabOrc tabOrcMoved :=
  ⟨linear_of_choice tabMove tabChoice rfl rfl moveEqs_inside rfl rfl, fun _ => rfl, fun _ => rfl⟩

theorem tab_viewed : SameLinear tabView tabOrc tabOrcViewed :=
  linear_of_choice tabView tabChoice rfl rfl viewEqs_inside rfl rfl

/-- Start, navigate by a classification, show the nearest solution and be satisfied. -/
def tabTalk : List (Nat × Option (Resp ℚ) × Oracle 2 Nat ℚ) :=
  [(0, some { preferred := some 0, speed := some (.int 5) }, tabOrc),
   (0, some { classes := some ["<", ">"] }, tabOrc), (0, none, tabOrc), (0, some { showSolution := some true }, tabOrc),
   (0, some { satisfied := some true }, tabOrc)]

def tabTalkMoved : List (Nat × Option (Resp ℚ) × Oracle 2 Nat ℚ) :=
  [(0, some { preferred := some 0, speed := some (.int 5) }, tabOrcMoved),
   (0, some { classes := some [">", "<"] }, tabOrcMoved), (0, none, tabOrcMoved),
   (0, some { showSolution := some true }, tabOrcMoved), (0, some { satisfied := some true }, tabOrcMoved)]

theorem tab_sameSteps : SameSteps tabMove tabTalk tabTalkMoved := by
  have e1 : convClasses tabMove ["<", ">"] = [">", "<"] := by decide +kernel
  have e : convResp tabMove { classes := some ["<", ">"] } = { classes := some [">", "<"] } := by
    simp only [convResp, Option.map_some, Option.map_none, e1]
  unfold tabTalk tabTalkMoved
  rw [← e]
  exact .cons tab_moved (.cons tab_moved (.cons tab_moved (.cons tab_moved (.cons tab_moved .nil))))

theorem tab_noVector : ∀ p ∈ tabTalk, NoVector tabProb p.2.2 := by
  intro p _ l d v _ h
  cases h

theorem tab_full : ∀ p ∈ tabTalk, ∀ r, p.2.1 = some r → FullClasses 2 r := by
  intro p hp r hr cs hcs
  simp only [tabTalk, List.mem_cons, List.not_mem_nil, or_false] at hp
  rcases hp with rfl | rfl | rfl | rfl | rfl <;> cases hr <;> cases hcs
  rfl

/-- The use is a full one without errors. -/
example : (use tabProb none tabOrc tabTalk).length = 6 ∧
    (use tabProb none tabOrc tabTalk).all (fun o => match o with | .ok _ => true | .error _ => false) = true :=
  ⟨rfl, rfl⟩

example := C140_presentation_partial tabMove (P := tabProb) (sup := none) tab_moved tab_sameSteps tab_noVector tab_full

example := C140_projection tabMove (by decide +kernel)

/-- The same without the request to show a solution. -/
def tabMoves : List (Nat × Option (Resp ℚ) × Oracle 2 Nat ℚ) := tabTalk.take 3

def tabMovesViewed : List (Nat × Option (Resp ℚ) × Oracle 2 Nat ℚ) :=
  [(0, some { preferred := some 0, speed := some (.int 5) }, tabOrcViewed),
   (0, some { classes := some [">", "<"] }, tabOrcViewed), (0, none, tabOrcViewed)]

theorem tab_sameMoves : SameMoves tabView tabMoves tabMovesViewed := by
  have e1 : convClasses tabView ["<", ">"] = [">", "<"] := by decide +kernel
  have e : convResp tabView { classes := some ["<", ">"] } = { classes := some [">", "<"] } := by
    simp only [convResp, Option.map_some, Option.map_none, e1]
  unfold tabMoves tabTalk tabMovesViewed
  rw [← e]
  exact .cons tab_viewed (fun _ => rfl) (.cons tab_viewed (fun _ => rfl) (.cons tab_viewed (fun _ => rfl) .nil))

example := C141_navigation_partial tabView (P := tabProb) (sup := none) tab_viewed tab_sameMoves
  (by
    intro p hp r hr
    simp only [tabMoves, tabTalk, List.take_succ_cons, List.take_zero, List.mem_cons, List.not_mem_nil, or_false] at hp
    rcases hp with rfl | rfl | rfl <;> cases hr <;> exact nofun)
  (fun p hp => tab_noVector p (List.mem_of_mem_take hp)) (fun p hp => tab_full p (List.mem_of_mem_take hp))

/-- The triangle with its second coordinate measured from `-c`. -/
def triEqs (c : ℚ) : List (Vec 2 ℚ × ℚ) := [(![-1, -1], 1 + c), (![1, 0], -1), (![0, 1], -(1 + c))]

/-- An exact `linprog` for navigation towards the long side of the triangle. -/
def triLp (c : ℚ) (A : List (Vec 3 ℚ)) (b : List ℚ) (lo hi : Vec 2 ℚ) : Except Err (Vec 3 ℚ) :=
  match b with
  | m0 :: m1 :: rest =>
    if A = lppMatrix (weights ![0, c] ![1, 1 + c]) ((triEqs c).map Prod.fst) ∧ rest = (triEqs c).map (fun e => -e.2) ∧
      lo = ![0, c] ∧ hi = ![1, 1 + c] ∧ 0 ≤ m0 + (1 + c - m0 - m1) / 2 ∧ m0 + (1 + c - m0 - m1) / 2 ≤ 1
    then .ok ![(1 + c - m0 - m1) / 2, m0 + (1 + c - m0 - m1) / 2, m1 + (1 + c - m0 - m1) / 2]
    else .error .refused
  | _ => .error .refused

theorem triLp_exact (c : ℚ) : LpExact (k := 2) (triLp c) := by
  intro A b lo hi x h
  unfold triLp at h
  split at h
  · rename_i m0 m1 rest
    split_ifs at h with hc
    obtain ⟨rfl, rfl, rfl, rfl, h0, h1⟩ := hc
    cases h
    have e : (m0 :: m1 :: (triEqs c).map fun e => -e.2) = List.ofFn ![m0, m1] ++ (triEqs c).map fun e => -e.2 := by
      simp [List.ofFn_succ]
    have hw : ∀ i, -1 / weights ![0, c] ![1, 1 + c] i = -1 := by
      intro i
      fin_cases i <;> simp [weights]
    have hiff : ∀ t (z : Vec 2 ℚ), Feasible (lppMatrix (weights ![0, c] ![1, 1 + c]) ((triEqs c).map Prod.fst))
        (m0 :: m1 :: (triEqs c).map fun e => -e.2) ![0, c] ![1, 1 + c] (Fin.cons t z) ↔
        (z 0 ≤ m0 + t ∧ z 1 ≤ m1 + t) ∧ 1 + c ≤ z 0 + z 1 ∧ (0 ≤ z 0 ∧ z 0 ≤ 1) ∧ (c ≤ z 1 ∧ z 1 ≤ 1 + c) := by
      intro t z
      rw [e, feasible_iff]
      simp only [hw, Fin.forall_fin_two, InBox, triEqs, List.mem_cons, List.not_mem_nil, or_false, forall_eq_or_imp,
        forall_eq, dot, Fin.sum_univ_two, Matrix.cons_val_zero, Matrix.cons_val_one]
      constructor
      · rintro ⟨⟨a1, a2⟩, ⟨a3, a4, a5⟩, ⟨a6, a7⟩, a8, a9⟩
        refine ⟨⟨by linarith, by linarith⟩, by linarith, ⟨a6, a7⟩, a8, a9⟩
      · rintro ⟨⟨a1, a2⟩, a3, ⟨a6, a7⟩, a8, a9⟩
        refine ⟨⟨by linarith, by linarith⟩, ⟨by linarith, by linarith, by linarith⟩, ⟨a6, a7⟩, a8, a9⟩
    have hx : (![(1 + c - m0 - m1) / 2, m0 + (1 + c - m0 - m1) / 2, m1 + (1 + c - m0 - m1) / 2] : Vec 3 ℚ) =
        (Fin.cons ((1 + c - m0 - m1) / 2) ![m0 + (1 + c - m0 - m1) / 2, m1 + (1 + c - m0 - m1) / 2] : Vec 3 ℚ) := rfl
    constructor
    · rw [hx, hiff]
      simp only [Matrix.cons_val_zero, Matrix.cons_val_one]
      refine ⟨⟨le_refl _, le_refl _⟩, by linarith, ⟨h0, h1⟩, by linarith, by linarith⟩
    · intro y hy
      have ey : y = Fin.cons (y 0) (fun i => y i.succ) := by
        funext i
        refine Fin.cases rfl (fun i => rfl) i
      rw [ey, hiff] at hy
      obtain ⟨⟨a1, a2⟩, a3, _⟩ := hy
      show (1 + c - m0 - m1) / 2 ≤ y 0
      linarith
  · cases h

def triOrc (c : ℚ) : Oracle 2 Nat ℚ where
  asf := fun _ => .error .refused
  project := fun _ => .error .refused
  hull := fun _ => .ok (triEqs c)
  lp := triLp c

/-- One class for two objectives: accepted by the method. -/
def triTalk (c : ℚ) : List (Nat × Option (Resp ℚ) × Oracle 2 Nat ℚ) :=
  [(0, some { preferred := some 0, speed := some (.int 5) }, triOrc c), (0, some { classes := some ["<"] }, triOrc c)]

/-- **C140 fails.** A classification with one class for two objectives is accepted, and the ideal value of the first
objective is used for the second one as well. With the second objective measured from an origin ten units away,
navigation leads to `(11/20, 9/20)`, in the old coordinates, instead of `(1/20, 19/20)`. All external code is
exact. -/
theorem C140_fails_classes :
    (∀ c, LpExact (triOrc c).lp) ∧ (∀ f, Inside (triEqs 10) ((shift ![0, 10]).conv f) ↔ Inside (triEqs 0) f) ∧
    use tabProb none (triOrc 0) (triTalk 0) =
      [.ok (.initial ![0, 0] ![1, 1] tabRows), .ok (.nav (some (.vec [0, 1])) ![0, 0] ![1, 1]),
       .ok (.nav (some (.vec [1 / 20, 19 / 20])) ![0, 0] ![1, 1])] ∧
    use (convProb (shift ![0, 10]) tabProb) none (triOrc 10) (triTalk 10) =
      [.ok (.initial ![0, 10] ![1, 11] [![0, 11], ![1, 10], ![1, 11]]), .ok (.nav (some (.vec [0, 11])) ![0, 10] ![1, 11]),
       .ok (.nav (some (.vec [11 / 20, 209 / 20])) ![0, 10] ![1, 11])] := by
  refine ⟨fun c => triLp_exact c, ?_, eq_of_beq (by decide +kernel), eq_of_beq (by decide +kernel)⟩
  intro f
  simp only [Inside, triEqs, List.mem_cons, List.not_mem_nil, or_false, forall_eq_or_imp, forall_eq, dot,
    Fin.sum_univ_two, Recast.conv, shift, Equiv.Perm.coe_one, id_eq, Matrix.cons_val_zero,
    Matrix.cons_val_one]
  constructor <;> rintro ⟨h1, h2, h3⟩ <;> refine ⟨?_, ?_, ?_⟩ <;> linarith

/-- Two objectives that are the two decision variables. -/
def sameProb : Prob 2 (Vec 2 ℚ) (Vec 2 ℚ) ℚ where
  table := none
  bounds := none
  vars := fun x => x
  obj := fun x => x
  asCur := fun x => .vec [x 0, x 1]

def sameOrc (c : ℚ) : Oracle 2 (Vec 2 ℚ) ℚ where
  asf := fun l => .ok ![(l[0]?).getD 0, (l[1]?).getD 0 - c]
  project := fun _ => .error .refused
  hull := fun _ => .ok (triEqs c)
  lp := triLp c

/-- **C140 fails.** If the use starts from a reference point of an analytic problem, the decision vector found is
taken for the current solution. Here the solution found attains the reference point and has the objective values
`(1/2, 1/2)`; measured from an origin ten units away they are `(1/2, 21/2)`, but the method still shows
`(1/2, 1/2)`, which is not even between ideal and nadir. -/
theorem C140_fails_start :
    (∀ l, (sameOrc 10).asf (convNumbers (shift ![0, 10]) l) = (sameOrc 0).asf l ∨ l.length ≠ 2) ∧
    use sameProb (some tabRows) (sameOrc 0) [(0, some { ref := some [1 / 2, 1 / 2], speed := some (.int 5) }, sameOrc 0)] =
      [.ok (.initial ![0, 0] ![1, 1] tabRows), .ok (.nav (some (.vec [1 / 2, 1 / 2])) ![0, 0] ![1, 1])] ∧
    use (convProb (shift ![0, 10]) sameProb) (some (tabRows.map (shift ![0, 10]).conv)) (sameOrc 10)
        [(0, some { ref := some [1 / 2, 21 / 2], speed := some (.int 5) }, sameOrc 10)] =
      [.ok (.initial ![0, 10] ![1, 11] [![0, 11], ![1, 10], ![1, 11]]),
       .ok (.nav (some (.vec [1 / 2, 1 / 2])) ![0, 10] ![1, 11])] := by
  refine ⟨?_, eq_of_beq (by decide +kernel), eq_of_beq (by decide +kernel)⟩
  intro l
  by_cases hl : l.length = 2
  · left
    obtain ⟨v, rfl⟩ := exists_ofFn hl
    rw [convNumbers_ofFn]
    simp [sameOrc, Recast.conv, shift]
  · right; exact hl

/-- Three rows; the first one is dominated by the others. -/
def unitRows : List (Vec 2 ℚ) := [![2, 2], ![0, 3 / 2], ![1, 0]]

def unitProb : Prob 2 Nat Nat ℚ where
  table := some unitRows
  bounds := none
  vars := fun d => d
  obj := fun d => (unitRows[d]?).getD ![0, 0]
  asCur := fun d => .scalar d

/-- The largest excess over a point. -/
def excess (p f : Vec 2 ℚ) : ℚ := max (f 0 - p 0) (f 1 - p 1)

/-- The best of the three rows for the projection. -/
def nearestRow (P : Prob 2 Nat Nat ℚ) (p : Vec 2 ℚ) : Nat :=
  if excess p (P.obj 0) ≤ excess p (P.obj 1) ∧ excess p (P.obj 0) ≤ excess p (P.obj 2) then 0
  else if excess p (P.obj 1) ≤ excess p (P.obj 2) then 1 else 2

def unitOrc (P : Prob 2 Nat Nat ℚ) : Oracle 2 Nat ℚ where
  asf := fun _ => .error .refused
  project := fun p => match p with
    | .vec l => .ok (nearestRow P (toVec 2 l))
    | .scalar _ => .error .refused
  hull := fun _ => .ok []
  lp := fun _ _ _ _ => .error .refused

theorem unitOrc_projects (P : Prob 2 Nat Nat ℚ) : Projects P (fun d => d < 3) (unitOrc P) := by
  intro l p d hl h
  subst hl
  simp only [unitOrc, toVec_ofFn] at h
  cases h
  have key : ∀ y, y < 3 → nearestRow P p < 3 ∧ excess p (P.obj (nearestRow P p)) ≤ excess p (P.obj y) := by
    intro y hy
    unfold nearestRow
    split_ifs with h1 h2
    · refine ⟨by omega, ?_⟩
      rcases (by omega : y = 0 ∨ y = 1 ∨ y = 2) with rfl | rfl | rfl
      · exact le_refl _
      · exact h1.1
      · exact h1.2
    · refine ⟨by omega, ?_⟩
      rcases (by omega : y = 0 ∨ y = 1 ∨ y = 2) with rfl | rfl | rfl
      · by_contra h3
        push Not at h3
        exact h1 ⟨h3.le, h3.le.trans h2⟩
      · exact le_refl _
      · exact h2
    · push Not at h2
      refine ⟨by omega, ?_⟩
      rcases (by omega : y = 0 ∨ y = 1 ∨ y = 2) with rfl | rfl | rfl
      · by_contra h3
        push Not at h3
        exact h1 ⟨h3.le.trans h2.le, h3.le⟩
      · exact h2.le
      · exact le_refl _
  refine ⟨(key 0 (by omega)).1, fun y hy => ?_⟩
  rw [projValue_two, projValue_two]
  exact (key y hy).2

/-- The first objective in a unit ten times as large. -/
def unitFactors : Vec 2 ℚ := ![1 / 10, 1]

theorem unitFactors_pos : ∀ j, 0 < unitFactors j := by decide +kernel

/-- Start from the first row and show the nearest solution. -/
def unitTalk (o : Oracle 2 Nat ℚ) : List (Nat × Option (Resp ℚ) × Oracle 2 Nat ℚ) :=
  [(0, some { preferred := some 0, speed := some (.int 5) }, o), (0, some { showSolution := some true }, o)]

/-- **C141 fails.** The nearest solution is the one with the smallest largest excess over the current solution, in
the units as they are: from `(2, 2)` it is the row `(1, 0)`, with the first objective in a unit ten times as
large it is `(0, 3/2)`. The projections are exact. -/
theorem C141_fails :
    SameLinear (rescale unitFactors unitFactors_pos) (unitOrc unitProb)
      (unitOrc (convProb (rescale unitFactors unitFactors_pos) unitProb)) ∧
    (∀ P, Projects P (fun d => d < 3) (unitOrc P)) ∧
    (use unitProb none (unitOrc unitProb) (unitTalk (unitOrc unitProb)))[2]? =
      some (.ok (.solution (some (.vec [2, 2])) (some 2) (some ![1, 0]))) ∧
    (use (convProb (rescale unitFactors unitFactors_pos) unitProb) none
        (unitOrc (convProb (rescale unitFactors unitFactors_pos) unitProb))
        (unitTalk (unitOrc (convProb (rescale unitFactors unitFactors_pos) unitProb))))[2]? =
      some (.ok (.solution (some (.vec [1 / 5, 2])) (some 1) (some ![0, 3 / 2]))) := by
  refine ⟨⟨fun pts e h => (nomatch h), fun pts eqs h => ⟨[], rfl, ?_⟩, fun A b lo hi A' b' _ => rfl⟩,
    unitOrc_projects, eq_of_beq (by decide +kernel), eq_of_beq (by decide +kernel)⟩
  cases h
  intro f
  simp [Inside]

end Verif.ParetoNav
