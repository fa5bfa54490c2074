import Verif.ENautilus.Order
import Verif.ENautilus.History
import Verif.Navigator.Rows

set_option linter.unusedSectionVars false

/-!
# E-NAUTILUS: the order of the rows of the front does not matter (C169)

The rows of the front, with their decision vectors, may be listed in another order. The points of a request may then be
listed in another order, too; the decision maker picks the same point wherever it is listed.
-/

namespace Verif.ENautilus

variable {K V : Type} [Field K] [LinearOrder K] [IsStrictOrderedRing K] {n k : Nat}

/-! ### Specification -/

/-- Specification: the same data with the rows in another order; row `i` of the new table is row `σ i` of the old one. -/
structure Relisted (σ : Equiv.Perm (Fin n)) (c c' : Cfg n k K V) : Prop where
  front : ∀ i, c'.front i = c.front (σ i)
  ideal : c'.ideal = c.ideal
  nadir : c'.nadir = c.nadir
  nrm : c'.nrm = c.nrm
  vars : c.vars = none ∧ c'.vars = none ∨ ∃ vs vs', c.vars = some vs ∧ c'.vars = some vs' ∧
    ∀ i : Fin n, vs'[i.val]? = vs[(σ i).val]?

/-- What is shown for one of the points of a request. -/
structure Card (k : Nat) (K : Type) where
  point : Vec k K
  lower : Vec k K
  upper : Vec k K
  distance : Fl K

/-- Specification: the points of the request, with their bounds and distances, are those of the list. -/
structure Shows (ct : Content k K) (l : List (Card k K)) : Prop where
  points : ct.points = l.map Card.point
  lowers : ct.lowers = l.map Card.lower
  uppers : ct.uppers = l.map Card.upper
  distances : ct.distances = l.map Card.distance

/-- Specification: two requests show the same points with the same bounds and distances, possibly in another order. -/
def SameShown (ct ct' : Content k K) : Prop :=
  ct.left = ct'.left ∧ ∃ l l', Shows ct l ∧ Shows ct' l' ∧ l.Perm l'

/-- Specification: two results are the same up to the order of the points. -/
def SameResult : Except Err (Out k K V) → Except Err (Out k K V) → Prop
  | .error e, .error e' => e = e'
  | .ok (.points a), .ok (.points b) => SameShown a b
  | .ok (.stop z v), .ok (.stop z' v') => z = z' ∧ v = v'
  | _, _ => False

/-- Specification: the two runs of k-means pick the same points, whatever the order of the points they are given. -/
def SamePicks (km km' : KMeans k K) : Prop :=
  ∀ pts pts' : List (Vec k K), ∀ m : Int, pts.Perm pts' → m < pts.length →
    ∃ l l' : List (Vec k K), (km pts m).map (fun a => pts[a]?) = l.map some ∧
      (km' pts' m).map (fun a => pts'[a]?) = l'.map some ∧ l.Perm l'

/-- Specification: the same response to two requests that show the same: the same point is chosen, or the same points
are given when stepping back, or the response is the same one and unusable. -/
inductive SameChoice (ct ct' : Content k K) (r r' : Resp k K) : Prop
  | choose {l l' : List (Card k K)} {x : Card k K} {i i' : Nat} : Shows ct l → Shows ct' l' → l[i]? = some x →
      l'[i']? = some x → r.stepBack = some false → r.preferredIndex = some (i : Int) →
      r' = { r with preferredIndex := some (i' : Int) } → SameChoice ct ct' r r'
  | back {l l' : List (Card k K)} {j : Option Int} : l.Perm l' → r.stepBack = some true →
      (j.isSome ↔ r.preferredIndex.isSome) → r.prevSolutions = some (l.map Card.point) →
      r.prevLower = some (l.map Card.lower) → r.prevUpper = some (l.map Card.upper) →
      r.prevDistances = some (l.map Card.distance) →
      r' = { r with preferredIndex := j, prevSolutions := some (l'.map Card.point),
                    prevLower := some (l'.map Card.lower), prevUpper := some (l'.map Card.upper),
                    prevDistances := some (l'.map Card.distance) } → SameChoice ct ct' r r'
  | unusable : r' = r → r.preferredIndex = none ∨ r.stepBack = none ∨ r.changeRemaining = none ∨
      (r.stepBack = some false ∧ ∃ i, r.preferredIndex = some i ∧ (i < 0 ∨ (ct.points.length : Int) ≤ i)) ∨
      (r.stepBack = some true ∧ (r.prevSolutions = none ∨ r.prevLower = none ∨ r.prevUpper = none ∨
        r.prevDistances = none)) → SameChoice ct ct' r r'

/-- Specification: row `i` is nearest to `z`. -/
def IsNearest (c : Cfg n k K V) (z : Vec k K) (i : Fin n) : Prop :=
  ∀ q, (c.nrm fun j => |c.front i j - z j|) ≤ c.nrm fun j => |c.front q j - z j|

/-- Specification: rows that are equally near to `z` have the same decision vector. -/
def OneNearest (c : Cfg n k K V) (z : Vec k K) : Prop :=
  ∀ i i' : Fin n, IsNearest c z i → IsNearest c z i' → ∀ vs, c.vars = some vs → vs[i.val]? = vs[i'.val]?

/-- The pair of requests issued by a pair of calls. -/
def issuedBoth : Except Err (Out k K V) → Except Err (Out k K V) → List (Content k K × Content k K)
  | .ok (.points a), .ok (.points b) => [(a, b)]
  | _, _ => []

/-- Specification: histories of the method on two tables: every call on the first is accompanied by the same call on
the second, with k-means picking the same points; any request issued so far may be answered, and the method may be started
over. -/
inductive Paired (c c' : Cfg n k K V) : St n k K → St n k K → List (Content k K × Content k K) → Prop
  | fresh : Paired c c' (initSt c) (initSt c') []
  | start {s s' L} (h : Paired c c' s s' L) (r : InitResp) {km km' : KMeans k K} (hk : SamePicks km km') :
      Paired c c' (begin c s r km).1 (begin c' s' r km').1
        (issuedBoth (begin c s r km).2 (begin c' s' r km').2 ++ L)
  | respond {s s' L ct ct'} (h : Paired c c' s s' L) (hm : (ct, ct') ∈ L) {r r' : Resp k K}
      (hr : SameChoice ct ct' r r') {km km' : KMeans k K} (hk : SamePicks km km') :
      Paired c c' (answer c s ct r km).1 (answer c' s' ct' r' km').1
        (issuedBoth (answer c s ct r km).2 (answer c' s' ct' r' km').2 ++ L)

/-! ### Proofs -/

/-- The states of the two runs. -/
structure SameSt (σ : Equiv.Perm (Fin n)) (s s' : St n k K) : Prop where
  preferred : s'.preferred = s.preferred
  lb : s'.lb = s.lb
  ub : s'.ub = s.ub
  nPoints : s'.nPoints = s.nPoints
  left : s'.left = s.left
  reach : (s'.reach.map σ).Perm s.reach

section
variable {σ : Equiv.Perm (Fin n)} {c c' : Cfg n k K V} (hc : Relisted σ c c')
include hc

theorem rangeAt_relist (z : Vec k K) (r : Fin k) : rangeAt c'.front z r = rangeAt c.front z r := by
  have h : Navigator.SameSet (candidates c'.front z r) (candidates c.front z r) := by
    intro x
    unfold candidates
    simp only [List.mem_map, List.mem_filter, List.mem_finRange, true_and, hc.front]
    constructor
    · rintro ⟨i, h1, h2⟩
      exact ⟨σ i, h1, h2⟩
    · rintro ⟨i, h1, h2⟩
      obtain ⟨j, rfl⟩ := σ.surjective i
      exact ⟨j, h1, h2⟩
  unfold rangeAt
  rw [Navigator.npMin_set h, Navigator.npMax_set h]

theorem boundsAt_relist (z : Vec k K) : boundsAt c'.front z = boundsAt c.front z := by
  unfold boundsAt
  have : rangeAt c'.front z = rangeAt c.front z := funext fun r => rangeAt_relist hc z r
  rw [this]

/-- What is shown for a representative point. -/
def cardOf (c : Cfg n k K V) (pref : Vec k K) (left : Int) (zb : Vec k K) : Card k K :=
  match boundsAt c.front (intermediatePoint pref zb left) with
  | .ok b => ⟨intermediatePoint pref zb left, b.1, b.2,
      (fdiv (c.nrm fun j => intermediatePoint pref zb left j - c.nadir j) (c.nrm fun j => zb j - c.nadir j)).scalePos 100⟩
  | .error _ => ⟨intermediatePoint pref zb left, zb, zb,
      (fdiv (c.nrm fun j => intermediatePoint pref zb left j - c.nadir j) (c.nrm fun j => zb j - c.nadir j)).scalePos 100⟩

theorem cardOf_relist (pref : Vec k K) (left : Int) (zb : Vec k K) : cardOf c' pref left zb = cardOf c pref left zb := by
  unfold cardOf
  rw [boundsAt_relist hc, hc.nrm, hc.nadir]

omit hc in
theorem cardOf_point (c : Cfg n k K V) (pref : Vec k K) (left : Int) (zb : Vec k K) :
    (cardOf c pref left zb).point = intermediatePoint pref zb left := by
  unfold cardOf
  split <;> rfl

omit hc in
theorem cardOf_distance (c : Cfg n k K V) (pref : Vec k K) (left : Int) (zb : Vec k K) :
    (cardOf c pref left zb).distance = (fdiv (c.nrm fun j => intermediatePoint pref zb left j - c.nadir j)
      (c.nrm fun j => zb j - c.nadir j)).scalePos 100 := by
  unfold cardOf
  split <;> rfl

/-- The second half of `compute`. -/
def finish (c : Cfg n k K V) (pref : Vec k K) (left : Int) (zbars : List (Vec k K)) : Except Err (Content k K) :=
  match intermediate pref zbars left with
  | .error e => .error e
  | .ok zs =>
    match bounds c.front zs with
    | .error e => .error e
    | .ok (lo, hi) =>
      .ok { points := zs, lowers := lo, uppers := hi, left := left, distances := distances c.nrm zs zbars c.nadir }

omit hc in
theorem compute_finish (c : Cfg n k K V) (reach : List (Fin n)) (pref : Vec k K) (nPts left : Int) (km : KMeans k K) :
    compute c reach pref nPts left km =
      match representative c.front reach nPts km with
      | .error e => .error e
      | .ok zbars => finish c pref left zbars := rfl

omit hc in
theorem boundsAll {front : Fin n → Vec k K} {c : Cfg n k K V} (hf : c.front = front) (pref : Vec k K) (left : Int)
    (zbars : List (Vec k K)) :
    bounds front (zbars.map fun zb => intermediatePoint pref zb left) =
      .ok (zbars.map fun zb => (cardOf c pref left zb).lower, zbars.map fun zb => (cardOf c pref left zb).upper) ∧
      (∀ zb ∈ zbars, ∃ b, boundsAt front (intermediatePoint pref zb left) = .ok b) ∨
    bounds front (zbars.map fun zb => intermediatePoint pref zb left) = .error .valueError ∧
      ∃ zb ∈ zbars, ∃ e, boundsAt front (intermediatePoint pref zb left) = .error e := by
  subst hf
  unfold bounds
  cases h : mapE (boundsAt c.front) (zbars.map fun zb => intermediatePoint pref zb left) with
  | error e =>
    obtain ⟨z, hz, he⟩ := mapE_error h
    obtain ⟨zb, hzb, rfl⟩ := List.mem_map.1 hz
    right
    refine ⟨?_, zb, hzb, _, he⟩
    rw [(boundsAt_error he).1]
  | ok bs =>
    left
    have key : bs = zbars.map (fun zb => ((cardOf c pref left zb).lower, (cardOf c pref left zb).upper)) ∧
        ∀ zb ∈ zbars, ∃ b, boundsAt c.front (intermediatePoint pref zb left) = .ok b := by
      rw [mapE_ok_iff] at h
      induction zbars generalizing bs with
      | nil =>
        cases h
        exact ⟨rfl, by simp⟩
      | cons zb t ih =>
        cases h with
        | cons h1 h2 =>
          rename_i b bs'
          obtain ⟨e1, e2⟩ := ih _ h2
          refine ⟨?_, ?_⟩
          · rw [List.map_cons, ← e1]
            simp only [cardOf, h1]
          · intro x hx
            rcases List.mem_cons.1 hx with rfl | hx
            · exact ⟨_, h1⟩
            · exact e2 x hx
    refine ⟨?_, key.2⟩
    rw [key.1]
    simp only [List.map_map]
    rfl

omit hc in
theorem finish_cases (c : Cfg n k K V) (pref : Vec k K) (left : Int) (zbars : List (Vec k K)) :
    (left = 0 ∧ finish c pref left zbars = .error .zeroDivisionError) ∨
    (left ≠ 0 ∧ (∀ zb ∈ zbars, ∃ b, boundsAt c.front (intermediatePoint pref zb left) = .ok b) ∧
      ∃ ct, finish c pref left zbars = .ok ct ∧ ct.left = left ∧ Shows ct (zbars.map (cardOf c pref left))) ∨
    (left ≠ 0 ∧ (∃ zb ∈ zbars, ∃ e, boundsAt c.front (intermediatePoint pref zb left) = .error e) ∧
      finish c pref left zbars = .error .valueError) := by
  unfold finish intermediate
  by_cases hl : left = 0
  · exact .inl ⟨hl, by rw [if_pos hl]⟩
  · rw [if_neg hl]
    simp only
    rcases boundsAll (c := c) rfl pref left zbars with ⟨h1, h2⟩ | ⟨h1, h2⟩
    · refine .inr (.inl ⟨hl, h2, _, by rw [h1], rfl, ?_⟩)
      refine ⟨?_, ?_, ?_, ?_⟩
      · simp only [List.map_map]
        exact List.map_congr_left fun zb _ => (cardOf_point c pref left zb).symm
      · simp only [List.map_map]
        rfl
      · simp only [List.map_map]
        rfl
      · simp only [distances, List.map_map]
        rw [List.zipWith_map_left]
        clear h1 h2
        induction zbars with
        | nil => rfl
        | cons zb t ih =>
          simp only [List.zipWith_cons_cons, List.map_cons, Function.comp_apply, cardOf_distance]
          rw [ih]
    · exact .inr (.inr ⟨hl, h2, by rw [h1]⟩)

/-- Both fail with the same error or both show the same. -/
def SameMade (x x' : Except Err (Content k K)) : Prop :=
  (∃ e, x = .error e ∧ x' = .error e) ∨ ∃ a b, x = .ok a ∧ x' = .ok b ∧ SameShown a b

theorem finish_relist (pref : Vec k K) (left : Int) {zbars zbars' : List (Vec k K)} (hp : zbars.Perm zbars') :
    SameMade (finish c pref left zbars) (finish c' pref left zbars') := by
  have hf : cardOf c' pref left = cardOf c pref left := funext fun zb => cardOf_relist hc pref left zb
  rcases finish_cases c pref left zbars with ⟨a1, a2⟩ | ⟨a1, a2, ct, a3, a4, a5⟩ | ⟨a1, ⟨zb, a2, e, a3⟩, a4⟩ <;>
    rcases finish_cases c' pref left zbars' with ⟨b1, b2⟩ | ⟨b1, b2, ct', b3, b4, b5⟩ | ⟨b1, ⟨zb', b2, e', b3⟩, b4⟩
  · exact .inl ⟨_, a2, b2⟩
  · exact absurd a1 b1
  · exact absurd a1 b1
  · exact absurd b1 a1
  · rw [hf] at b5
    exact .inr ⟨ct, ct', a3, b3, by rw [a4, b4], _, _, a5, b5, hp.map _⟩
  · obtain ⟨b, hb⟩ := a2 zb' (hp.mem_iff.2 b2)
    rw [boundsAt_relist hc, hb] at b3
    cases b3
  · exact absurd b1 a1
  · obtain ⟨b, hb⟩ := b2 zb (hp.mem_iff.1 a2)
    rw [boundsAt_relist hc, a3] at hb
    cases hb
  · exact .inl ⟨_, a4, b4⟩

omit hc in
theorem mapE_picks {pts l : List (Vec k K)} {idx : List Nat} (h : idx.map (fun a => pts[a]?) = l.map some) :
    mapE (fun a : Nat => pyGet pts a) idx = .ok l := by
  rw [mapE_ok_iff]
  induction idx generalizing l with
  | nil =>
    cases l with
    | nil => exact .nil
    | cons x t => simp at h
  | cons a t ih =>
    cases l with
    | nil => simp at h
    | cons x u =>
      simp only [List.map_cons, List.cons.injEq] at h
      exact .cons (pyGet_nat.2 h.1) (ih h.2)

theorem representative_relist {reach reach' : List (Fin n)} (hr : (reach'.map σ).Perm reach) (nPts : Int)
    {km km' : KMeans k K} (hk : SamePicks km km') :
    ∃ l l', representative c.front reach nPts km = .ok l ∧ representative c'.front reach' nPts km' = .ok l' ∧
      l.Perm l' := by
  have hpts : (reach.map c.front).Perm (reach'.map c'.front) := by
    have := (hr.map c.front).symm
    rw [List.map_map] at this
    have e : c'.front = c.front ∘ σ := funext hc.front
    rwa [e]
  have hlen : reach.length = reach'.length := by
    have := hr.length_eq
    rw [List.length_map] at this
    exact this.symm
  unfold representative
  simp only [← hlen]
  by_cases h : (reach.length : Int) > nPts
  · rw [if_pos h, if_pos h]
    obtain ⟨l, l', h1, h2, h3⟩ := hk _ _ nPts hpts (by rw [List.length_map]; exact h)
    exact ⟨l, l', mapE_picks h1, mapE_picks h2, h3⟩
  · rw [if_neg h, if_neg h]
    exact ⟨_, _, rfl, rfl, hpts⟩

theorem compute_relist {reach reach' : List (Fin n)} (hr : (reach'.map σ).Perm reach) (pref : Vec k K)
    (nPts left : Int) {km km' : KMeans k K} (hk : SamePicks km km') :
    SameMade (compute c reach pref nPts left km) (compute c' reach' pref nPts left km') := by
  obtain ⟨l, l', h1, h2, h3⟩ := representative_relist hc hr nPts hk
  rw [compute_finish, compute_finish, h1, h2]
  exact finish_relist hc pref left h3

omit hc in
theorem SameShown.length {ct ct' : Content k K} (h : SameShown ct ct') : ct'.points.length = ct.points.length := by
  obtain ⟨_, l, l', h1, h2, h3⟩ := h
  rw [h1.points, h2.points, List.length_map, List.length_map, h3.length_eq]

omit hc in
theorem SameShown.maxIndex {ct ct' : Content k K} (h : SameShown ct ct') : maxIndex ct'.points = maxIndex ct.points := by
  unfold ENautilus.maxIndex
  rw [h.length]

omit hc in
theorem mkRequest_relist {ct ct' : Content k K} (h : SameShown ct ct') :
    SameResult (mkRequest ct : Except Err (Out k K V)) (mkRequest ct') := by
  unfold mkRequest
  rw [h.maxIndex]
  cases ENautilus.maxIndex ct.points with
  | error e => exact rfl
  | ok m => exact h

/-- What a call does to both, apart from the tie. -/
structure SameRes (σ : Equiv.Perm (Fin n)) (P : Prop) (x x' : St n k K × Except Err (Out k K V)) : Prop where
  st : SameSt σ x.1 x'.1
  res : P → SameResult x.2 x'.2
  shown : ∀ a b, x.2 = .ok (.points a) → x'.2 = .ok (.points b) → SameShown a b

omit hc in
theorem SameRes.of {P : Prop} {s s' : St n k K} {o o' : Except Err (Out k K V)} (h1 : SameSt σ s s')
    (h2 : SameResult o o') : SameRes σ P (s, o) (s', o') := by
  refine ⟨h1, fun _ => h2, fun a b ha hb => ?_⟩
  simp only at ha hb
  rw [ha, hb] at h2
  exact h2

theorem begin_relist {s s' : St n k K} (hs : SameSt σ s s') (r : InitResp) {km km' : KMeans k K}
    (hk : SamePicks km km') : SameRes σ True (begin c s r km) (begin c' s' r km') := by
  unfold begin
  cases validateInitial r with
  | error e => exact .of hs rfl
  | ok u =>
    simp only
    unfold handleInitial
    cases hi : r.nIterations with
    | none => exact .of hs rfl
    | some nIt =>
      cases hp : r.nPoints with
      | none => exact .of hs rfl
      | some nP =>
        simp only [hc.nadir]
        have hst : SameSt σ
            ({ s with left := some nIt.asInt, nPoints := some nP.asInt, preferred := some c.nadir } : St n k K)
            ({ s' with left := some nIt.asInt, nPoints := some nP.asInt, preferred := some c.nadir } : St n k K) :=
          ⟨rfl, hs.lb, hs.ub, rfl, rfl, hs.reach⟩
        rcases compute_relist hc hs.reach c.nadir nP.asInt nIt.asInt hk with ⟨e, a, b⟩ | ⟨x, y, a, b, h⟩
        · rw [a, b]
          exact .of hst rfl
        · rw [a, b]
          exact .of hst (mkRequest_relist h)

theorem findSolution_relist {z : Vec k K} (h : OneNearest c z) : findSolution c' z = findSolution c z := by
  unfold findSolution
  rcases hc.vars with ⟨h1, h2⟩ | ⟨vs, vs', h1, h2, hv⟩
  · simp only [h1, h2]
  · simp only [h1, h2]
    cases n with
    | zero => rfl
    | succ n =>
      have hne : ∀ f : Fin (n + 1) → K, (List.finRange (n + 1)).map f ≠ [] := by
        intro f
        simp
      obtain ⟨i, hi⟩ := npArgmin_exists (hne fun i => c.nrm fun j => |c.front i j - z j|)
      obtain ⟨i', hi'⟩ := npArgmin_exists (hne fun i => c'.nrm fun j => |c'.front i j - z j|)
      simp only [hi, hi']
      obtain ⟨m, m1, m2, _⟩ := npArgmin_ok hi
      obtain ⟨m', m1', m2', _⟩ := npArgmin_ok hi'
      have g : ∀ {f : Fin (n + 1) → K} {i : Nat} {m : K}, ((List.finRange (n + 1)).map f)[i]? = some m →
          ∃ p : Fin (n + 1), p.val = i ∧ f p = m := by
        intro f i m h
        rw [List.getElem?_map, Option.map_eq_some_iff] at h
        obtain ⟨p, hp, hm⟩ := h
        obtain ⟨hl, hp⟩ := List.getElem?_eq_some_iff.1 hp
        refine ⟨p, ?_, hm⟩
        rw [← hp]
        simp
      obtain ⟨p, rfl, rfl⟩ := g m1
      obtain ⟨p', rfl, rfl⟩ := g m1'
      have n1 : IsNearest c z p := fun q => m2 _ (List.mem_map.2 ⟨q, List.mem_finRange q, rfl⟩)
      have n2 : IsNearest c z (σ p') := by
        intro q
        obtain ⟨q', rfl⟩ := σ.surjective q
        have := m2' _ (List.mem_map.2 ⟨q', List.mem_finRange q', rfl⟩)
        simpa only [hc.nrm, hc.front] using this
      rw [hv p', h (σ p') p n2 n1 vs h1]

theorem reachable_relist (lo hi : Vec k K) :
    ((reachable c'.front lo hi).map σ).Perm (reachable c.front lo hi) := by
  refine Navigator.SameRows.perm (σ := σ) σ.injective σ.surjective (fun i => ?_) ?_ ?_
  · rw [mem_reachable, mem_reachable, hc.front]
  · exact (List.nodup_finRange n).filter _
  · exact (List.nodup_finRange n).filter _

theorem handleStop_relist {s s' : St n k K} (hs : SameSt σ s s') (hv : ∀ vs, c.vars = some vs → n ≤ vs.length)
    (z : Vec k K) :
    SameRes σ (∀ z' v, (handleStop c s z).2 = .ok (.stop z' v) → OneNearest c z') (handleStop c s z)
      (handleStop c' s' z) := by
  have hst : SameSt σ ({ s with preferred := some z, left := some 0 } : St n k K)
      ({ s' with preferred := some z, left := some 0 } : St n k K) := ⟨rfl, hs.lb, hs.ub, hs.nPoints, rfl, hs.reach⟩
  have hex : 0 < n → ∃ v, findSolution c z = .ok v := by
    intro hpos
    unfold findSolution
    cases hvs : c.vars with
    | none => exact ⟨_, rfl⟩
    | some vs =>
      obtain ⟨i, hi⟩ := npArgmin_exists (l := (List.finRange n).map fun i => c.nrm fun j => |c.front i j - z j|) (by
        intro h
        have := congrArg List.length h
        simp at this
        omega)
      obtain ⟨m, m1, _⟩ := npArgmin_ok hi
      have hl : i < n := by
        have := (List.getElem?_eq_some_iff.1 m1).1
        simpa using this
      simp only [hi]
      rw [List.getElem?_eq_getElem (lt_of_lt_of_le hl (hv vs hvs))]
      exact ⟨_, rfl⟩
  unfold handleStop
  refine ⟨?_, fun h => ?_, ?_⟩
  · cases findSolution c z <;> cases findSolution c' z <;> exact hst
  · have ho : OneNearest c z := by
      rcases Nat.eq_zero_or_pos n with h0 | hpos
      · intro i
        exact absurd i.isLt (by omega)
      · obtain ⟨v, hvv⟩ := hex hpos
        exact h z v (by rw [hvv])
    rw [findSolution_relist hc ho]
    cases findSolution c z with
    | error e => exact rfl
    | ok v => exact ⟨rfl, rfl⟩
  · intro a b ha
    cases hf : findSolution c z <;> rw [hf] at ha <;> cases ha

theorem handleChoice_relist {s s' : St n k K} (hs : SameSt σ s s')
    (hv : ∀ vs, c.vars = some vs → n ≤ vs.length) {ct ct' : Content k K} {r : Resp k K}
    {i i' : Nat} {x : Card k K} {l l' : List (Card k K)} (h1 : Shows ct l) (h2 : Shows ct' l') (hi : l[i]? = some x)
    (hi' : l'[i']? = some x) (hr : r.preferredIndex = some (i : Int)) {km km' : KMeans k K} (hk : SamePicks km km') :
    SameRes σ (∀ z v, (handleChoice c s ct r km).2 = .ok (.stop z v) → OneNearest c z) (handleChoice c s ct r km)
      (handleChoice c' s' ct' { r with preferredIndex := some (i' : Int) } km') := by
  have g : ∀ {α : Type} (f : Card k K → α) {l : List (Card k K)} {i : Nat}, l[i]? = some x →
      pyGet (l.map f) (i : Int) = .ok (f x) := by
    intro α f l i h
    rw [pyGet_nat, List.getElem?_map, h]
    rfl
  unfold handleChoice
  simp only [hr, h1.points, h2.points, h1.lowers, h2.lowers, h1.uppers, h2.uppers, g _ hi, g _ hi', hs.left, hs.nPoints]
  cases s.left with
  | none => exact .of ⟨rfl, hs.lb, hs.ub, rfl, rfl, hs.reach⟩ rfl
  | some left =>
    simp only
    by_cases hl : left ≤ 1
    · rw [if_pos hl, if_pos hl]
      exact handleStop_relist hc hs hv x.point
    · rw [if_neg hl, if_neg hl]
      have hre := reachable_relist hc x.lower x.upper
      cases r.changeRemaining with
      | none => exact .of ⟨rfl, rfl, rfl, rfl, rfl, hre⟩ rfl
      | some ch =>
        simp only
        cases (if ch = true then r.iterationsLeft else some (left - 1)) with
        | none => exact .of ⟨rfl, rfl, rfl, rfl, rfl, hre⟩ rfl
        | some left' =>
          simp only
          cases s.nPoints with
          | none => exact .of ⟨rfl, rfl, rfl, rfl, rfl, hre⟩ rfl
          | some nP =>
            simp only
            rcases compute_relist hc hre x.point nP left' hk with ⟨e, a, b⟩ | ⟨u, v, a, b, h⟩
            · rw [a, b]
              exact .of ⟨rfl, rfl, rfl, rfl, rfl, hre⟩ rfl
            · rw [a, b]
              exact .of ⟨rfl, rfl, rfl, rfl, rfl, hre⟩ (mkRequest_relist h)

omit hc in
theorem validate_length {ct ct' : Content k K} (h : SameShown ct ct') (r : Resp k K) : validate ct' r = validate ct r := by
  unfold validate
  rw [h.maxIndex]

omit hc in
theorem le_maxIndex {ct : Content k K} {mx i : Nat} (h : maxIndex ct.points = .ok mx) (hi : i < ct.points.length) :
    i ≤ mx := by
  unfold maxIndex at h
  split at h
  · omega
  · cases h
    omega

omit hc in
/-- Which existing point is chosen does not matter for the validator. -/
theorem validate_index {ct : Content k K} {r : Resp k K} {i i' : Nat} (hr : r.preferredIndex = some (i : Int))
    (hsb : r.stepBack = some false) (hi : i < ct.points.length) (hi' : i' < ct.points.length) :
    validate ct { r with preferredIndex := some (i' : Int) } = validate ct r := by
  unfold validate
  simp only [hr, hsb]
  cases r.changeRemaining with
  | none => rfl
  | some ch =>
    simp only [Bool.not_false, if_true]
    cases hm : maxIndex ct.points with
    | error e => rfl
    | ok mx =>
      have a := le_maxIndex hm hi
      have b := le_maxIndex hm hi'
      simp only
      have e1 : ¬ ((i : Int) < 0 ∨ (i : Int) > mx) := by omega
      have e2 : ¬ ((i' : Int) < 0 ∨ (i' : Int) > mx) := by omega
      simp only [e1, e2, if_false]

theorem answer_relist {s s' : St n k K} (hs : SameSt σ s s') (hv : ∀ vs, c.vars = some vs → n ≤ vs.length) {ct ct' : Content k K} (hsh : SameShown ct ct')
    {r r' : Resp k K} (hr : SameChoice ct ct' r r') {km km' : KMeans k K} (hk : SamePicks km km') :
    SameRes σ (∀ z v, (answer c s ct r km).2 = .ok (.stop z v) → OneNearest c z) (answer c s ct r km)
      (answer c' s' ct' r' km') := by
  unfold answer
  rw [validate_length hsh]
  cases hr with
  | @choose l l' x i i' h1 h2 hi hi' hsb hp he =>
    subst he
    have li : i < ct.points.length := by
      rw [h1.points, List.length_map]
      exact (List.getElem?_eq_some_iff.1 hi).1
    have li' : i' < ct.points.length := by
      rw [← hsh.length, h2.points, List.length_map]
      exact (List.getElem?_eq_some_iff.1 hi').1
    rw [validate_index hp hsb li li']
    cases validate ct r with
    | error e => exact .of hs rfl
    | ok u =>
      simp only [handle, hsb]
      exact handleChoice_relist hc hs hv h1 h2 hi hi' hp hk
  | @back l l' j hp hsb hj p1 p2 p3 p4 he =>
    subst he
    have hv : validate ct
        { r with preferredIndex := j, prevSolutions := some (l'.map Card.point),
                 prevLower := some (l'.map Card.lower), prevUpper := some (l'.map Card.upper),
                 prevDistances := some (l'.map Card.distance) } = validate ct r := by
      unfold validate
      simp only [hsb, p1, p2, p3, p4]
      cases j <;> cases hx : r.preferredIndex <;> rw [hx] at hj <;> simp at hj
      all_goals cases r.changeRemaining <;> rfl
    rw [hv]
    cases validate ct r with
    | error e => exact .of hs rfl
    | ok u =>
      simp only [handle, hsb, handleBack, p1, p2, p3, p4]
      cases r.iterationsLeft with
      | none => exact .of hs rfl
      | some left =>
        exact .of ⟨hs.preferred, hs.lb, hs.ub, hs.nPoints, rfl, hs.reach⟩
          (mkRequest_relist ⟨rfl, l, l', ⟨rfl, rfl, rfl, rfl⟩, ⟨rfl, rfl, rfl, rfl⟩, hp⟩)
  | unusable he hu =>
    subst he
    cases hv : validate ct r' with
    | error e => exact .of hs rfl
    | ok u =>
      unfold validate at hv
      rcases hu with h | h | h | ⟨h, i, hi, hl⟩ | ⟨h, hm⟩
      · simp only [h] at hv
        cases hv
      · simp only [h] at hv
        cases hpi : r'.preferredIndex <;> simp only [hpi] at hv <;> cases hv
      · simp only [h] at hv
        cases hpi : r'.preferredIndex <;> cases hsb : r'.stepBack <;> simp only [hpi, hsb] at hv <;> cases hv
      · have h0 : (0 : Int) ≤ i := by
          by_contra hc
          simp only [hi, h] at hv
          cases hch : r'.changeRemaining with
          | none => rw [hch] at hv; cases hv
          | some ch =>
            simp only [hch, Bool.not_false, if_true] at hv
            cases hm : maxIndex ct.points with
            | error e => rw [hm] at hv; cases hv
            | ok mx =>
              simp only [hm] at hv
              rw [if_pos (by omega)] at hv
              cases hv
        have hl' : (ct.points.length : Int) ≤ i := by omega
        have g : ∀ {pts : List (Vec k K)}, (pts.length : Int) ≤ i → pyGet pts i = .error .indexError := by
          intro pts hle
          rcases pyGet_cases pts i with ⟨j, hj, a, ha, _⟩ | ⟨_, h⟩
          · have := (List.getElem?_eq_some_iff.1 ha).1
            rw [if_neg (by omega)] at hj
            omega
          · exact h
        simp only [handle, h, handleChoice, hi, g hl', g (pts := ct'.points) (by rw [hsh.length]; exact hl')]
        exact .of hs rfl
      · exfalso
        cases hpi : r'.preferredIndex with
        | none => simp only [hpi] at hv; cases hv
        | some i =>
          cases hch : r'.changeRemaining with
          | none => simp only [hpi, h, hch] at hv; cases hv
          | some ch =>
            simp only [hpi, h, hch, Bool.not_true, Bool.false_eq_true, if_false] at hv
            rcases hm with hm | hm | hm | hm <;> simp only [hm, Option.isNone_none, if_true] at hv
            · cases hv
            all_goals (repeat' split at hv) <;> cases hv

theorem Paired.same (hv : ∀ vs, c.vars = some vs → n ≤ vs.length) {s s' : St n k K} {L : List (Content k K × Content k K)} (h : Paired c c' s s' L) :
    SameSt σ s s' ∧ ∀ p ∈ L, SameShown p.1 p.2 := by
  have hiss : ∀ {P : Prop} {x x' : St n k K × Except Err (Out k K V)} {L : List (Content k K × Content k K)},
      SameRes σ P x x' → (∀ p ∈ L, SameShown p.1 p.2) → ∀ p ∈ issuedBoth x.2 x'.2 ++ L, SameShown p.1 p.2 := by
    intro P x x' L hx hL p hp
    rcases List.mem_append.1 hp with hp | hp
    · unfold issuedBoth at hp
      split at hp
      · rename_i a b ha hb
        rw [List.mem_singleton] at hp
        subst hp
        exact hx.shown _ _ ha hb
      · cases hp
    · exact hL p hp
  induction h with
  | fresh =>
    refine ⟨⟨rfl, hc.ideal, hc.nadir, rfl, rfl, ?_⟩, by simp⟩
    exact Navigator.SameRows.perm (σ := σ) σ.injective σ.surjective (fun i => by simp [initSt])
      (List.nodup_finRange n) (List.nodup_finRange n)
  | start h r hk ih =>
    have := begin_relist hc ih.1 r hk
    exact ⟨this.st, hiss this ih.2⟩
  | respond h hm hr hk ih =>
    have := answer_relist hc ih.1 hv (ih.2 _ hm) hr hk
    exact ⟨this.st, hiss this ih.2⟩

/-! ### C169 -/

/-- **C169** (starting). In every history of the method on a front and on the same front with the rows in another order,
starting (over) with the same numbers shows the same points with the same bounds and distances, possibly in another order,
or fails with the same error. -/
theorem C169_start (hv : ∀ vs, c.vars = some vs → n ≤ vs.length) {s s' : St n k K} {L : List (Content k K × Content k K)} (h : Paired c c' s s' L) (r : InitResp)
    {km km' : KMeans k K} (hk : SamePicks km km') : SameResult (begin c s r km).2 (begin c' s' r km').2 :=
  (begin_relist hc (h.same hc hv).1 r hk).res trivial

/-- **C169** (iterating). So does the same response to any of the requests issued; and when the method stops, the same
solution is returned, with the same decision vector unless rows with different decision vectors are equally near. -/
theorem C169_iterate (hv : ∀ vs, c.vars = some vs → n ≤ vs.length) {s s' : St n k K} {L : List (Content k K × Content k K)} (h : Paired c c' s s' L)
    {ct ct' : Content k K} (hm : (ct, ct') ∈ L) {r r' : Resp k K} (hr : SameChoice ct ct' r r') {km km' : KMeans k K}
    (hk : SamePicks km km') (hn : ∀ z v, (answer c s ct r km).2 = .ok (.stop z v) → OneNearest c z) :
    SameResult (answer c s ct r km).2 (answer c' s' ct' r' km').2 :=
  (answer_relist hc (h.same hc hv).1 hv ((h.same hc hv).2 _ hm) hr hk).res hn

omit hc in
/-- If the rows are distinct, a point on the front has one nearest row. -/
theorem C169_on_front {z : Vec k K} (hd : Function.Injective c.front) (h0 : ∀ v, 0 ≤ c.nrm v)
    (hn : ∀ v, c.nrm v = 0 ↔ ∀ j, v j = 0) {p : Fin n} (hz : z = c.front p) : OneNearest c z := by
  have key : ∀ i, IsNearest c z i → i = p := by
    intro i hi
    have h1 := hi p
    have h2 : (c.nrm fun j => |c.front p j - z j|) = 0 := (hn _).2 fun j => by rw [hz]; simp
    rw [h2] at h1
    have h3 := (hn _).1 (le_antisymm h1 (h0 _))
    refine hd (funext fun j => ?_)
    have := abs_eq_zero.1 (h3 j)
    rw [← hz]
    exact sub_eq_zero.1 this
  intro i i' hi hi' vs _
  rw [key i hi, key i' hi']

end

/-! ### Examples -/

/-- A k-means that picks given points, as far as there are any. -/
def pickPts (A : List (Vec 2 ℚ)) : KMeans 2 ℚ := fun pts _ =>
  A.filterMap fun p => pts.findIdx? fun x => decide (x = p)

theorem pickPts_picked (A pts : List (Vec 2 ℚ)) (m : Int) :
    (pickPts A pts m).map (fun a => pts[a]?) = (A.filter fun p => decide (p ∈ pts)).map some := by
  unfold pickPts
  induction A with
  | nil => rfl
  | cons p t ih =>
    cases h : pts.findIdx? fun x => decide (x = p) with
    | none =>
      have hp : p ∉ pts := by
        intro hp
        have := List.findIdx?_eq_none_iff.1 h p hp
        simp at this
      simp only [List.filterMap_cons, h]
      rw [List.filter_cons_of_neg (by simpa using hp), ih]
    | some i =>
      obtain ⟨hl, h1, _⟩ := List.findIdx?_eq_some_iff_getElem.1 h
      have h2 : pts[i] = p := by simpa using h1
      have hp : p ∈ pts := h2 ▸ List.getElem_mem hl
      simp only [List.filterMap_cons, h]
      rw [List.filter_cons_of_pos (by simpa using hp), List.map_cons, List.map_cons, ih,
        List.getElem?_eq_getElem hl, h2]

theorem pickPts_same {A B : List (Vec 2 ℚ)} (h : A.Perm B) : SamePicks (pickPts A) (pickPts B) := by
  intro pts pts' m hp _
  refine ⟨_, _, pickPts_picked A pts m, pickPts_picked B pts' m, ?_⟩
  have e : (fun p => decide (p ∈ pts)) = fun p => decide (p ∈ pts') := by
    funext p
    simp only [hp.mem_iff]
  rw [e]
  exact h.filter _

/-- The example with the rows in reverse order. -/
def exRev : Cfg 3 2 ℚ String :=
  { exCfg with front := ![![2, 0], ![1, 1], ![0, 2]], vars := some ["c", "b", "a"] }

theorem exRelisted : Relisted (Equiv.swap 0 2) exCfg exRev where
  front := by decide +kernel
  ideal := rfl
  nadir := rfl
  nrm := rfl
  vars := .inr ⟨_, _, rfl, rfl, by decide +kernel⟩

/-- Two iterations with two of the three points. -/
def exTwoPts : InitResp := { nIterations := some (.int 2), nPoints := some (.int 2) }

def exKm : KMeans 2 ℚ := pickPts [![0, 2], ![1, 1]]
def exKm' : KMeans 2 ℚ := pickPts [![1, 1], ![0, 2]]

theorem exKm_same : SamePicks exKm exKm' := pickPts_same (List.Perm.swap _ _ _)

def exCards : List (Card 2 ℚ) := [⟨![1, 2], ![0, 1], ![2, 2], .num 50⟩, ⟨![3/2, 3/2], ![1, 1], ![2, 2], .num 50⟩]

def exShownA : Content 2 ℚ :=
  ⟨[![1, 2], ![3/2, 3/2]], [![0, 1], ![1, 1]], [![2, 2], ![2, 2]], 2, [.num 50, .num 50]⟩

def exShownB : Content 2 ℚ :=
  ⟨[![3/2, 3/2], ![1, 2]], [![1, 1], ![0, 1]], [![2, 2], ![2, 2]], 2, [.num 50, .num 50]⟩

def exStA : St 3 2 ℚ := ⟨some ![2, 2], ![0, 0], ![2, 2], [0, 1, 2], some 2, some 2⟩

theorem exBeginA : begin exCfg (initSt exCfg) exTwoPts exKm = (exStA, .ok (.points exShownA)) :=
  eq_of_beq (by decide +kernel)

theorem exBeginB : begin exRev (initSt exRev) exTwoPts exKm' = (exStA, .ok (.points exShownB)) :=
  eq_of_beq (by decide +kernel)

theorem exPaired : Paired exCfg exRev exStA exStA [(exShownA, exShownB)] := by
  have h := Paired.start (.fresh (c := exCfg) (c' := exRev)) exTwoPts exKm_same
  rw [exBeginA, exBeginB] at h
  exact h

/-- The point (1, 2) is the first one in one request and the second one in the other. -/
theorem exSame : SameChoice exShownA exShownB (chooseResp 0) (chooseResp 1) :=
  .choose (l := exCards) (l' := exCards.reverse) (i := 0) (i' := 1) ⟨rfl, rfl, rfl, rfl⟩ ⟨rfl, rfl, rfl, rfl⟩ rfl rfl
    rfl rfl rfl

theorem exFull (vs : List String) (h : exCfg.vars = some vs) : 3 ≤ vs.length := by
  cases h
  decide

def exLastA : Content 2 ℚ := ⟨[![0, 2], ![1, 1]], [![0, 2], ![1, 1]], [![2, 2], ![2, 2]], 1, [.num 100, .num 100]⟩

def exLastB : Content 2 ℚ := ⟨[![1, 1], ![0, 2]], [![1, 1], ![0, 2]], [![2, 2], ![2, 2]], 1, [.num 100, .num 100]⟩

def exLastStA : St 3 2 ℚ := ⟨some ![1, 2], ![0, 1], ![2, 2], [0, 1], some 2, some 1⟩

def exLastStB : St 3 2 ℚ := ⟨some ![1, 2], ![0, 1], ![2, 2], [1, 2], some 2, some 1⟩

theorem exNextA : answer exCfg exStA exShownA (chooseResp 0) exKm = (exLastStA, .ok (.points exLastA)) :=
  eq_of_beq (by decide +kernel)

theorem exNextB : answer exRev exStA exShownB (chooseResp 1) exKm' = (exLastStB, .ok (.points exLastB)) :=
  eq_of_beq (by decide +kernel)

theorem exPaired2 : Paired exCfg exRev exLastStA exLastStB [(exLastA, exLastB), (exShownA, exShownB)] := by
  have h := exPaired.respond List.mem_cons_self exSame exKm_same
  rw [exNextA, exNextB] at h
  exact h

def exLastCards : List (Card 2 ℚ) := [⟨![0, 2], ![0, 2], ![2, 2], .num 100⟩, ⟨![1, 1], ![1, 1], ![2, 2], .num 100⟩]

theorem exLastSame : SameChoice exLastA exLastB (chooseResp 0) (chooseResp 1) :=
  .choose (l := exLastCards) (l' := exLastCards.reverse) (i := 0) (i' := 1) ⟨rfl, rfl, rfl, rfl⟩ ⟨rfl, rfl, rfl, rfl⟩
    rfl rfl rfl rfl rfl

/-- The last call: the row (0, 2) with the decision vector "a" is returned, which is the third one in the new order. -/
theorem exEndA : (answer exCfg exLastStA exLastA (chooseResp 0) exKm).2 = .ok (.stop ![0, 2] (some "a")) :=
  eq_of_beq (by decide +kernel)

example := C169_start exRelisted exFull (.fresh (c := exCfg) (c' := exRev)) exTwoPts exKm_same
example := C169_iterate exRelisted exFull exPaired List.mem_cons_self exSame exKm_same
  (by rw [exNextA]; intro z v h; cases h)
example := C169_iterate exRelisted exFull exPaired2 List.mem_cons_self exLastSame exKm_same (by
  rw [exEndA]
  intro z v h
  cases h
  exact C169_on_front (p := 0) (by unfold Function.Injective; decide +kernel) supNorm_spec.nonneg supNorm_spec.eq_zero rfl)

end Verif.ENautilus
