import Verif.Paint.Props
import Verif.Navigator.Recast
import Mathlib.Analysis.Convex.Combination

set_option linter.unusedSectionVars false

/-!
# PAINT on the same data presented differently (C159, C160), and the options of the caller (C161)
-/

namespace Verif.Paint

open Verif.Navigator (Recast)

variable {K : Type} {k : Nat}

/-! ### Tests that agree give the same result -/

/-- The tests of `T'` for converted vertices agree with those of `T`. -/
structure Agree (T T' : Tools k K) (f : Vec k K → Vec k K) (o o' : Opts K) : Prop where
  dom : ∀ us vs, T'.dominates (us.map f) (vs.map f) o' = T.dominates us vs o
  nd : ∀ us, T'.nondominated (us.map f) o' = T.nondominated us o

theorem pyGet_map {α β : Type} (f : α → β) (l : List α) (i : Int) :
    pyGet (l.map f) i = (pyGet l i).map f := by
  unfold pyGet
  simp only [List.length_map, List.getElem?_map]
  generalize (if i < 0 then i + (l.length : Int) else i) = j
  split
  · rfl
  · cases l[j.toNat]? <;> rfl

theorem vertices_map (f : Vec k K → Vec k K) (po : List (Vec k K)) (r : Row) :
    vertices (po.map f) r = (vertices po r).map (List.map f) := by
  induction r with
  | nil => rfl
  | cons i is ih =>
    unfold vertices
    rw [pyGet_map, ih]
    cases pyGet po i with
    | error e => rfl
    | ok p => cases vertices po is <;> rfl

theorem Agree.hits {T T' : Tools k K} {f : Vec k K → Vec k K} {o o' : Opts K} (h : Agree T T' f o o')
    (po vs : List (Vec k K)) : hitsOutcome T' (po.map f) o' (vs.map f) = hitsOutcome T po o vs := by
  unfold hitsOutcome
  rw [List.any_map]
  congr 1
  funext p
  have h1 := h.dom [p] vs
  have h2 := h.dom vs [p]
  simp only [List.map_cons, List.map_nil] at h1 h2
  simp only [Function.comp, h1, h2]

theorem Agree.removed1 {T T' : Tools k K} {f : Vec k K → Vec k K} {o o' : Opts K} (h : Agree T T' f o o')
    (po : List (Vec k K)) (r : Row) : Paint.removed1 T' (po.map f) o' r = Paint.removed1 T po o r := by
  unfold Paint.removed1
  rw [vertices_map]
  cases vertices po r with
  | error e => rfl
  | ok vs => simp only [Except.map, h.nd, h.hits]

theorem Agree.removed2 {T T' : Tools k K} {f : Vec k K → Vec k K} {o o' : Opts K} (h : Agree T T' f o o')
    (po : List (Vec k K)) (ri : Row) (ls : List Row) :
    Paint.removed2 T' (po.map f) o' ri ls = Paint.removed2 T po o ri ls := by
  induction ls with
  | nil => rfl
  | cons rl ls ih =>
    unfold Paint.removed2
    rw [vertices_map, vertices_map, ih]
    cases vertices po ri with
    | error e => rfl
    | ok vi =>
      cases rl with
      | nil => rfl
      | cons x xs =>
        cases vertices po (x :: xs) with
        | error e => rfl
        | ok vl =>
          simp only [Except.map, conflict, h.dom]
          rfl

theorem Agree.rule2 {T T' : Tools k K} {f : Vec k K → Vec k K} {o o' : Opts K} (h : Agree T T' f o o')
    (po : List (Vec k K)) (is : List Nat) (rows : List Row) :
    Paint.rule2 T' (po.map f) o' is rows = Paint.rule2 T po o is rows := by
  induction is generalizing rows with
  | nil => rfl
  | cons i is ih =>
    unfold Paint.rule2
    rw [h.removed2]
    cases Paint.removed2 T po o (rows[i]?.getD []) (rows.drop (i + 1)) with
    | error e => rfl
    | ok b => cases b <;> exact ih _

theorem Agree.approximate {T T' : Tools k K} {f : Vec k K → Vec k K} {o o' o0 o0' : Opts K}
    (h : Agree T T' f o o') (h0 : Agree T T' f o0 o0') {s : St k K} {arg : Option (List (Vec k K))}
    (hp : T'.polytopes ((arg.getD s.outcomes).map f) = T.polytopes (arg.getD s.outcomes)) :
    Paint.approximate T' o0' { outcomes := s.outcomes.map f } (arg.map (List.map f)) o' =
      Paint.approximate T o0 s arg o := by
  have ha : (arg.map (List.map f)).getD (s.outcomes.map f) = (arg.getD s.outcomes).map f := by cases arg <;> rfl
  unfold Paint.approximate
  simp only [ha, hp]
  cases T.polytopes (arg.getD s.outcomes) with
  | error e => rfl
  | ok D =>
    show filterPolytopes _ _ _ _ _ = filterPolytopes _ _ _ _ _
    unfold filterPolytopes
    have : (Paint.removed1 T' ((arg.getD s.outcomes).map f) o') = Paint.removed1 T (arg.getD s.outcomes) o :=
      funext (h.removed1 _)
    rw [this]
    cases rule1 (Paint.removed1 T (arg.getD s.outcomes) o) (List.range D.length) 0 D with
    | error e => rfl
    | ok p =>
      obtain ⟨d, D'⟩ := p
      cases hs : sortWrtEntries (D'.drop d) with
      | error e => simp only [hs]
      | ok rows =>
        simp only [hs, h0.rule2]

/-! ### C159: order, origins and units of the objectives -/

variable [Field K] [LinearOrder K] [IsStrictOrderedRing K]

theorem conv_dominates (u : Recast k K) (v w : Vec k K) : Dominates (u.conv v) (u.conv w) ↔ Dominates v w := by
  unfold Dominates AtLeastAsGood Recast.conv
  constructor
  · rintro ⟨h1, j, h2⟩
    refine ⟨fun i => ?_, u.perm j, ?_⟩
    · have h := h1 (u.perm.symm i)
      simp only [Equiv.apply_symm_apply, add_le_add_iff_right] at h
      exact le_of_mul_le_mul_left h (u.pos _)
    · simp only [add_lt_add_iff_right] at h2
      exact lt_of_mul_lt_mul_left h2 (u.pos j).le
  · rintro ⟨h1, j, h2⟩
    refine ⟨fun i => ?_, u.perm.symm j, ?_⟩
    · have := mul_le_mul_of_nonneg_left (h1 (u.perm i)) (u.pos i).le
      linarith
    · simp only [Equiv.apply_symm_apply]
      have := mul_lt_mul_of_pos_left h2 (u.pos (u.perm.symm j))
      linarith

/-- The conversion as an affine map. -/
def affine (u : Recast k K) : Vec k K →ᵃ[K] Vec k K where
  toFun := u.conv
  linear :=
    { toFun := fun v j => u.scale j * v (u.perm j)
      map_add' := fun v w => by funext j; simp [mul_add]
      map_smul' := fun a v => by funext j; simp [mul_left_comm] }
  map_vadd' := fun p v => by
    funext j
    simp only [Recast.conv, vadd_eq_add, Pi.add_apply, LinearMap.coe_mk, AddHom.coe_mk]
    ring

theorem conv_hull (u : Recast k K) (S : Set (Vec k K)) : u.conv '' convexHull K S = convexHull K (u.conv '' S) :=
  (affine u).image_convexHull S

theorem mem_map_set {α β : Type} (f : α → β) (l : List α) : {x | x ∈ l.map f} = f '' {x | x ∈ l} := by
  ext; simp

theorem hull_map (u : Recast k K) (l : List (Vec k K)) :
    convexHull K {x | x ∈ l.map u.conv} = u.conv '' convexHull K {x | x ∈ l} := by
  rw [mem_map_set, conv_hull]

/-- Tests without numerical error do not depend on the presentation. -/
theorem agree_exact {T T' : Tools k K} (hT : Exact T) (hT' : Exact T') (u : Recast k K) (o o' : Opts K) :
    Agree T T' u.conv o o' := by
  constructor
  · intro us vs
    rw [Bool.eq_iff_iff, hT'.1, hT.1, hull_map, hull_map]
    constructor
    · rintro ⟨_, ⟨x, hx, rfl⟩, _, ⟨y, hy, rfl⟩, h⟩
      exact ⟨x, hx, y, hy, (conv_dominates u x y).1 h⟩
    · rintro ⟨x, hx, y, hy, h⟩
      exact ⟨_, ⟨x, hx, rfl⟩, _, ⟨y, hy, rfl⟩, (conv_dominates u x y).2 h⟩
  · intro us
    rw [Bool.eq_iff_iff, hT'.2, hT.2, hull_map]
    constructor
    · intro h x hx y hy hd
      exact h _ ⟨x, hx, rfl⟩ _ ⟨y, hy, rfl⟩ ((conv_dominates u x y).2 hd)
    · rintro h _ ⟨x, hx, rfl⟩ _ ⟨y, hy, rfl⟩ hd
      exact h x hx y hy ((conv_dominates u x y).1 hd)

theorem poly_conv (u : Recast k K) (po : List (Vec k K)) (r : Row) :
    Poly (po.map u.conv) r = u.conv '' Poly po r := by
  unfold Poly
  rw [conv_hull]
  congr 1
  ext v
  simp only [List.getElem?_map, Option.map_eq_some_iff, Set.mem_image, Set.mem_ofPred_eq]
  constructor
  · rintro ⟨i, hi, p, hp, rfl⟩
    exact ⟨p, ⟨i, hi, hp⟩, rfl⟩
  · rintro ⟨p, ⟨i, hi, hp⟩, rfl⟩
    exact ⟨i, hi, p, hp, rfl⟩

/-- C159: if the objectives are listed in another order or measured in other units or from other origins, and the
triangulation has the same simplices, PAINT with tests that have no numerical error returns the same array (or the
same exception), whatever the certainty values, and the approximation is the same set of points in the new presentation. -/
theorem C159_presentation {T T' : Tools k K} (hT : Exact T) (hT' : Exact T') (u : Recast k K) (o o' o0 o0' : Opts K)
    {s : St k K} {arg : Option (List (Vec k K))}
    (hp : T'.polytopes ((arg.getD s.outcomes).map u.conv) = T.polytopes (arg.getD s.outcomes)) :
    approximate T' o0' { outcomes := s.outcomes.map u.conv } (arg.map (List.map u.conv)) o' =
      approximate T o0 s arg o ∧
    ∀ res, Approx ((arg.getD s.outcomes).map u.conv) res = u.conv '' Approx (arg.getD s.outcomes) res := by
  refine ⟨(agree_exact hT hT' u o o').approximate (agree_exact hT hT' u o0 o0') hp, ?_⟩
  intro res
  ext v
  constructor
  · rintro ⟨r, hr, hv⟩
    rw [poly_conv] at hv
    obtain ⟨w, hw, rfl⟩ := hv
    exact ⟨w, ⟨r, hr, hw⟩, rfl⟩
  · rintro ⟨w, ⟨r, hr, hw⟩, rfl⟩
    exact ⟨r, hr, by rw [poly_conv]; exact ⟨w, hw, rfl⟩⟩

/-- Objectives exchanged, the first measured in other units and from another origin. -/
def exRecast : Recast 2 ℚ where
  perm := Equiv.swap 0 1
  scale := ![10, 1]
  origin := ![-3, 0]
  pos := by decide +kernel

example := C159_presentation (idealTools_exact fun _ => .ok exRows) (idealTools_exact fun _ => .ok exRows) exRecast exO
  ⟨1, "highs"⟩ exO ⟨2, "highs"⟩ (s := { outcomes := exPo }) (arg := none) rfl

example : exPo.map exRecast.conv = [![27, 0], ![7, 1], ![-3, 3]] := by decide +kernel

/-! ### C160: order of the outcomes -/

/-- Specification: two arrays of rows denote the same polytopes. -/
def SamePolytopes (po po' : List (Vec k K)) (D D' : List Row) : Prop :=
  (∀ r ∈ D, ∃ r' ∈ D', Poly po' r' = Poly po r) ∧ ∀ r' ∈ D', ∃ r ∈ D, Poly po r = Poly po' r'

/-- Specification: the order in which the outcomes are listed does not matter: if the triangulation has the same
polytopes, the approximation is the same set. -/
def OrderOfOutcomesIrrelevant (k : Nat) (K : Type) [Field K] [LinearOrder K] [IsStrictOrderedRing K] : Prop :=
  ∀ (T T' : Tools k K) (o0 o : Opts K) (po po' : List (Vec k K)) (D D' res res' : List Row),
    Exact T → Exact T' → po'.Perm po → T.polytopes po = .ok D → T'.polytopes po' = .ok D' →
    (∀ r ∈ D, ValidRow po r) → (∀ r ∈ D', ValidRow po' r) → SamePolytopes po po' D D' →
    approximate T o0 { outcomes := po } none o = .ok res → approximate T' o0 { outcomes := po' } none o = .ok res' →
    Approx po res = Approx po' res'

/-- A polytope is kept if it is nondominated and conflicts neither with an outcome nor with a polytope that is
processed before it. -/
theorem kept_of_clear {T : Tools k K} (hT : Exact T) {o0 o : Opts K} {po : List (Vec k K)} {D res : List Row}
    (hD : T.polytopes po = .ok D) (h : ∀ r ∈ D, ValidRow po r)
    (ha : approximate T o0 { outcomes := po } none o = .ok res) {r : Row} (hr : r ∈ D)
    (h1 : InherentlyNondominated (Poly po r)) (h2 : ∀ p ∈ po, ∀ u ∈ Poly po r, ¬ Dominates u p ∧ ¬ Dominates p u)
    (h3 : ∀ q ∈ D, InherentlyNondominated (Poly po q) →
      (∀ p ∈ po, ∀ u ∈ Poly po q, ¬ Dominates u p ∧ ¬ Dominates p u) → Before r q →
      ∀ u ∈ Poly po r, ∀ v ∈ Poly po q, ¬ Dominates u v ∧ ¬ Dominates v u) : r ∈ res := by
  obtain ⟨res', h4, h5, _, _, _, h6⟩ :=
    approximate_spec (s := { outcomes := po }) (arg := none) (o0 := o0) (o := o) hD h
  rw [ha] at h4
  cases h4
  by_contra hn
  obtain ⟨q, hq, hc, hb⟩ := h6 r hr ((passes_exact hT (h r hr)).2 ⟨h1, h2⟩) hn
  obtain ⟨hqD, hqp⟩ := h5 q hq
  obtain ⟨u, hu, v, hv, hd⟩ := (conflict_exact hT (h r hr) (h q hqD)).1 hc
  obtain ⟨a, b⟩ := (passes_exact hT (h q hqD)).1 hqp
  have := h3 q hqD a b hb u hu v hv
  exact hd.elim this.1 this.2

/-- C160, what holds: if no two polytopes that are nondominated and do not conflict with the outcomes conflict with
each other, the order in which the outcomes are listed does not matter. -/
theorem C160_outcomes_partial {T T' : Tools k K} {o0 o : Opts K} {po po' : List (Vec k K)} {D D' res res' : List Row}
    (hT : Exact T) (hT' : Exact T') (hpo : po'.Perm po) (hD : T.polytopes po = .ok D) (hD' : T'.polytopes po' = .ok D')
    (h : ∀ r ∈ D, ValidRow po r) (h' : ∀ r ∈ D', ValidRow po' r) (hs : SamePolytopes po po' D D')
    (ha : approximate T o0 { outcomes := po } none o = .ok res)
    (ha' : approximate T' o0 { outcomes := po' } none o = .ok res')
    (hc : ∀ r ∈ D, ∀ q ∈ D, InherentlyNondominated (Poly po r) → InherentlyNondominated (Poly po q) →
      (∀ p ∈ po, ∀ u ∈ Poly po r, ¬ Dominates u p ∧ ¬ Dominates p u) →
      (∀ p ∈ po, ∀ u ∈ Poly po q, ¬ Dominates u p ∧ ¬ Dominates p u) →
      ∀ u ∈ Poly po r, ∀ v ∈ Poly po q, ¬ Dominates u v) :
    Approx po res = Approx po' res' := by
  obtain ⟨_, h4, h5, _⟩ := approximate_spec (s := { outcomes := po }) (arg := none) (o0 := o0) (o := o) hD h
  rw [ha] at h4
  cases h4
  obtain ⟨_, h4, h5', _⟩ := approximate_spec (s := { outcomes := po' }) (arg := none) (o0 := o0) (o := o) hD' h'
  rw [ha'] at h4
  cases h4
  ext x
  constructor
  · rintro ⟨r, hr, hx⟩
    obtain ⟨hrD, hrp⟩ := h5 r hr
    obtain ⟨a, b⟩ := (passes_exact hT (h r hrD)).1 hrp
    obtain ⟨r', hr', he⟩ := hs.1 r hrD
    refine ⟨r', kept_of_clear hT' hD' h' ha' hr' (he ▸ a) (fun p hp => he ▸ b p (hpo.subset hp)) ?_, he ▸ hx⟩
    intro q' hq' hq1 hq2 _ u hu v hv
    obtain ⟨q, hq, he'⟩ := hs.2 q' hq'
    rw [he] at hu
    rw [← he'] at hv hq1 hq2
    have hq3 := fun p hp => hq2 p (hpo.symm.subset hp)
    exact ⟨hc r hrD q hq a hq1 b hq3 u hu v hv, hc q hq r hrD hq1 a hq3 b v hv u hu⟩
  · rintro ⟨r', hr', hx⟩
    obtain ⟨hrD', hrp'⟩ := h5' r' hr'
    obtain ⟨a, b⟩ := (passes_exact hT' (h' r' hrD')).1 hrp'
    obtain ⟨r, hr, he⟩ := hs.2 r' hrD'
    refine ⟨r, kept_of_clear hT hD h ha hr (he ▸ a) (fun p hp => he ▸ b p (hpo.symm.subset hp)) ?_, he ▸ hx⟩
    intro q hq hq1 hq2 _ u hu v hv
    have a' : InherentlyNondominated (Poly po r) := he ▸ a
    have b' : ∀ p ∈ po, ∀ u ∈ Poly po r, ¬ Dominates u p ∧ ¬ Dominates p u :=
      fun p hp => he ▸ b p (hpo.symm.subset hp)
    exact ⟨hc r hr q hq a' hq1 b' hq2 u hu v hv, hc q hq r hr hq1 a' hq2 b' v hv u hu⟩

/-- A linear function is bounded on a polytope by its values at the vertices. -/
theorem hull_le (w : Vec k K) {S : Set (Vec k K)} {c : K} (h : ∀ v ∈ S, ∑ j, w j * v j ≤ c) {u : Vec k K}
    (hu : u ∈ convexHull K S) : ∑ j, w j * u j ≤ c := by
  have hc : Convex K {x : Vec k K | ∑ j, w j * x j ≤ c} := by
    refine convex_halfSpace_le (f := fun x : Vec k K => ∑ j, w j * x j) ⟨fun x y => ?_, fun a x => ?_⟩ c
    · simp [mul_add, Finset.sum_add_distrib]
    · simp [Finset.mul_sum, mul_left_comm]
  exact convexHull_min (fun v hv => h v hv) hc hu

/-- Between two points of a convex set there is one with any value of an objective in between. -/
theorem exists_between {S : Set (Vec k K)} (hS : Convex K S) {a b : Vec k K} (ha : a ∈ S) (hb : b ∈ S) (j : Fin k) {t : K}
    (h1 : a j ≤ t) (h2 : t ≤ b j) : ∃ z ∈ S, z j = t := by
  rcases eq_or_lt_of_le (h1.trans h2) with h | h
  · exact ⟨a, ha, le_antisymm h1 (by rw [h]; exact h2)⟩
  · have hd : 0 < b j - a j := sub_pos.2 h
    refine ⟨((b j - t) / (b j - a j)) • a + ((t - a j) / (b j - a j)) • b,
      hS ha hb (div_nonneg (sub_nonneg.2 h2) hd.le) (div_nonneg (sub_nonneg.2 h1) hd.le) ?_, ?_⟩
    · rw [← add_div, div_eq_one_iff_eq hd.ne']; ring
    · simp only [Pi.add_apply, Pi.smul_apply, smul_eq_mul]
      field_simp
      ring

theorem poly_convex (po : List (Vec k K)) (r : Row) : Convex K (Poly po r) := convex_convexHull K _

/-- A point of a polytope has a vertex to its left and a vertex to its right. -/
theorem vertex_left {po : List (Vec k K)} {r : Row} {u : Vec k K} (hu : u ∈ Poly po r) (j : Fin k) :
    (∃ a ∈ po, a ∈ Poly po r ∧ a j ≤ u j) ∧ ∃ b ∈ po, b ∈ Poly po r ∧ u j ≤ b j := by
  have hv : ∀ p, (∃ i ∈ r, po[i.toNat]? = some p) → p ∈ po ∧ p ∈ Poly po r := by
    rintro p ⟨i, hi, hp⟩
    exact ⟨List.mem_of_getElem? hp, subset_convexHull K _ ⟨i, hi, hp⟩⟩
  constructor
  · by_contra hn
    push Not at hn
    have : Convex K {x : Vec k K | u j < x j} :=
      convex_halfSpace_gt (f := fun x : Vec k K => x j) ⟨fun _ _ => rfl, fun _ _ => rfl⟩ _
    have h := convexHull_min (fun p hp => hn p (hv p hp).1 (hv p hp).2) this hu
    exact lt_irrefl _ h
  · by_contra hn
    push Not at hn
    have : Convex K {x : Vec k K | x j < u j} :=
      convex_halfSpace_lt (f := fun x : Vec k K => x j) ⟨fun _ _ => rfl, fun _ _ => rfl⟩ _
    have h := convexHull_min (fun p hp => hn p (hv p hp).1 (hv p hp).2) this hu
    exact lt_irrefl _ h

/-- Two points in the plane that do not dominate each other are ordered oppositely. -/
theorem opposite {x y : Vec 2 K} (h1 : ¬ Dominates x y) (h2 : ¬ Dominates y x) :
    (x 0 < y 0 → y 1 < x 1) ∧ (y 0 < x 0 → x 1 < y 1) ∧ (x 0 = y 0 → x = y) := by
  unfold Dominates AtLeastAsGood at h1 h2
  simp only [Fin.forall_fin_two, Fin.exists_fin_two, not_and, not_or, not_lt] at h1 h2
  refine ⟨fun h => ?_, fun h => ?_, fun h => ?_⟩
  · by_contra hn
    exact absurd h (not_lt.2 (h1 ⟨h.le, not_lt.1 hn⟩).1)
  · by_contra hn
    exact absurd h (not_lt.2 (h2 ⟨h.le, not_lt.1 hn⟩).1)
  · have : x 1 = y 1 := by
      rcases le_total (x 1) (y 1) with h' | h'
      · exact le_antisymm h' (h1 ⟨h.le, h'⟩).2
      · exact le_antisymm (h2 ⟨h.ge, h'⟩).2 h'
    funext j
    fin_cases j
    · exact h
    · exact this

/-- With two objectives, polytopes that are nondominated and do not conflict with the outcomes do not conflict with each
other. -/
theorem plane_clear {po : List (Vec 2 K)} {r q : Row} (hr : InherentlyNondominated (Poly po r))
    (hq : InherentlyNondominated (Poly po q)) (hr' : ∀ p ∈ po, ∀ u ∈ Poly po r, ¬ Dominates u p ∧ ¬ Dominates p u)
    (hq' : ∀ p ∈ po, ∀ u ∈ Poly po q, ¬ Dominates u p ∧ ¬ Dominates p u) {u v : Vec 2 K} (hu : u ∈ Poly po r)
    (hv : v ∈ Poly po q) : ¬ Dominates u v := by
  intro hd
  have h0 := hd.1 0
  have h1 := hd.1 1
  have hne : u ≠ v := by
    rintro rfl
    obtain ⟨j, hj⟩ := hd.2
    exact lt_irrefl _ hj
  have P := fun {x y} (hx : x ∈ Poly po r) (hy : y ∈ Poly po r) => opposite (hr x hx y hy) (hr y hy x hx)
  have Q := fun {x y} (hx : x ∈ Poly po q) (hy : y ∈ Poly po q) => opposite (hq x hx y hy) (hq y hy x hx)
  have PO := fun {p x} (hp : p ∈ po) (hx : x ∈ Poly po r) => opposite (hr' p hp x hx).2 (hr' p hp x hx).1
  have QO := fun {p x} (hp : p ∈ po) (hx : x ∈ Poly po q) => opposite (hq' p hp x hx).2 (hq' p hp x hx).1
  obtain ⟨⟨c, hcpo, hcP, hc⟩, d, hdpo, hdP, hd'⟩ := vertex_left hu 0
  obtain ⟨⟨a, hapo, haQ, ha⟩, b, hbpo, hbQ, hb⟩ := vertex_left hv 0
  -- the polytope of `u` reaches beyond `v`
  have hdv : v 0 < d 0 := by
    by_contra hn
    have hdv := not_lt.1 hn
    have e1 : v 1 ≤ d 1 := by
      rcases eq_or_lt_of_le hdv with h | h
      · rw [(QO hdpo hv).2.2 h]
      · exact ((QO hdpo hv).1 h).le
    rcases eq_or_lt_of_le hd' with h | h
    · have hud := (P hu hdP).2.2 h
      rcases eq_or_lt_of_le hdv with h' | h'
      · exact hne (hud.trans ((QO hdpo hv).2.2 h'))
      · have := (QO hdpo hv).1 h'
        rw [← hud] at this
        exact absurd h1 (not_le.2 this)
    · have := (P hu hdP).1 h
      exact absurd (h1.trans e1) (not_le.2 this)
  -- the point of the polytope below `v`
  obtain ⟨w, hw, hw0⟩ := exists_between (poly_convex po r) hu hdP 0 h0 hdv.le
  have hw1 : w 1 ≤ v 1 := by
    refine le_trans ?_ h1
    rcases eq_or_lt_of_le (show u 0 ≤ w 0 by rw [hw0]; exact h0) with h | h
    · rw [(P hu hw).2.2 h]
    · exact ((P hu hw).1 h).le
  have hwv : w ≠ v := by
    rintro rfl
    exact hr u hu w hw hd
  have hcw : c 0 ≤ v 0 := hc.trans h0
  -- a common point on the left and one on the right
  obtain ⟨l, hlP, hlQ, hl⟩ : ∃ l ∈ Poly po r, l ∈ Poly po q ∧ l 0 ≤ v 0 := by
    rcases le_total (c 0) (a 0) with h | h
    · obtain ⟨z, hz, hz0⟩ := exists_between (poly_convex po r) hcP hdP 0 h (ha.trans hdv.le)
      exact ⟨a, (PO hapo hz).2.2 hz0.symm ▸ hz, haQ, ha⟩
    · obtain ⟨z, hz, hz0⟩ := exists_between (poly_convex po q) haQ hbQ 0 h (hcw.trans hb)
      exact ⟨c, hcP, (QO hcpo hz).2.2 hz0.symm ▸ hz, hcw⟩
  obtain ⟨g, hgP, hgQ, hg⟩ : ∃ g ∈ Poly po r, g ∈ Poly po q ∧ v 0 ≤ g 0 := by
    rcases le_total (b 0) (d 0) with h | h
    · obtain ⟨z, hz, hz0⟩ := exists_between (poly_convex po r) hcP hdP 0 (hcw.trans hb) h
      exact ⟨b, (PO hbpo hz).2.2 hz0.symm ▸ hz, hbQ, hb⟩
    · obtain ⟨z, hz, hz0⟩ := exists_between (poly_convex po q) haQ hbQ 0 (ha.trans hdv.le) h
      exact ⟨d, hdP, (QO hdpo hz).2.2 hz0.symm ▸ hz, hdv.le⟩
  obtain ⟨z, ⟨hzP, hzQ⟩, hz0⟩ := exists_between ((poly_convex po r).inter (poly_convex po q)) ⟨hlP, hlQ⟩ ⟨hgP, hgQ⟩ 0 hl hg
  exact hwv (((P hw hzP).2.2 (hw0.trans hz0.symm)).trans ((Q hzQ hv).2.2 hz0))

/-- C160 for two objectives: the order in which the outcomes are listed does not matter. -/
theorem C160_two_objectives : OrderOfOutcomesIrrelevant 2 K := by
  intro T T' o0 o po po' D D' res res' hT hT' hpo hD hD' h h' hs ha ha'
  exact C160_outcomes_partial hT hT' hpo hD hD' h h' hs ha ha'
    fun r _ q _ h1 h2 h3 h4 u hu v hv => plane_clear h1 h2 h3 h4 hu hv

/-- The polytope of a row does not depend on how the outcomes are numbered. -/
theorem poly_renumber {po po' : List (Vec k K)} {f : Int → Int} {r : Row}
    (h : ∀ i ∈ r, po'[(f i).toNat]? = po[i.toNat]?) : Poly po' (r.map f) = Poly po r := by
  unfold Poly
  congr 1
  ext p
  constructor
  · rintro ⟨i, hi, hp⟩
    obtain ⟨j, hj, rfl⟩ := List.mem_map.1 hi
    exact ⟨j, hj, h j hj ▸ hp⟩
  · rintro ⟨j, hj, hp⟩
    exact ⟨f j, List.mem_map_of_mem hj, (h j hj).trans hp⟩

theorem samePolytopes_renumber {po po' : List (Vec k K)} {f : Int → Int} {D : List Row}
    (h : ∀ r ∈ D, ∀ i ∈ r, po'[(f i).toNat]? = po[i.toNat]?) : SamePolytopes po po' D (D.map (List.map f)) := by
  constructor
  · intro r hr
    exact ⟨_, List.mem_map_of_mem hr, poly_renumber (h r hr)⟩
  · intro r' hr'
    obtain ⟨r, hr, rfl⟩ := List.mem_map.1 hr'
    exact ⟨r, hr, (poly_renumber (h r hr)).symm⟩

/-- The same three outcomes, listed in another order. -/
def exPo' : List (Vec 2 ℚ) := [![3, 0], ![0, 3], ![1, 1]]

/-- Their new numbers. -/
def exNumber (i : Int) : Int := if i = 2 then 0 else i + 1

example (res res' : List Row)
    (h : approximate (idealTools fun _ => .ok exRows) exO { outcomes := exPo } none exO = .ok res)
    (h' : approximate (idealTools fun _ => .ok (exRows.map (List.map exNumber))) exO { outcomes := exPo' } none exO =
      .ok res') : Approx exPo res = Approx exPo' res' :=
  C160_two_objectives (idealTools fun _ => .ok exRows) (idealTools fun _ => .ok (exRows.map (List.map exNumber))) exO exO
    exPo exPo' exRows (exRows.map (List.map exNumber)) res res' (idealTools_exact _) (idealTools_exact _)
    (by decide +kernel) rfl rfl ex_valid (by unfold ValidRow; decide +kernel)
    (samePolytopes_renumber (by decide +kernel)) h h'

/-- Four outcomes of three objectives. The middle of the first two dominates the middle of the last two. -/
def skewPo : List (Vec 3 ℚ) := [![3, -3, 0], ![-3, 3, 0], ![3, 3, -3], ![-1, -1, 5]]

/-- The same outcomes, the last two first. -/
def skewPo' : List (Vec 3 ℚ) := [![3, 3, -3], ![-1, -1, 5], ![3, -3, 0], ![-3, 3, 0]]

/-- All faces of the tetrahedron. -/
def skewRows : List Row :=
  [[0, 0, 0, 0], [1, 1, 1, 1], [2, 2, 2, 2], [3, 3, 3, 3], [0, 1, 0, 0], [0, 2, 0, 0], [0, 3, 0, 0], [1, 2, 1, 1],
   [1, 3, 1, 1], [2, 3, 2, 2], [0, 1, 2, 0], [0, 1, 3, 0], [0, 2, 3, 0], [1, 2, 3, 1], [0, 1, 2, 3]]

/-- The new numbers of the outcomes. -/
def skewNumber (i : Int) : Int := if i < 2 then i + 2 else i - 2

theorem mid_mem {po : List (Vec k K)} {r : Row} {a b : Vec k K} (ha : a ∈ Poly po r) (hb : b ∈ Poly po r) :
    (fun j => (a j + b j) / 2) ∈ Poly po r := by
  have := poly_convex po r ha hb (a := 1 / 2) (b := 1 / 2) (by norm_num) (by norm_num) (by norm_num)
  convert this using 1
  funext j
  simp only [Pi.add_apply, Pi.smul_apply, smul_eq_mul]
  ring

theorem vertex_mem {po : List (Vec k K)} {r : Row} {i : Int} {p : Vec k K} (hi : i ∈ r) (h : po[i.toNat]? = some p) :
    p ∈ Poly po r := subset_convexHull K _ ⟨i, hi, h⟩

/-- A linear function is bounded on a polytope by its values at the vertices. -/
theorem poly_le {po : List (Vec 3 ℚ)} {r : Row} (w : Vec 3 ℚ) (c : ℚ)
    (h : ∀ i ∈ r, ∀ p ∈ po[i.toNat]?, w 0 * p 0 + w 1 * p 1 + w 2 * p 2 ≤ c) {u : Vec 3 ℚ} (hu : u ∈ Poly po r) :
    w 0 * u 0 + w 1 * u 1 + w 2 * u 2 ≤ c := by
  have := hull_le w (c := c) (fun v hv => ?_) hu
  · simpa [Fin.sum_univ_three] using this
  · obtain ⟨i, hi, hp⟩ := hv
    simpa [Fin.sum_univ_three] using h i hi v hp

/-- A polytope on which a function with positive coefficients is constant is nondominated. -/
theorem flat {po : List (Vec 3 ℚ)} {r : Row} (w : Vec 3 ℚ) (c : ℚ) (hw : 0 < w 0 ∧ 0 < w 1 ∧ 0 < w 2)
    (h : ∀ i ∈ r, ∀ p ∈ po[i.toNat]?, w 0 * p 0 + w 1 * p 1 + w 2 * p 2 = c) {u v : Vec 3 ℚ} (hu : u ∈ Poly po r)
    (hv : w 0 * v 0 + w 1 * v 1 + w 2 * v 2 = c) : ¬ Dominates u v ∧ ¬ Dominates v u := by
  have h1 := poly_le w c (fun i hi p hp => (h i hi p hp).le) hu
  have h2 := poly_le (fun j => - w j) (-c) (fun i hi p hp => by have := h i hi p hp; linarith) hu
  have pos : ∀ j, 0 < w j := by
    intro j; fin_cases j
    · exact hw.1
    · exact hw.2.1
    · exact hw.2.2
  have key : ∀ x y : Vec 3 ℚ, w 0 * x 0 + w 1 * x 1 + w 2 * x 2 = w 0 * y 0 + w 1 * y 1 + w 2 * y 2 → ¬ Dominates x y := by
    rintro x y he ⟨hle, j, hj⟩
    have a0 := mul_le_mul_of_nonneg_left (hle 0) (pos 0).le
    have a1 := mul_le_mul_of_nonneg_left (hle 1) (pos 1).le
    have a2 := mul_le_mul_of_nonneg_left (hle 2) (pos 2).le
    have aj := mul_lt_mul_of_pos_left hj (pos j)
    fin_cases j
    · change w 0 * x 0 < w 0 * y 0 at aj; linarith
    · change w 1 * x 1 < w 1 * y 1 at aj; linarith
    · change w 2 * x 2 < w 2 * y 2 at aj; linarith
  exact ⟨key u v (by linarith), key v u (by linarith)⟩

theorem skew_valid : ∀ r ∈ skewRows, ValidRow skewPo r := by unfold ValidRow; decide +kernel

theorem skew_valid' : ∀ r ∈ skewRows.map (List.map skewNumber), ValidRow skewPo' r := by
  unfold ValidRow; decide +kernel

/-- The middle of the first two outcomes dominates the middle of the last two. -/
theorem skew_mids : Dominates (fun j => ((![3, -3, 0] : Vec 3 ℚ) j + (![-3, 3, 0] : Vec 3 ℚ) j) / 2)
    (fun j => ((![3, 3, -3] : Vec 3 ℚ) j + (![-1, -1, 5] : Vec 3 ℚ) j) / 2) := by
  unfold Dominates AtLeastAsGood; decide +kernel

/-- The tetrahedron is not inherently nondominated. -/
theorem skew_tetra : ¬ InherentlyNondominated (Poly skewPo [0, 1, 2, 3]) := by
  intro h
  exact h _ (mid_mem (vertex_mem (i := 0) (by decide) rfl) (vertex_mem (i := 1) (by decide) rfl)) _
    (mid_mem (vertex_mem (i := 2) (by decide) rfl) (vertex_mem (i := 3) (by decide) rfl)) skew_mids

theorem skew_tetra' : ¬ InherentlyNondominated (Poly skewPo' [2, 3, 0, 1]) := by
  intro h
  exact h _ (mid_mem (vertex_mem (i := 2) (by decide) rfl) (vertex_mem (i := 3) (by decide) rfl)) _
    (mid_mem (vertex_mem (i := 0) (by decide) rfl) (vertex_mem (i := 1) (by decide) rfl)) skew_mids

/-- The result for the first order contains the triangle of the last three outcomes. -/
theorem skew_kept {T : Tools 3 ℚ} (hT : Exact T) {o0 o : Opts ℚ} {res : List Row} (hD : T.polytopes skewPo = .ok skewRows)
    (ha : approximate T o0 { outcomes := skewPo } none o = .ok res) : [1, 2, 3, 1] ∈ res := by
  have hv : ∀ i ∈ ([1, 2, 3, 1] : Row), ∀ p ∈ skewPo[i.toNat]?,
      (![1, 3, 2] : Vec 3 ℚ) 0 * p 0 + (![1, 3, 2] : Vec 3 ℚ) 1 * p 1 + (![1, 3, 2] : Vec 3 ℚ) 2 * p 2 = 6 := by
    decide +kernel
  have hfl := fun {u : Vec 3 ℚ} (hu : u ∈ Poly skewPo [1, 2, 3, 1]) {v : Vec 3 ℚ} hv' =>
    flat (v := v) ![1, 3, 2] 6 (by decide +kernel) hv hu hv'
  have hval : ∀ u ∈ Poly skewPo [1, 2, 3, 1], u 0 + 3 * u 1 + 2 * u 2 = 6 := by
    intro u hu
    have h1 := poly_le ![1, 3, 2] 6 (fun i hi p hp => (hv i hi p hp).le) hu
    have h2 := poly_le ![-1, -3, -2] (-6) (by decide +kernel : ∀ i ∈ ([1, 2, 3, 1] : Row), ∀ p ∈ skewPo[i.toNat]?, _) hu
    change (1 : ℚ) * u 0 + 3 * u 1 + 2 * u 2 ≤ 6 at h1
    change (-1 : ℚ) * u 0 + -3 * u 1 + -2 * u 2 ≤ -6 at h2
    linarith
  have hI : InherentlyNondominated (Poly skewPo [1, 2, 3, 1]) := by
    intro u hu v hv'
    refine (hfl hu ?_).1
    have := hval v hv'
    change (1 : ℚ) * v 0 + 3 * v 1 + 2 * v 2 = 6
    linarith
  refine kept_of_clear hT hD skew_valid ha (by decide) hI ?_ ?_
  · intro p hp u hu
    have h1 := hval u hu
    have h2 := poly_le ![2, 0, 1] 5 (by decide +kernel : ∀ i ∈ ([1, 2, 3, 1] : Row), ∀ p ∈ skewPo[i.toNat]?, _) hu
    change (2 : ℚ) * u 0 + 0 * u 1 + 1 * u 2 ≤ 5 at h2
    simp only [skewPo, List.mem_cons, List.not_mem_nil, or_false] at hp
    rcases hp with rfl | rfl | rfl | rfl
    · constructor
      · rintro ⟨h, _⟩
        have a := h 0
        have b := h 1
        have c := h 2
        change u 0 ≤ 3 at a
        change u 1 ≤ -3 at b
        change u 2 ≤ 0 at c
        linarith
      · rintro ⟨h, _⟩
        have a := h 0
        have c := h 2
        change 3 ≤ u 0 at a
        change 0 ≤ u 2 at c
        linarith
    · exact hfl hu (by decide +kernel)
    · exact hfl hu (by decide +kernel)
    · exact hfl hu (by decide +kernel)
  · intro q hq hq1 _ hb u hu v hv'
    have hall : ∀ q ∈ skewRows, Before [1, 2, 3, 1] q → q = [1, 2, 3, 1] ∨ q = [0, 1, 2, 3] := by
      unfold Before
      decide +kernel
    have := hall q hq hb
    rcases this with rfl | rfl
    · exact ⟨hI u hu v hv', hI v hv' u hu⟩
    · exact absurd hq1 skew_tetra

/-- The result for the second order contains the triangle of the first, the second and the last outcome. -/
theorem skew_kept' {T : Tools 3 ℚ} (hT : Exact T) {o0 o : Opts ℚ} {res : List Row}
    (hD : T.polytopes skewPo' = .ok (skewRows.map (List.map skewNumber)))
    (ha : approximate T o0 { outcomes := skewPo' } none o = .ok res) : [2, 3, 1, 2] ∈ res := by
  have hv : ∀ i ∈ ([2, 3, 1, 2] : Row), ∀ p ∈ skewPo'[i.toNat]?,
      (![5, 5, 2] : Vec 3 ℚ) 0 * p 0 + (![5, 5, 2] : Vec 3 ℚ) 1 * p 1 + (![5, 5, 2] : Vec 3 ℚ) 2 * p 2 = 0 := by
    decide +kernel
  have hfl := fun {u : Vec 3 ℚ} (hu : u ∈ Poly skewPo' [2, 3, 1, 2]) {v : Vec 3 ℚ} hv' =>
    flat (v := v) ![5, 5, 2] 0 (by decide +kernel) hv hu hv'
  have hval : ∀ u ∈ Poly skewPo' [2, 3, 1, 2], 5 * u 0 + 5 * u 1 + 2 * u 2 = 0 := by
    intro u hu
    have h1 := poly_le ![5, 5, 2] 0 (fun i hi p hp => (hv i hi p hp).le) hu
    have h2 := poly_le ![-5, -5, -2] 0 (by decide +kernel : ∀ i ∈ ([2, 3, 1, 2] : Row), ∀ p ∈ skewPo'[i.toNat]?, _) hu
    change (5 : ℚ) * u 0 + 5 * u 1 + 2 * u 2 ≤ 0 at h1
    change (-5 : ℚ) * u 0 + -5 * u 1 + -2 * u 2 ≤ 0 at h2
    linarith
  have hI : InherentlyNondominated (Poly skewPo' [2, 3, 1, 2]) := by
    intro u hu v hv'
    exact (hfl hu (hval v hv')).1
  refine kept_of_clear hT hD skew_valid' ha (by decide) hI ?_ ?_
  · intro p hp u hu
    have h1 := hval u hu
    have h2 := poly_le ![0, 0, -1] 0 (by decide +kernel : ∀ i ∈ ([2, 3, 1, 2] : Row), ∀ p ∈ skewPo'[i.toNat]?, _) hu
    change (0 : ℚ) * u 0 + 0 * u 1 + -1 * u 2 ≤ 0 at h2
    simp only [skewPo', List.mem_cons, List.not_mem_nil, or_false] at hp
    rcases hp with rfl | rfl | rfl | rfl
    · constructor
      · rintro ⟨h, _⟩
        have c := h 2
        change u 2 ≤ -3 at c
        linarith
      · rintro ⟨h, _⟩
        have a := h 0
        have b := h 1
        have c := h 2
        change 3 ≤ u 0 at a
        change 3 ≤ u 1 at b
        change -3 ≤ u 2 at c
        linarith
    · exact hfl hu (by decide +kernel)
    · exact hfl hu (by decide +kernel)
    · exact hfl hu (by decide +kernel)
  · intro q hq hq1 _ hb u hu v hv'
    have hall : ∀ q ∈ skewRows.map (List.map skewNumber), Before [2, 3, 1, 2] q → q = [2, 3, 1, 2] ∨ q = [2, 3, 0, 1] := by
      unfold Before
      decide +kernel
    have := hall q hq hb
    rcases this with rfl | rfl
    · exact ⟨hI u hu v hv', hI v hv' u hu⟩
    · exact absurd hq1 skew_tetra'

/-- C160 is violated by the code: rule 2 removes, of two conflicting polytopes of the same size, the one with the
smaller outcome numbers, so the approximation depends on the order in which the outcomes are listed. -/
theorem C160_fails : ¬ OrderOfOutcomesIrrelevant 3 ℚ := by
  intro h
  have hT : Exact (idealTools (k := 3) (K := ℚ) fun _ => .ok skewRows) := idealTools_exact _
  have hT' : Exact (idealTools (k := 3) (K := ℚ) fun _ => .ok (skewRows.map (List.map skewNumber))) := idealTools_exact _
  have o : Opts ℚ := ⟨1/1000000, "simplex"⟩
  obtain ⟨res, ha, hn, _⟩ := C74_nondominated hT (o0 := o) (o := o) (s := { outcomes := skewPo }) (arg := none)
    (D := skewRows) rfl skew_valid
  obtain ⟨res', ha', _⟩ := C74_nondominated hT' (o0 := o) (o := o) (s := { outcomes := skewPo' }) (arg := none)
    (D := skewRows.map (List.map skewNumber)) rfl skew_valid'
  have he := h _ _ o o skewPo skewPo' skewRows _ res res' hT hT' (by decide +kernel) rfl rfl skew_valid skew_valid'
    (samePolytopes_renumber (by decide +kernel)) ha ha'
  have h1 : (fun j => ((![3, 3, -3] : Vec 3 ℚ) j + (![-1, -1, 5] : Vec 3 ℚ) j) / 2) ∈ Approx skewPo res :=
    ⟨_, skew_kept hT rfl ha,
      mid_mem (vertex_mem (i := 2) (by decide) rfl) (vertex_mem (i := 3) (by decide) rfl)⟩
  have h2 : (fun j => ((![3, -3, 0] : Vec 3 ℚ) j + (![-3, 3, 0] : Vec 3 ℚ) j) / 2) ∈ Approx skewPo' res' :=
    ⟨_, skew_kept' hT' rfl ha',
      mid_mem (vertex_mem (i := 2) (by decide) rfl) (vertex_mem (i := 3) (by decide) rfl)⟩
  rw [← he] at h2
  exact hn _ h2 _ h1 skew_mids

/-! ### C161: the options of the caller -/

/-- Specification: the caller's certainty value and method are used for all tests: no two returned polytopes conflict
according to the tests with these options. -/
def OptionsUsed (k : Nat) (K : Type) : Prop :=
  ∀ (T : Tools k K) (o0 o : Opts K) (s : St k K) (arg : Option (List (Vec k K))) (D res : List Row),
    T.polytopes (arg.getD s.outcomes) = .ok D → (∀ r ∈ D, ValidRow (arg.getD s.outcomes) r) →
    approximate T o0 s arg o = .ok res → res.Pairwise fun a b => ¬ Conflict T (arg.getD s.outcomes) o a b

/-- C161, what holds: if the options are the default values of `polytope_dominates`, all tests use them. -/
theorem C161_options_partial {T : Tools k K} {o : Opts K} {s : St k K} {arg : Option (List (Vec k K))} {D res : List Row}
    (hD : T.polytopes (arg.getD s.outcomes) = .ok D) (h : ∀ r ∈ D, ValidRow (arg.getD s.outcomes) r)
    (ha : approximate T o s arg o = .ok res) :
    res.Pairwise (fun a b => ¬ Conflict T (arg.getD s.outcomes) o a b) ∧
      ∀ r ∈ res, PassesRule1 T (arg.getD s.outcomes) o r := by
  obtain ⟨_, h1, h2, _, h3, _⟩ := approximate_spec (o0 := o) (o := o) hD h
  rw [ha] at h1
  cases h1
  exact ⟨h3, fun r hr => (h2 r hr).2⟩

/-- C161, what holds for other options: rule 1 uses them. -/
theorem C161_rule1_partial {T : Tools k K} {o0 o : Opts K} {s : St k K} {arg : Option (List (Vec k K))}
    {D res : List Row} (hD : T.polytopes (arg.getD s.outcomes) = .ok D)
    (h : ∀ r ∈ D, ValidRow (arg.getD s.outcomes) r) (ha : approximate T o0 s arg o = .ok res) :
    ∀ r ∈ res, PassesRule1 T (arg.getD s.outcomes) o r := by
  obtain ⟨_, h1, h2, _⟩ := approximate_spec (o0 := o0) (o := o) hD h
  rw [ha] at h1
  cases h1
  exact fun r hr => (h2 r hr).2

example := C161_options_partial (T := exTools) (o := exO) (s := { outcomes := exPo }) (arg := none) (D := exRows) rfl ex_valid
  (res := [[0, 0, 0], [1, 1, 1], [2, 2, 2], [0, 1, 0], [1, 2, 1]]) (by decide +kernel)

/-- Vertices and middles of a polytope. -/
def sample3 (us : List (Vec 3 ℚ)) : List (Vec 3 ℚ) :=
  us.flatMap fun a => us.map fun b => fun j => (a j + b j) / 2

/-- Tests that look at the vertices and the middles, and ignore improvements smaller than the certainty value. -/
def epsTools : Tools 3 ℚ where
  polytopes := fun _ => .ok [[0, 1], [2, 3]]
  dominates := fun us vs o => (sample3 us).any fun u => (sample3 vs).any fun v =>
    decide ((∀ j, u j ≤ v j) ∧ ∃ j, u j + o.eps ≤ v j)
  nondominated := fun us o => (sample3 us).all fun u => (sample3 us).all fun v =>
    !decide ((∀ j, u j ≤ v j) ∧ ∃ j, u j + o.eps ≤ v j)

/-- Two crossing edges, close to each other. -/
def closePo : List (Vec 3 ℚ) :=
  [![3, -3, 0], ![-3, 3, 0], ![2 + 1/10000000, 2 + 1/10000000, -4 + 1/10000000],
   ![-2 + 1/10000000, -2 + 1/10000000, 4 + 1/10000000]]

/-- C161 is violated by the code: rule 2 calls `polytope_dominates` without the options of the caller. With the
certainty value `1e-8`, the two edges conflict, but both are returned. -/
theorem C161_fails : ¬ OptionsUsed 3 ℚ := by
  intro h
  have := h epsTools ⟨1/1000000, "simplex"⟩ ⟨1/100000000, "simplex"⟩ { outcomes := closePo } none [[0, 1], [2, 3]]
    [[0, 1], [2, 3]] rfl (by unfold ValidRow; decide +kernel) (by decide +kernel)
  refine (List.pairwise_cons.1 this).1 [2, 3] (by decide) ?_
  exact ⟨[![3, -3, 0], ![-3, 3, 0]], [![2 + 1/10000000, 2 + 1/10000000, -4 + 1/10000000],
   ![-2 + 1/10000000, -2 + 1/10000000, 4 + 1/10000000]], by decide +kernel, by decide +kernel, .inl (by decide +kernel)⟩

end Verif.Paint
