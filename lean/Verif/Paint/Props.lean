import Verif.Paint.Lemmas
import Verif.Spec
import Mathlib.Analysis.Convex.Hull
import Mathlib.Data.Fin.VecNotation
import Mathlib.Data.Finset.Card

/-!
# Properties of PAINT: C57 - C60, C74 - C77
-/

namespace Verif.Paint

set_option linter.unusedSectionVars false

variable {K : Type} {k : Nat}

/-! ### Example data -/

/-- Three mutually nondominated outcomes. -/
def exPo : List (Vec 2 ℚ) := [![0, 3], ![1, 1], ![3, 0]]

/-- All faces of the triangle. -/
def exRows : List Row := [[0, 0, 0], [0, 1, 2], [1, 1, 1], [0, 2, 0], [0, 1, 0], [1, 2, 1], [2, 2, 2]]

def dom2 (u v : Vec 2 ℚ) : Bool := decide (∀ j, u j ≤ v j) && decide (∃ j, u j < v j)

/-- Rough tools that compare vertices and midpoints of pairs of vertices. -/
def exSample (us : List (Vec 2 ℚ)) : List (Vec 2 ℚ) :=
  us ++ us.flatMap fun u => us.map fun v => fun i => (u i + v i) / 2

def exTools : Tools 2 ℚ where
  polytopes _ := .ok exRows
  dominates us vs _ := (exSample us).any fun u => (exSample vs).any fun v => dom2 u v
  nondominated us _ := !((exSample us).any fun u => (exSample us).any fun v => dom2 u v)

def exO : Opts ℚ := ⟨1/1000000, "simplex"⟩

theorem ex_valid : ∀ r ∈ exRows, ValidRow exPo r := by unfold ValidRow exRows exPo; decide

/-- The edge between the first and the last outcome and the triangle are dominated by the middle outcome. -/
example : approximate exTools exO { outcomes := exPo } none exO =
    .ok [[0, 0, 0], [1, 1, 1], [2, 2, 2], [0, 1, 0], [1, 2, 1]] := by decide +kernel

/-! ### C57: rule 1 -/

/-- Specification of rule 1: the polytope is inherently nondominated and neither dominates nor is dominated by
an outcome. -/
def PassesRule1 (T : Tools k K) (po : List (Vec k K)) (o : Opts K) (r : Row) : Prop :=
  ∃ vs, vertices po r = .ok vs ∧ T.nondominated vs o = true ∧
    ∀ p ∈ po, T.dominates [p] vs o = false ∧ T.dominates vs [p] o = false

theorem passes_iff {T : Tools k K} {po : List (Vec k K)} {o : Opts K} {r : Row} :
    passes T po o r = true ↔ PassesRule1 T po o r := by
  unfold passes PassesRule1
  cases h : vertices po r with
  | error e => simp
  | ok vs => simp [hitsOutcome]

/-- C57: rule 1 rearranges the polytopes such that exactly those that pass stand behind the deleted ones: no
polytope is lost, repeated or overlooked by the interchanging. -/
theorem C57_rule1 {T : Tools k K} {po : List (Vec k K)} {o : Opts K} {D : List Row}
    (h : ∀ r ∈ D, ValidRow po r) :
    ∃ d D', rule1 (removed1 T po o) (List.range D.length) 0 D = .ok (d, D') ∧ D'.Perm D ∧
      (∀ r ∈ D'.drop d, PassesRule1 T po o r) ∧ (∀ r ∈ D'.take d, ¬ PassesRule1 T po o r) := by
  have hrm : ∀ r ∈ D, removed1 T po o r = .ok (!passes T po o r) := by
    intro r hr
    obtain ⟨vs, hv, _⟩ := vertices_valid (h r hr).2
    rw [removed1_ok hv]
    unfold passes
    rw [hv]
    simp
  obtain ⟨A, B, h1, h2, h3⟩ := rule1_ok (removed1 T po o) (fun r => !passes T po o r) D [] [] hrm
  simp only [List.length_nil, Nat.add_zero, List.nil_append, Bool.not_not] at h1 h2 h3
  refine ⟨A.length, A ++ B, by rw [List.range_eq_range']; exact h1, ?_, ?_, ?_⟩
  · refine (h2.append h3).trans ?_
    have := List.filter_append_perm (fun r => !passes T po o r) D
    simpa using this
  · intro r hr
    rw [List.drop_left] at hr
    exact passes_iff.1 (List.mem_filter.1 (h3.subset hr)).2
  · intro r hr hp
    rw [List.take_left] at hr
    have := (List.mem_filter.1 (h2.subset hr)).2
    rw [passes_iff.2 hp] at this
    simp at this

example := C57_rule1 (T := exTools) (po := exPo) (o := exO) (D := exRows) ex_valid

/-! ### C58: rule 2 -/

/-- Specification of a conflict between two polytopes, as decided by the tools with options `o`. -/
def Conflict (T : Tools k K) (po : List (Vec k K)) (o : Opts K) (r q : Row) : Prop :=
  ∃ u v, vertices po r = .ok u ∧ vertices po q = .ok v ∧
    (T.dominates u v o = true ∨ T.dominates v u o = true)

/-- Number of distinct vertices, then smallest vertex: the order in which polytopes are processed. -/
def Before (a b : Row) : Prop :=
  a.toFinset.card < b.toFinset.card ∨ (a.toFinset.card = b.toFinset.card ∧ ∃ m ∈ a, ∀ x ∈ b, m ≤ x)

theorem foldl_min_le (l : List Int) (a : Int) : l.foldl min a ≤ a ∧ ∀ x ∈ l, l.foldl min a ≤ x := by
  induction l generalizing a with
  | nil => simp
  | cons b l ih =>
    obtain ⟨h1, h2⟩ := ih (min a b)
    refine ⟨h1.trans (min_le_left _ _), ?_⟩
    intro x hx
    rcases List.mem_cons.1 hx with rfl | hx
    · exact h1.trans (min_le_right _ _)
    · exact h2 x hx

theorem foldl_min_mem (l : List Int) (a : Int) : l.foldl min a = a ∨ l.foldl min a ∈ l := by
  induction l generalizing a with
  | nil => simp
  | cons b l ih =>
    rcases ih (min a b) with h | h
    · rw [List.foldl_cons, h]
      rcases min_choice a b with h' | h' <;> rw [h'] <;> simp
    · exact .inr (List.mem_cons_of_mem _ h)

theorem key_min {r : Row} (h : r ≠ []) : (key r).2 ∈ r ∧ ∀ x ∈ r, (key r).2 ≤ x := by
  cases r with
  | nil => exact absurd rfl h
  | cons a l =>
    show List.foldl min a (a :: l) ∈ a :: l ∧ _
    refine ⟨?_, (foldl_min_le (a :: l) a).2⟩
    rcases foldl_min_mem (a :: l) a with h | h
    · rw [h]; exact List.mem_cons_self
    · exact h

theorem keyLe_before {a b : Row} (ha : a ≠ []) (hb : b ≠ []) : keyLe a b = true ↔ Before a b := by
  rw [keyLe_iff]
  unfold Before
  rw [List.card_toFinset, List.card_toFinset]
  show (key a).1 < (key b).1 ∨ _ ↔ (key a).1 < (key b).1 ∨ ((key a).1 = (key b).1 ∧ _)
  refine or_congr Iff.rfl (and_congr Iff.rfl ⟨?_, ?_⟩)
  · intro h
    exact ⟨_, (key_min ha).1, fun x hx => h.trans ((key_min hb).2 x hx)⟩
  · rintro ⟨m, hm, h⟩
    exact ((key_min ha).2 m hm).trans (h _ (key_min hb).1)

theorem rowConflict_iff {T : Tools k K} {po : List (Vec k K)} {o : Opts K} {r q : Row} :
    rowConflict T po o r q = true ↔ Conflict T po o r q := by
  unfold rowConflict Conflict conflict
  cases h1 : vertices po r with
  | error e => simp
  | ok u =>
    cases h2 : vertices po q with
    | error e => simp
    | ok v => simp

/-- Everything `approximate` does, in one statement. -/
theorem approximate_spec {T : Tools k K} {o0 o : Opts K} {s : St k K} {arg : Option (List (Vec k K))}
    {D : List Row} (hD : T.polytopes (arg.getD s.outcomes) = .ok D)
    (h : ∀ r ∈ D, ValidRow (arg.getD s.outcomes) r) :
    ∃ res, approximate T o0 s arg o = .ok res ∧
      (∀ r ∈ res, r ∈ D ∧ PassesRule1 T (arg.getD s.outcomes) o r) ∧ res.Subperm D ∧
      res.Pairwise (fun a b => ¬ Conflict T (arg.getD s.outcomes) o0 a b) ∧ res.Pairwise Before ∧
      ∀ r ∈ D, PassesRule1 T (arg.getD s.outcomes) o r → r ∉ res →
        ∃ q ∈ res, Conflict T (arg.getD s.outcomes) o0 r q ∧ Before r q := by
  obtain ⟨kept, h1, h2⟩ := filterPolytopes_ok (T := T) (o := o) (o0 := o0) h
  have hk : ∀ r ∈ kept, r ∈ D ∧ passes T (arg.getD s.outcomes) o r = true := fun r hr =>
    List.mem_filter.1 (h1.subset hr)
  have hsub := greedy_sublist (rowConflict T (arg.getD s.outcomes) o0) (kept.insertionSort KeyLe)
  have hsort : (kept.insertionSort KeyLe).Pairwise Before := by
    have := List.pairwise_insertionSort KeyLe kept
    refine this.imp_of_mem ?_
    intro a b ha hb hab
    exact (keyLe_before (h a (hk a ((List.mem_insertionSort _).1 ha)).1).1
      (h b (hk b ((List.mem_insertionSort _).1 hb)).1).1).1 hab
  refine ⟨_, by unfold approximate; simp only [hD]; exact h2, ?_, ?_, ?_, hsort.sublist hsub, ?_⟩
  · intro r hr
    obtain ⟨ha, hb⟩ := hk r ((List.mem_insertionSort _).1 (hsub.subset hr))
    exact ⟨ha, passes_iff.1 hb⟩
  · exact hsub.subperm.trans (((List.perm_insertionSort KeyLe kept).trans h1).subperm.trans
      List.filter_sublist.subperm)
  · refine (greedy_pairwise _ _).imp ?_
    intro a b hab hc
    rw [rowConflict_iff.2 hc] at hab
    simp at hab
  · intro r hr hp hn
    have hr' : r ∈ kept.insertionSort KeyLe :=
      (List.mem_insertionSort _).2 (h1.symm.subset (List.mem_filter.2 ⟨hr, passes_iff.2 hp⟩))
    rcases greedy_deleted_behind (rowConflict T (arg.getD s.outcomes) o0) hsort r hr' with h' | ⟨q, hq, hc, hb⟩
    · exact absurd h' hn
    · exact ⟨q, hq, rowConflict_iff.1 hc, hb⟩

/-- C58: no two returned polytopes conflict, and every polytope that passed rule 1 and is not returned
conflicts with a returned one that comes later in the order. -/
theorem C58_no_conflicts {T : Tools k K} {o0 o : Opts K} {s : St k K} {arg : Option (List (Vec k K))}
    {D : List Row} (hD : T.polytopes (arg.getD s.outcomes) = .ok D)
    (h : ∀ r ∈ D, ValidRow (arg.getD s.outcomes) r) :
    ∃ res, approximate T o0 s arg o = .ok res ∧
      res.Pairwise (fun a b => ¬ Conflict T (arg.getD s.outcomes) o0 a b) ∧
      ∀ r ∈ D, PassesRule1 T (arg.getD s.outcomes) o r → r ∉ res →
        ∃ q ∈ res, Conflict T (arg.getD s.outcomes) o0 r q ∧ Before r q := by
  obtain ⟨res, h1, _, _, h2, _, h3⟩ := approximate_spec (o0 := o0) (o := o) hD h
  exact ⟨res, h1, h2, h3⟩

example := C58_no_conflicts (T := exTools) (o0 := exO) (o := exO) (s := { outcomes := exPo }) (arg := none)
  (D := exRows) rfl ex_valid

/-- C77: exactly polytopes of the triangulation that passed rule 1 are returned, none more often than it was
generated, in the order of `sort_wrt_entries`. -/
theorem C77_subset {T : Tools k K} {o0 o : Opts K} {s : St k K} {arg : Option (List (Vec k K))}
    {D : List Row} (hD : T.polytopes (arg.getD s.outcomes) = .ok D)
    (h : ∀ r ∈ D, ValidRow (arg.getD s.outcomes) r) :
    ∃ res, approximate T o0 s arg o = .ok res ∧ res.Subperm D ∧ res.Pairwise Before ∧
      ∀ r ∈ res, ValidRow (arg.getD s.outcomes) r ∧ PassesRule1 T (arg.getD s.outcomes) o r := by
  obtain ⟨res, h1, h2, h3, _, h4, _⟩ := approximate_spec (o0 := o0) (o := o) hD h
  exact ⟨res, h1, h3, h4, fun r hr => ⟨h r (h2 r hr).1, (h2 r hr).2⟩⟩

example := C77_subset (T := exTools) (o0 := exO) (o := exO) (s := { outcomes := exPo }) (arg := none)
  (D := exRows) rfl ex_valid

/-- C77, failures: the constructor refuses exactly the arrays with no more outcomes than objectives, and a
failing triangulation becomes the library's exception. -/
theorem C77_refused (outcomes : List (Vec k K)) :
    (construct outcomes = .error .refused ↔ outcomes.length ≤ k) ∧
    (k < outcomes.length → ∃ s, construct outcomes = .ok s ∧ s.outcomes = outcomes) ∧
    ∀ (T : Tools k K) o0 s arg o e, T.polytopes (arg.getD s.outcomes) = .error e →
      approximate T o0 s arg o = .error .refused := by
  unfold construct
  refine ⟨?_, ?_, ?_⟩
  · constructor
    · intro h
      split at h
      · assumption
      · simp at h
    · intro h
      rw [if_pos h]
  · intro h
    rw [if_neg (not_le.2 h)]
    exact ⟨_, rfl, rfl⟩
  · intro T o0 s arg o e he
    unfold approximate
    simp only [he]

example : construct exPo = .ok { outcomes := exPo } := rfl

/-! ### C59: sorting -/

/-- C59: sorting returns a permutation of the rows, ordered by the number of distinct entries and then by the
smallest entry, and rows with the same key keep their order. -/
theorem C59_sorted {rows : List Row} (h : ∀ r ∈ rows, r ≠ []) :
    ∃ res, sortWrtEntries rows = .ok res ∧ res.Perm rows ∧ res.Pairwise Before ∧
      ∀ a b, Before a b → Before b a → [a, b].Sublist rows → [a, b].Sublist res := by
  refine ⟨_, sortWrtEntries_ok h, List.perm_insertionSort KeyLe _, ?_, ?_⟩
  · refine (List.pairwise_insertionSort KeyLe rows).imp_of_mem ?_
    intro a b ha hb hab
    exact (keyLe_before (h a ((List.mem_insertionSort _).1 ha)) (h b ((List.mem_insertionSort _).1 hb))).1 hab
  · intro a b hab _ hs
    refine List.pair_sublist_insertionSort ?_ hs
    exact (keyLe_before (h a (hs.subset (by simp))) (h b (hs.subset (by simp)))).2 hab

example : sortWrtEntries [[2, 1, 3], [4, 4, 4], [1, 2, 1], [1, 1, 3], [0, 5, 0]] =
    .ok [[4, 4, 4], [0, 5, 0], [1, 2, 1], [1, 1, 3], [2, 1, 3]] := by decide +kernel

example := C59_sorted (rows := exRows) (by decide)

/-! ### C60: perturbation -/

/-- The full claim: after `perturbate`, `approximate` uses the perturbed outcomes. -/
def PerturbationUsed [Add K] (T : Tools k K) : Prop :=
  ∀ (o0 o : Opts K) (s : St k K) (noise po' : List (Vec k K)), (perturbate s noise).perturbed = some po' →
    approximate T o0 (perturbate s noise) none o = approximate T o0 s (some po') o

/-- C60 when the perturbed outcomes are passed to `approximate`: they are used, they differ from the outcomes by
the noise, and the outcomes themselves are unchanged. Without passing them the perturbation has no effect. -/
theorem C60_perturbation_partial [Add K] (T : Tools k K) (o0 o : Opts K) (s : St k K) (noise : List (Vec k K))
    (hn : noise.length = s.outcomes.length) :
    (∃ po', (perturbate s noise).perturbed = some po' ∧ po'.length = s.outcomes.length ∧
      (∀ (i : Nat) (p e : Vec k K), s.outcomes[i]? = some p → noise[i]? = some e →
        po'[i]? = some fun j => p j + e j) ∧
      approximate T o0 (perturbate s noise) (some po') o = approximate T o0 s (some po') o) ∧
    (perturbate s noise).outcomes = s.outcomes ∧
    approximate T o0 (perturbate s noise) none o = approximate T o0 s none o := by
  refine ⟨⟨_, rfl, by simp [hn], ?_, rfl⟩, rfl, rfl⟩
  intro i p e hp he
  simp [List.getElem?_zipWith, hp, he]

example := C60_perturbation_partial exTools exO exO { outcomes := exPo } [![0, 1/10], ![0, 0], ![1/10, 0]] rfl

/-- Tools whose triangulation depends on the outcomes. -/
def exTools' : Tools 2 ℚ := { exTools with
  polytopes := fun po => if (po.headD ![0, 0]) 1 = 3 then .ok exRows else .ok [[0, 0, 0]] }

theorem C60_fails : ¬ PerturbationUsed exTools' := by
  intro h
  have h1 := h exO exO { outcomes := exPo } [![0, 1/10], ![0, 0], ![1/10, 0]] _ rfl
  have h2 : approximate exTools' exO (perturbate { outcomes := exPo } [![0, 1/10], ![0, 0], ![1/10, 0]]) none exO =
    .ok [[0, 0, 0], [1, 1, 1], [2, 2, 2], [0, 1, 0], [1, 2, 1]] := by decide +kernel
  rw [h2] at h1
  revert h1
  clear * -
  decide +kernel

/-! ### C74 - C76: the approximation as a set -/

variable [Field K] [LinearOrder K] [IsStrictOrderedRing K]

/-- The polytope that a row denotes. -/
def Poly (po : List (Vec k K)) (r : Row) : Set (Vec k K) :=
  convexHull K {p | ∃ i ∈ r, po[i.toNat]? = some p}

/-- The approximation that an array of rows denotes: the union of the polytopes. -/
def Approx (po : List (Vec k K)) (rows : List Row) : Set (Vec k K) := {u | ∃ r ∈ rows, u ∈ Poly po r}

/-- No point of the set dominates another one. -/
def InherentlyNondominated (S : Set (Vec k K)) : Prop := ∀ u ∈ S, ∀ v ∈ S, ¬ Dominates u v

/-- The functions of `desdeo_tools` decide what their documentation says, without numerical error: a polytope
dominates another one if one of its points dominates one of the points of the other. -/
def Exact (T : Tools k K) : Prop :=
  (∀ us vs o, T.dominates us vs o = true ↔
    ∃ u ∈ convexHull K {x | x ∈ us}, ∃ v ∈ convexHull K {x | x ∈ vs}, Dominates u v) ∧
  ∀ us o, T.nondominated us o = true ↔ InherentlyNondominated (convexHull K {x | x ∈ us})

open Classical in
/-- Tools without numerical error. -/
noncomputable def idealTools (f : List (Vec k K) → Except Err (List Row)) : Tools k K where
  polytopes := f
  dominates us vs _ := decide (∃ u ∈ convexHull K {x | x ∈ us}, ∃ v ∈ convexHull K {x | x ∈ vs}, Dominates u v)
  nondominated us _ := decide (InherentlyNondominated (convexHull K {x | x ∈ us}))

theorem idealTools_exact (f : List (Vec k K) → Except Err (List Row)) : Exact (idealTools f) :=
  ⟨fun _ _ _ => by simp [idealTools], fun _ _ => by simp [idealTools]⟩

theorem poly_eq {po : List (Vec k K)} {r : Row} (h : ValidRow po r) :
    ∃ vs, vertices po r = .ok vs ∧ Poly po r = convexHull K {x | x ∈ vs} := by
  obtain ⟨vs, h1, h2⟩ := vertices_valid h.2
  refine ⟨vs, h1, ?_⟩
  unfold Poly
  congr 1
  ext v
  exact (h2 v).symm

theorem passes_exact {T : Tools k K} (hT : Exact T) {po : List (Vec k K)} {o : Opts K} {r : Row}
    (h : ValidRow po r) : PassesRule1 T po o r ↔ InherentlyNondominated (Poly po r) ∧
      ∀ p ∈ po, ∀ u ∈ Poly po r, ¬ Dominates u p ∧ ¬ Dominates p u := by
  obtain ⟨vs, h1, h2⟩ := poly_eq h
  have hd : ∀ a b, T.dominates a b o = false ↔
      ∀ u ∈ convexHull K {x | x ∈ a}, ∀ v ∈ convexHull K {x | x ∈ b}, ¬ Dominates u v := by
    intro a b
    rw [← Bool.not_eq_true, hT.1]
    push Not
    rfl
  have hs : ∀ p : Vec k K, convexHull K {x | x ∈ [p]} = {p} := by
    intro p
    have : {x | x ∈ [p]} = ({p} : Set (Vec k K)) := by ext; simp
    rw [this, convexHull_singleton]
  unfold PassesRule1
  rw [h2]
  constructor
  · rintro ⟨vs', h3, h4, h5⟩
    rw [h1] at h3
    cases h3
    refine ⟨(hT.2 vs o).1 h4, fun p hp u hu => ?_⟩
    obtain ⟨h6, h7⟩ := h5 p hp
    rw [hd] at h6 h7
    rw [hs] at h6 h7
    exact ⟨h7 u hu p rfl, h6 p rfl u hu⟩
  · rintro ⟨h3, h4⟩
    refine ⟨vs, h1, (hT.2 vs o).2 h3, fun p hp => ?_⟩
    rw [hd, hd, hs]
    refine ⟨?_, ?_⟩
    · rintro u rfl v hv
      exact (h4 u hp v hv).2
    · rintro u hu v rfl
      exact (h4 v hp u hu).1

theorem conflict_exact {T : Tools k K} (hT : Exact T) {po : List (Vec k K)} {o : Opts K} {r q : Row}
    (hr : ValidRow po r) (hq : ValidRow po q) : Conflict T po o r q ↔
      ∃ u ∈ Poly po r, ∃ v ∈ Poly po q, Dominates u v ∨ Dominates v u := by
  obtain ⟨us, h1, h2⟩ := poly_eq hr
  obtain ⟨vs, h3, h4⟩ := poly_eq hq
  unfold Conflict
  rw [h2, h4]
  constructor
  · rintro ⟨us', vs', h5, h6, h7⟩
    rw [h1] at h5
    rw [h3] at h6
    cases h5
    cases h6
    rcases h7 with h7 | h7
    · obtain ⟨u, hu, v, hv, hd⟩ := (hT.1 _ _ _).1 h7
      exact ⟨u, hu, v, hv, .inl hd⟩
    · obtain ⟨v, hv, u, hu, hd⟩ := (hT.1 _ _ _).1 h7
      exact ⟨u, hu, v, hv, .inr hd⟩
  · rintro ⟨u, hu, v, hv, hd⟩
    refine ⟨us, vs, h1, h3, ?_⟩
    rcases hd with hd | hd
    · exact .inl ((hT.1 _ _ _).2 ⟨u, hu, v, hv, hd⟩)
    · exact .inr ((hT.1 _ _ _).2 ⟨v, hv, u, hu, hd⟩)

/-- C74: the approximation is inherently nondominated: none of its points dominates another of its points or an
outcome, or is dominated by an outcome. -/
theorem C74_nondominated {T : Tools k K} (hT : Exact T) {o0 o : Opts K} {s : St k K}
    {arg : Option (List (Vec k K))} {D : List Row} (hD : T.polytopes (arg.getD s.outcomes) = .ok D)
    (h : ∀ r ∈ D, ValidRow (arg.getD s.outcomes) r) :
    ∃ res, approximate T o0 s arg o = .ok res ∧ InherentlyNondominated (Approx (arg.getD s.outcomes) res) ∧
      ∀ u ∈ Approx (arg.getD s.outcomes) res, ∀ p ∈ arg.getD s.outcomes, ¬ Dominates u p ∧ ¬ Dominates p u := by
  obtain ⟨res, h1, h2, _, h3, _, _⟩ := approximate_spec (o0 := o0) (o := o) hD h
  have hv : ∀ r ∈ res, ValidRow (arg.getD s.outcomes) r := fun r hr => h r (h2 r hr).1
  refine ⟨res, h1, ?_, ?_⟩
  · rintro u ⟨a, ha, hu⟩ v ⟨b, hb, hv'⟩ hd
    have hsym : Std.Symm fun a b => ∀ u ∈ Poly (arg.getD s.outcomes) a, ∀ v ∈ Poly (arg.getD s.outcomes) b,
        ¬ Dominates u v ∧ ¬ Dominates v u :=
      ⟨fun a b hab u hu v hv => ⟨(hab v hv u hu).2, (hab v hv u hu).1⟩⟩
    have hall := List.Pairwise.forall_of_forall
      (R := fun a b => ∀ u ∈ Poly (arg.getD s.outcomes) a, ∀ v ∈ Poly (arg.getD s.outcomes) b,
        ¬ Dominates u v ∧ ¬ Dominates v u) (l := res)
      (fun a ha u hu v hv' => by
        have := ((passes_exact hT (hv a ha)).1 (h2 a ha).2).1
        exact ⟨this u hu v hv', this v hv' u hu⟩)
      (h3.imp_of_mem (fun {a b} ha hb hab u hu v hv' => by
        rw [conflict_exact hT (hv a ha) (hv b hb)] at hab
        push Not at hab
        exact hab u hu v hv'))
    exact (hall ha hb u hu v hv').1 hd
  · rintro u ⟨a, ha, hu⟩ p hp
    exact ((passes_exact hT (hv a ha)).1 (h2 a ha).2).2 p hp u hu

example := C74_nondominated (idealTools_exact fun _ => .ok exRows) (o0 := exO) (o := exO)
  (s := { outcomes := exPo }) (arg := none) (D := exRows) rfl ex_valid

/-- C75: if the outcomes do not dominate each other, the approximation contains every outcome that is a vertex
of the triangulation. -/
theorem C75_interpolates {T : Tools k K} (hT : Exact T) {o0 o : Opts K} {s : St k K}
    {arg : Option (List (Vec k K))} {D : List Row} (hD : T.polytopes (arg.getD s.outcomes) = .ok D)
    (h : ∀ r ∈ D, ValidRow (arg.getD s.outcomes) r)
    (hnd : ∀ p ∈ arg.getD s.outcomes, ∀ q ∈ arg.getD s.outcomes, ¬ Dominates p q) :
    ∃ res, approximate T o0 s arg o = .ok res ∧
      ∀ (j : Nat) (p : Vec k K) (r : Row), (arg.getD s.outcomes)[j]? = some p → r ∈ D → (∀ i ∈ r, i = j) →
        r ∈ res ∧ p ∈ Approx (arg.getD s.outcomes) res := by
  obtain ⟨res, h1, h2, _, _, _, h4⟩ := approximate_spec (o0 := o0) (o := o) hD h
  refine ⟨res, h1, ?_⟩
  intro j p r hj hr hall
  have hpoly : Poly (arg.getD s.outcomes) r = {p} := by
    have : {q | ∃ i ∈ r, (arg.getD s.outcomes)[i.toNat]? = some q} = ({p} : Set (Vec k K)) := by
      ext q
      constructor
      · rintro ⟨i, hi, hq⟩
        rw [hall i hi] at hq
        simp only [Int.toNat_natCast, hj, Option.some.injEq] at hq
        exact hq.symm
      · rintro rfl
        obtain ⟨i, hi⟩ := List.exists_mem_of_ne_nil r (h r hr).1
        refine ⟨i, hi, ?_⟩
        rw [hall i hi]
        simpa using hj
    unfold Poly
    rw [this, convexHull_singleton]
  have hmem : p ∈ arg.getD s.outcomes := List.mem_of_getElem? hj
  have hp : PassesRule1 T (arg.getD s.outcomes) o r := by
    rw [passes_exact hT (h r hr), hpoly]
    refine ⟨?_, ?_⟩
    · rintro u rfl v rfl
      exact hnd _ hmem _ hmem
    · rintro q hq u rfl
      exact ⟨hnd _ hmem _ hq, hnd _ hq _ hmem⟩
  have hin : r ∈ res := by
    by_contra hn
    obtain ⟨q, hq, hc, _⟩ := h4 r hr hp hn
    rw [conflict_exact hT (h r hr) (h q (h2 q hq).1), hpoly] at hc
    obtain ⟨u, rfl, v, hv, hd⟩ := hc
    have := ((passes_exact hT (h q (h2 q hq).1)).1 (h2 q hq).2).2 u hmem v hv
    rcases hd with hd | hd
    · exact this.2 hd
    · exact this.1 hd
  exact ⟨hin, r, hin, by rw [hpoly]; rfl⟩

example := C75_interpolates (idealTools_exact fun _ => .ok exRows) (o0 := exO) (o := exO)
  (s := { outcomes := exPo }) (arg := none) (D := exRows) rfl ex_valid
  (by unfold Dominates AtLeastAsGood exPo; decide +kernel)

/-- C76: the approximation is maximal: adding any other polytope of the triangulation would make it dominated,
together with the outcomes. -/
theorem C76_maximal {T : Tools k K} (hT : Exact T) {o0 o : Opts K} {s : St k K}
    {arg : Option (List (Vec k K))} {D : List Row} (hD : T.polytopes (arg.getD s.outcomes) = .ok D)
    (h : ∀ r ∈ D, ValidRow (arg.getD s.outcomes) r) :
    ∃ res, approximate T o0 s arg o = .ok res ∧ ∀ r ∈ D, r ∉ res →
      ¬ InherentlyNondominated
        (Approx (arg.getD s.outcomes) (r :: res) ∪ {p | p ∈ arg.getD s.outcomes}) := by
  obtain ⟨res, h1, h2, _, _, _, h4⟩ := approximate_spec (o0 := o0) (o := o) hD h
  refine ⟨res, h1, ?_⟩
  intro r hr hn hI
  have hin : ∀ u ∈ Poly (arg.getD s.outcomes) r,
      u ∈ Approx (arg.getD s.outcomes) (r :: res) ∪ {p | p ∈ arg.getD s.outcomes} :=
    fun u hu => .inl ⟨r, List.mem_cons_self, hu⟩
  by_cases hp : PassesRule1 T (arg.getD s.outcomes) o r
  · obtain ⟨q, hq, hc, _⟩ := h4 r hr hp hn
    rw [conflict_exact hT (h r hr) (h q (h2 q hq).1)] at hc
    obtain ⟨u, hu, v, hv, hd⟩ := hc
    have hv' : v ∈ Approx (arg.getD s.outcomes) (r :: res) ∪ {p | p ∈ arg.getD s.outcomes} :=
      .inl ⟨q, List.mem_cons_of_mem _ hq, hv⟩
    rcases hd with hd | hd
    · exact hI u (hin u hu) v hv' hd
    · exact hI v hv' u (hin u hu) hd
  · rw [passes_exact hT (h r hr)] at hp
    refine hp ⟨fun u hu v hv => hI u (hin u hu) v (hin v hv), fun p hpo u hu => ?_⟩
    exact ⟨hI u (hin u hu) p (.inr hpo), hI p (.inr hpo) u (hin u hu)⟩

example := C76_maximal (idealTools_exact fun _ => .ok exRows) (o0 := exO) (o := exO)
  (s := { outcomes := exPo }) (arg := none) (D := exRows) rfl ex_valid

end Verif.Paint
