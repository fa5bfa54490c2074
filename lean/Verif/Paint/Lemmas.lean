import Verif.Paint.Model
import Mathlib.Data.List.Basic
import Mathlib.Data.List.Permutation

/-! # Lemmas about the loops of PAINT -/

namespace Verif.Paint

variable {K : Type} {k : Nat}

/-! ### Rule 1 -/

theorem swapRows_same (D : List Row) (i : Nat) : swapRows D i i = D := by
  unfold swapRows
  by_cases h : i < D.length
  · apply List.ext_getElem? 
    intro j
    rw [List.getElem?_set, List.getElem?_set]
    by_cases hj : i = j
    · subst hj; simp [h]
    · simp [hj]
  · simp [List.set_eq_of_length_le (Nat.le_of_not_lt h)]

theorem swapRows_split (A B C : List Row) (b c : Row) :
    swapRows (A ++ b :: (B ++ c :: C)) (A.length + (B.length + 1)) A.length = A ++ c :: (B ++ b :: C) := by
  unfold swapRows
  have h1 : (A ++ b :: (B ++ c :: C))[A.length]? = some b := by simp
  have h2 : (A ++ b :: (B ++ c :: C))[A.length + (B.length + 1)]? = some c := by simp
  rw [h1, h2]
  simp

/-- One pass of rule 1 over the unvisited rows `C`, with the deleted rows `A` in front and the rows kept so
far, `B`, in the middle. -/
theorem rule1_ok (rm : Row → Except Err Bool) (f : Row → Bool) :
    ∀ (C A B : List Row), (∀ r ∈ C, rm r = .ok (f r)) →
      ∃ A' B', rule1 rm (List.range' (A.length + B.length) C.length) A.length (A ++ (B ++ C)) =
          .ok (A'.length, A' ++ B') ∧ A'.Perm (A ++ C.filter f) ∧ B'.Perm (B ++ C.filter fun r => !f r) := by
  intro C
  induction C with
  | nil => intro A B _; exact ⟨A, B, by simp [rule1], by simp, by simp⟩
  | cons c C ih =>
    intro A B hC
    have hc := hC c List.mem_cons_self
    have hC' : ∀ r ∈ C, rm r = .ok (f r) := fun r hr => hC r (List.mem_cons_of_mem _ hr)
    have hget : (A ++ (B ++ c :: C))[A.length + B.length]?.getD [] = c := by
      rw [← List.append_assoc, ← List.length_append]; simp
    rw [List.length_cons, List.range'_succ]
    unfold rule1
    rw [hget, hc]
    cases hf : f c with
    | false =>
      obtain ⟨A', B', h1, h2, h3⟩ := ih A (B ++ [c]) hC'
      refine ⟨A', B', ?_, ?_, ?_⟩
      · simpa [Nat.add_assoc] using h1
      · simpa [hf] using h2
      · simpa [hf] using h3
    | true =>
      cases B with
      | nil =>
        obtain ⟨A', B', h1, h2, h3⟩ := ih (A ++ [c]) [] hC'
        refine ⟨A', B', ?_, ?_, ?_⟩
        · simp only [List.length_nil, Nat.add_zero, swapRows_same]
          simpa using h1
        · simpa [hf] using h2
        · simpa [hf] using h3
      | cons b B =>
        obtain ⟨A', B', h1, h2, h3⟩ := ih (A ++ [c]) (B ++ [b]) hC'
        refine ⟨A', B', ?_, ?_, ?_⟩
        · have := swapRows_split A B C b c
          simp only [List.length_cons, List.cons_append] at this ⊢
          rw [this]
          simp only [List.length_append, List.length_cons, List.length_nil, List.append_assoc,
            List.cons_append, List.nil_append] at h1
          rw [show A.length + (B.length + 1) + 1 = A.length + (0 + 1) + (B.length + (0 + 1)) by omega]
          exact h1
        · simpa [hf] using h2
        · refine h3.trans ?_
          simp only [hf, Bool.not_true, List.filter_cons, Bool.false_eq_true, if_false, List.append_assoc,
            List.cons_append, List.nil_append]
          exact List.perm_middle

/-! ### Vertices -/

/-- A row that denotes a polytope: not empty, all entries are numbers of outcomes. -/
def ValidRow (po : List (Vec k K)) (r : Row) : Prop := r ≠ [] ∧ ∀ i ∈ r, 0 ≤ i ∧ i < po.length

theorem pyGet_valid {α : Type} {l : List α} {i : Int} (h0 : 0 ≤ i) (h1 : i < l.length) :
    ∃ a, pyGet l i = .ok a ∧ l[i.toNat]? = some a := by
  have h2 : i.toNat < l.length := by omega
  refine ⟨l[i.toNat], ?_, List.getElem?_eq_getElem h2⟩
  unfold pyGet
  simp only [not_lt.2 h0, if_false, List.getElem?_eq_getElem h2]

theorem vertices_valid {po : List (Vec k K)} {r : Row} (h : ∀ i ∈ r, 0 ≤ i ∧ i < po.length) :
    ∃ vs, vertices po r = .ok vs ∧ ∀ v, v ∈ vs ↔ ∃ i ∈ r, po[i.toNat]? = some v := by
  induction r with
  | nil => exact ⟨[], rfl, by simp⟩
  | cons i is ih =>
    obtain ⟨ps, hp, hm⟩ := ih fun j hj => h j (List.mem_cons_of_mem _ hj)
    obtain ⟨p, h1, h2⟩ := pyGet_valid (h i List.mem_cons_self).1 (h i List.mem_cons_self).2
    refine ⟨p :: ps, by unfold vertices; rw [h1]; simp only [hp], ?_⟩
    intro v
    rw [List.mem_cons, hm, List.exists_mem_cons_iff, h2, Option.some.injEq, eq_comm]

theorem removed1_ok {T : Tools k K} {po : List (Vec k K)} {o : Opts K} {r : Row} {vs : List (Vec k K)}
    (h : vertices po r = .ok vs) :
    removed1 T po o r = .ok (!(T.nondominated vs o) || hitsOutcome T po o vs) := by
  unfold removed1
  simp only [h]
  cases T.nondominated vs o <;> simp

/-! ### Rule 2 -/

/-- Keep a row if it does not conflict with a row kept behind it. -/
def greedy (conf : Row → Row → Bool) : List Row → List Row
  | [] => []
  | r :: rs => if (greedy conf rs).any (conf r) then greedy conf rs else r :: greedy conf rs

theorem greedy_sublist (conf : Row → Row → Bool) (l : List Row) : (greedy conf l).Sublist l := by
  induction l with
  | nil => exact .slnil
  | cons r rs ih => unfold greedy; split
                    · exact ih.cons _
                    · exact ih.cons_cons _

theorem greedy_pairwise (conf : Row → Row → Bool) (l : List Row) :
    (greedy conf l).Pairwise fun a b => conf a b = false := by
  induction l with
  | nil => exact .nil
  | cons r rs ih =>
    unfold greedy
    split
    · exact ih
    · rename_i h
      refine List.pairwise_cons.2 ⟨fun b hb => ?_, ih⟩
      simp only [List.any_eq_true, not_exists, not_and, Bool.not_eq_true] at h
      exact h b hb

/-- A deleted row of a sorted list conflicts with a kept row that is behind it. -/
theorem greedy_deleted_behind (conf : Row → Row → Bool) {R : Row → Row → Prop} {l : List Row}
    (hs : l.Pairwise R) :
    ∀ r ∈ l, r ∈ greedy conf l ∨ ∃ q ∈ greedy conf l, conf r q = true ∧ R r q := by
  induction hs with
  | nil => simp
  | @cons a rs ha _ ih =>
    intro r hr
    unfold greedy
    rcases List.mem_cons.1 hr with rfl | hr
    · split
      · rename_i h
        obtain ⟨q, hq, hc⟩ := List.any_eq_true.1 h
        exact .inr ⟨q, hq, hc, ha q ((greedy_sublist conf rs).subset hq)⟩
      · exact .inl List.mem_cons_self
    · split
      · exact ih r hr
      · rcases ih r hr with h | ⟨q, hq, hc⟩
        · exact .inl (List.mem_cons_of_mem _ h)
        · exact .inr ⟨q, List.mem_cons_of_mem _ hq, hc⟩

/-- The conflict of two rows. -/
def rowConflict (T : Tools k K) (po : List (Vec k K)) (o0 : Opts K) (a b : Row) : Bool :=
  match vertices po a, vertices po b with
  | .ok u, .ok v => conflict T o0 u v
  | _, _ => false

/-- A row of the array in rule 2: a polytope or a deleted row. -/
def Live (po : List (Vec k K)) (r : Row) : Prop := ValidRow po r ∨ (r ≠ [] ∧ ∀ x ∈ r, x = -1)

theorem survivors_cons_valid {po : List (Vec k K)} {r : Row} {rs : List Row} (h : ValidRow po r) :
    survivors (r :: rs) = r :: survivors rs := by
  obtain ⟨hne, hall⟩ := h
  cases r with
  | nil => exact absurd rfl hne
  | cons x xs =>
    unfold survivors
    rw [List.filter_cons_of_pos]
    have := (hall x List.mem_cons_self).1
    simp [this]

theorem survivors_cons_dead {r : Row} {rs : List Row} (h : ∀ x ∈ r, x = -1) :
    survivors (r :: rs) = survivors rs := by
  unfold survivors
  rw [List.filter_cons_of_neg]
  intro hany
  obtain ⟨x, hx, h0⟩ := List.any_eq_true.1 hany
  rw [h x hx] at h0
  simp at h0

theorem removed2_ok {T : Tools k K} {po : List (Vec k K)} {o0 : Opts K} {ri : Row} (hi : ValidRow po ri) :
    ∀ ls : List Row, (∀ r ∈ ls, Live po r) →
      removed2 T po o0 ri ls = .ok ((survivors ls).any (rowConflict T po o0 ri)) := by
  intro ls
  induction ls with
  | nil => intro _; rfl
  | cons rl ls ih =>
    intro hl
    have ih := ih fun r hr => hl r (List.mem_cons_of_mem _ hr)
    obtain ⟨vi, hvi, _⟩ := vertices_valid hi.2
    unfold removed2
    rw [hvi]
    rcases hl rl List.mem_cons_self with hv | ⟨hne, hd⟩
    · rw [survivors_cons_valid hv]
      obtain ⟨vl, hvl, _⟩ := vertices_valid hv.2
      cases rl with
      | nil => exact absurd rfl hv.1
      | cons x xs =>
        have hx := (hv.2 x List.mem_cons_self).1
        have hx' : x ≠ -1 := by omega
        have hrc : rowConflict T po o0 ri (x :: xs) = conflict T o0 vi vl := by
          unfold rowConflict
          rw [hvi, hvl]
        simp only [hx', if_false, hvl, List.any_cons, hrc, ih]
        cases conflict T o0 vi vl <;> simp
    · rw [survivors_cons_dead hd]
      cases rl with
      | nil => exact absurd rfl hne
      | cons x xs =>
        have hx : x = -1 := hd x List.mem_cons_self
        simp only [hx, if_true, ih]

theorem reverse_range_succ (n : Nat) : (List.range (n + 1)).reverse = n :: (List.range n).reverse := by
  rw [List.range_succ]; simp

theorem rule2_ok {T : Tools k K} {po : List (Vec k K)} {o0 : Opts K} :
    ∀ (n : Nat) (pre suf : List Row), pre.length = n → (∀ r ∈ pre, ValidRow po r) → (∀ r ∈ suf, Live po r) →
      ∃ rows', rule2 T po o0 (List.range n).reverse (pre ++ suf) = .ok rows' ∧
        survivors rows' = pre.foldr (fun a s => if s.any (rowConflict T po o0 a) then s else a :: s)
          (survivors suf) := by
  intro n
  induction n with
  | zero =>
    intro pre suf hp _ _
    have : pre = [] := List.length_eq_zero_iff.1 hp
    subst this
    exact ⟨suf, rfl, rfl⟩
  | succ n ih =>
    intro pre suf hp hpre hsuf
    obtain ⟨pre', r, rfl⟩ : ∃ p r, pre = p ++ [r] :=
      ⟨pre.dropLast, pre.getLast (by intro h; simp [h] at hp),
        (List.dropLast_append_getLast (by intro h; simp [h] at hp)).symm⟩
    have hlen : pre'.length = n := by simpa using hp
    have hr : ValidRow po r := hpre r (by simp)
    have hpre' : ∀ r ∈ pre', ValidRow po r := fun q hq => hpre q (by simp [hq])
    have hget : (pre' ++ [r] ++ suf)[n]?.getD [] = r := by
      rw [← hlen]; simp
    have hdrop : (pre' ++ [r] ++ suf).drop (n + 1) = suf := by
      have : (pre' ++ [r]).length = n + 1 := by simpa using hp
      rw [← this, List.drop_left]
    rw [reverse_range_succ]
    unfold rule2
    rw [hget, hdrop, removed2_ok hr suf hsuf]
    rw [List.foldr_append]
    simp only [List.foldr_cons, List.foldr_nil]
    rcases Bool.eq_false_or_eq_true ((survivors suf).any (rowConflict T po o0 r)) with hc | hc
    · simp only [hc]
      have hset : (pre' ++ [r] ++ suf).set n (r.map fun _ => -1) = pre' ++ (r.map fun _ => -1) :: suf := by
        rw [List.append_assoc, ← hlen, List.set_append_right _ _ (le_refl _)]
        simp
      have hdead : ∀ x ∈ r.map (fun _ => (-1 : Int)), x = -1 := by simp
      obtain ⟨rows', h1, h2⟩ := ih pre' ((r.map fun _ => -1) :: suf) hlen hpre' (by
        intro q hq
        rcases List.mem_cons.1 hq with rfl | hq
        · exact .inr ⟨by simpa using hr.1, hdead⟩
        · exact hsuf q hq)
      simp only [hset]
      refine ⟨rows', h1, ?_⟩
      rw [h2, survivors_cons_dead hdead]
      simp
    · simp only [hc]
      obtain ⟨rows', h1, h2⟩ := ih pre' (r :: suf) hlen hpre' (by
        intro q hq
        rcases List.mem_cons.1 hq with rfl | hq
        · exact .inl hr
        · exact hsuf q hq)
      refine ⟨rows', by simpa using h1, ?_⟩
      rw [h2, survivors_cons_valid hr]
      simp

theorem foldr_greedy (conf : Row → Row → Bool) (l : List Row) :
    l.foldr (fun a s => if s.any (conf a) then s else a :: s) [] = greedy conf l := by
  induction l with
  | nil => rfl
  | cons a l ih => rw [List.foldr_cons, ih]; rfl

theorem rule2_greedy {T : Tools k K} {po : List (Vec k K)} {o0 : Opts K} {rows : List Row}
    (h : ∀ r ∈ rows, ValidRow po r) :
    ∃ rows', rule2 T po o0 (List.range rows.length).reverse rows = .ok rows' ∧
      survivors rows' = greedy (rowConflict T po o0) rows := by
  obtain ⟨rows', h1, h2⟩ := rule2_ok (T := T) (o0 := o0) rows.length rows [] rfl h (by simp)
  refine ⟨rows', by simpa using h1, ?_⟩
  rw [h2, ← foldr_greedy]
  rfl

/-! ### Sorting -/

theorem keyLe_iff (a b : Row) : keyLe a b = true ↔
    (key a).1 < (key b).1 ∨ ((key a).1 = (key b).1 ∧ (key a).2 ≤ (key b).2) := by
  unfold keyLe
  simp

/-- The order of the keys as a relation. -/
abbrev KeyLe (a b : Row) : Prop := keyLe a b = true

theorem keyLe_trans (a b c : Row) (h1 : keyLe a b = true) (h2 : keyLe b c = true) : keyLe a c = true := by
  rw [keyLe_iff] at *
  omega

theorem keyLe_total (a b : Row) : (keyLe a b || keyLe b a) = true := by
  rw [Bool.or_eq_true, keyLe_iff, keyLe_iff]
  omega

instance : Std.Total KeyLe := ⟨fun a b => by simpa using keyLe_total a b⟩
instance : IsTrans Row KeyLe := ⟨keyLe_trans⟩

theorem sortWrtEntries_ok {rows : List Row} (h : ∀ r ∈ rows, r ≠ []) :
    sortWrtEntries rows = .ok (rows.insertionSort KeyLe) := by
  unfold sortWrtEntries
  rw [if_neg]
  intro hany
  obtain ⟨r, hr, he⟩ := List.any_eq_true.1 hany
  exact h r hr (List.isEmpty_iff.1 he)

/-! ### Everything -/

/-- The rows that pass rule 1. -/
def passes (T : Tools k K) (po : List (Vec k K)) (o : Opts K) (r : Row) : Bool :=
  match vertices po r with
  | .ok vs => T.nondominated vs o && !hitsOutcome T po o vs
  | .error _ => false

theorem filterPolytopes_ok {T : Tools k K} {po : List (Vec k K)} {o o0 : Opts K} {D : List Row}
    (h : ∀ r ∈ D, ValidRow po r) :
    ∃ kept : List Row, kept.Perm (D.filter (passes T po o)) ∧
      filterPolytopes T po o o0 D = .ok (greedy (rowConflict T po o0) (kept.insertionSort KeyLe)) := by
  have hrm : ∀ r ∈ D, removed1 T po o r = .ok (!passes T po o r) := by
    intro r hr
    obtain ⟨vs, hv, _⟩ := vertices_valid (h r hr).2
    rw [removed1_ok hv]
    unfold passes
    rw [hv]
    simp
  obtain ⟨A, B, h1, _, h3⟩ := rule1_ok (removed1 T po o) (fun r => !passes T po o r) D [] [] hrm
  simp only [List.length_nil, Nat.add_zero, List.nil_append, Bool.not_not] at h1 h3
  refine ⟨B, h3, ?_⟩
  have hB : ∀ r ∈ B, ValidRow po r := fun r hr => h r (List.mem_of_mem_filter (h3.subset hr))
  have hB' : ∀ r ∈ B.insertionSort KeyLe, ValidRow po r := fun r hr => hB r ((List.mem_insertionSort _).1 hr)
  obtain ⟨rows', h4, h5⟩ := rule2_greedy (T := T) (o0 := o0) hB'
  unfold filterPolytopes
  rw [List.range_eq_range', h1]
  simp only [List.drop_left, sortWrtEntries_ok (fun r hr => (hB r hr).1), h4, h5]

end Verif.Paint
