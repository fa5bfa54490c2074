import Verif.Navigator.Fresh

/-!
# Asking for more of one objective in NAUTILUS Navigator (C108)

Two responses to the same request that differ in one component of the reference point.
-/

namespace Verif.Navigator

variable {K V : Type} [Field K] [LinearOrder K] {n k : Nat}

omit [Field K] in
/-- `nanargmin` returns the first index of a smallest entry: loop invariant. -/
theorem nanArgminGo_first (xs : List (Option K)) (b : Option (K × Nat)) (off : Nat) {y : K} {i : Nat}
    (h : nanArgminGo b off xs = some (y, i)) :
    b = some (y, i) ∨ (off ≤ i ∧ (∀ y0 i0, b = some (y0, i0) → y < y0) ∧
      ∀ m x, off + m < i → xs[m]? = some (some x) → y < x) := by
  induction xs generalizing b off with
  | nil => left; simpa [nanArgminGo] using h
  | cons x xs ih =>
    cases x with
    | none =>
      simp only [nanArgminGo] at h
      rcases ih _ _ h with h1 | ⟨h1, h2, h3⟩
      · exact Or.inl h1
      · refine Or.inr ⟨by omega, h2, ?_⟩
        intro m x hm hx
        cases m with
        | zero => simp at hx
        | succ m => exact h3 m x (by omega) (by simpa using hx)
    | some a =>
      cases b with
      | none =>
        simp only [nanArgminGo] at h
        rcases ih _ _ h with h1 | ⟨h1, h2, h3⟩
        · simp only [Option.some.injEq, Prod.mk.injEq] at h1
          refine Or.inr ⟨by omega, by simp, ?_⟩
          intro m x hm _; omega
        · refine Or.inr ⟨by omega, by simp, ?_⟩
          intro m x hm hx
          cases m with
          | zero =>
            simp only [List.getElem?_cons_zero, Option.some.injEq] at hx
            subst hx
            exact h2 a off rfl
          | succ m => exact h3 m x (by omega) (by simpa using hx)
      | some p =>
        obtain ⟨y0, i0⟩ := p
        simp only [nanArgminGo] at h
        by_cases hlt : a < y0
        · rw [if_pos hlt] at h
          rcases ih _ _ h with h1 | ⟨h1, h2, h3⟩
          · simp only [Option.some.injEq, Prod.mk.injEq] at h1
            obtain ⟨rfl, rfl⟩ := h1
            refine Or.inr ⟨le_rfl, ?_, ?_⟩
            · intro y1 i1 h1
              simp only [Option.some.injEq, Prod.mk.injEq] at h1
              rw [← h1.1]; exact hlt
            · intro m x hm _; omega
          · have h4 := h2 a off rfl
            refine Or.inr ⟨by omega, ?_, ?_⟩
            · intro y1 i1 h1
              simp only [Option.some.injEq, Prod.mk.injEq] at h1
              rw [← h1.1]; exact h4.trans hlt
            · intro m x hm hx
              cases m with
              | zero =>
                simp only [List.getElem?_cons_zero, Option.some.injEq] at hx
                subst hx
                exact h4
              | succ m => exact h3 m x (by omega) (by simpa using hx)
        · rw [if_neg hlt] at h
          rcases ih _ _ h with h1 | ⟨h1, h2, h3⟩
          · exact Or.inl h1
          · refine Or.inr ⟨by omega, h2, ?_⟩
            intro m x hm hx
            cases m with
            | zero =>
              simp only [List.getElem?_cons_zero, Option.some.injEq] at hx
              subst hx
              exact lt_of_lt_of_le (h2 y0 i0 rfl) (not_lt.1 hlt)
            | succ m => exact h3 m x (by omega) (by simpa using hx)

/-- The projection is the first of the best rows. -/
theorem solve_first {c : Cfg n k K V} {reach : List (Fin n)} {q : Vec k K} {u : Vec k (Option K)}
    {p : Fin n} (h : solve c reach (fun j => some (q j)) u = .ok p) {i : Fin n} (hi : i ∈ reach)
    (hr : Respects u (c.front i)) (hlt : i < p) : c.asf q (c.front p) < c.asf q (c.front i) := by
  unfold solve at h
  split at h
  · simp at h
  · rename_i idx hidx
    split at h
    · rename_i hn
      simp only [Except.ok.injEq] at h
      subst h
      unfold npNanArgmin at hidx
      split at hidx
      · simp at hidx
      · rename_i y idx' hgo
        simp only [Except.ok.injEq] at hidx
        subst hidx
        have hm := npNanArgmin_ok (l := (List.finRange n).map fun i =>
          if decide (i ∈ reach) && !exceeds u (c.front i) then
            asfValue c (fun j => some (q j)) (c.front i) else none) (i := idx') (by
            unfold npNanArgmin; rw [hgo])
        obtain ⟨m, hm1, hm2⟩ := hm
        have hspec := nanArgminGo_spec [] ((List.finRange n).map fun i =>
          if decide (i ∈ reach) && !exceeds u (c.front i) then
            asfValue c (fun j => some (q j)) (c.front i) else none) none (by simp) (by simp)
        simp only [List.length_nil, List.nil_append] at hspec
        have hy := (hspec.2 y idx' hgo).1
        rw [hm1] at hy
        simp only [Option.some.injEq] at hy
        subst hy
        have hval : m = c.asf q (c.front ⟨idx', hn⟩) := by
          simp only [List.getElem?_map, List.getElem?_eq_getElem (l := List.finRange n) (i := idx')
            (by simpa using hn), List.getElem_finRange, Option.map_some, Option.some.injEq] at hm1
          split at hm1
          · rw [asfValue_num, Option.some.injEq] at hm1
            exact hm1.symm
          · simp at hm1
        rcases nanArgminGo_first _ _ _ hgo with h1 | ⟨_, _, h3⟩
        · simp at h1
        · rw [← hval]
          apply h3 i.val
          · rw [Nat.zero_add]; exact hlt
          · simp only [List.getElem?_map, List.getElem?_eq_getElem (l := List.finRange n) (i := i.val)
              (by simp), List.getElem_finRange, Option.map_some, Option.some.injEq]
            rw [if_pos (by simp [hi, (exceeds_false_iff _ _).2 hr]), asfValue_num]
            rfl
    · simp at h

variable [IsStrictOrderedRing K]

omit [IsStrictOrderedRing K] [Field K] in
theorem vmax_spec {k : Nat} (v : Vec (k + 1) K) : (∀ i, v i ≤ vmax v) ∧ ∃ i, vmax v = v i := by
  obtain ⟨h1, h2, h3⟩ := foldl_max_spec ((List.finRange k).map fun j => v j.succ) (v 0)
  constructor
  · intro i
    refine Fin.cases h2 (fun j => ?_) i
    exact h3 _ (List.mem_map.2 ⟨j, List.mem_finRange j, rfl⟩)
  · rcases h1 with h | h
    · exact ⟨0, h⟩
    · rw [List.mem_map] at h
      obtain ⟨j, _, hj⟩ := h
      exact ⟨j.succ, hj.symm⟩

/-- If the second vector is larger by more than `e` in the raised component although it is the better one
after raising, both comparisons are ties. -/
theorem tie_of_lt {k : Nat} {v v' w w' : Vec (k + 1) K} {j : Fin (k + 1)} {δ e : K} (hδ : 0 < δ)
    (hw : w j = v j + δ ∧ ∀ i, i ≠ j → w i = v i) (hw' : w' j = v' j + δ ∧ ∀ i, i ≠ j → w' i = v' i)
    (h1 : vmax v + e ≤ vmax v') (h2 : vmax w' ≤ vmax w + e) (hlt : v j + e < v' j) :
    vmax v + e = vmax v' ∧ vmax w' = vmax w + e := by
  have a1 : vmax w ≤ vmax v := by
    obtain ⟨i, hi⟩ := (vmax_spec w).2
    by_cases hij : i = j
    · subst hij
      have := (vmax_spec w').1 i
      rw [hw'.1] at this
      rw [hw.1] at hi
      linarith
    · rw [hi, hw.2 i hij]; exact (vmax_spec v).1 i
  have a2 : vmax v' ≤ vmax w' := by
    apply vmax_mono
    intro i
    by_cases hij : i = j
    · subst hij; rw [hw'.1]; linarith
    · rw [hw'.2 i hij]
  have a3 : vmax v ≤ vmax w := by
    apply vmax_mono
    intro i
    by_cases hij : i = j
    · subst hij; rw [hw.1]; linarith
    · rw [hw.2 i hij]
  constructor <;> linarith

/-- With two components and `e` small compared to the difference of the sums, no allowance is needed. -/
theorem tie_of_lt_two {v v' w w' : Vec 2 K} {i j : Fin 2} (hij : i ≠ j) {δ e : K} (hδ : 0 < δ)
    (hw : w j = v j + δ ∧ w i = v i) (hw' : w' j = v' j + δ ∧ w' i = v' i)
    (h1 : vmax v + e ≤ vmax v') (h2 : vmax w' ≤ vmax w + e) (hlt : v j < v' j)
    (he : 0 < e → v' i < v i) :
    vmax v + e = vmax v' ∧ vmax w' = vmax w + e := by
  have two : ∀ m : Fin 2, m = i ∨ m = j := by
    have : ∀ i j m : Fin 2, i ≠ j → m = i ∨ m = j := by decide
    exact fun m => this i j m hij
  by_cases hp : 0 < e
  · have hvi := he hp
    have b1 := (vmax_spec v).1 j
    have b2 := (vmax_spec v).1 i
    have hv' : vmax v' = v' j := by
      obtain ⟨m, hm⟩ := (vmax_spec v').2
      rcases two m with rfl | rfl
      · exfalso; linarith
      · exact hm
    rw [hv'] at h1 ⊢
    have b3 := (vmax_spec w').1 j
    rw [hw'.1] at b3
    obtain ⟨m, hm⟩ := (vmax_spec w).2
    rcases two m with rfl | rfl
    · rw [hw.2] at hm; exfalso; linarith
    · rw [hw.1] at hm
      obtain ⟨l, hl⟩ := (vmax_spec w').2
      rcases two l with rfl | rfl
      · rw [hw'.2] at hl
        constructor <;> linarith
      · rw [hw'.1] at hl
        constructor <;> linarith
  · have hw2 : w j = v j + δ ∧ ∀ m, m ≠ j → w m = v m :=
      ⟨hw.1, fun m hm => by rcases two m with rfl | rfl; exacts [hw.2, absurd rfl hm]⟩
    have hw2' : w' j = v' j + δ ∧ ∀ m, m ≠ j → w' m = v' m :=
      ⟨hw'.1, fun m hm => by rcases two m with rfl | rfl; exacts [hw'.2, absurd rfl hm]⟩
    exact tie_of_lt hδ hw2 hw2' h1 h2 (by linarith)

/-- A step for which the reference point is projected. -/
theorem reproject_step {c : Cfg n k K V} {s s' : St n k K} {ct0 : Content n k K}
    {l : List (Content n k K)} (h : Reached c s (ct0 :: l)) {ct ct' : Content n k K} {r : Resp K}
    (hg : r.goToPrevious = some (.bool false)) {ql : List (Option K)} (hq : r.ref = some ql)
    (hre : Reprojects s ql) {q : Vec k K} (hd : Denotes ql fun j => some (q j))
    (ha : answer c s ct r = (s', .ok (.nav ct'))) :
    ∃ p, solve c s.reach (fun j => some (q j)) s.userBounds = .ok p ∧ MovesTowards c ct0 ct' p := by
  have hh := h.head
  have hrem := h.rem_pos
  simp only [St.content, Content.mk.injEq] at hh
  obtain ⟨h1', ql', q', v, ul, s1, p, hq', hb, _, _, hp, _, hs'⟩ := answer_forward hg ha
  rw [hq, Option.some.injEq] at hq'
  subst hq'
  have hqq := broadcast_of_denotes hd
  have hb' := hb
  rw [hqq, Except.ok.injEq] at hb'
  subst hb'
  obtain ⟨f1, f2, f3, f4, f5, f6, f7, f8⟩ := hp.eq
  refine ⟨p, ?_, ?_⟩
  · rcases hp with ⟨hnp, _⟩ | ⟨_, hsol, _⟩
    · rw [hre.needs hb] at hnp; simp at hnp
    · exact hsol
  · intro j
    have hr0 : (s.rem : K) ≠ 0 := by
      have : s.rem ≠ 0 := by have := hrem.1; omega
      exact_mod_cast this
    rw [h1', hs']
    simp only [St.content, move, navPoint, f4, f5]
    rw [← hh.2.2.2.2.2.2.2.2, ← hh.2.2.2.2.2.1]
    field_simp
    ring

/-- Specification: the reference point `q'` asks for a better value of objective `j` than `q` and for the
same values of the others. -/
def AsksMore (q q' : Vec k K) (j : Fin k) : Prop := q' j < q j ∧ ∀ i, i ≠ j → q' i = q i

/-- Specification: the range of objective `j` as the code uses it. -/
def rangeOf (c : Cfg n k K V) (j : Fin k) : K := c.nadir j - (c.ideal j - 1 / 1000000)

theorem rangeOf_pos {c : Cfg n k K V} (hin : AtLeastAsGood c.ideal c.nadir) (j : Fin k) :
    0 < rangeOf c j := by
  have := hin j
  have h1 : (0 : K) < 1 / 1000000 := by positivity
  unfold rangeOf
  linarith

/-- The augmentation term of the achievement function. -/
def augTerm {k : Nat} (c : Cfg n (k + 1) K V) (f : Vec (k + 1) K) : K :=
  1 / 1000000 * ((List.finRange (k + 1)).map fun j => f j / rangeOf c j).sum

omit [IsStrictOrderedRing K] in
theorem pointAsf_eq {k : Nat} (c : Cfg n (k + 1) K V) (q f : Vec (k + 1) K) :
    pointAsf c.ideal c.nadir q f = vmax (fun j => (f j - q j) / rangeOf c j) + augTerm c f := rfl

theorem sum_sub_le {α : Type} (l : List α) (f g : α → K) (h : ∀ a ∈ l, f a - g a ≤ 1) :
    (l.map f).sum - (l.map g).sum ≤ l.length := by
  induction l with
  | nil => simp
  | cons x l ih =>
    simp only [List.map_cons, List.sum_cons, List.length_cons, Nat.cast_add, Nat.cast_one]
    have h1 := h x (by simp)
    have h2 := ih fun a ha => h a (by simp [ha])
    linarith

theorem augTerm_sub_le {k : Nat} {c : Cfg n (k + 1) K V} (hin : AtLeastAsGood c.ideal c.nadir)
    {f g : Vec (k + 1) K} (hf : InBox c.ideal c.nadir f) (hg : InBox c.ideal c.nadir g) :
    augTerm c f - augTerm c g ≤ (k + 1) / 1000000 := by
  have := sum_sub_le (List.finRange (k + 1)) (fun j => f j / rangeOf c j) (fun j => g j / rangeOf c j) (by
    intro j _
    rw [← sub_div, div_le_one (rangeOf_pos hin j)]
    have h1 := hf j
    have h2 := hg j
    have h3 : (0 : K) < 1 / 1000000 := by positivity
    unfold rangeOf
    linarith [h1.2, h2.1])
  simp only [List.length_finRange, Nat.cast_add, Nat.cast_one] at this
  unfold augTerm
  rw [← mul_sub]
  have h3 : (0 : K) < 1 / 1000000 := by positivity
  have := mul_le_mul_of_nonneg_left this h3.le
  calc _ ≤ _ := this
    _ = _ := by ring

omit [IsStrictOrderedRing K] in
/-- The common part: rows projected to for the two reference points; either the second is not worse in
objective `j` or comparing them leads to a tie, which is impossible. -/
theorem not_tie {k : Nat} {c : Cfg n (k + 1) K V} (hasf : c.asf = pointAsf c.ideal c.nadir)
    {reach : List (Fin n)} {u : Vec (k + 1) (Option K)} {q q' : Vec (k + 1) K} {p p' : Fin n}
    (h : solve c reach (fun j => some (q j)) u = .ok p)
    (h' : solve c reach (fun j => some (q' j)) u = .ok p')
    (ht : pointAsf c.ideal c.nadir q (c.front p) = pointAsf c.ideal c.nadir q (c.front p'))
    (ht' : pointAsf c.ideal c.nadir q' (c.front p') = pointAsf c.ideal c.nadir q' (c.front p)) :
    p = p' := by
  obtain ⟨m1, m2, _⟩ := solve_ok h
  obtain ⟨m1', m2', _⟩ := solve_ok h'
  rcases lt_trichotomy p p' with hlt | he | hlt
  · have := solve_first h' m1 m2 hlt
    rw [hasf, ht'] at this
    exact absurd this (lt_irrefl _)
  · exact he
  · have := solve_first h m1' m2' hlt
    rw [hasf, ht] at this
    exact absurd this (lt_irrefl _)

theorem more_row {k : Nat} {c : Cfg n (k + 1) K V} (hasf : c.asf = pointAsf c.ideal c.nadir)
    (hin : AtLeastAsGood c.ideal c.nadir) (hbox : ∀ i, InBox c.ideal c.nadir (c.front i))
    {reach : List (Fin n)} {u : Vec (k + 1) (Option K)} {q q' : Vec (k + 1) K} {j : Fin (k + 1)}
    (hm : AsksMore q q' j) {p p' : Fin n}
    (h : solve c reach (fun j => some (q j)) u = .ok p)
    (h' : solve c reach (fun j => some (q' j)) u = .ok p') :
    c.front p' j ≤ c.front p j + (k + 1) / 1000000 * rangeOf c j := by
  by_contra hlt
  push Not at hlt
  have hd := rangeOf_pos hin
  obtain ⟨m1, m2, q1, e1, b1⟩ := solve_ok h
  obtain ⟨m1', m2', q2, e2, b2⟩ := solve_ok h'
  have e1' : q1 = q := by funext i; have := congrFun e1 i; simpa using this.symm
  have e2' : q2 = q' := by funext i; have := congrFun e2 i; simpa using this.symm
  subst e1'; subst e2'
  have c1 := b1 p' m1' m2'
  have c2 := b2 p m1 m2
  rw [hasf, pointAsf_eq, pointAsf_eq] at c1 c2
  have haug := augTerm_sub_le hin (hbox p) (hbox p')
  have key := tie_of_lt (v := fun i => (c.front p i - q1 i) / rangeOf c i)
    (v' := fun i => (c.front p' i - q1 i) / rangeOf c i)
    (w := fun i => (c.front p i - q2 i) / rangeOf c i)
    (w' := fun i => (c.front p' i - q2 i) / rangeOf c i) (j := j)
    (δ := (q1 j - q2 j) / rangeOf c j) (e := augTerm c (c.front p) - augTerm c (c.front p'))
    (div_pos (by linarith [hm.1]) (hd j))
    ⟨by rw [← add_div]; congr 1; ring, fun i hi => by simp only [hm.2 i hi]⟩
    ⟨by rw [← add_div]; congr 1; ring, fun i hi => by simp only [hm.2 i hi]⟩
    (by linarith) (by linarith) (by
      have : (c.front p j - q1 j) / rangeOf c j + (k + 1) / 1000000 <
          (c.front p' j - q1 j) / rangeOf c j := by
        rw [div_add' _ _ _ (hd j).ne', div_lt_div_iff_of_pos_right (hd j)]
        linarith
      linarith)
  have := not_tie hasf h h' (by rw [pointAsf_eq, pointAsf_eq]; linarith [key.1])
    (by rw [pointAsf_eq, pointAsf_eq]; linarith [key.2])
  subst this
  have : (0 : K) ≤ (k + 1) / 1000000 * rangeOf c j := by
    have := (hd j).le
    positivity
  linarith

theorem more_row_two {c : Cfg n 2 K V} (hasf : c.asf = pointAsf c.ideal c.nadir)
    (hin : AtLeastAsGood c.ideal c.nadir)
    {reach : List (Fin n)} {u : Vec 2 (Option K)} {q q' : Vec 2 K} {j : Fin 2}
    (hm : AsksMore q q' j) {p p' : Fin n}
    (h : solve c reach (fun j => some (q j)) u = .ok p)
    (h' : solve c reach (fun j => some (q' j)) u = .ok p') :
    c.front p' j ≤ c.front p j := by
  by_contra hlt
  push Not at hlt
  have hd := rangeOf_pos hin
  obtain ⟨m1, m2, q1, e1, b1⟩ := solve_ok h
  obtain ⟨m1', m2', q2, e2, b2⟩ := solve_ok h'
  have e1' : q1 = q := by funext i; have := congrFun e1 i; simpa using this.symm
  have e2' : q2 = q' := by funext i; have := congrFun e2 i; simpa using this.symm
  subst e1'; subst e2'
  have c1 := b1 p' m1' m2'
  have c2 := b2 p m1 m2
  rw [hasf, pointAsf_eq, pointAsf_eq] at c1 c2
  obtain ⟨i, hij, hsum⟩ : ∃ i, i ≠ j ∧ ∀ f : Vec 2 K,
      augTerm c f = 1 / 1000000 * (f i / rangeOf c i + f j / rangeOf c j) := by
    match j with
    | 0 => exact ⟨1, by decide, fun f => by simp [augTerm, List.finRange_succ, add_comm]⟩
    | 1 => exact ⟨0, by decide, fun f => by simp [augTerm, List.finRange_succ]⟩
  have key := tie_of_lt_two (v := fun i => (c.front p i - q1 i) / rangeOf c i)
    (v' := fun i => (c.front p' i - q1 i) / rangeOf c i)
    (w := fun i => (c.front p i - q2 i) / rangeOf c i)
    (w' := fun i => (c.front p' i - q2 i) / rangeOf c i) hij
    (δ := (q1 j - q2 j) / rangeOf c j) (e := augTerm c (c.front p) - augTerm c (c.front p'))
    (div_pos (by linarith [hm.1]) (hd j))
    ⟨by rw [← add_div]; congr 1; ring, by simp only [hm.2 i hij]⟩
    ⟨by rw [← add_div]; congr 1; ring, by simp only [hm.2 i hij]⟩
    (by linarith) (by linarith)
    ((div_lt_div_iff_of_pos_right (hd j)).2 (by linarith)) (by
      intro he
      rw [hsum, hsum] at he
      have hj : c.front p j / rangeOf c j < c.front p' j / rangeOf c j :=
        (div_lt_div_iff_of_pos_right (hd j)).2 hlt
      have hi : c.front p' i / rangeOf c i < c.front p i / rangeOf c i := by linarith
      have := (div_lt_div_iff_of_pos_right (hd i)).1 hi
      exact (div_lt_div_iff_of_pos_right (hd i)).2 (by linarith))
  have := not_tie hasf h h' (by rw [pointAsf_eq, pointAsf_eq]; linarith [key.1])
    (by rw [pointAsf_eq, pointAsf_eq]; linarith [key.2])
  subst this
  exact lt_irrefl _ hlt

/-- **C108.** In any history, let two forward responses to the newest request differ in that the second
asks for a better value of objective `j`, everything else in the reference points being equal, and let
both changes be noticed. Then the second does not lead to a navigation point with a worse value of `j`,
apart from one millionth of the range per objective (the weight of the augmentation term), of which one
step covers the share `1 / steps remaining`. -/
theorem C108_asking_more {k : Nat} {c : Cfg n (k + 1) K V} (hasf : c.asf = pointAsf c.ideal c.nadir)
    (hin : AtLeastAsGood c.ideal c.nadir) (hbox : ∀ i, InBox c.ideal c.nadir (c.front i))
    {s s1 s2 : St n (k + 1) K} {ct0 : Content n (k + 1) K} {l : List (Content n (k + 1) K)}
    (h : Reached c s (ct0 :: l)) {ct ct1 ct2 : Content n (k + 1) K} {r1 r2 : Resp K}
    (hg1 : r1.goToPrevious = some (.bool false)) (hg2 : r2.goToPrevious = some (.bool false))
    {ql1 ql2 : List (Option K)} (hq1 : r1.ref = some ql1) (hq2 : r2.ref = some ql2)
    {q1 q2 : Vec (k + 1) K} (hd1 : Denotes ql1 fun j => some (q1 j))
    (hd2 : Denotes ql2 fun j => some (q2 j)) {j : Fin (k + 1)} (hm : AsksMore q1 q2 j)
    (hre1 : Reprojects s ql1) (hre2 : Reprojects s ql2)
    (ha1 : answer c s ct r1 = (s1, .ok (.nav ct1))) (ha2 : answer c s ct r2 = (s2, .ok (.nav ct2))) :
    ct2.nav j ≤ ct1.nav j +
      (k + 1) / 1000000 * (c.nadir j - c.ideal j + 1 / 1000000) / (ct0.rem : K) := by
  obtain ⟨p1, a1, b1⟩ := reproject_step h hg1 hq1 hre1 hd1 ha1
  obtain ⟨p2, a2, b2⟩ := reproject_step h hg2 hq2 hre2 hd2 ha2
  have hrow := more_row hasf hin hbox hm a1 a2
  have hrem : (0 : K) < (ct0.rem : K) := by
    have h1 := (h.rem_pos).1
    have hh := h.head
    simp only [St.content, Content.mk.injEq] at hh
    rw [hh.2.2.2.2.2.1] at h1
    exact_mod_cast h1
  have hr : rangeOf c j = c.nadir j - c.ideal j + 1 / 1000000 := by unfold rangeOf; ring
  rw [hr] at hrow
  rw [b1 j, b2 j, add_assoc, ← add_div]
  have := (div_le_div_iff_of_pos_right hrem).2 (show c.front p2 j - ct0.nav j ≤
    c.front p1 j - ct0.nav j + (k + 1) / 1000000 * (c.nadir j - c.ideal j + 1 / 1000000) by linarith)
  linarith

/-- **C108 (two objectives).** With two objectives there is no exception at all. -/
theorem C108_asking_more_two {c : Cfg n 2 K V} (hasf : c.asf = pointAsf c.ideal c.nadir)
    (hin : AtLeastAsGood c.ideal c.nadir)
    {s s1 s2 : St n 2 K} {ct0 : Content n 2 K} {l : List (Content n 2 K)}
    (h : Reached c s (ct0 :: l)) {ct ct1 ct2 : Content n 2 K} {r1 r2 : Resp K}
    (hg1 : r1.goToPrevious = some (.bool false)) (hg2 : r2.goToPrevious = some (.bool false))
    {ql1 ql2 : List (Option K)} (hq1 : r1.ref = some ql1) (hq2 : r2.ref = some ql2)
    {q1 q2 : Vec 2 K} (hd1 : Denotes ql1 fun j => some (q1 j))
    (hd2 : Denotes ql2 fun j => some (q2 j)) {j : Fin 2} (hm : AsksMore q1 q2 j)
    (hre1 : Reprojects s ql1) (hre2 : Reprojects s ql2)
    (ha1 : answer c s ct r1 = (s1, .ok (.nav ct1))) (ha2 : answer c s ct r2 = (s2, .ok (.nav ct2))) :
    ct2.nav j ≤ ct1.nav j := by
  obtain ⟨p1, a1, b1⟩ := reproject_step h hg1 hq1 hre1 hd1 ha1
  obtain ⟨p2, a2, b2⟩ := reproject_step h hg2 hq2 hre2 hd2 ha2
  have hrow := more_row_two hasf hin hm a1 a2
  have hrem : (0 : K) < (ct0.rem : K) := by
    have h1 := (h.rem_pos).1
    have hh := h.head
    simp only [St.content, Content.mk.injEq] at hh
    rw [hh.2.2.2.2.2.1] at h1
    exact_mod_cast h1
  rw [b1 j, b2 j]
  have := (div_le_div_iff_of_pos_right hrem).2 (show c.front p2 j - ct0.nav j ≤
    c.front p1 j - ct0.nav j by linarith)
  linarith

/-! ### examples -/

/-- Aim at `(1/2, 1)`. -/
def moreR : Resp ℚ := forwardResp [some (1 / 2), some 1] (.int 3) noB
/-- The state after this first step. -/
def moreS : St 3 2 ℚ := (answer exCfg (initSt exCfg) (start (initSt exCfg)) moreR).1
theorem more_step : answer exCfg (initSt exCfg) (start (initSt exCfg)) moreR =
    (moreS, .ok (.nav moreS.content)) := eq_of_beq (by decide +kernel)

theorem init_reprojects {ql : List (Option ℚ)} {c : Cfg n k ℚ V} {q : Vec k (Option ℚ)}
    (hd : Denotes ql q) : Reprojects (initSt c) ql := ⟨q, hd, Or.inl rfl⟩

/-- Asking for `1/2` instead of `1` in the first objective. -/
example : moreS.content.nav 0 ≤ exS1.content.nav 0 :=
  C108_asking_more_two rfl (by unfold AtLeastAsGood; decide +kernel) .init rfl rfl rfl rfl
    (denotes_two 1 1) (denotes_two (1 / 2) 1) (j := 0)
    ⟨by decide +kernel, by decide +kernel⟩ (init_reprojects (denotes_two _ _))
    (init_reprojects (denotes_two _ _)) ex_step1 more_step

/-- Three objectives; the second row is a little worse in the first objective and better on average. -/
def tightCfg : Cfg 2 3 ℚ String :=
  { front := ![![1 / 2, 1 / 2, 1 / 2], ![1 / 2 + 1 / 10 ^ 7, 1 / 2 + 6 / 10 ^ 7, 1 / 4]],
    ideal := ![0, 0, 0], nadir := ![1 - 1 / 10 ^ 6, 1 - 1 / 10 ^ 6, 1 - 1 / 10 ^ 6],
    vars := none, nrm := supNorm,
    asf := pointAsf ![0, 0, 0] ![1 - 1 / 10 ^ 6, 1 - 1 / 10 ^ 6, 1 - 1 / 10 ^ 6] }
/-- Aim at the first row. -/
def tightR1 : Resp ℚ := forwardResp [some (1 / 2), some (1 / 2), some (1 / 2)] (.int 3) [none, none, none]
/-- Ask for a little more of the first objective. -/
def tightR2 : Resp ℚ :=
  forwardResp [some (1 / 2 - 1 / 10 ^ 6), some (1 / 2), some (1 / 2)] (.int 3) [none, none, none]
/-- After the one response. -/
def tightS1 : St 2 3 ℚ := (answer tightCfg (initSt tightCfg) (start (initSt tightCfg)) tightR1).1
/-- After the other response. -/
def tightS2 : St 2 3 ℚ := (answer tightCfg (initSt tightCfg) (start (initSt tightCfg)) tightR2).1
theorem tight_1 : answer tightCfg (initSt tightCfg) (start (initSt tightCfg)) tightR1 =
    (tightS1, .ok (.nav tightS1.content)) := eq_of_beq (by decide +kernel)
theorem tight_2 : answer tightCfg (initSt tightCfg) (start (initSt tightCfg)) tightR2 =
    (tightS2, .ok (.nav tightS2.content)) := eq_of_beq (by decide +kernel)

theorem denotes_three (a b d : ℚ) :
    Denotes [some a, some b, some d] (fun j => some ((![a, b, d] : Vec 3 ℚ) j)) := by
  left
  refine ⟨rfl, ?_⟩
  intro j
  match j with
  | 0 => rfl
  | 1 => rfl
  | 2 => rfl

/-- With three objectives the allowance in C108 cannot be dropped: asking for more of the first
objective makes it (a very little) worse. -/
theorem C108_allowance_needed : tightS1.content.nav 0 < tightS2.content.nav 0 ∧
    tightS2.content.nav 0 ≤ tightS1.content.nav 0 +
      ((2 : ℕ) + 1) / 1000000 * (tightCfg.nadir 0 - tightCfg.ideal 0 + 1 / 1000000) / (100 : ℤ) :=
  ⟨by decide +kernel,
   C108_asking_more rfl (by unfold AtLeastAsGood; decide +kernel) (by unfold InBox; decide +kernel) .init
    rfl rfl rfl rfl (denotes_three (1 / 2) (1 / 2) (1 / 2)) (denotes_three (1 / 2 - 1 / 10 ^ 6) (1 / 2) (1 / 2))
    (j := 0) ⟨by decide +kernel, by decide +kernel⟩ (init_reprojects (denotes_three _ _ _))
    (init_reprojects (denotes_three _ _ _)) tight_1 tight_2⟩

end Verif.Navigator
