import Verif.NautilusV2.Model
import Verif.BaseLemmas
import Mathlib.Data.Finset.Card
import Mathlib.Data.Fintype.Card
import Mathlib.Logic.Relation
import Mathlib.Logic.Function.Iterate

set_option linter.unusedSectionVars false

/-! C41: the direction of improvement computed from pairwise ratios. -/

namespace Verif.NautilusV2

variable {K : Type} [Field K] [LinearOrder K] [IsStrictOrderedRing K] {n : Nat}

/-! ### Specification -/

/-- The pair `p` relates the objectives `i` and `j` (numbered from 0 here, from 1 by the user). -/
def Relates (p : Pair K) (i j : Fin (n + 1)) : Prop :=
  p.fst.asInt = (i : Int) + 1 ∧ p.snd.asInt = (j : Int) + 1

/-- Two objectives are compared by one of the pairs. -/
def Linked (l : List (Pair K)) (i j : Fin (n + 1)) : Prop :=
  ∃ p ∈ l, Relates p i j ∨ Relates p j i

/-- The pairs connect the first objective with every objective. -/
def Connected (n : Nat) (l : List (Pair K)) : Prop :=
  ∀ i : Fin (n + 1), Relation.ReflTransGen (Linked l) 0 i

/-- A list of pairs the validator accepts: as many as objectives minus one, proper indices, positive
ratios. -/
structure Proper (n : Nat) (l : List (Pair K)) : Prop where
  len : l.length = n
  idx : ∀ p ∈ l, ∃ i j : Fin (n + 1), Relates p i j
  pos : ∀ p ∈ l, 0 < p.ratio

/-- The deltas after `t` turns of the `while` loop. -/
def after (l : List (Pair K)) (t : Nat) : Vec (n + 1) K :=
  (pass (missing (deltas1 l : Vec (n + 1) K)) l)^[t] (deltas1 l)

/-- The `while` loop ends, with the deltas `d`. -/
def Returns (l : List (Pair K)) (d : Vec (n + 1) K) : Prop :=
  ∃ t, d = after l t ∧ (∀ i, d i ≠ 0) ∧ ∀ t' < t, ∃ i, (after l t' : Vec (n + 1) K) i = 0

/-- The `while` loop never ends. -/
def LoopsForever (n : Nat) (l : List (Pair K)) : Prop :=
  ∀ t, ∃ i, (after l t : Vec (n + 1) K) i = 0

/-! ### Reading and writing -/

theorem rd_obj (d : Vec (n + 1) K) (i : Fin (n + 1)) {a : Int} (h : a = (i : Int) + 1) : rd d a = d i := by
  subst h
  unfold rd
  have : 1 ≤ (i : Int) + 1 ∧ (i : Int) + 1 ≤ ((n + 1 : Nat) : Int) := by have := i.2; omega
  rw [dif_pos this]
  congr 1
  apply Fin.ext
  simp

theorem wr_obj (d : Vec (n + 1) K) (i j : Fin (n + 1)) {a : Int} {v : K} (h : a = (i : Int) + 1) :
    wr d a v j = if j = i then v else d j := by
  subst h
  unfold wr
  by_cases hj : j = i
  · simp [hj]
  · have : ¬ ((j : Int) + 1 = (i : Int) + 1) := by
      intro h; apply hj; apply Fin.ext; omega
    rw [if_neg this, if_neg hj]

theorem hasZero_iff (d : Vec (n + 1) K) : hasZero d = true ↔ ∃ i, d i = 0 := by
  simp [hasZero]

theorem mem_missing {d : Vec (n + 1) K} {a : Int} :
    a ∈ missing d ↔ ∃ i : Fin (n + 1), d i = 0 ∧ a = (i : Int) + 1 := by
  simp [missing, eq_comm]

/-! ### Preservation by each turn -/

/-- A property of the deltas kept by both kinds of turns is kept by the whole computation. -/
theorem after_induct {l : List (Pair K)} {Q : Vec (n + 1) K → Prop} (h0 : Q deltas0)
    (h1 : ∀ d p, p ∈ l → Q d → Q (firstTurn d p)) (h2 : ∀ a d p, p ∈ l → Q d → Q (innerTurn a d p))
    (t : Nat) : Q (after l t) := by
  have fold : ∀ {β : Type} (f : Vec (n + 1) K → β → Vec (n + 1) K) (m : List β) (d : Vec (n + 1) K),
      (∀ d x, x ∈ m → Q d → Q (f d x)) → Q d → Q (m.foldl f d) := by
    intro β f m
    induction m with
    | nil => intro d _ h; exact h
    | cons x m ih =>
      intro d hf h
      exact ih _ (fun d y hy => hf d y (List.mem_cons_of_mem _ hy)) (hf d x List.mem_cons_self h)
  have hpass : ∀ d, Q d → Q (pass (missing (deltas1 l : Vec (n + 1) K)) l d) := by
    intro d hd
    unfold pass
    exact fold _ _ _ (fun d a _ h => fold _ _ _ (fun d p hp h => h2 a d p hp h) h) hd
  unfold after
  induction t with
  | zero => exact fold _ _ _ h1 h0
  | succ t ih => rw [Function.iterate_succ_apply']; exact hpass _ ih

/-- If the pass makes a property true at some element and keeps it afterwards, it holds in the end. -/
theorem foldl_establish {β : Type} {f : Vec (n + 1) K → β → Vec (n + 1) K} {m : List β}
    {R Q : Vec (n + 1) K → Prop} {x : β} (hx : x ∈ m) (hR : ∀ d y, y ∈ m → R d → R (f d y))
    (hQ : ∀ d y, y ∈ m → Q d → Q (f d y)) (hE : ∀ d, R d → Q (f d x)) {d : Vec (n + 1) K} (h : R d) :
    Q (m.foldl f d) := by
  have keep : ∀ (m' : List β) d, (∀ y ∈ m', y ∈ m) → Q d → Q (m'.foldl f d) := by
    intro m'
    induction m' with
    | nil => intro d _ h; exact h
    | cons y m' ih =>
      intro d hm h
      exact ih _ (fun z hz => hm z (List.mem_cons_of_mem _ hz)) (hQ _ _ (hm y List.mem_cons_self) h)
  have : ∀ (m' : List β) d, (∀ y ∈ m', y ∈ m) → x ∈ m' → R d → Q (m'.foldl f d) := by
    intro m'
    induction m' with
    | nil => intro d _ h; simp at h
    | cons y m' ih =>
      intro d hm hx h
      have hm' : ∀ z ∈ m', z ∈ m := fun z hz => hm z (List.mem_cons_of_mem _ hz)
      rcases List.mem_cons.1 hx with rfl | hx
      · exact keep m' _ hm' (hE _ h)
      · exact ih _ hm' hx (hR _ _ (hm y List.mem_cons_self) h)
  exact this m d (fun _ h => h) hx h

section
variable {l : List (Pair K)} (hl : Proper n l)

include hl

/-- A delta once found stays nonzero. -/
theorem innerTurn_mono {a : Int} {d : Vec (n + 1) K} {p : Pair K} (hp : p ∈ l) {i : Fin (n + 1)}
    (h : d i ≠ 0) : innerTurn a d p i ≠ 0 := by
  obtain ⟨x, y, h1, h2⟩ := hl.idx p hp
  have hT := (hl.pos p hp).ne'
  unfold innerTurn
  split_ifs with c1 c2 c3 c4
  · rw [wr_obj _ x _ h1]
    split_ifs
    · exact mul_ne_zero c2 (one_div_ne_zero hT)
    · exact h
  · exact h
  · rw [wr_obj _ y _ h2]
    split_ifs
    · exact mul_ne_zero c4 hT
    · exact h
  · exact h
  · exact h

theorem firstTurn_mono {d : Vec (n + 1) K} {p : Pair K} (hp : p ∈ l) {i : Fin (n + 1)}
    (h : d i ≠ 0) : firstTurn d p i ≠ 0 := by
  obtain ⟨x, y, h1, h2⟩ := hl.idx p hp
  have hT := (hl.pos p hp).ne'
  unfold firstTurn
  split_ifs with c1 c2
  · rw [wr_obj _ y _ h2]
    split_ifs
    · exact hT
    · exact h
  · rw [wr_obj _ x _ h1]
    split_ifs
    · exact one_div_ne_zero hT
    · exact h
  · exact h

/-- Only objectives connected with the first one get a delta. -/
theorem after_connected (t : Nat) (i : Fin (n + 1)) (h : (after l t : Vec (n + 1) K) i ≠ 0) :
    Relation.ReflTransGen (Linked l) 0 i := by
  revert i
  refine after_induct (l := l) (Q := fun d => ∀ i, d i ≠ 0 → Relation.ReflTransGen (Linked l) 0 i)
    ?_ ?_ ?_ t
  · intro i h
    have : i = 0 := by
      by_contra hi
      have : i.val ≠ 0 := fun h => hi (Fin.ext h)
      simp [deltas0, this] at h
    rw [this]
  · intro d p hp hd i hi
    obtain ⟨x, y, h1, h2⟩ := hl.idx p hp
    unfold firstTurn at hi
    split_ifs at hi with c1 c2
    · rw [wr_obj _ y _ h2] at hi
      split_ifs at hi with hy
      · subst hy
        have : x = 0 := Fin.ext (by rw [Fin.val_zero]; omega)
        subst this
        exact .single ⟨p, hp, .inl ⟨h1, h2⟩⟩
      · exact hd i hi
    · rw [wr_obj _ x _ h1] at hi
      split_ifs at hi with hx
      · subst hx
        have : y = 0 := Fin.ext (by rw [Fin.val_zero]; omega)
        subst this
        exact .single ⟨p, hp, .inr ⟨h1, h2⟩⟩
      · exact hd i hi
    · exact hd i hi
  · intro a d p hp hd i hi
    obtain ⟨x, y, h1, h2⟩ := hl.idx p hp
    unfold innerTurn at hi
    split_ifs at hi with c1 c2 c3 c4
    · rw [wr_obj _ x _ h1] at hi
      rw [rd_obj _ y h2] at c2
      split_ifs at hi with hx
      · subst hx
        exact (hd y c2).tail ⟨p, hp, .inr ⟨h1, h2⟩⟩
      · exact hd i hi
    · exact hd i hi
    · rw [wr_obj _ y _ h2] at hi
      rw [rd_obj _ x h1] at c4
      split_ifs at hi with hy
      · subst hy
        exact (hd x c4).tail ⟨p, hp, .inl ⟨h1, h2⟩⟩
      · exact hd i hi
    · exact hd i hi
    · exact hd i hi

/-- If the pairs do not connect all objectives, the loop never ends. -/
theorem loops_of_not_connected (hc : ¬ Connected n l) : LoopsForever n l := by
  intro t
  by_contra h
  push Not at h
  exact hc fun i => after_connected hl t i (h i)

theorem deltas_mono (t : Nat) (i : Fin (n + 1)) (h : (deltas1 l : Vec (n + 1) K) i ≠ 0) :
    (after l t : Vec (n + 1) K) i ≠ 0 := by
  induction t with
  | zero => exact h
  | succ t ih =>
    have hs : (after l (t + 1) : Vec (n + 1) K) = pass (missing (deltas1 l : Vec (n + 1) K)) l (after l t) :=
      Function.iterate_succ_apply' _ _ _
    rw [hs]
    have fold : ∀ (a : Int) (m : List (Pair K)) (d : Vec (n + 1) K), (∀ p ∈ m, p ∈ l) → d i ≠ 0 →
        m.foldl (innerTurn a) d i ≠ 0 := by
      intro a m
      induction m with
      | nil => intro d _ h; exact h
      | cons p m ih => intro d hm h; exact ih _ (fun q hq => hm q (List.mem_cons_of_mem _ hq))
                        (innerTurn_mono hl (hm p List.mem_cons_self) h)
    have fold2 : ∀ (m : List Int) (d : Vec (n + 1) K), d i ≠ 0 →
        m.foldl (fun d a => l.foldl (innerTurn a) d) d i ≠ 0 := by
      intro m
      induction m with
      | nil => intro d h; exact h
      | cons p m ih => intro d h; exact ih _ (fold _ _ _ (fun _ h => h) h)
    exact fold2 _ _ ih

theorem fold_mono {a : Int} {d : Vec (n + 1) K} {i : Fin (n + 1)} (h : d i ≠ 0) :
    l.foldl (innerTurn a) d i ≠ 0 := by
  have : ∀ (m : List (Pair K)) (d : Vec (n + 1) K), (∀ p ∈ m, p ∈ l) → d i ≠ 0 →
      m.foldl (innerTurn a) d i ≠ 0 := by
    intro m
    induction m with
    | nil => intro d _ h; exact h
    | cons p m ih => intro d hm h; exact ih _ (fun q hq => hm q (List.mem_cons_of_mem _ hq))
                      (innerTurn_mono hl (hm p List.mem_cons_self) h)
  exact this l d (fun _ h => h) h

theorem pass_mono {miss : List Int} {d : Vec (n + 1) K} {i : Fin (n + 1)} (h : d i ≠ 0) :
    pass miss l d i ≠ 0 := by
  unfold pass
  induction miss generalizing d with
  | nil => exact h
  | cons a miss ih => exact ih (fold_mono hl h)

theorem deltas1_first : (deltas1 l : Vec (n + 1) K) 0 ≠ 0 := by
  have : ∀ (m : List (Pair K)) (d : Vec (n + 1) K), (∀ p ∈ m, p ∈ l) → d 0 ≠ 0 →
      m.foldl firstTurn d 0 ≠ 0 := by
    intro m
    induction m with
    | nil => intro d _ h; exact h
    | cons p m ih => intro d hm h; exact ih _ (fun q hq => hm q (List.mem_cons_of_mem _ hq))
                      (firstTurn_mono hl (hm p List.mem_cons_self) h)
  exact this l deltas0 (fun _ h => h) (by simp [deltas0])

omit hl in
/-- If all objectives are connected and some but not all belong to a set, a pair crosses its boundary. -/
theorem crossing (hc : Connected n l) {S : Fin (n + 1) → Prop} (h0 : S 0) {j : Fin (n + 1)}
    (hj : ¬ S j) : ∃ x y, Linked l x y ∧ S x ∧ ¬ S y := by
  have := hc j
  induction this with
  | refl => exact absurd h0 hj
  | @tail b d hb hbd ih =>
    by_cases h : S b
    · exact ⟨b, d, hbd, h, hj⟩
    · exact ih h

/-- A turn of the `while` loop finds at least one more delta if all objectives are connected. -/
theorem pass_progress (hc : Connected n l) (t : Nat) {j : Fin (n + 1)}
    (hj : (after l t : Vec (n + 1) K) j = 0) :
    ∃ i, (after l t : Vec (n + 1) K) i = 0 ∧ (after l (t + 1) : Vec (n + 1) K) i ≠ 0 := by
  obtain ⟨x, y, ⟨p, hp, hr⟩, hx, hy⟩ := crossing hc (S := fun i => (after l t : Vec (n + 1) K) i ≠ 0)
    (deltas_mono hl t 0 (deltas1_first hl)) (by simpa using hj)
  simp only [not_not] at hy
  refine ⟨y, hy, ?_⟩
  have hs : (after l (t + 1) : Vec (n + 1) K) = pass (missing (deltas1 l : Vec (n + 1) K)) l (after l t) :=
    Function.iterate_succ_apply' _ _ _
  rw [hs]
  have hmem : ((y : Int) + 1) ∈ missing (deltas1 l : Vec (n + 1) K) := by
    refine mem_missing.2 ⟨y, ?_, rfl⟩
    by_contra h
    exact deltas_mono hl t y h hy
  have hne : x ≠ y := by rintro rfl; exact hx hy
  have hnei : (x : Int) + 1 ≠ (y : Int) + 1 := by
    intro h; apply hne; apply Fin.ext; omega
  have hT := (hl.pos p hp).ne'
  unfold pass
  refine foldl_establish (R := fun d => d x ≠ 0) (Q := fun d => d y ≠ 0) hmem
    (fun d a _ h => fold_mono hl h) (fun d a _ h => fold_mono hl h) ?_ hx
  intro d hd
  refine foldl_establish (R := fun d => d x ≠ 0) (Q := fun d => d y ≠ 0) hp
    (fun d q hq h => innerTurn_mono hl hq h) (fun d q hq h => innerTurn_mono hl hq h) ?_ hd
  intro d hd
  rcases hr with ⟨h1, h2⟩ | ⟨h1, h2⟩
  · unfold innerTurn
    rw [if_neg (by rw [h1]; exact hnei), if_pos h2, rd_obj _ x h1, if_pos hd, wr_obj _ y _ h2, if_pos rfl]
    exact mul_ne_zero hd hT
  · unfold innerTurn
    rw [if_pos h1, rd_obj _ x h2, if_pos hd, wr_obj _ y _ h1, if_pos rfl]
    exact mul_ne_zero hd (one_div_ne_zero hT)

/-- After `t` turns at most `n - t` deltas are missing. -/
theorem zeros_card (hc : Connected n l) (t : Nat) :
    (Finset.univ.filter fun i => (after l t : Vec (n + 1) K) i = 0).card + t ≤ n ∨
      ∀ i, (after l t : Vec (n + 1) K) i ≠ 0 := by
  induction t with
  | zero =>
    left
    have : (Finset.univ.filter fun i => (after l 0 : Vec (n + 1) K) i = 0) ⊂ Finset.univ := by
      refine Finset.filter_ssubset.2 ⟨0, Finset.mem_univ _, deltas1_first hl⟩
    have := Finset.card_lt_card this
    simp only [Finset.card_univ, Fintype.card_fin] at this
    omega
  | succ t ih =>
    have hs : (after l (t + 1) : Vec (n + 1) K) = pass (missing (deltas1 l : Vec (n + 1) K)) l (after l t) :=
      Function.iterate_succ_apply' _ _ _
    by_cases hz : ∃ j, (after l t : Vec (n + 1) K) j = 0
    · left
      obtain ⟨j, hj⟩ := hz
      obtain ⟨i, hi, hi'⟩ := pass_progress hl hc t hj
      have hlt : (Finset.univ.filter fun i => (after l (t + 1) : Vec (n + 1) K) i = 0) ⊂
          (Finset.univ.filter fun i => (after l t : Vec (n + 1) K) i = 0) := by
        refine Finset.ssubset_iff_of_subset ?_ |>.2 ⟨i, by simpa using hi, by simpa using hi'⟩
        intro u hu
        simp only [Finset.mem_filter, Finset.mem_univ, true_and] at hu ⊢
        by_contra h
        rw [hs] at hu
        exact pass_mono hl h hu
      have := Finset.card_lt_card hlt
      rcases ih with ih | ih
      · omega
      · exact absurd hj (ih j)
    · right
      intro i
      rw [hs]
      refine pass_mono hl fun h => hz ⟨i, h⟩

/-- If all objectives are connected the deltas are complete after at most `n` turns. -/
theorem complete (hc : Connected n l) (i : Fin (n + 1)) : (after l n : Vec (n + 1) K) i ≠ 0 := by
  rcases zeros_card hl hc n with h | h
  · have : (Finset.univ.filter fun i => (after l n : Vec (n + 1) K) i = 0) = ∅ := by
      rw [← Finset.card_eq_zero]; omega
    intro hi
    have : i ∈ (Finset.univ.filter fun i => (after l n : Vec (n + 1) K) i = 0) := by simpa using hi
    simp_all
  · exact h i

/-- Connecting `n + 1` objectives with `n` pairs leaves no room for contradictions: there are positive
values satisfying every ratio. -/
theorem potential (hc : Connected n l) : ∃ P : Vec (n + 1) K, P 0 = 1 ∧ (∀ i, 0 < P i) ∧
    ∀ p ∈ l, ∀ i j, Relates p i j → P j = p.ratio * P i := by
  have build : ∀ t ≤ n, ∃ (S : Finset (Fin (n + 1))) (U : Finset (Fin l.length)) (P : Vec (n + 1) K),
      0 ∈ S ∧ S.card = t + 1 ∧ U.card = t ∧ P 0 = 1 ∧ (∀ i, 0 < P i) ∧
      ∀ u ∈ U, ∀ i j, Relates l[u] i j → i ∈ S ∧ j ∈ S ∧ P j = l[u].ratio * P i := by
    intro t
    induction t with
    | zero =>
      intro _
      exact ⟨{0}, ∅, fun _ => 1, by simp, by simp, by simp, rfl, fun _ => one_pos, by simp⟩
    | succ t ih =>
      intro ht
      obtain ⟨S, U, P, h0, hS, hU, hP0, hPp, hPr⟩ := ih (by omega)
      have hj : ∃ j, j ∉ S := by
        by_contra h
        push Not at h
        have : S = Finset.univ := Finset.eq_univ_iff_forall.2 h
        rw [this, Finset.card_univ, Fintype.card_fin] at hS
        omega
      obtain ⟨j, hj⟩ := hj
      obtain ⟨x, y, ⟨p, hp, hr⟩, hx, hy⟩ := crossing hc (S := fun i => i ∈ S) h0 hj
      obtain ⟨u, hu, rfl⟩ := List.getElem_of_mem hp
      have hnot : (⟨u, hu⟩ : Fin l.length) ∉ U := by
        intro hmem
        rcases hr with hr | hr
        · exact hy (hPr _ hmem _ _ hr).2.1
        · exact hy (hPr _ hmem _ _ hr).1
      have hT := hl.pos _ hp
      have hne : x ≠ y := by rintro rfl; exact hy hx
      have hy0 : y ≠ 0 := by rintro rfl; exact hy h0
      obtain ⟨v, hv, hrel⟩ : ∃ v : K, 0 < v ∧ ∀ i j, Relates l[u] i j →
          (i = x ∧ j = y ∧ v = l[u].ratio * P x) ∨ (i = y ∧ j = x ∧ P x = l[u].ratio * v) := by
        have same : ∀ {i i' j j' : Fin (n + 1)}, Relates l[u] i j → Relates l[u] i' j' → i = i' ∧ j = j' := by
          rintro i i' j j' ⟨h1, h2⟩ ⟨h3, h4⟩
          constructor <;> apply Fin.ext <;> omega
        rcases hr with hr | hr
        · refine ⟨l[u].ratio * P x, mul_pos hT (hPp x), fun i j h => .inl ?_⟩
          obtain ⟨rfl, rfl⟩ := same h hr
          exact ⟨rfl, rfl, rfl⟩
        · refine ⟨P x / l[u].ratio, div_pos (hPp x) hT, fun i j h => .inr ?_⟩
          obtain ⟨rfl, rfl⟩ := same h hr
          exact ⟨rfl, rfl, by field_simp⟩
      refine ⟨insert y S, insert ⟨u, hu⟩ U, Function.update P y v, by simp [h0], ?_, ?_, ?_, ?_, ?_⟩
      · rw [Finset.card_insert_of_notMem hy, hS]
      · rw [Finset.card_insert_of_notMem hnot, hU]
      · rw [Function.update_of_ne hy0.symm, hP0]
      · intro i
        by_cases h : i = y
        · subst h; simpa using hv
        · rw [Function.update_of_ne h]; exact hPp i
      · intro w hw i j hij
        rcases Finset.mem_insert.1 hw with rfl | hw
        · rcases hrel i j hij with ⟨rfl, rfl, h⟩ | ⟨rfl, rfl, h⟩
          · refine ⟨by simp [hx], by simp, ?_⟩
            rw [Function.update_self, Function.update_of_ne hne]; exact h
          · refine ⟨by simp, by simp [hx], ?_⟩
            rw [Function.update_self, Function.update_of_ne hne]; exact h
        · obtain ⟨hi, hj', he⟩ := hPr w hw i j hij
          refine ⟨by simp [hi], by simp [hj'], ?_⟩
          rw [Function.update_of_ne (by rintro rfl; exact hy hj'),
            Function.update_of_ne (by rintro rfl; exact hy hi)]
          exact he
  obtain ⟨S, U, P, -, -, hU, hP0, hPp, hPr⟩ := build n le_rfl
  refine ⟨P, hP0, hPp, fun p hp i j hij => ?_⟩
  have hUu : U = Finset.univ := by
    rw [← Finset.card_eq_iff_eq_univ, Fintype.card_fin, hU, hl.len]
  obtain ⟨u, hu, rfl⟩ := List.getElem_of_mem hp
  exact (hPr ⟨u, hu⟩ (by rw [hUu]; exact Finset.mem_univ _) i j hij).2.2

/-- Every delta found agrees with given values satisfying all ratios. -/
theorem agrees {P : Vec (n + 1) K} (hP0 : P 0 = 1)
    (hPr : ∀ p ∈ l, ∀ i j, Relates p i j → P j = p.ratio * P i) (t : Nat) (i : Fin (n + 1)) :
    (after l t : Vec (n + 1) K) i = 0 ∨ (after l t : Vec (n + 1) K) i = P i := by
  revert i
  refine after_induct (l := l) (Q := fun d => ∀ i, d i = 0 ∨ d i = P i) ?_ ?_ ?_ t
  · intro i
    by_cases h : i = 0
    · subst h; right; simp [deltas0, hP0]
    · left
      have : i.val ≠ 0 := fun h' => h (Fin.ext h')
      simp [deltas0, this]
  · intro d p hp hd i
    obtain ⟨x, y, h1, h2⟩ := hl.idx p hp
    have hT := (hl.pos p hp).ne'
    have he := hPr p hp x y ⟨h1, h2⟩
    unfold firstTurn
    split_ifs with c1 c2
    · rw [wr_obj _ y _ h2]
      split_ifs with hy
      · subst hy
        have : x = 0 := Fin.ext (by rw [Fin.val_zero]; omega)
        subst this
        right; rw [he, hP0, mul_one]
      · exact hd i
    · rw [wr_obj _ x _ h1]
      split_ifs with hx
      · subst hx
        have : y = 0 := Fin.ext (by rw [Fin.val_zero]; omega)
        subst this
        right
        rw [hP0] at he
        field_simp
        rw [he]
      · exact hd i
    · exact hd i
  · intro a d p hp hd i
    obtain ⟨x, y, h1, h2⟩ := hl.idx p hp
    have hT := (hl.pos p hp).ne'
    have he := hPr p hp x y ⟨h1, h2⟩
    unfold innerTurn
    split_ifs with c1 c2 c3 c4
    · rw [wr_obj _ x _ h1]
      rw [rd_obj _ y h2] at c2 ⊢
      split_ifs with hx
      · subst hx
        right
        rw [(hd y).resolve_left c2, he]
        field_simp
      · exact hd i
    · exact hd i
    · rw [wr_obj _ y _ h2]
      rw [rd_obj _ x h1] at c4 ⊢
      split_ifs with hy
      · subst hy
        right
        rw [(hd x).resolve_left c4, he]
        ring
      · exact hd i
    · exact hd i
    · exact hd i

end

/-! ### The limited loop of the model is the loop of the program -/

theorem doiLoop_ok {miss : List Int} {l : List (Pair K)} {fuel : Nat} {d0 d : Vec (n + 1) K}
    (h : doiLoop miss l fuel d0 = .ok d) : ∃ t ≤ fuel, d = (pass miss l)^[t] d0 ∧ (∀ i, d i ≠ 0) ∧
      ∀ t' < t, ∃ i, ((pass miss l)^[t'] d0) i = 0 := by
  induction fuel generalizing d0 with
  | zero =>
    unfold doiLoop at h
    split at h
    · simp at h
    · rename_i hz
      simp only [Except.ok.injEq] at h
      subst h
      refine ⟨0, le_rfl, rfl, ?_, by simp⟩
      rw [hasZero_iff] at hz
      push Not at hz
      exact hz
  | succ fuel ih =>
    unfold doiLoop at h
    split at h
    · rename_i hz
      obtain ⟨t, h1, h2, h3, h4⟩ := ih h
      refine ⟨t + 1, by omega, by rw [Function.iterate_succ_apply]; exact h2, h3, ?_⟩
      intro t' ht'
      cases t' with
      | zero => exact (hasZero_iff _).1 hz
      | succ t' => rw [Function.iterate_succ_apply]; exact h4 t' (by omega)
    · rename_i hz
      simp only [Except.ok.injEq] at h
      subst h
      refine ⟨0, by omega, rfl, ?_, by simp⟩
      rw [hasZero_iff] at hz
      push Not at hz
      exact hz

theorem doiLoop_error {miss : List Int} {l : List (Pair K)} {fuel : Nat} {d0 : Vec (n + 1) K} {e : Err}
    (h : doiLoop miss l fuel d0 = .error e) :
    e = .diverges ∧ ∀ t ≤ fuel, ∃ i, ((pass miss l)^[t] d0) i = 0 := by
  induction fuel generalizing d0 with
  | zero =>
    unfold doiLoop at h
    split at h
    · rename_i hz
      simp only [Except.error.injEq] at h
      refine ⟨h.symm, fun t ht => ?_⟩
      rw [Nat.le_zero.1 ht]
      exact (hasZero_iff _).1 hz
    · simp at h
  | succ fuel ih =>
    unfold doiLoop at h
    split at h
    · rename_i hz
      obtain ⟨h1, h2⟩ := ih h
      refine ⟨h1, fun t ht => ?_⟩
      cases t with
      | zero => exact (hasZero_iff _).1 hz
      | succ t => rw [Function.iterate_succ_apply]; exact h2 t (by omega)
    · simp at h

/-- The model returns `d` exactly when the unlimited loop ends with `d`. -/
theorem doi_returns {l : List (Pair K)} (hl : Proper n l) {d : Vec (n + 1) K} :
    doi (n + 1) l = .ok d ↔ Returns l d := by
  constructor
  · intro h
    obtain ⟨t, _, h2, h3, h4⟩ := doiLoop_ok h
    exact ⟨t, h2, h3, h4⟩
  · rintro ⟨t, rfl, h3, h4⟩
    rcases h : doi (n + 1) l with e | d'
    · exfalso
      have hc : Connected n l := by
        by_contra hc
        obtain ⟨i, hi⟩ := loops_of_not_connected hl hc t
        exact h3 i hi
      obtain ⟨i, hi⟩ := (doiLoop_error h).2 n (by omega)
      exact complete hl hc i hi
    · obtain ⟨t', _, h2', h3', h4'⟩ := doiLoop_ok h
      rcases Nat.lt_trichotomy t t' with hlt | heq | hgt
      · obtain ⟨i, hi⟩ := h4' t hlt
        exact absurd hi (h3 i)
      · subst heq
        rw [h2']
        rfl
      · obtain ⟨i, hi⟩ := h4 t' hgt
        subst h2'
        exact absurd hi (h3' i)

/-- The model reports divergence exactly when the loop never ends; nothing else can go wrong. -/
theorem doi_diverges {l : List (Pair K)} (hl : Proper n l) {e : Err} :
    (doi (n + 1) l : Except Err (Vec (n + 1) K)) = .error e ↔ e = .diverges ∧ LoopsForever n l := by
  constructor
  · intro h
    obtain ⟨h1, h2⟩ := doiLoop_error h
    refine ⟨h1, loops_of_not_connected hl fun hc => ?_⟩
    obtain ⟨i, hi⟩ := h2 n (by omega)
    exact complete hl hc i hi
  · rintro ⟨rfl, h⟩
    rcases h' : (doi (n + 1) l : Except Err (Vec (n + 1) K)) with e | d
    · rw [(doiLoop_error h').1]
    · obtain ⟨t, rfl, h3, _⟩ := (doi_returns hl).1 h'
      obtain ⟨i, hi⟩ := h t
      exact absurd hi (h3 i)

/-! ### Accepted lists -/

theorem validatePairs_ok {k : Nat} {l : List (Pair K)} (h : validatePairs k l = .ok ()) :
    ∃ n, k = n + 1 ∧ Proper n l ∧ ∀ i : Fin (n + 1), ∃ p ∈ l, ∃ j, Relates p i j ∨ Relates p j i := by
  unfold validatePairs at h
  split_ifs at h with h1 h2 h3
  simp only [ne_eq, not_not] at h1
  obtain ⟨n, rfl⟩ : ∃ n, k = n + 1 := ⟨l.length, h1.symm⟩
  rw [List.all_eq_true] at h2
  have hidx : ∀ p ∈ l, ∃ i j : Fin (n + 1), Relates p i j := by
    intro p hp
    have := h2 p hp
    simp only [validPair, validIndex, Bool.and_eq_true, decide_eq_true_eq] at this
    obtain ⟨⟨⟨⟨-, a1⟩, a2⟩, ⟨⟨-, b1⟩, b2⟩⟩, _⟩ := this
    exact ⟨⟨(p.fst.asInt - 1).toNat, by omega⟩, ⟨(p.snd.asInt - 1).toNat, by omega⟩, by simp; omega,
      by simp; omega⟩
  refine ⟨n, rfl, ⟨by omega, hidx, ?_⟩, ?_⟩
  · intro p hp
    have := h2 p hp
    simp only [validPair, Bool.and_eq_true, decide_eq_true_eq] at this
    exact this.2
  · intro i
    rw [List.all_eq_true] at h3
    have := h3 i (List.mem_range.2 i.2)
    simp only [included, List.any_eq_true, Bool.or_eq_true, decide_eq_true_eq] at this
    obtain ⟨p, hp, h⟩ := this
    obtain ⟨x, y, hxy⟩ := hidx p hp
    refine ⟨p, hp, ?_⟩
    rcases h with h | h
    · have : x = i := Fin.ext (by have := hxy.1; omega)
      subst this
      exact ⟨y, .inl hxy⟩
    · have : y = i := Fin.ext (by have := hxy.2; omega)
      subst this
      exact ⟨x, .inr hxy⟩

/-- C41, first part: for an accepted list of pairs the computation returns exactly when the pairs connect
all objectives; otherwise it loops forever. -/
theorem C41_terminates_iff {l : List (Pair K)} (h : validatePairs (n + 1) l = .ok ()) :
    ((∃ d : Vec (n + 1) K, Returns l d) ↔ Connected n l) ∧ (LoopsForever n l ↔ ¬ Connected n l) := by
  obtain ⟨n', hn, hl, -⟩ := validatePairs_ok h
  obtain rfl : n = n' := by omega
  have hloop : LoopsForever n l ↔ ¬ Connected n l :=
    ⟨fun h hc => by obtain ⟨i, hi⟩ := h n; exact complete hl hc i hi, loops_of_not_connected hl⟩
  refine ⟨⟨?_, ?_⟩, hloop⟩
  · rintro ⟨d, hd⟩
    by_contra hc
    obtain ⟨t, rfl, h3, -⟩ := hd
    obtain ⟨i, hi⟩ := loops_of_not_connected hl hc t
    exact h3 i hi
  · intro hc
    rcases h' : (doi (n + 1) l : Except Err (Vec (n + 1) K)) with e | d
    · exact absurd hc (hloop.1 ((doi_diverges hl).1 h').2)
    · exact ⟨d, (doi_returns hl).1 h'⟩

/-- C41, partial: for an accepted list of pairs that connects all objectives the computation returns a
direction that is 1 in the first objective, positive everywhere and satisfies every ratio. Missing: accepted
lists that do not connect all objectives (`C41_fails`). -/
theorem C41_direction_partial {l : List (Pair K)} (h : validatePairs (n + 1) l = .ok ())
    (hc : Connected n l) : ∃ d : Vec (n + 1) K, doi (n + 1) l = .ok d ∧ d 0 = 1 ∧ (∀ i, 0 < d i) ∧
      ∀ p ∈ l, ∀ i j : Fin (n + 1), p.fst.asInt = (i : Int) + 1 → p.snd.asInt = (j : Int) + 1 →
        d j = p.ratio * d i := by
  obtain ⟨n', hn, hl, -⟩ := validatePairs_ok h
  obtain rfl : n = n' := by omega
  obtain ⟨d, hd⟩ := (C41_terminates_iff h).1.2 hc
  obtain ⟨P, hP0, hPp, hPr⟩ := potential hl hc
  have heq : d = P := by
    obtain ⟨t, rfl, h3, -⟩ := hd
    funext i
    exact (agrees hl hP0 hPr t i).resolve_left (h3 i)
  subst heq
  exact ⟨d, (doi_returns hl).2 hd, hP0, hPp, fun p hp i j h1 h2 => hPr p hp i j ⟨h1, h2⟩⟩

/-- The values are determined by the ratios: no other direction satisfies them with 1 in the first
objective. -/
theorem C41_unique {l : List (Pair K)} (h : validatePairs (n + 1) l = .ok ()) {d e : Vec (n + 1) K}
    (hd : doi (n + 1) l = .ok d) (he0 : e 0 = 1)
    (he : ∀ p ∈ l, ∀ i j : Fin (n + 1), p.fst.asInt = (i : Int) + 1 → p.snd.asInt = (j : Int) + 1 →
      e j = p.ratio * e i) : d = e := by
  obtain ⟨n', hn, hl, -⟩ := validatePairs_ok h
  obtain rfl : n = n' := by omega
  obtain ⟨t, rfl, h3, -⟩ := (doi_returns hl).1 hd
  funext i
  exact (agrees hl he0 (fun p hp i j hij => he p hp i j hij.1 hij.2) t i).resolve_left (h3 i)

end Verif.NautilusV2
