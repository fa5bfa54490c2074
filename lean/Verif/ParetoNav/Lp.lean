import Verif.ParetoNav.Lemmas

set_option linter.unusedSectionVars false

/-! The linear problem and the convex hull of Pareto Navigator. -/

namespace Verif.ParetoNav

variable {K : Type} [Field K] [LinearOrder K] {k : Nat} {X D : Type}

/-- The value of a linear form. -/
def dot {n : Nat} (a z : Vec n K) : K := ∑ j, a j * z j

/-- `x` satisfies `A x ≤ b`, and `lo ≤ x ≤ hi` for all variables but the first (scipy's `linprog`). -/
def Feasible (A : List (Vec (k + 1) K)) (b : List K) (lo hi : Vec k K) (x : Vec (k + 1) K) : Prop :=
  (∀ p ∈ A.zip b, dot p.1 x ≤ p.2) ∧ ∀ i : Fin k, lo i ≤ x i.succ ∧ x i.succ ≤ hi i

/-- What is assumed of `linprog`: a returned point is feasible and minimizes the first variable. -/
def LpExact (lp : List (Vec (k + 1) K) → List K → Vec k K → Vec k K → Except Err (Vec (k + 1) K)) : Prop :=
  ∀ A b lo hi x, lp A b lo hi = .ok x → Feasible A b lo hi x ∧ ∀ y, Feasible A b lo hi y → x 0 ≤ y 0

/-- `z` satisfies the inequalities of a description by facets. -/
def Inside (eqs : List (Vec k K × K)) (z : Vec k K) : Prop := ∀ e ∈ eqs, dot e.1 z + e.2 ≤ 0

/-- `z` is a convex combination of the points. -/
def InHull (pts : List (Vec k K)) (z : Vec k K) : Prop :=
  ∃ w : List K, w.length = pts.length ∧ (∀ a ∈ w, 0 ≤ a) ∧ w.sum = 1 ∧
    ∀ j, z j = ((w.zip pts).map fun p => p.1 * p.2 j).sum

/-- What is assumed of Qhull: the returned equations describe the convex hull. -/
def HullExact (hull : List (Vec k K) → Except Err (List (Vec k K × K))) : Prop :=
  ∀ pts eqs, hull pts = .ok eqs → ∀ z, Inside eqs z ↔ InHull pts z

theorem zip_ofFn {α β : Type} {n : Nat} (f : Fin n → α) (g : Fin n → β) :
    (List.ofFn f).zip (List.ofFn g) = List.ofFn fun i => (f i, g i) := by
  apply List.ext_getElem
  · simp
  · intro i h1 h2
    simp

theorem dot_cons (a c : K) (u z : Vec k K) :
    dot (Fin.cons a u : Vec (k + 1) K) (Fin.cons c z) = a * c + dot u z := by
  simp [dot, Fin.sum_univ_succ]

theorem dot_unit (i : Fin k) (z : Vec k K) : dot (fun j => if j = i then 1 else 0) z = z i := by
  simp [dot]

/-- The constraints of the linear problem, for any weights. -/
theorem feasible_iff (w m lo hi z : Vec k K) (t : K) (eqs : List (Vec k K × K)) :
    Feasible (lppMatrix w (eqs.map Prod.fst)) (List.ofFn m ++ eqs.map fun e => -e.2) lo hi (Fin.cons t z) ↔
      (∀ i, -1 / w i * t + z i ≤ m i) ∧ (∀ e ∈ eqs, dot e.1 z ≤ -e.2) ∧ InBox lo hi z := by
  unfold Feasible lppMatrix
  rw [List.zip_append (by simp), zip_ofFn, List.map_map, List.zip_map']
  simp only [List.forall_mem_append, List.forall_mem_ofFn_iff, List.forall_mem_map, dot_cons, dot_unit, zero_mul,
    zero_add, Function.comp, Fin.cons_succ, InBox, and_assoc]

variable [IsStrictOrderedRing K]

theorem inside_iff {eqs : List (Vec k K × K)} {z : Vec k K} :
    Inside eqs z ↔ ∀ e ∈ eqs, dot e.1 z ≤ -e.2 := by
  refine forall₂_congr fun e _ => ?_
  constructor <;> intro h <;> linarith

theorem weight_iff {lo hi z m t : K} (h : lo < hi) :
    -1 / (1 / (hi - lo)) * t + z ≤ m ↔ 1 / (hi - lo) * (z - m) ≤ t := by
  have h' : 0 < hi - lo := by linarith
  have e1 : -1 / (1 / (hi - lo)) * t = -((hi - lo) * t) := by field_simp
  rw [e1, div_mul_eq_mul_div, one_mul, div_le_iff₀ h']
  constructor <;> intro h <;> nlinarith

/-- A convex combination of some points is one of more points. -/
theorem InHull.append {pts : List (Vec k K)} {z : Vec k K} (h : InHull pts z) (more : List (Vec k K)) :
    InHull (pts ++ more) z := by
  obtain ⟨w, h1, h2, h3, h4⟩ := h
  refine ⟨w ++ List.replicate more.length 0, by simp [h1], ?_, by simp [h3], ?_⟩
  · intro a ha
    rcases List.mem_append.1 ha with ha | ha
    · exact h2 a ha
    · rw [List.eq_of_mem_replicate ha]
  · intro j
    rw [List.zip_append h1, List.map_append, List.sum_append, h4 j]
    have : ∀ l : List (Vec k K), (((List.replicate l.length (0 : K)).zip l).map fun p => p.1 * p.2 j).sum = 0 := by
      intro l
      induction l with
      | nil => simp
      | cons a l ih => simpa [List.replicate_succ] using ih
    rw [this, add_zero]

theorem InHull.prefix {pts pts' : List (Vec k K)} {z : Vec k K} (h : InHull pts z) (hp : pts <+: pts') :
    InHull pts' z := by
  obtain ⟨more, rfl⟩ := hp
  exact h.append more

/-- A point is a convex combination of any list it occurs in. -/
theorem InHull.mem {pts : List (Vec k K)} {z : Vec k K} (h : z ∈ pts) : InHull pts z := by
  obtain ⟨l1, l2, rfl⟩ := List.append_of_mem h
  have hz : ∀ (l : List (Vec k K)) (j : Fin k),
      (((List.replicate l.length (0 : K)).zip l).map fun p => p.1 * p.2 j).sum = 0 := by
    intro l j
    induction l with
    | nil => simp
    | cons a l ih => simpa [List.replicate_succ] using ih
  refine ⟨List.replicate l1.length 0 ++ 1 :: List.replicate l2.length 0, by simp, ?_, by simp, ?_⟩
  · intro a ha
    simp only [List.mem_append, List.mem_cons, List.mem_replicate] at ha
    rcases ha with ⟨_, rfl⟩ | rfl | ⟨_, rfl⟩ <;> norm_num
  · intro j
    rw [List.zip_append (by simp), List.map_append, List.sum_append, hz]
    simp [hz]

/-- A convex combination stays within every box that contains the points. -/
theorem InHull.box {pts : List (Vec k K)} {z lo hi : Vec k K} (h : InHull pts z)
    (hb : ∀ p ∈ pts, InBox lo hi p) : InBox lo hi z := by
  obtain ⟨w, h1, h2, h3, h4⟩ := h
  intro j
  have key : ∀ (w : List K) (pts : List (Vec k K)), w.length = pts.length → (∀ a ∈ w, 0 ≤ a) →
      (∀ p ∈ pts, InBox lo hi p) → w.sum * lo j ≤ ((w.zip pts).map fun p => p.1 * p.2 j).sum ∧
        ((w.zip pts).map fun p => p.1 * p.2 j).sum ≤ w.sum * hi j := by
    intro w
    induction w with
    | nil => intro pts _ _ _; simp
    | cons a w ih =>
      intro pts hl hw hp
      cases pts with
      | nil => simp at hl
      | cons p pts =>
        obtain ⟨i1, i2⟩ := ih pts (by simpa using hl) (fun a ha => hw a (List.mem_cons_of_mem _ ha))
          (fun p hp' => hp p (List.mem_cons_of_mem _ hp'))
        have ha := hw a List.mem_cons_self
        obtain ⟨b1, b2⟩ := hp p List.mem_cons_self j
        simp only [List.zip_cons_cons, List.map_cons, List.sum_cons]
        constructor <;> nlinarith
  have := key w pts h1 h2 hb
  rw [h3, one_mul, one_mul, ← h4 j] at this
  exact this

end Verif.ParetoNav
