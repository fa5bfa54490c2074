import Verif.Base

/-!
# Vocabulary of the properties

Independent of the models: objective vectors are compared under minimization, as in the library.
-/

namespace Verif

section
variable {K : Type} [LinearOrder K] {n k : Nat}

/-- `p` is at least as good as `q` in every objective (all objectives are minimized). -/
def AtLeastAsGood (p q : Vec k K) : Prop := ∀ j, p j ≤ q j

/-- Pareto dominance: at least as good everywhere and better somewhere. -/
def Dominates (p q : Vec k K) : Prop := AtLeastAsGood p q ∧ ∃ j, p j < q j

/-- Strict dominance: better in every objective. -/
def StrictlyBetter (p q : Vec k K) : Prop := ∀ j, p j < q j

/-- No row of the front dominates another row. -/
def MutuallyNondominated (front : Fin n → Vec k K) : Prop := ∀ i j, ¬ Dominates (front i) (front j)

/-- `p` lies in the box spanned by `lo` and `hi`. -/
def InBox (lo hi p : Vec k K) : Prop := ∀ j, lo j ≤ p j ∧ p j ≤ hi j

/-- In every objective, `x` is between `a` and `b` (in whichever order). -/
def Between (a b x : Vec k K) : Prop := ∀ j, min (a j) (b j) ≤ x j ∧ x j ≤ max (a j) (b j)

/-- `m` is the minimum of the values `f i` over the indices satisfying `P`, and is attained. -/
def IsMinOver {ι : Type} (P : ι → Prop) (f : ι → K) (m : K) : Prop :=
  (∃ i, P i ∧ f i = m) ∧ ∀ i, P i → m ≤ f i

/-- `m` is the maximum of the values `f i` over the indices satisfying `P`, and is attained. -/
def IsMaxOver {ι : Type} (P : ι → Prop) (f : ι → K) (m : K) : Prop :=
  (∃ i, P i ∧ f i = m) ∧ ∀ i, P i → f i ≤ m

/-- Row `i` of the front is at least as good as `z` in every objective other than `r`. -/
def GoodExcept (front : Fin n → Vec k K) (z : Vec k K) (r : Fin k) (i : Fin n) : Prop :=
  ∀ j, j ≠ r → front i j ≤ z j

/-- `lo` and `hi` are, objective by objective, the exact range of the values that the rows which
are at least as good as `z` in all *other* objectives take. -/
def ExactBounds (front : Fin n → Vec k K) (z lo hi : Vec k K) : Prop :=
  ∀ r, IsMinOver (GoodExcept front z r) (fun i => front i r) (lo r) ∧
    IsMaxOver (GoodExcept front z r) (fun i => front i r) (hi r)

instance (p q : Vec k K) : Decidable (AtLeastAsGood p q) :=
  inferInstanceAs (Decidable (∀ j, p j ≤ q j))

instance (p q : Vec k K) : Decidable (Dominates p q) :=
  inferInstanceAs (Decidable (AtLeastAsGood p q ∧ ∃ j, p j < q j))

instance (front : Fin n → Vec k K) : Decidable (MutuallyNondominated front) :=
  inferInstanceAs (Decidable (∀ i j, ¬ Dominates (front i) (front j)))

instance (lo hi p : Vec k K) : Decidable (InBox lo hi p) :=
  inferInstanceAs (Decidable (∀ j, lo j ≤ p j ∧ p j ≤ hi j))

end

/-- What the theorems assume about `np.linalg.norm`: a norm that grows with the absolute values of
the components. The Euclidean norm over the reals satisfies it (`Verif.Norms`). -/
structure NormSpec {K : Type} [Field K] [LinearOrder K] {k : Nat} (nrm : Vec k K → K) : Prop where
  nonneg : ∀ v, 0 ≤ nrm v
  eq_zero : ∀ v, nrm v = 0 ↔ ∀ j, v j = 0
  homog : ∀ (c : K) (v : Vec k K), nrm (fun j => c * v j) = |c| * nrm v
  mono : ∀ u v : Vec k K, (∀ j, |u j| ≤ |v j|) → nrm u ≤ nrm v

end Verif
