import Verif.Navigator.Recast
import Mathlib.Algebra.BigOperators.Fin
import Mathlib.Tactic.FinCases

/-!
# NAUTILUS Navigator: order, origins and units of the objectives (C114, C115, C116)
-/

set_option linter.unusedSectionVars false

namespace Verif.Navigator

variable {K V : Type} [Field K] [LinearOrder K] [IsStrictOrderedRing K] {n k : Nat}

/-- Specification: the objectives listed in another order. -/
def reorder (σ : Equiv.Perm (Fin k)) : Recast k K :=
  { perm := σ, scale := fun _ => 1, origin := fun _ => 0, pos := fun _ => one_pos }

/-- Specification: the objectives measured from other origins. -/
def shift (o : Vec k K) : Recast k K :=
  { perm := 1, scale := fun _ => 1, origin := o, pos := fun _ => one_pos }

/-- Specification: the objectives measured in other units. -/
def rescale (w : Vec k K) (hw : ∀ j, 0 < w j) : Recast k K :=
  { perm := 1, scale := w, origin := fun _ => 0, pos := hw }

/-- Specification: the same data presented anew, for the method as it is (its achievement function is
built from the ideal and nadir points it is given). -/
def Recast.data {k : Nat} (u : Recast (k + 1) K) (c : Cfg n (k + 1) K V) : Cfg n (k + 1) K V :=
  u.cfg c.nrm (pointAsf (u.conv c.ideal) (u.conv c.nadir)) c

/-- Specification: the same responses presented anew. -/
def Recast.steps (u : Recast k K) (l : List (Nat × Resp K)) : List (Nat × Resp K) :=
  l.map fun p => (p.1, u.resp p.2)

/-- Specification: the same results presented anew; exceptions stay the same. -/
def Recast.results (u : Recast k K) (l : List (Except Err (Out n k K V))) :
    List (Except Err (Out n k K V)) := l.map fun o => o.map u.out

/-! ### Order -/

theorem vmax_perm {k : Nat} (σ : Equiv.Perm (Fin (k + 1))) (v : Vec (k + 1) K) :
    vmax (fun j => v (σ j)) = vmax v := by
  obtain ⟨h1, i, hi⟩ := vmax_spec v
  obtain ⟨h2, j, hj⟩ := vmax_spec fun j => v (σ j)
  apply le_antisymm
  · rw [hj]; exact h1 _
  · rw [hi]; have := h2 (σ.symm i); simpa using this

theorem pointAsf_reorder {k : Nat} (σ : Equiv.Perm (Fin (k + 1))) (ideal nadir q f : Vec (k + 1) K) :
    pointAsf ((reorder σ).conv ideal) ((reorder σ).conv nadir) ((reorder σ).conv q)
      ((reorder σ).conv f) = pointAsf ideal nadir q f := by
  have e : ∀ v : Vec (k + 1) K, (reorder σ).conv v = fun j => v (σ j) := by
    intro v; funext j; simp [Recast.conv, reorder]
  simp only [pointAsf, e]
  rw [vmax_perm σ fun j => (f j - q j) / (nadir j - (ideal j - 1 / 1000000)),
    ← Fin.sum_univ_def, ← Fin.sum_univ_def,
    Equiv.sum_comp σ fun j => f j / (nadir j - (ideal j - 1 / 1000000))]

/-- **C114.** List the objectives in another order (in the front, the ideal and nadir points, the
reference points and the bounds): whatever is answered, in whatever order and to whichever request, every
request, stop result and exception is the same with the objectives listed in that order. The norm must
not depend on the order either (the Euclidean norm does not). -/
theorem C114_order {k : Nat} {c : Cfg n (k + 1) K V} (hasf : c.asf = pointAsf c.ideal c.nadir)
    (σ : Equiv.Perm (Fin (k + 1))) (hn : ∀ v, c.nrm (fun j => v (σ j)) = c.nrm v)
    (steps : List (Nat × Resp K)) :
    use ((reorder σ).data c) ((reorder σ).steps steps) = (reorder σ).results (use c steps) := by
  refine use_recast (reorder σ) ⟨1, one_pos, fun v => ?_⟩ steps ?_ ?_ ?_
  · simp only [reorder, one_mul, hn]
  · intro q q0 _ _
    unfold Recast.SameClose Close
    simp only [Recast.convB, reorder, one_mul, add_zero]
    rw [← σ.forall_congr_right (q := fun j => ∃ x y, q j = some x ∧ q0 j = some y ∧
      |x - y| ≤ 1 / 10 ^ 8 + |y| / 10 ^ 5)]
    simp
  · intro qv _ _ i j
    rw [pointAsf_reorder, pointAsf_reorder, hasf]
  · intro p _ l _ _
    exact .inr fun j => ⟨rfl, rfl⟩

/-- The Euclidean norm does not depend on the order. -/
theorem euclid_perm (σ : Equiv.Perm (Fin k)) (v : Vec k ℝ) : euclid (fun j => v (σ j)) = euclid v := by
  unfold euclid
  rw [Equiv.sum_comp σ fun j => v j * v j]

/-! ### Origins -/

theorem sum_map_add {α : Type} (l : List α) (f g : α → K) :
    (l.map fun a => f a + g a).sum = (l.map f).sum + (l.map g).sum := by
  induction l with
  | nil => simp
  | cons x l ih => simp only [List.map_cons, List.sum_cons, ih]; ring

theorem pointAsf_shift {k : Nat} (o ideal nadir q f : Vec (k + 1) K) :
    pointAsf ((shift o).conv ideal) ((shift o).conv nadir) ((shift o).conv q) ((shift o).conv f) =
      pointAsf ideal nadir q f + 1 / 1000000 * ((List.finRange (k + 1)).map
        fun j => o j / (nadir j - (ideal j - 1 / 1000000))).sum := by
  have e : ∀ v : Vec (k + 1) K, (shift o).conv v = fun j => v j + o j := by
    intro v; funext j; simp [Recast.conv, shift]
  have h1 : ∀ j, nadir j + o j - (ideal j + o j - 1 / 1000000) = nadir j - (ideal j - 1 / 1000000) :=
    fun j => by ring
  have h2 : ∀ j, f j + o j - (q j + o j) = f j - q j := fun j => by ring
  simp only [pointAsf, e, h1, h2, add_div]
  rw [sum_map_add]
  ring

/-- Specification: in the list of responses every reference point has one entry per objective. -/
def FullReferences (k : Nat) (steps : List (Nat × Resp K)) : Prop :=
  ∀ p ∈ steps, ∀ l, p.2.ref = some l → l.length = 1 → k = 1

/-- **C115**, partial. Measure the objectives from other origins: the whole use of the method is the same,
in the new origins, provided that for any two reference points given it is decided in the same way
whether they count as the same (the code compares with a relative tolerance). Missing: without this it
is false, see `C115_fails`. -/
theorem C115_origins_partial {k : Nat} {c : Cfg n (k + 1) K V}
    (hasf : c.asf = pointAsf c.ideal c.nadir) (o : Vec (k + 1) K) (steps : List (Nat × Resp K))
    (hfull : FullReferences (k + 1) steps)
    (hclose : ∀ q q0, Asked steps q → Asked steps q0 →
      (Close ((shift o).convB q) ((shift o).convB q0) ↔ Close q q0)) :
    use ((shift o).data c) ((shift o).steps steps) = (shift o).results (use c steps) := by
  refine use_recast (shift o) ⟨1, one_pos, fun v => ?_⟩ steps hclose ?_ ?_
  · simp [shift]
  · intro qv _ _ i j
    rw [pointAsf_shift, pointAsf_shift, hasf, add_lt_add_iff_right]
  · intro p hp l h1 h2
    exact .inl (hfull p hp l h1 h2)

/-! ### Units -/

/-- Specification: `t` is the largest of the distances from `q` to `f` in the objectives, each relative
to the range of the objective. -/
def Worst {k : Nat} (ideal nadir q f : Vec k K) (t : K) : Prop :=
  (∃ j, t = (f j - q j) / (nadir j - ideal j)) ∧ ∀ j, (f j - q j) / (nadir j - ideal j) ≤ t

/-- Specification: no two different rows are nearly as far from `q`. -/
def Separated (c : Cfg n k K V) (m : K) (q : Vec k K) : Prop :=
  ∀ i j t t', Worst c.ideal c.nadir q (c.front i) t → Worst c.ideal c.nadir q (c.front j) t' →
    c.front i = c.front j ∨ m < |t - t'|

theorem worst_vmax {k : Nat} {ideal nadir q f : Vec (k + 1) K} {t : K}
    (h : Worst ideal nadir q f t) : vmax (fun j => (f j - q j) / (nadir j - ideal j)) = t := by
  obtain ⟨h1, i, hi⟩ := vmax_spec fun j => (f j - q j) / (nadir j - ideal j)
  obtain ⟨⟨j, hj⟩, h3⟩ := h
  apply le_antisymm
  · rw [hi]; exact h3 i
  · rw [hj]; exact h1 j

theorem exists_worst {k : Nat} (ideal nadir q f : Vec (k + 1) K) : ∃ t, Worst ideal nadir q f t := by
  obtain ⟨h1, i, hi⟩ := vmax_spec fun j => (f j - q j) / (nadir j - ideal j)
  exact ⟨_, ⟨i, hi⟩, h1⟩

/-- A relative distance changes by at most `δ` when `1e-6` is added to the range. -/
theorem term_near {x R δ : K} (hR : 0 < R) (hδ : 1 / 10 ^ 6 ≤ δ * R) (hx : |x| ≤ R) :
    |x / (R + 1 / 1000000) - x / R| ≤ δ := by
  have he : (0 : K) < 1 / 1000000 := by positivity
  have h0 : (1 : K) / 10 ^ 6 = 1 / 1000000 := by norm_num
  rw [h0] at hδ
  have hRe : 0 < R + 1 / 1000000 := by linarith
  have e : x / (R + 1 / 1000000) - x / R = -(x / R) * (1 / 1000000) / (R + 1 / 1000000) := by
    field_simp
    ring
  have hxR : |x / R| ≤ 1 := by
    rw [abs_div, abs_of_pos hR, div_le_one hR]; exact hx
  rw [e, abs_div, abs_mul, abs_neg, abs_of_pos hRe, abs_of_pos he, div_le_iff₀ hRe]
  have hδ0 : 0 ≤ δ := by
    by_contra hneg
    push Not at hneg
    nlinarith
  nlinarith [abs_nonneg (x / R)]

theorem vmax_near {k : Nat} {v w : Vec (k + 1) K} {δ : K} (h : ∀ j, |v j - w j| ≤ δ) :
    |vmax v - vmax w| ≤ δ := by
  obtain ⟨h1, i, hi⟩ := vmax_spec v
  obtain ⟨h2, j, hj⟩ := vmax_spec w
  rw [abs_le]
  constructor
  · have := (abs_le.1 (h j)).1
    have := h1 j
    linarith
  · have := (abs_le.1 (h i)).2
    have := h2 i
    linarith

theorem sum_near {α : Type} (l : List α) (f g : α → K) (h : ∀ a ∈ l, |f a - g a| ≤ 1) :
    |(l.map f).sum - (l.map g).sum| ≤ l.length := by
  rw [abs_le]
  have h1 := sum_sub_le l f g fun a ha => (abs_le.1 (h a ha)).2
  have h2 := sum_sub_le l g f fun a ha => by have := (abs_le.1 (h a ha)).1; linarith
  constructor <;> linarith

/-- How far a difference of achievement values is from the difference of the relative distances. -/
theorem asf_near {k : Nat} {ideal nadir q f g : Vec (k + 1) K} {δ t t' : K}
    (hR : ∀ j, ideal j < nadir j) (hδ : ∀ j, 1 / 10 ^ 6 ≤ δ * (nadir j - ideal j))
    (hq : InBox ideal nadir q) (hf : InBox ideal nadir f) (hg : InBox ideal nadir g)
    (ht : Worst ideal nadir q f t) (ht' : Worst ideal nadir q g t') :
    |(pointAsf ideal nadir q f - pointAsf ideal nadir q g) - (t - t')| ≤
      2 * δ + (k + 1) / 10 ^ 6 := by
  have he : (0 : K) < 1 / 1000000 := by positivity
  have eR : ∀ j, nadir j - (ideal j - 1 / 1000000) = (nadir j - ideal j) + 1 / 1000000 :=
    fun j => by ring
  have near : ∀ f, InBox ideal nadir f → ∀ t, Worst ideal nadir q f t →
      |vmax (fun j => (f j - q j) / ((nadir j - ideal j) + 1 / 1000000)) - t| ≤ δ := by
    intro f hf t ht
    rw [← worst_vmax ht]
    apply vmax_near
    intro j
    apply term_near (sub_pos.2 (hR j)) (hδ j)
    have h1 := hf j
    have h2 := hq j
    rw [abs_le]
    constructor <;> linarith [h1.1, h1.2, h2.1, h2.2]
  have hsum := sum_near (List.finRange (k + 1))
    (fun j => f j / ((nadir j - ideal j) + 1 / 1000000))
    (fun j => g j / ((nadir j - ideal j) + 1 / 1000000)) (by
      intro j _
      have hpos : 0 < (nadir j - ideal j) + 1 / 1000000 := by have := hR j; linarith
      rw [← sub_div, abs_div, abs_of_pos hpos, div_le_one hpos, abs_le]
      have h1 := hf j
      have h2 := hg j
      constructor <;> linarith [h1.1, h1.2, h2.1, h2.2])
  have n1 := abs_le.1 (near f hf t ht)
  have n2 := abs_le.1 (near g hg t' ht')
  simp only [List.length_finRange, Nat.cast_add, Nat.cast_one] at hsum
  have hs := abs_le.1 hsum
  have hk : ((k : K) + 1) / 10 ^ 6 = 1 / 1000000 * ((k : K) + 1) := by ring
  have m1 := mul_le_mul_of_nonneg_left hs.1 he.le
  have m2 := mul_le_mul_of_nonneg_left hs.2 he.le
  simp only [pointAsf, eR]
  rw [hk, abs_le]
  rw [mul_sub] at m1 m2
  constructor
  · linarith [n1.1, n2.2]
  · linarith [n1.2, n2.1]

/-- Rows told apart by more than the margin are ranked by their relative distances. -/
theorem rank_of_separated {k : Nat} {ideal nadir q f g : Vec (k + 1) K} {δ t t' : K}
    (hR : ∀ j, ideal j < nadir j) (hδ : ∀ j, 1 / 10 ^ 6 ≤ δ * (nadir j - ideal j))
    (hq : InBox ideal nadir q) (hf : InBox ideal nadir f) (hg : InBox ideal nadir g)
    (ht : Worst ideal nadir q f t) (ht' : Worst ideal nadir q g t')
    (hm : 2 * δ + (k + 1) / 10 ^ 6 < |t - t'|) :
    pointAsf ideal nadir q f < pointAsf ideal nadir q g ↔ t < t' := by
  have h := abs_le.1 (asf_near hR hδ hq hf hg ht ht')
  rcases lt_abs.1 hm with h1 | h1
  · constructor
    · intro h2; linarith [h.1]
    · intro h2; exfalso; linarith [h.1, h.2, abs_nonneg (t - t'), abs_of_neg (sub_neg.2 h2)]
  · constructor
    · intro h2
      linarith [h.2, abs_nonneg (t - t'), (by
        have : 0 ≤ 2 * δ + ((k : K) + 1) / 10 ^ 6 := le_trans (abs_nonneg _)
          (asf_near hR hδ hq hf hg ht ht')
        linarith : t < t')]
    · intro _; linarith [h.2]

section
variable {w : Vec k K} {hw : ∀ j, 0 < w j}

theorem rescale_conv (v : Vec k K) (j : Fin k) : (rescale w hw).conv v j = w j * v j := by
  simp [Recast.conv, rescale]

theorem rescale_box {lo hi v : Vec k K} (h : InBox lo hi v) :
    InBox ((rescale w hw).conv lo) ((rescale w hw).conv hi) ((rescale w hw).conv v) := by
  intro j
  simp only [rescale_conv, mul_le_mul_iff_right₀ (hw j)]
  exact h j

theorem rescale_worst {ideal nadir q f : Vec k K} {t : K} (h : Worst ideal nadir q f t) :
    Worst ((rescale w hw).conv ideal) ((rescale w hw).conv nadir) ((rescale w hw).conv q)
      ((rescale w hw).conv f) t := by
  have e : ∀ j, ((rescale w hw).conv f j - (rescale w hw).conv q j) /
      ((rescale w hw).conv nadir j - (rescale w hw).conv ideal j) =
      (f j - q j) / (nadir j - ideal j) := by
    intro j
    simp only [rescale_conv, ← mul_sub]
    rw [mul_div_mul_left _ _ (hw j).ne']
  unfold Worst
  simp only [e]
  exact h

end

theorem sameRank_rescale {k : Nat} {c : Cfg n (k + 1) K V} (hasf : c.asf = pointAsf c.ideal c.nadir)
    (hbox : ∀ i, InBox c.ideal c.nadir (c.front i)) (hR : ∀ j, c.ideal j < c.nadir j)
    {w : Vec (k + 1) K} (hw : ∀ j, 0 < w j) {δ : K}
    (hδ : ∀ j, 1 / 10 ^ 6 ≤ δ * (c.nadir j - c.ideal j))
    (hδ' : ∀ j, 1 / 10 ^ 6 ≤ δ * (w j * (c.nadir j - c.ideal j)))
    {q : Vec (k + 1) K} (hq : InBox c.ideal c.nadir q)
    (hsep : Separated c (2 * δ + (k + 1) / 10 ^ 6) q) :
    (rescale w hw).SameRank (pointAsf ((rescale w hw).conv c.ideal) ((rescale w hw).conv c.nadir)) c
      q := by
  intro i j
  obtain ⟨t, ht⟩ := exists_worst c.ideal c.nadir q (c.front i)
  obtain ⟨t', ht'⟩ := exists_worst c.ideal c.nadir q (c.front j)
  rcases hsep i j t t' ht ht' with h | h
  · simp [h]
  · rw [hasf, rank_of_separated hR hδ hq (hbox i) (hbox j) ht ht' h]
    refine rank_of_separated (fun j => ?_) (fun j => ?_) (rescale_box hq) (rescale_box (hbox i))
      (rescale_box (hbox j)) (rescale_worst ht) (rescale_worst ht') h
    · simp only [rescale_conv, mul_lt_mul_iff_right₀ (hw j)]; exact hR j
    · simp only [rescale_conv, ← mul_sub]; exact hδ' j

/-- Specification: a returned request without the distance (a percentage computed from the norm, which
depends on the units of the objectives relative to each other). -/
def Out.noDist : Out n k K V → Out n k K V
  | .nav ct => .nav { ct with dist := .nan }
  | .stop idx objs ds => .stop idx objs ds


/-- The state without the distance. -/
def St.noDist (s : St n k K) : St n k K := { s with dist := .nan }

/-- A request without the distance. -/
def Content.noDist (ct : Content n k K) : Content n k K := { ct with dist := .nan }

/-- The data with a norm that makes every distance NaN. -/
def Cfg.noNorm (c : Cfg n k K V) : Cfg n k K V := { c with nrm := fun _ => 0 }

/-- An outcome without the distance. -/
def noDistRes (x : St n k K × Except Err (Out n k K V)) : St n k K × Except Err (Out n k K V) :=
  (x.1.noDist, x.2.map Out.noDist)

theorem distance_zero (nav p nadir : Vec k K) : distance (fun _ => (0 : K)) nav p nadir = .nan := by
  simp [distance, fdiv, Fl.scalePos]

theorem advance_noDist (c : Cfg n k K V) (s : St n k K) (b : Vec k (Option K)) :
    advance c.noNorm s.noDist b = noDistRes (advance c s b) := by
  unfold advance
  have h1 : s.noDist.proj = s.proj := rfl
  have h2 : s.noDist.rem = s.rem := rfl
  rw [h1, h2]
  cases s.proj with
  | none => rfl
  | some p =>
    have hm : move c.noNorm s.noDist p b = (move c s p b).noDist := by
      simp only [move, Cfg.noNorm, distance_zero]; rfl
    by_cases hr : s.rem = 0
    · simp only [if_pos hr]; rfl
    · simp only [if_neg hr, hm]; rfl

theorem answer_noDist (c : Cfg n k K V) (s : St n k K) (ct : Content n k K) (r : Resp K) :
    answer c.noNorm s.noDist ct.noDist r = noDistRes (answer c s ct r) := by
  unfold answer
  have hv : validate c.noNorm r = validate c r := rfl
  rw [hv]
  cases validate c r with
  | error e => rfl
  | ok x =>
    simp only
    unfold handle
    cases hq : r.ref with
    | none => rfl
    | some l =>
      cases h1 : r.speed with
      | none => rfl
      | some v =>
        cases h2 : r.goToPrevious with
        | none => rfl
        | some g =>
          cases h3 : r.userBounds with
          | none => rfl
          | some b =>
            cases h4 : r.stop with
            | none => rfl
            | some st =>
              simp only
              by_cases hst : st = .bool true
              · rw [if_pos hst, if_pos hst]; rfl
              · rw [if_neg hst, if_neg hst]
                by_cases hg : g = .bool true
                · rw [if_pos hg, if_pos hg]; rfl
                · rw [if_neg hg, if_neg hg]
                  cases hbr : broadcast k l with
                  | error e => rfl
                  | ok q =>
                    simp only
                    unfold forward
                    have hn : needsProjection s.noDist q = needsProjection s q := rfl
                    have hso : solve c.noNorm s.noDist.reach q s.noDist.userBounds =
                        solve c s.reach q s.userBounds := rfl
                    rw [hn, hso]
                    cases needsProjection s q with
                    | error e => rfl
                    | ok need =>
                      cases need with
                      | false => exact advance_noDist c s _
                      | true =>
                        simp only
                        cases solve c s.reach q s.userBounds with
                        | error e => rfl
                        | ok p =>
                          exact advance_noDist c { s with speed := if s.step = 1 then some v else s.speed,
                                                          ref := some q, proj := some p } _

theorem replay_noDist (c : Cfg n k K V) (steps : List (Nat × Resp K)) (s : St n k K)
    (reqs : List (Content n k K)) :
    replay c.noNorm s.noDist (reqs.map Content.noDist) steps =
      (replay c s reqs steps).map fun o => o.map Out.noDist := by
  induction steps generalizing s reqs with
  | nil => rfl
  | cons p rest ih =>
    obtain ⟨i, r⟩ := p
    simp only [replay, List.getElem?_map]
    cases hi : reqs[i]? with
    | none => exact ih s reqs
    | some ct =>
      simp only [Option.map_some, answer_noDist, noDistRes, List.map_cons]
      congr 1
      rw [← ih]
      congr 1
      cases (answer c s ct r).2 with
      | error e => rfl
      | ok o => cases o <;> rfl

/-- The norm influences nothing but the distances. -/
theorem use_norm (c : Cfg n k K V) (nrm' : Vec k K → K) (steps : List (Nat × Resp K)) :
    (use { c with nrm := nrm' } steps).map (fun o => o.map Out.noDist) =
      (use c steps).map fun o => o.map Out.noDist := by
  have h1 := replay_noDist c steps (initSt c) [start (initSt c)]
  have h2 := replay_noDist { c with nrm := nrm' } steps (initSt c) [start (initSt c)]
  exact h2.symm.trans h1

/-- **C116**, partial. Measure every objective in another unit: the whole use of the method is the same,
in the new units, except for the distances, provided that (1) it is decided in the same way whether two
reference points given count as the same, and (2) for every reference point given, different rows differ
in their relative distance (the largest over the objectives, relative to the range) by more than
`2 δ + (number of objectives) / 10^6`, where `δ` bounds `1e-6` divided by the ranges in the old and the
new units. Missing: without this it is false, see `C116_fails`. -/
theorem C116_units_partial {k : Nat} {c : Cfg n (k + 1) K V}
    (hasf : c.asf = pointAsf c.ideal c.nadir) (hbox : ∀ i, InBox c.ideal c.nadir (c.front i))
    (hR : ∀ j, c.ideal j < c.nadir j) (w : Vec (k + 1) K) (hw : ∀ j, 0 < w j) {δ : K}
    (hδ : ∀ j, 1 / 10 ^ 6 ≤ δ * (c.nadir j - c.ideal j))
    (hδ' : ∀ j, 1 / 10 ^ 6 ≤ δ * (w j * (c.nadir j - c.ideal j)))
    (steps : List (Nat × Resp K)) (hfull : FullReferences (k + 1) steps)
    (hclose : ∀ q q0, Asked steps q → Asked steps q0 →
      (Close ((rescale w hw).convB q) ((rescale w hw).convB q0) ↔ Close q q0))
    (hsep : ∀ q : Vec (k + 1) K, Asked steps (fun j => some (q j)) → InBox c.ideal c.nadir q →
      Separated c (2 * δ + (k + 1) / 10 ^ 6) q) :
    (use ((rescale w hw).data c) ((rescale w hw).steps steps)).map (fun o => o.map Out.noDist) =
      ((rescale w hw).results (use c steps)).map fun o => o.map Out.noDist := by
  have h := use_recast (c := c) (asf' := pointAsf ((rescale w hw).conv c.ideal) ((rescale w hw).conv c.nadir))
    (nrm' := fun v => c.nrm fun j => v j / w j) (rescale w hw) ⟨1, one_pos, fun v => by
      simp only [rescale, one_mul, Equiv.Perm.coe_one, id_eq]
      congr 1
      funext j
      have := (hw j).ne'
      field_simp⟩ steps hclose (fun q hq hb => sameRank_rescale hasf hbox hR hw hδ hδ' hb (hsep q hq hb))
      (fun p hp l h1 h2 => .inl (hfull p hp l h1 h2))
  unfold Recast.results Recast.steps
  rw [← h]
  exact (use_norm ((rescale w hw).data c) (fun v => c.nrm fun j => v j / w j) _).symm

/-- **C116**, partial: with the same factor for all objectives the distances are the same too. -/
theorem C116_common_factor_partial {k : Nat} {c : Cfg n (k + 1) K V} (hn : NormSpec c.nrm)
    (hasf : c.asf = pointAsf c.ideal c.nadir) (hbox : ∀ i, InBox c.ideal c.nadir (c.front i))
    (hR : ∀ j, c.ideal j < c.nadir j) (w : Vec (k + 1) K) (hw : ∀ j, 0 < w j) {a : K}
    (ha : ∀ j, w j = a) {δ : K}
    (hδ : ∀ j, 1 / 10 ^ 6 ≤ δ * (c.nadir j - c.ideal j))
    (hδ' : ∀ j, 1 / 10 ^ 6 ≤ δ * (w j * (c.nadir j - c.ideal j)))
    (steps : List (Nat × Resp K)) (hfull : FullReferences (k + 1) steps)
    (hclose : ∀ q q0, Asked steps q → Asked steps q0 →
      (Close ((rescale w hw).convB q) ((rescale w hw).convB q0) ↔ Close q q0))
    (hsep : ∀ q : Vec (k + 1) K, Asked steps (fun j => some (q j)) → InBox c.ideal c.nadir q →
      Separated c (2 * δ + (k + 1) / 10 ^ 6) q) :
    use ((rescale w hw).data c) ((rescale w hw).steps steps) =
      (rescale w hw).results (use c steps) := by
  have hapos : 0 < a := ha 0 ▸ hw 0
  refine use_recast (rescale w hw) ⟨a, hapos, fun v => ?_⟩ steps hclose
    (fun q hq hb => sameRank_rescale hasf hbox hR hw hδ hδ' hb (hsep q hq hb))
    (fun p hp l h1 h2 => .inl (hfull p hp l h1 h2))
  simp only [rescale, Equiv.Perm.coe_one, id_eq, ha]
  rw [hn.homog, abs_of_pos hapos]

/-! ### Examples and counterexamples -/

/-- The front of the example with a nadir point that leaves room: after a step all rows are still
reachable. -/
def wideCfg : Cfg 3 2 ℚ String :=
  { front := ![![0, 2], ![1, 1], ![2, 0]], ideal := ![0, 0], nadir := ![4, 4],
    vars := some ![ "a", "b", "c"], nrm := supNorm, asf := pointAsf ![0, 0] ![4, 4] }

/-- The norm in the example does not depend on the order of the objectives. -/
theorem wideCfg_norm (v : Vec 2 ℚ) : wideCfg.nrm (fun j => v (Equiv.swap 0 1 j)) = wideCfg.nrm v := by
  have e : (List.ofFn fun j : Fin 2 => |v (Equiv.swap 0 1 j)|) = [|v 1|, |v 0|] := by
    simp [List.ofFn_succ]
  have e' : (List.ofFn fun j : Fin 2 => |v j|) = [|v 0|, |v 1|] := by simp [List.ofFn_succ]
  change supNorm _ = supNorm _
  unfold supNorm
  rw [e, e']
  simp only [List.foldl_cons, List.foldl_nil]
  exact max_right_comm _ _ _

/-- Two responses: aim at `(1, 1/2)`, then at `(0, 2)`. -/
def twoRefs : List (Nat × Resp ℚ) :=
  [(0, forwardResp [some 1, some (1 / 2)] (.int 3) noB),
   (0, forwardResp [some 0, some 2] (.int 3) noB)]

theorem twoRefs_asked {q : Vec 2 (Option ℚ)} (h : Asked twoRefs q) :
    q = (fun j => some ((![1, 1 / 2] : Vec 2 ℚ) j)) ∨ q = (fun j => some ((![0, 2] : Vec 2 ℚ) j)) := by
  obtain ⟨p, hp, l, h1, h2⟩ := h
  simp only [twoRefs, List.mem_cons, List.not_mem_nil, or_false] at hp
  rcases hp with rfl | rfl
  · left
    simp only [forwardResp, Option.some.injEq] at h1
    subst h1
    rcases h2 with ⟨_, h⟩ | ⟨h, _⟩
    · funext j
      have := h j
      fin_cases j <;> simp at this <;> simp [← this]
    · simp at h
  · right
    simp only [forwardResp, Option.some.injEq] at h1
    subst h1
    rcases h2 with ⟨_, h⟩ | ⟨h, _⟩
    · funext j
      have := h j
      fin_cases j <;> simp at this <;> simp [← this]
    · simp at h

theorem twoRefs_full : FullReferences 2 twoRefs := by
  intro p hp l h1 h2
  simp only [twoRefs, List.mem_cons, List.not_mem_nil, or_false] at hp
  rcases hp with rfl | rfl <;> simp only [forwardResp, Option.some.injEq] at h1 <;> subst h1 <;>
    simp at h2

example : use ((reorder (Equiv.swap 0 1)).data wideCfg)
      ((reorder (Equiv.swap (0 : Fin 2) 1)).steps twoRefs) =
    (reorder (Equiv.swap 0 1)).results (use wideCfg twoRefs) :=
  C114_order rfl (Equiv.swap 0 1) wideCfg_norm twoRefs

/-- Closeness of two finite reference points, decided. -/
theorem close_iff_allclose {u : Recast 2 ℚ} {q q0 : Vec 2 (Option ℚ)}
    (h : allclose (u.convB q) (u.convB q0) = allclose q q0) :
    Close (u.convB q) (u.convB q0) ↔ Close q q0 := by
  rw [← allclose_iff, ← allclose_iff, h]

/-- Other origins for the example. -/
def exShift : Vec 2 ℚ := ![10, -7]

theorem twoRefs_close {u : Recast 2 ℚ}
    (h : ∀ a b : Bool, allclose (u.convB fun j => some ((if a then ![1, 1 / 2] else ![0, 2] : Vec 2 ℚ) j))
        (u.convB fun j => some ((if b then ![1, 1 / 2] else ![0, 2] : Vec 2 ℚ) j)) = (a == b)) :
    ∀ q q0, Asked twoRefs q → Asked twoRefs q0 →
      (Close (u.convB q) (u.convB q0) ↔ Close q q0) := by
  have h0 : ∀ a b : Bool, allclose (fun j => some ((if a then ![1, 1 / 2] else ![0, 2] : Vec 2 ℚ) j))
      (fun j => some ((if b then ![1, 1 / 2] else ![0, 2] : Vec 2 ℚ) j)) = (a == b) := by
    decide +kernel
  have ex : ∀ q, Asked twoRefs q →
      ∃ a : Bool, q = fun j => some ((if a then ![1, 1 / 2] else ![0, 2] : Vec 2 ℚ) j) := by
    intro q hq
    rcases twoRefs_asked hq with rfl | rfl
    · exact ⟨true, rfl⟩
    · exact ⟨false, rfl⟩
  intro q q0 hq hq0
  obtain ⟨a, rfl⟩ := ex q hq
  obtain ⟨b, rfl⟩ := ex q0 hq0
  exact close_iff_allclose ((h a b).trans (h0 a b).symm)

example : use ((shift exShift).data wideCfg) ((shift exShift).steps twoRefs) =
    (shift exShift).results (use wideCfg twoRefs) :=
  C115_origins_partial rfl exShift twoRefs twoRefs_full (twoRefs_close (by decide +kernel))

/-- Origins that are far away. -/
def farShift : Vec 2 ℚ := ![1000000000, 1000000000]

/-- **C115 fails.** With the values shifted by `10^9`, a second reference point at the other end of the
front is not noticed. -/
theorem C115_fails :
    wideCfg.asf = pointAsf wideCfg.ideal wideCfg.nadir ∧ (∀ i, InBox wideCfg.ideal wideCfg.nadir (wideCfg.front i)) ∧
    FullReferences 2 twoRefs ∧
    use ((shift farShift).data wideCfg) ((shift farShift).steps twoRefs) ≠
      (shift farShift).results (use wideCfg twoRefs) :=
  ⟨rfl, by decide +kernel, twoRefs_full, ne_of_beq_false (by decide +kernel)⟩

theorem wideCfg_separated {q : Vec 2 ℚ} (h : Asked twoRefs fun j => some (q j)) :
    Separated wideCfg (2 * (1 / 10 ^ 6) + ((1 : ℕ) + 1) / 10 ^ 6) q := by
  have hq : q = ![1, 1 / 2] ∨ q = ![0, 2] := by
    rcases twoRefs_asked h with h | h
    · left; funext j; simpa using congrFun h j
    · right; funext j; simpa using congrFun h j
  have key : ∀ (b : Bool) (i j : Fin 3), wideCfg.front i = wideCfg.front j ∨
      2 * (1 / 10 ^ 6) + ((1 : ℕ) + 1) / 10 ^ 6 <
        |vmax (fun l => (wideCfg.front i l - (if b then ![1, 1 / 2] else ![0, 2] : Vec 2 ℚ) l) /
            (wideCfg.nadir l - wideCfg.ideal l)) -
          vmax (fun l => (wideCfg.front j l - (if b then ![1, 1 / 2] else ![0, 2] : Vec 2 ℚ) l) /
            (wideCfg.nadir l - wideCfg.ideal l))| := by
    decide +kernel
  intro i j t t' ht ht'
  rw [← worst_vmax ht, ← worst_vmax ht']
  rcases hq with rfl | rfl
  · exact key true i j
  · exact key false i j

/-- Other units for the example. -/
def exScale : Vec 2 ℚ := ![2, 1 / 2]

theorem exScale_pos : ∀ j, 0 < exScale j := by decide +kernel

example : (use ((rescale exScale exScale_pos).data wideCfg) ((rescale exScale exScale_pos).steps twoRefs)).map
      (fun o => o.map Out.noDist) =
    ((rescale exScale exScale_pos).results (use wideCfg twoRefs)).map fun o => o.map Out.noDist :=
  C116_units_partial (c := wideCfg) (δ := 1 / 10 ^ 6) rfl (by decide +kernel) (by decide +kernel) exScale
    exScale_pos (by decide +kernel) (by decide +kernel) twoRefs twoRefs_full
    (twoRefs_close (by decide +kernel)) (fun q h _ => wideCfg_separated h)

/-- The same units for both objectives. -/
def evenScale : Vec 2 ℚ := ![3, 3]

theorem evenScale_pos : ∀ j, 0 < evenScale j := by decide +kernel

example : use ((rescale evenScale evenScale_pos).data wideCfg) ((rescale evenScale evenScale_pos).steps twoRefs) =
    (rescale evenScale evenScale_pos).results (use wideCfg twoRefs) :=
  C116_common_factor_partial (c := wideCfg) (δ := 1 / 10 ^ 6) (a := 3) supNorm_spec rfl (by decide +kernel)
    (by decide +kernel) evenScale evenScale_pos (by decide +kernel) (by decide +kernel)
    (by decide +kernel) twoRefs twoRefs_full (twoRefs_close (by decide +kernel))
    (fun q h _ => wideCfg_separated h)

/-- The second objective in a much larger unit: its values are at most `4 · 10^-9`. -/
def tinyScale : Vec 2 ℚ := ![1, 1 / 1000000000]

theorem tinyScale_pos : ∀ j, 0 < tinyScale j := by decide +kernel

/-- One response: aim at `(1/2, 1/2)`. -/
def oneRef : List (Nat × Resp ℚ) := [(0, forwardResp [some (1 / 2), some (1 / 2)] (.int 3) noB)]

/-- **C116 fails.** With the second objective in a unit in which its range is `4 · 10^-9`, the same
reference point leads elsewhere (the row `(1, 1)` is the best one for it in the old units; in the new
ones the second objective is ignored and the method heads for the row `(0, 2)`). -/
theorem C116_fails :
    wideCfg.asf = pointAsf wideCfg.ideal wideCfg.nadir ∧ (∀ i, InBox wideCfg.ideal wideCfg.nadir (wideCfg.front i)) ∧
    FullReferences 2 oneRef ∧
    (use ((rescale tinyScale tinyScale_pos).data wideCfg) ((rescale tinyScale tinyScale_pos).steps oneRef)).map
        (fun o => o.map Out.noDist) ≠
      ((rescale tinyScale tinyScale_pos).results (use wideCfg oneRef)).map fun o => o.map Out.noDist :=
  ⟨rfl, by decide +kernel, by
    intro p hp l h1 h2
    simp only [oneRef, List.mem_cons, List.not_mem_nil, or_false] at hp
    subst hp
    simp only [forwardResp, Option.some.injEq] at h1
    subst h1
    simp at h2, ne_of_beq_false (by decide +kernel)⟩

end Verif.Navigator
