import Verif.Constructors.Model
import Verif.Nautilus.Model
import Verif.NautilusV2.Model
import Verif.Rpm.Model

/-!
# Property C84: constructors accept exactly consistent arguments
-/

namespace Verif.Constructors

/-- Names are consistent: none are given (or the list is empty), or one per objective. -/
def NamesFit (k : Nat) (names : Option Nat) : Prop := names = none ∨ names = some 0 ∨ names = some k

/-- **C84** (E-NAUTILUS). For one-dimensional ideal and nadir points the constructor accepts exactly
two-dimensional fronts whose number of columns is the length of the ideal point, nadirs of the same length
and names that fit; everything else is refused. -/
theorem C84_enautilus (front : List Nat) (ki kn : Nat) (names : Option Nat) :
    (eNautilus front [ki] [kn] names = .ok () ↔
      (∃ n, front = [n, ki]) ∧ ki = kn ∧ NamesFit ki names) ∧
    (eNautilus front [ki] [kn] names = .ok () ∨ eNautilus front [ki] [kn] names = .error .refused) := by
  have hs : ∀ n c, eNautilus [n, c] [ki] [kn] names =
      if ki ≠ c then .error .refused else if ki ≠ kn then .error .refused
      else match names with
        | none => .ok ()
        | some l => if l = 0 then .ok () else if l = ki then .ok () else .error .refused := by
    intro n c
    simp only [eNautilus, ne_eq, List.cons.injEq, and_true]
    cases names <;> rfl
  have ho : (¬ ∃ n c, front = [n, c]) → eNautilus front [ki] [kn] names = .error .refused := by
    intro h
    unfold eNautilus
    split
    · rename_i n c
      exact absurd ⟨n, c, rfl⟩ h
    · rfl
  by_cases h : ∃ n c, front = [n, c]
  · obtain ⟨n, c, rfl⟩ := h
    rw [hs]
    by_cases h1 : ki = c
    · subst h1
      by_cases h2 : ki = kn
      · subst h2
        cases names with
        | none => simp [NamesFit]
        | some l =>
          by_cases h3 : l = 0
          · simp [h3, NamesFit]
          · by_cases h4 : l = ki
            · simp [h4, NamesFit]
            · simp [h3, h4, NamesFit]
      · simp [h2]
    · simp only [ne_eq, h1, not_false_eq_true, if_true]
      simp
      intro h
      exact absurd h.symm h1
  · rw [ho h]
    refine ⟨⟨by simp, ?_⟩, .inr rfl⟩
    rintro ⟨⟨n, hn⟩, _⟩
    exact absurd ⟨n, ki, hn⟩ h

/-- **C84** (NAUTILUS Navigator). Likewise, with decision variables one per row of the front, if given. -/
theorem C84_navigator (front : List Nat) (ki kn : Nat) (dvars : Option (List Nat))
    (hv : dvars ≠ some []) :
    (navigator front [ki] [kn] dvars = .ok () ↔
      ∃ n, front = [n, ki] ∧ ki = kn ∧ (dvars = none ∨ ∃ rest, dvars = some (n :: rest))) ∧
    (navigator front [ki] [kn] dvars = .ok () ∨ navigator front [ki] [kn] dvars = .error .refused) := by
  have ho : (¬ ∃ n c, front = [n, c]) → navigator front [ki] [kn] dvars = .error .refused := by
    intro h
    unfold navigator
    split
    · rename_i n c
      exact absurd ⟨n, c, rfl⟩ h
    · rfl
  by_cases h : ∃ n c, front = [n, c]
  · obtain ⟨n, c, rfl⟩ := h
    have tail : ∀ (P : Prop), (P ↔ (c = ki ∧ ki = kn)) →
        ((if ki ≠ c then (.error .refused : Except Err Unit)
          else if ([ki] : List Nat) ≠ [kn] then .error .refused else .ok ()) = .ok () ↔ P) ∧
        ((if ki ≠ c then (.error .refused : Except Err Unit)
          else if ([ki] : List Nat) ≠ [kn] then .error .refused else .ok ()) = .ok () ∨
         (if ki ≠ c then (.error .refused : Except Err Unit)
          else if ([ki] : List Nat) ≠ [kn] then .error .refused else .ok ()) = .error .refused) := by
      intro P hP
      by_cases h1 : ki = c
      · by_cases h2 : ki = kn
        · simp [h1, hP, ← h2]
        · have : c ≠ kn := h1 ▸ h2
          simp [h1, hP, this]
      · have : c ≠ ki := fun e => h1 e.symm
        simp [h1, hP, this]
    match dvars, hv with
    | none, _ =>
      simp only [navigator]
      apply tail
      simp
    | some (v :: rest), _ =>
      simp only [navigator]
      by_cases hvn : v = n
      · simp only [hvn, ne_eq, not_true_eq_false, if_false]
        apply tail
        simp
      · simp only [ne_eq, hvn, not_false_eq_true, if_true]
        simp
        intro h1
        exact absurd h1.symm hvn
  · rw [ho h]
    refine ⟨⟨by simp, ?_⟩, .inr rfl⟩
    rintro ⟨n, hn, _⟩
    exact absurd ⟨n, ki, hn⟩ h

/-- **C84** (NAUTILUS). Without a `minimize` list, the constructor accepts exactly ideal and nadir of the
same length and names that fit; everything else is refused. What is missing: `minimize` lists, see
`C84_fails_minimize`. -/
theorem C84_nautilus_partial (ki kn : Nat) (names : Option Nat) :
    (Nautilus.construct ki kn names none = .ok () ↔ ki = kn ∧ NamesFit ki names) ∧
    (Nautilus.construct ki kn names none = .ok () ∨ Nautilus.construct ki kn names none = .error .refused) := by
  unfold Nautilus.construct NamesFit
  by_cases h : ki = kn
  · subst h
    cases names with
    | none => simp
    | some l =>
      by_cases h1 : l = 0
      · simp [h1, Option.filter]
      · by_cases h2 : l = ki
        · simp [h2, Option.filter]
        · have : 0 < l := by omega
          simp [h1, h2, Option.filter]
  · simp [h]

/-- **C84** (Reference Point Method), likewise. -/
theorem C84_rpm_partial (ki kn : Nat) (names : Option Nat) :
    (Rpm.construct ki kn names none = .ok () ↔ ki = kn ∧ NamesFit ki names) ∧
    (Rpm.construct ki kn names none = .ok () ∨ Rpm.construct ki kn names none = .error .refused) := by
  unfold Rpm.construct NamesFit
  by_cases h : ki = kn
  · subst h
    cases names with
    | none => simp
    | some l =>
      by_cases h1 : l = 0
      · simp [h1, Option.filter]
      · by_cases h2 : l = ki
        · simp [h2, Option.filter]
        · simp [h1, h2, Option.filter]
  · simp [h]

/-- **C84** (NAUTILUS v2). Moreover the starting point must have the length of the ideal point and must be no
worse than the nadir in at least one objective. -/
theorem C84_nautilusV2_partial {K : Type} [Field K] [LinearOrder K] (ki kn ks : Nat) (start nadir : Nat → K)
    (names : Option Nat) :
    (NautilusV2.construct ki kn ks start nadir names none = .ok () ↔
      ki = kn ∧ ki = ks ∧ (∃ i < ki, start i ≤ nadir i) ∧ NamesFit ki names) ∧
    (NautilusV2.construct ki kn ks start nadir names none = .ok () ∨
      NautilusV2.construct ki kn ks start nadir names none = .error .refused) := by
  unfold NautilusV2.construct NamesFit
  by_cases h : ki = kn
  · subst h
    by_cases h' : ki = ks
    · subst h'
      by_cases h3 : ∃ i < ki, start i ≤ nadir i
      · have h4 : ((List.range ki).all fun i => decide (nadir i < start i)) = false := by
          obtain ⟨i, hi, hle⟩ := h3
          rw [Bool.eq_false_iff]
          intro hall
          rw [List.all_eq_true] at hall
          have := hall i (List.mem_range.2 hi)
          simp only [decide_eq_true_eq] at this
          exact absurd this (not_lt.2 hle)
        rw [h4]
        cases names with
        | none => simp [h3]
        | some l =>
          by_cases h1 : l = 0
          · simp [h1, h3, Option.filter]
          · by_cases h2 : l = ki
            · simp [h2, h3, Option.filter]
            · simp [h1, h2, Option.filter]
      · have h4 : ((List.range ki).all fun i => decide (nadir i < start i)) = true := by
          rw [List.all_eq_true]
          intro i hi
          simp only [decide_eq_true_eq]
          by_contra hc
          exact h3 ⟨i, List.mem_range.1 hi, not_lt.1 hc⟩
        simp [h4, h3]
    · simp [h']
  · simp [h]

/-- C84 fails for `minimize` lists: one that fits, without names, raises a `TypeError` instead of being
accepted; one of the wrong length (here 5 for 2 objectives) is accepted if the names fit. -/
theorem C84_fails_minimize :
    Nautilus.construct 2 2 none (some 2) = .error .typeError ∧
    Nautilus.construct 2 2 (some 2) (some 5) = .ok () ∧
    Rpm.construct 2 2 none (some 2) = .error .typeError ∧
    Rpm.construct 2 2 (some 2) (some 5) = .ok () ∧
    NautilusV2.construct (K := ℚ) 2 2 2 (fun _ => 0) (fun _ => 1) none (some 2) = .error .typeError ∧
    NautilusV2.construct (K := ℚ) 2 2 2 (fun _ => 0) (fun _ => 1) (some 2) (some 5) = .ok () :=
  ⟨rfl, rfl, rfl, rfl, rfl, rfl⟩

/-- C84 fails for NAUTILUS v2: a starting point that is worse than the nadir in the first of two objectives
is accepted. -/
theorem C84_fails_starting_point :
    NautilusV2.construct (K := ℚ) 2 2 2 (fun i => if i = 0 then 5 else 0) (fun _ => 1) none none = .ok () := by
  decide +kernel

example : eNautilus [10, 3] [3] [3] (some 3) = .ok () ∧ eNautilus [10, 3] [3] [3] (some 2) = .error .refused ∧
    eNautilus [10, 3] [2] [2] none = .error .refused ∧ navigator [10, 3] [3] [3] (some [10, 4]) = .ok () ∧
    navigator [10, 3] [3] [3] (some [9, 4]) = .error .refused := by decide

end Verif.Constructors
