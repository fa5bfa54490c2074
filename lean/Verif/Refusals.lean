import Verif.ENautilus.ExampleData
import Verif.Navigator.ExampleData
import Verif.Nimbus.ExampleData
import Verif.Nautilus.ExampleData
import Verif.NautilusV2.ExampleData
import Verif.Rpm.ExampleData
import Verif.ParetoNav.ExampleData

set_option linter.unusedSectionVars false
set_option linter.unnecessarySeqFocus false

/-!
# Property C104: which exception an unusable response raises

Setting the response of a request calls its validator. `Err.refused` stands for the exception class of the method
(`ENautilusException`, `NautilusNavigatorException`, ...), the only one documented.
-/

namespace Verif

variable {K : Type} [Field K] [LinearOrder K] [IsStrictOrderedRing K]

/-- The result of a validator is documented: it accepts, or it raises the exception class of its method. -/
def Documented (o : Except Err Unit) : Prop := o = .ok () ∨ o = .error .refused

theorem documented_of {o : Except Err Unit} (h : ∀ e, o = .error e → e = .refused) : Documented o := by
  rcases o with e | _
  · exact .inr (by rw [h e rfl])
  · exact .inl rfl

/-! ### E-NAUTILUS -/

namespace ENautilus

/-- C104 for E-NAUTILUS, for two or more objectives. -/
theorem C104_documented {k : Nat} (hk : k ≠ 1) (c : Content k K) (r0 : InitResp) (r : Resp k K) :
    Documented (validateInitial r0) ∧ Documented (validate c r) := by
  constructor
  · apply documented_of
    intro e h
    unfold validateInitial at h
    split at h
    · cases h; rfl
    · cases h; rfl
    · (split_ifs at h <;> cases h) <;> rfl
  · apply documented_of
    intro e h
    unfold validate at h
    split at h
    · split at h
      · unfold maxIndex at h
        rw [if_neg hk] at h
        split at h
        · rename_i he
          split_ifs at he
        · (split_ifs at h <;> cases h) <;> rfl
      · (split_ifs at h <;> cases h) <;> rfl
    · cases h; rfl

end ENautilus

/-! ### NAUTILUS Navigator -/

namespace Navigator

variable {n k : Nat} {V : Type}

/-- The flag is given and is not a bool. -/
def NotBool (o : Option PyVal) : Prop := ∃ v, o = some v ∧ ∀ b, v ≠ .bool b

/-- C104 for NAUTILUS Navigator up to the flags: anything but the documented exception is a `TypeError`, and only
if one of the flags is not a bool. Missing: these flags (`C104_fails`). -/
theorem C104_documented_partial (c : Cfg n k K V) (r : Resp K) (h : ¬ Documented (validate c r)) :
    validate c r = .error .typeError ∧ (NotBool r.goToPrevious ∨ NotBool r.stop) := by
  have hb : ∀ v : PyVal, (!PyVal.typeIsBool v) = true → ∀ b, v ≠ .bool b := by
    intro v hv b hvb
    subst hvb
    simp [PyVal.typeIsBool] at hv
  have hR : ∀ q e, validateRef c q = .error e → e = .refused := by
    intro q e h
    unfold validateRef at h
    split at h
    · cases h; rfl
    · (split_ifs at h <;> cases h) <;> rfl
  have hS : ∀ v e, validateSpeed v = .error e → e = .refused := by
    intro q e h
    unfold validateSpeed at h
    split at h
    · cases h; rfl
    · (split_ifs at h <;> cases h) <;> rfl
  unfold validate at h ⊢
  split at h
  · rename_i q v g u st _ _ hg _ hst
    split at h
    · rename_i e he
      exact absurd (.inr (by rw [hR q e he])) h
    · split at h
      · rename_i e he
        exact absurd (.inr (by rw [hS v e he])) h
      · split_ifs at h with h1 h2 h3
        · exact ⟨by simp [*], .inl ⟨g, hg, hb g h1⟩⟩
        · exact absurd (.inr rfl) h
        · exact ⟨by simp [*], .inr ⟨st, hst, hb st h3⟩⟩
        · exact absurd (.inl rfl) h
  · exact absurd (.inr rfl) h

def noResp : Resp ℚ :=
  { ref := some [some 1, some 1], speed := some (.int 1), goToPrevious := some (.int 0), userBounds := some [none, none],
    stop := some (.bool false) }

/-- C104 fails for NAUTILUS Navigator: a flag given as an integer raises `TypeError`. -/
theorem C104_fails : ¬ ∀ r : Resp ℚ, Documented (validate exCfg r) := by
  intro h
  have := h noResp
  revert this
  unfold Documented
  decide +kernel

example := C104_documented_partial exCfg noResp (by unfold Documented; decide +kernel)

end Navigator

/-! ### NIMBUS -/

namespace Nimbus

variable {k m : Nat}

/-- C104 for NIMBUS up to the shape of the levels: the validators of the other three requests only raise the
documented exception; that of the classification request raises anything else only if a single level is given
(`TypeError`) or there are more classes than objectives (`IndexError`). Missing: these cases
(`C104_fails`). -/
theorem C104_documented_partial (c : Cfg k m K) (n : Nat) (r : ClassResp K) (idx : Option (List Int))
    (ri : InterResp) (rp : PrefResp) :
    Documented (validateSave n idx) ∧ Documented (validateInter n ri) ∧ Documented (validatePreferred n rp) ∧
    (Documented (validateClassify c r) ∨
      (validateClassify c r = .error .typeError ∧ ∃ x, r.levels = some [x]) ∨
      (validateClassify c r = .error .indexError ∧ ∃ cls, r.classifications = some cls ∧ k < cls.length)) := by
  refine ⟨documented_of fun e h => ?_, documented_of fun e h => ?_, documented_of fun e h => ?_, ?_⟩
  · unfold validateSave at h
    split at h
    · cases h; rfl
    · (split_ifs at h <;> cases h) <;> rfl
  · unfold validateInter at h
    split at h
    · (split_ifs at h <;> cases h) <;> rfl
    · cases h; rfl
  · unfold validatePreferred at h
    split at h
    · split at h
      · cases h; rfl
      · split at h
        · split at h
          · cases h
          · cases h; rfl
        · cases h; rfl
    · cases h; rfl
  · have hL : ∀ cls x lv e, checkLevels c cls x lv = .error e → e = .refused ∨ (e = .indexError ∧ k < cls.length) := by
      intro cls x lv e h
      unfold checkLevels at h
      split_ifs at h with h1
      · cases h
        rw [List.any_eq_true] at h1
        obtain ⟨p, hp, hk⟩ := h1
        have hk : k ≤ p := by simpa using hk
        unfold inds at hp
        rw [List.mem_filter, List.mem_range] at hp
        exact .inr ⟨rfl, by omega⟩
      · cases h; exact .inl rfl
    cases hv : validateClassify c r with
    | ok u => exact .inl (.inl rfl)
    | error e =>
      unfold validateClassify at hv
      split at hv
      · rename_i cls lv num hcl hlv hnum
        by_cases h1 : (cls.any fun x => decide (x = Cls.other)) = true
        · rw [if_pos h1] at hv; cases hv; exact .inl (.inr rfl)
        rw [if_neg h1] at hv
        by_cases h2 : lv.length = 1
        · rw [if_pos h2] at hv
          cases hv
          obtain ⟨x, hx⟩ := List.length_eq_one_iff.1 h2
          exact .inr (.inl ⟨rfl, x, by rw [hlv, hx]⟩)
        rw [if_neg h2] at hv
        by_cases h3 : lv.length ≠ k
        · rw [if_pos h3] at hv; cases hv; exact .inl (.inr rfl)
        · rw [if_neg h3] at hv
          split at hv
          · rename_i e' he
            cases hv
            rcases hL _ _ _ _ he with rfl | ⟨rfl, hk⟩
            · exact .inl (.inr rfl)
            · exact .inr (.inr ⟨rfl, cls, hcl, hk⟩)
          · split at hv
            · rename_i e' he
              cases hv
              rcases hL _ _ _ _ he with rfl | ⟨rfl, hk⟩
              · exact .inl (.inr rfl)
              · exact .inr (.inr ⟨rfl, cls, hcl, hk⟩)
            · split at hv
              · cases hv
                exact .inl (.inr rfl)
              · cases hv
      · cases hv; exact .inl (.inr rfl)

/-- C104 fails for NIMBUS: `TypeError` for a single level, `IndexError` for three classes of two objectives. -/
theorem C104_fails :
    validateClassify exCfg ⟨some [.le, .ge], some [1], some 1⟩ = .error .typeError ∧
    validateClassify exCfg ⟨some [.le, .ge, .le], some [1, 1], some 1⟩ = .error .indexError := by
  decide +kernel

end Nimbus

/-! ### NAUTILUS -/

namespace Nautilus

variable {k m : Nat}

theorem validatePreferences_documented (hk : 0 < k) (r : Resp K) : Documented (validatePreferences k r) := by
  apply documented_of
  intro e h
  unfold validatePreferences at h
  split at h
  · rename_i info _ _
    split at h
    · cases h; rfl
    · split at h
      · split at h
        · cases h; rfl
        · rename_i h3
          cases info with
          | nil => simp at h3; omega
          | cons a l =>
            simp only [pyMax, npMax] at h
            split at h
            · cases h
            · cases h; rfl
      · (split_ifs at h <;> cases h) <;> rfl
  · cases h; rfl

theorem validateN_documented (n : Option PyVal) : Documented (validateN n) := by
  apply documented_of
  intro e h
  unfold validateN at h
  split at h
  · cases h
  · split_ifs at h
    cases h
    rfl

/-- C104 for NAUTILUS up to the keys of later responses: anything but the documented exception is a `KeyError`,
raised only for a response to a later request without `step_back` or `use_previous_preference`. Missing: these
responses (`C104_fails`). -/
theorem C104_documented_partial (hk : 0 < k) (c : Cfg k m K) (req : Req k m K) (r : Resp K) :
    Documented (validate c req r) ∨ (validate c req r = .error .keyError ∧ req ≠ .initial ∧
      (r.stepBack = none ∨ r.usePrevious = none)) := by
  cases req with
  | initial =>
    left
    apply documented_of
    intro e h
    unfold validate validateInitial at h
    dsimp only at h
    split_ifs at h
    · cases h; rfl
    · cases h; rfl
    · cases h; rfl
    · rcases validatePreferences_documented hk r with h1 | h1 <;> rw [h1] at h
      · rcases validateN_documented r.nIterations with h2 | h2 <;> rw [h2] at h <;> cases h
        rfl
      · cases h; rfl
  | stop => exact .inl (.inl rfl)
  | nav z lo up d =>
    show Documented (validateNav c z r) ∨ (validateNav c z r = .error .keyError ∧ _)
    unfold validateNav
    cases hb : r.stepBack with
    | none => exact .inr ⟨rfl, by simp, .inl rfl⟩
    | some back =>
      dsimp only
      split_ifs
      · exact .inl (.inr rfl)
      · cases hp : r.usePrevious with
        | none => exact .inr ⟨rfl, by simp, .inr rfl⟩
        | some prev =>
          left
          cases prev with
          | true => exact validateN_documented _
          | false =>
            dsimp only
            rcases validatePreferences_documented hk r with h1 | h1
            · simp only [h1, Bool.false_eq_true, if_false]
              exact validateN_documented _
            · simp only [h1, Bool.false_eq_true, if_false]
              exact .inr rfl

/-- C104 fails for NAUTILUS: a new preference without `step_back` raises `KeyError`. -/
theorem C104_fails : validate exCfg exR1 { method := some 1, info := some [1, 2] } = .error .keyError := by
  decide +kernel

end Nautilus

/-! ### NAUTILUS 2 -/

namespace NautilusV2

variable {k m : Nat}

/-- The preference information has a shape that does not belong to the method: pairs for method 3, an array
otherwise. -/
def WrongShape (r : Resp K) : Prop :=
  ∃ meth info, r.method = some meth ∧ r.info = some info ∧
    ((meth = 3 ∧ ∀ l, info ≠ .pairs l) ∨ (meth ≠ 3 ∧ ∀ l, info ≠ .arr l))

theorem validatePreferences_documented (r : Resp K) (hr : ¬ WrongShape r) : Documented (validatePreferences k r) := by
  apply documented_of
  intro e h
  unfold validatePreferences at h
  split at h
  · rename_i meth info hm hi
    by_cases h1 : ¬ (meth = 1 ∨ meth = 2 ∨ meth = 3)
    · rw [if_pos h1] at h; cases h; rfl
    rw [if_neg h1] at h
    by_cases h2 : meth = 3
    · rw [if_pos h2] at h
      cases info with
      | pairs l =>
        dsimp only at h
        unfold validatePairs at h
        (split_ifs at h <;> cases h) <;> rfl
      | arr l => exact absurd ⟨meth, _, hm, hi, .inl ⟨h2, fun l => by simp⟩⟩ hr
      | list l => exact absurd ⟨meth, _, hm, hi, .inl ⟨h2, fun l => by simp⟩⟩ hr
    · rw [if_neg h2] at h
      cases info with
      | pairs l => exact absurd ⟨meth, _, hm, hi, .inr ⟨h2, fun l => by simp⟩⟩ hr
      | list l => exact absurd ⟨meth, _, hm, hi, .inr ⟨h2, fun l => by simp⟩⟩ hr
      | arr l =>
        dsimp only at h
        (split_ifs at h <;> cases h) <;> rfl
  · cases h; rfl

theorem validateN_documented (n : Option PyVal) : Documented (validateN n) := by
  apply documented_of
  intro e h
  unfold validateN at h
  split at h
  · cases h
  · split_ifs at h
    cases h
    rfl

/-- C104 for NAUTILUS 2 up to missing keys and wrong shapes: anything but the documented exception is a
`KeyError` for a response to a later request without `step_back` or `use_previous_preference`, or is raised for
preference information that has the shape of another preference method. Missing: these responses
(`C104_fails`). -/
theorem C104_documented_partial (c : Cfg k m K) (req : Req k m K) (r : Resp K) :
    Documented (validate c req r) ∨ WrongShape r ∨ (validate c req r = .error .keyError ∧ req ≠ .initial ∧
      (r.stepBack = none ∨ r.usePrevious = none)) := by
  by_cases hr : WrongShape r
  · exact .inr (.inl hr)
  have hk := validatePreferences_documented (k := k) r hr
  cases req with
  | initial =>
    left
    apply documented_of
    intro e h
    unfold validate validateInitial at h
    dsimp only at h
    split_ifs at h
    · cases h; rfl
    · cases h; rfl
    · cases h; rfl
    · rcases hk with h1 | h1 <;> rw [h1] at h
      · rcases validateN_documented r.nIterations with h2 | h2 <;> rw [h2] at h <;> cases h
        rfl
      · cases h; rfl
  | stop => exact .inl (.inl rfl)
  | nav z lo up d =>
    show Documented (validateNav c z r) ∨ _ ∨ (validateNav c z r = .error .keyError ∧ _)
    unfold validateNav
    cases hb : r.stepBack with
    | none => exact .inr (.inr ⟨rfl, by simp, .inl rfl⟩)
    | some back =>
      dsimp only
      split_ifs
      · exact .inl (.inr rfl)
      · cases hp : r.usePrevious with
        | none => exact .inr (.inr ⟨rfl, by simp, .inr rfl⟩)
        | some prev =>
          left
          cases prev with
          | true => exact validateN_documented _
          | false =>
            dsimp only
            rcases hk with h1 | h1
            · simp only [h1, Bool.false_eq_true, if_false]
              exact validateN_documented _
            · simp only [h1, Bool.false_eq_true, if_false]
              exact .inr rfl

/-- C104 fails for NAUTILUS 2: `KeyError` for a missing key, `TypeError` for direct components in a Python list,
`IndexError` for an array in place of pairs, `TypeError` for a list of numbers in place of pairs. -/
theorem C104_fails :
    validate exCfg exR1 { method := some 1, info := some (.arr [1, 2]) } = .error .keyError ∧
    validate exCfg .initial { nIterations := some (.int 2), method := some 1, info := some (.list [1, 2]) } =
      .error .typeError ∧
    validate exCfg .initial { nIterations := some (.int 2), method := some 3, info := some (.arr [1]) } =
      .error .indexError ∧
    validate exCfg .initial { nIterations := some (.int 2), method := some 3, info := some (.list [1]) } =
      .error .typeError := by
  decide +kernel

end NautilusV2

/-! ### Reference point method -/

namespace Rpm

variable {k : Nat} {X D : Type}

/-- C104 for the reference point method up to the index: anything but the documented exception is raised only for
a satisfied decision maker without index (`KeyError`), or with a string as index (`TypeError`). Missing: these
responses (`C104_fails`). -/
theorem C104_documented_partial (c : Cfg k X D K) (req : Req k X K) (r : Resp K) :
    Documented (validate c req r) ∨
    (r.satisfied = some true ∧ ((validate c req r = .error .keyError ∧ r.index = none) ∨
      (validate c req r = .error .typeError ∧ ∃ s, s ≠ "" ∧ r.index = some (.str s)))) := by
  have hR : ∀ l, Documented (validateRef c l) := by
    intro l
    apply documented_of
    intro e h
    unfold validateRef at h
    (split_ifs at h <;> cases h) <;> rfl
  cases req with
  | initial =>
    left
    show Documented (validateInitial c r)
    unfold validateInitial
    cases r.ref with
    | none => exact .inr rfl
    | some l => exact hR l
  | stop => exact .inl (.inl rfl)
  | nav f a =>
    show Documented (validateNav c r) ∨ (_ ∧ ((validateNav c r = _ ∧ _) ∨ (validateNav c r = _ ∧ _)))
    unfold validateNav
    split_ifs with hs
    · unfold validateIndex
      cases hi : r.index with
      | none => exact .inr ⟨hs, .inl ⟨rfl, rfl⟩⟩
      | some v =>
        cases v with
        | none => exact .inl (.inr rfl)
        | str s =>
          dsimp only
          split_ifs with h
          · exact .inl (.inr rfl)
          · exact .inr ⟨hs, .inr ⟨rfl, s, h, rfl⟩⟩
        | int z => left; dsimp only; split_ifs; exacts [.inl rfl, .inr rfl]
        | bool z => left; dsimp only; split_ifs; exacts [.inl rfl, .inr rfl]
        | float z => left; dsimp only; split_ifs; exacts [.inl rfl, .inr rfl]
    · left
      cases r.ref with
      | none => exact .inr rfl
      | some l => exact hR l

/-- C104 fails for the reference point method: `KeyError` for a missing index, `TypeError` for a string; an empty
string and `None` are refused as documented. -/
theorem C104_fails :
    validate exCfg exR1 { satisfied := some true } = .error .keyError ∧
    validate exCfg exR1 { satisfied := some true, index := some (.str "1") } = .error .typeError ∧
    validate exCfg exR1 { satisfied := some true, index := some (.str "") } = .error .refused ∧
    validate exCfg exR1 { satisfied := some true, index := some .none } = .error .refused := by
  decide +kernel

end Rpm

/-! ### Pareto Navigator -/

namespace ParetoNav

variable {k : Nat} {X : Type}

/-- C104 for Pareto Navigator. -/
theorem C104_documented (req : Req k X K) (r : Resp K) : Documented (validate req r) := by
  have hR : ∀ (nadir : Vec k K) l, Documented (validateRef nadir l) := by
    intro nadir l
    apply documented_of
    intro e h
    unfold validateRef at h
    (split_ifs at h <;> cases h) <;> rfl
  have hS : ∀ v, Documented (validateSpeed v) := by
    intro v
    apply documented_of
    intro e h
    unfold validateSpeed at h
    split at h
    · cases h; rfl
    · split_ifs at h; cases h; rfl
  cases req with
  | stop => exact .inl rfl
  | solution => exact .inl rfl
  | initial lo hi l =>
    show Documented (validateInitial hi r)
    unfold validateInitial
    split_ifs
    · exact .inr rfl
    · split
      · rename_i e he
        split at he
        · rcases hR hi _ with h | h <;> rw [h] at he <;> cases he
          exact .inr rfl
        · cases he
        · cases he; exact .inr rfl
      · cases r.speed with
        | none => exact .inr rfl
        | some v => exact hS v
  | nav c lo hi =>
    have hP : Documented (validatePref hi r) := by
      unfold validatePref
      split
      · exact .inr rfl
      · exact hR _ _
      · split_ifs; exacts [.inl rfl, .inr rfl]
      · exact .inl rfl
    show Documented (validateNav hi r)
    unfold validateNav
    split_ifs
    · exact .inl rfl
    · cases r.speed with
      | none => exact hP
      | some v =>
        dsimp only
        rcases hS v with h | h <;> rw [h]
        · exact hP
        · exact .inr rfl

end ParetoNav
end Verif
