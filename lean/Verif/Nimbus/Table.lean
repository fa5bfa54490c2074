import Verif.Nimbus.Near

/-!
# NIMBUS on a data table: a session starts and gets near any row that no row dominates (C191)
-/

set_option linter.unusedSectionVars false

namespace Verif.Nimbus

variable {K : Type} [Field K] [LinearOrder K] [IsStrictOrderedRing K] {k m : Nat}

/-- **C191**. Given a table with at least one row and two columns, its column minima as ideal and its column maxima as nadir,
the constructor accepts without a starting point and with any of `k` components, and the first request shows a row that no
row dominates; and in every history in which a classification is asked for, four answers lead near any row `p` that no row
dominates: to a row that no row dominates either and that is in no objective worse than `p` by more than `rho` times the
number of objectives, in units of the range of the column. Nothing else is assumed of the data. -/
theorem C191_data_table (hk : 2 ≤ k) {c : Cfg k m K} {N : Nat} {obj : Fin (N + 1) → Vec k K}
    {dec : Fin (N + 1) → Vec m K} {cl : Option (Vec m K) → Fin (N + 1)} (hd : c.problem = .discrete (N + 1) obj dec cl)
    (hideal : ∀ j, IsLeast (Set.range fun q => obj q j) (c.ideal j))
    (hnadir : ∀ j, IsGreatest (Set.range fun q => obj q j) (c.nadir j)) {range : Vec k K} {rho : K}
    (hasf : IsMaxOfTwo c.ideal range rho c.asf1) (h3 : ∀ z, PrefersDominating (c.asf3 z)) (hrho : 0 < rho)
    (hrange : ∀ j, 0 < range j) (hspan : ∀ j q q', obj q j - obj q' j ≤ range j) :
    (∀ (sp : Option (List K)) res, (∀ l, sp = some l → l.length = k) → ∃ s q, construct c sp res = .ok s ∧
      start s = .classify (obj q) ∧ s.sol = dec q ∧ ∀ q', ¬ Dominates (obj q') (obj q)) ∧
    ∀ (s : St k m K) f0 l, Reached c s (.classify f0 :: l) → (∀ x f, Req.stop x f ∉ Req.classify f0 :: l) →
      ∀ p, (∀ q, ¬ Dominates (obj q) (obj p)) →
      ∃ (cls : Fin k → Cls) (i : Int), ∀ (o0 o1 o2 o3 : Oracle k m K) (cont : Bool), ∃ q s1 r1 s2 r2 s3 r3 s4,
        answer c s (.classify f0) (.classify (complete cls (obj p) 1)) o0 = (s1, .ok r1) ∧
        answer c s1 r1 (.save (some [])) o1 = (s2, .ok r2) ∧
        answer c s2 r2 (.inter ⟨some [], some 0⟩) o2 = (s3, .ok r3) ∧
        answer c s3 r3 (.preferred ⟨some (.int i), some (.bool cont)⟩) o3 =
          (s4, .ok (if cont then .classify (obj q) else .stop (dec q) (obj q))) ∧
        (∀ j, obj q j ≤ obj p j + rho * k * range j) ∧ (∀ q', ¬ Dominates (obj q') (obj q)) := by
  constructor
  · intro sp res hsp
    obtain ⟨ref, href⟩ : ∃ ref, startRef c sp = .ok ref := by
      unfold startRef
      split
      · exact ⟨_, rfl⟩
      · exact ⟨_, rfl⟩
      · rw [if_pos (hsp _ rfl)]
        exact ⟨_, rfl⟩
    obtain ⟨q, hq⟩ := discreteMin_exists (obj := obj) (asf := c.asf3 ref) (fe := fun _ => true) (i := 0) rfl
    refine ⟨{ sol := dec q, obj := obj q, archSols := [], archObjs := [], phase := .classify }, q, ?_, rfl, rfl,
      fun q' => discreteMin_pareto hq (h3 ref) (fun _ _ _ _ => rfl) q'⟩
    unfold construct
    rw [href, hd]
    simp only [hq]
  · intro s f0 l h hns p hp
    obtain ⟨cls, i, hrun⟩ := C186_data (by omega) h hns hd hasf hrho hrange (fun j => by
      obtain ⟨q, hq⟩ := (hnadir j).1
      obtain ⟨q', hq'⟩ := (hideal j).1
      rw [← hq, ← hq']
      exact hspan j q q') (fun q j => (hideal j).2 ⟨q, rfl⟩) (p := p) (fun j => (hnadir j).2 ⟨p, rfl⟩) hp (by omega)
    refine ⟨cls, i, fun o0 o1 o2 o3 cont => ?_⟩
    obtain ⟨q, s1, r1, s2, r2, s3, r3, s4, e1, e2, e3, e4, e5, e6, _⟩ := hrun o0 o1 o2 o3 cont
    exact ⟨q, s1, r1, s2, r2, s3, r3, s4, e1, e2, e3, e4, e5, e6⟩

/-! ### Example -/

/-- Four rows none of which dominates another; ideal and nadir are the column minima and maxima. -/
def exTab : Cfg 2 1 ℚ := { exNby with asf3 := Navigator.pointAsf ![0, 0] ![1, 1] }

theorem exTab_points : (∀ j, IsLeast (Set.range fun q => exNbyRows q j) (exTab.ideal j)) ∧
    ∀ j, IsGreatest (Set.range fun q => exNbyRows q j) (exTab.nadir j) := by
  have h0 : ∀ j q, exTab.ideal j ≤ exNbyRows q j := by decide +kernel
  have h1 : ∀ j q, exNbyRows q j ≤ exTab.nadir j := by decide +kernel
  refine ⟨fun j => ⟨?_, ?_⟩, fun j => ⟨?_, ?_⟩⟩
  · match j with
    | 0 => exact ⟨0, by decide +kernel⟩
    | 1 => exact ⟨1, by decide +kernel⟩
  · rintro _ ⟨q, rfl⟩
    exact h0 j q
  · match j with
    | 0 => exact ⟨1, by decide +kernel⟩
    | 1 => exact ⟨0, by decide +kernel⟩
  · rintro _ ⟨q, rfl⟩
    exact h1 j q

example := C191_data_table (c := exTab) (by decide) rfl exTab_points.1 exTab_points.2 exTwoAsf_spec
  (pointAsf_prefersDominating (by decide +kernel)) (by norm_num) (fun _ => one_pos) (by decide +kernel)

end Verif.Nimbus
