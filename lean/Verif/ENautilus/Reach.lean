import Verif.ENautilus.Props2

/-!
# E-NAUTILUS: every solution can be reached in the planned number of iterations (C175)
-/

namespace Verif.ENautilus

variable {K V : Type} [Field K] [LinearOrder K] [IsStrictOrderedRing K] {n k : Nat}

/-- The point a fraction `h / N` of the way from the nadir point to `f`. -/
def onTheWay (nadir f : Vec k K) (N h : Nat) : Vec k K := fun j => nadir j + (h : K) / (N : K) * (f j - nadir j)

theorem onTheWay_le {nadir f : Vec k K} (hf : AtLeastAsGood f nadir) {N h : Nat} (hN : 1 ≤ N) (hh : h ≤ N) :
    AtLeastAsGood f (onTheWay nadir f N h) := by
  intro j
  have hN' : (0 : K) < N := by exact_mod_cast hN
  have h1 : (h : K) / N ≤ 1 := by rw [div_le_one hN']; exact_mod_cast hh
  have := hf j
  simp only [onTheWay]
  nlinarith

theorem onTheWay_all {nadir f : Vec k K} {N : Nat} (hN : 1 ≤ N) : onTheWay nadir f N N = f := by
  have hN' : (N : K) ≠ 0 := by exact_mod_cast (by omega : N ≠ 0)
  funext j
  simp only [onTheWay, div_self hN']
  ring

theorem onTheWay_next {nadir f : Vec k K} {N h : Nat} (hh : h < N) :
    intermediatePoint (onTheWay nadir f N h) f ((N : Int) - h) = onTheWay nadir f N (h + 1) := by
  have hN' : (N : K) ≠ 0 := by exact_mod_cast (by omega : N ≠ 0)
  have hd : ((N : K) - h) ≠ 0 := by
    have : (h : K) < N := by exact_mod_cast hh
    linarith
  funext j
  simp only [intermediatePoint, onTheWay]
  push_cast
  field_simp
  ring

/-- The request on the way to row `i` after `h` choices. -/
structure OnWay (c : Cfg n 2 K V) (i : Fin n) (N h : Nat) (s : St n 2 K) (ct : Content 2 K) : Prop where
  reached : ∃ hist, Reached c s (.points ct) hist
  left : ct.left = (N : Int) - h
  nPoints : ∃ nP, s.nPoints = some nP ∧ (n : Int) ≤ nP
  offered : onTheWay c.nadir (c.front i) N (h + 1) ∈ ct.points

omit [Field K] [LinearOrder K] [IsStrictOrderedRing K] in
theorem representative_all {front : Fin n → Vec k K} {subset : List (Fin n)} {nP : Int} (km : KMeans k K)
    (h : (subset.length : Int) ≤ nP) : representative front subset nP km = .ok (subset.map front) := by
  unfold representative
  rw [if_neg (by omega)]

theorem compute_offers {c : Cfg n k K V} {reach : List (Fin n)} {pref : Vec k K} {nP left : Int} {km : KMeans k K}
    {ct : Content k K} (hc : compute c reach pref nP left km = .ok ct) (hlen : (reach.length : Int) ≤ nP) {i : Fin n}
    (hi : i ∈ reach) : ct.left = left ∧ intermediatePoint pref (c.front i) left ∈ ct.points := by
  obtain ⟨_, h2, _, zbars, h3, h4, _⟩ := compute_ok hc
  rw [representative_all km hlen, Except.ok.injEq] at h3
  subst h3
  refine ⟨h2, ?_⟩
  rw [h4]
  exact List.mem_map.2 ⟨_, List.mem_map.2 ⟨i, hi, rfl⟩, rfl⟩

/-- One choice on the way. -/
theorem onWay_step {c : Cfg n 2 K V} (hnd : MutuallyNondominated c.front)
    (hnad : ∀ i, AtLeastAsGood (c.front i) c.nadir) (hvars : ∀ vs, c.vars = some vs → vs.length = n)
    {i : Fin n} {N h : Nat} (hN : h + 1 ≤ N) {s : St n 2 K} {ct : Content 2 K} (hs : OnWay c i N h s ct) :
    ∃ m : Nat, m < ct.points.length ∧ ∀ km, KMeansOk km → ∃ s' o, answer c s ct (chooseResp m) km = (s', .ok o) ∧
      (h + 1 < N → ∃ ct', o = .points ct' ∧ OnWay c i N (h + 1) s' ct') ∧
      (h + 1 = N → ∃ sol, o = .stop (c.front i) sol ∧ findSolution c (c.front i) = .ok sol) := by
  obtain ⟨⟨hist, hr⟩, hleft, ⟨nP, hnP, hnP1⟩, hoff⟩ := hs
  obtain ⟨m, hm⟩ := List.mem_iff_getElem?.1 hoff
  have hlt : m < ct.points.length := (List.getElem?_eq_some_iff.1 hm).1
  refine ⟨m, hlt, fun km hkm => ?_⟩
  obtain ⟨s', o, ha, hor⟩ := C06_never_fails_two_objectives_partial hnd hnad hvars hr hkm (r := chooseResp m) rfl
    (by simp [PositiveChange, chooseResp]) rfl (by simp) rfl hlt
  refine ⟨s', o, ha, ?_⟩
  obtain ⟨inv1, inv2⟩ := hr.invariant
  obtain ⟨hmem, hsl⟩ := inv2 ct rfl
  obtain ⟨g1, g2, g3⟩ := (inv1 ct hmem).good
  obtain ⟨a, z, left, b1, _, b3, b4, b5⟩ := answer_choice_ok ha rfl
  obtain rfl : (m : Int) = a := Option.some.inj b1
  rw [Int.toNat_natCast] at b3 b5
  obtain rfl := Option.some.inj (hm.symm.trans b3)
  obtain rfl := Option.some.inj (hsl.symm.trans b4)
  rcases b5 with ⟨hle, sol, hf, rfl, _⟩ | ⟨hgt, lo, hi, ch, left', nP', ct', e1, e2, e3, e4, e5, e6, rfl, _, rfl⟩
  · refine ⟨by omega, fun hend => ⟨sol, ?_⟩⟩
    rw [hend, onTheWay_all (by omega)] at hf ⊢
    exact ⟨rfl, hf⟩
  · refine ⟨fun hlt' => ⟨ct', rfl, ⟨ct' :: hist, .choose hr rfl (by simp [PositiveChange, chooseResp]) ha⟩, ?_, ⟨nP, hnP, hnP1⟩, ?_⟩, by omega⟩
    all_goals
      obtain rfl := Option.some.inj (hnP.symm.trans e5)
      obtain rfl : false = ch := Option.some.inj e3
      simp only [Bool.false_eq_true, if_false, Option.some.injEq] at e4
      have hex := g3 m _ lo hi hm e1 e2
      have hin : i ∈ reachable c.front lo hi := by
        have hle := onTheWay_le (hnad i) (by omega) hN
        refine (mem_reachable _ _ _ _).2 fun j => ⟨?_, ?_⟩
        · exact (hex j).1.2 i (fun j' _ => hle j')
        · exact (hex j).2.2 i (fun j' _ => hle j')
      have hlen : ((reachable c.front lo hi).length : Int) ≤ nP := by
        have : (reachable c.front lo hi).length ≤ (List.finRange n).length := List.length_filter_le _ _
        rw [List.length_finRange] at this
        omega
      obtain ⟨o1, o2⟩ := compute_offers e6 hlen hin
      have hl : left' = (N : Int) - ((h + 1 : Nat) : Int) := by push_cast; omega
    · rw [o1, hl]
    · rw [hl, onTheWay_next hlt'] at o2
      exact o2

/-- From a request on the way to row `i`, the remaining choices end there. -/
theorem onWay_session {c : Cfg n 2 K V} (hnd : MutuallyNondominated c.front)
    (hnad : ∀ i, AtLeastAsGood (c.front i) c.nadir) (hvars : ∀ vs, c.vars = some vs → vs.length = n) {i : Fin n} {N : Nat}
    (kms : List (KMeans 2 K)) : ∀ {h : Nat} {s : St n 2 K} {ct : Content 2 K}, OnWay c i N h s ct →
      h + kms.length = N → kms ≠ [] → (∀ km ∈ kms, KMeansOk km) →
      ∃ picks : List Nat, picks.length = kms.length ∧ ∃ s' sol,
        session c s (.points ct) (List.zipWith (fun m km => (chooseResp (m : Nat), km)) picks kms) =
          .ok (s', .stop (c.front i) sol) ∧ findSolution c (c.front i) = .ok sol := by
  induction kms with
  | nil => exact fun _ _ hne => absurd rfl hne
  | cons km rest ih =>
    intro h s ct hs hlen _ hok
    simp only [List.length_cons] at hlen
    obtain ⟨m, _, hm⟩ := onWay_step hnd hnad hvars (by omega) hs
    obtain ⟨s', o, ha, hmid, hend⟩ := hm km (hok km (by simp))
    cases rest with
    | nil =>
      obtain ⟨sol, rfl, hf⟩ := hend (by simpa using hlen)
      refine ⟨[m], rfl, s', sol, ?_, hf⟩
      simp only [List.zipWith, session, next, ha]
    | cons km' rest =>
      obtain ⟨ct', rfl, hs'⟩ := hmid (by simp at hlen; omega)
      obtain ⟨picks, hp, s'', sol, hses, hf⟩ := ih hs' (by simp at hlen ⊢; omega) (by simp)
        (fun x hx => hok x (List.mem_cons_of_mem _ hx))
      refine ⟨m :: picks, by simp [hp], s'', sol, ?_, hf⟩
      rw [List.zipWith_cons_cons, session]
      simp only [next, ha]
      exact hses

theorem rangeKm : KMeansOk (fun (_ : List (Vec 2 ℚ)) (m : Int) => List.range m.toNat) := by
  intro pts m h1 h2
  refine ⟨by simp; omega, ?_⟩
  intro a ha
  have := List.mem_range.1 ha
  omega

/-! ### C175 -/

/-- **C175**, proved for two objectives. Whatever number `N` of iterations is planned and whatever row `i` of the front
the decision maker has in mind: asked to show at least as many points as the front has rows, the method offers at every
iteration a point on the way to the row; choosing it each time never fails, and the `N`th choice ends the method with
the objective vector of the row and the decision vector of a row with these objective values. -/
theorem C175_two_objectives_partial {c : Cfg n 2 K V} (hn : NormSpec c.nrm) (hnd : MutuallyNondominated c.front)
    (hnad : ∀ i, AtLeastAsGood (c.front i) c.nadir) (hvars : ∀ vs, c.vars = some vs → vs.length = n)
    (i : Fin n) {N : Nat} (hN : 1 ≤ N) {nP : Int} (hnP : (n : Int) ≤ nP) {km : KMeans 2 K} (hkm : KMeansOk km)
    {kms : List (KMeans 2 K)} (hlen : kms.length = N) (hkms : ∀ km ∈ kms, KMeansOk km) :
    ∃ s ct, begin c (initSt c) ⟨some (.int N), some (.int nP)⟩ km = (s, .ok (.points ct)) ∧
      ∃ picks : List Nat, picks.length = N ∧ ∃ s' sol,
        session c s (.points ct) (List.zipWith (fun m km => (chooseResp (m : Nat), km)) picks kms) =
          .ok (s', .stop (c.front i) sol) ∧
        (∀ vs, c.vars = some vs → ∃ p : Fin n, c.front p = c.front i ∧ sol = vs[p.val]? ∧ sol.isSome) ∧
        (c.vars = none → sol = none) := by
  have hn0 : 0 < n := Nat.lt_of_le_of_lt (Nat.zero_le _) i.isLt
  have hin : i ∈ List.finRange n := List.mem_finRange i
  obtain ⟨ct, hct, _⟩ := compute_exists (c := c) (reach := List.finRange n) (pref := c.nadir) (nP := nP)
    (left := (N : Int)) hkm (by omega) (by omega) (List.ne_nil_of_mem hin) (fun p _ => hnad p)
  have hb : begin c (initSt c) ⟨some (.int N), some (.int nP)⟩ km =
      ({ (initSt c) with left := some (N : Int), nPoints := some nP, preferred := some c.nadir }, .ok (.points ct)) := by
    have hv : validateInitial ⟨some (.int N), some (.int nP)⟩ = .ok () := by
      have h1 : ¬ ((N : Int) < 1) := by omega
      have h2 : ¬ (nP < 1) := by omega
      simp only [validateInitial, PyVal.isInstanceInt, PyVal.asInt, h1, h2]
      rfl
    unfold begin
    rw [hv]
    simp only [handleInitial, PyVal.asInt, initSt, hct]
    rw [mkRequest_of (by
      unfold maxIndex
      by_cases h1 : ct.points.length = 1
      · exact ⟨2, by simp [h1]⟩
      · exact ⟨ct.points.length, by simp [h1]⟩)]
  obtain ⟨o1, o2⟩ := compute_offers hct (by simpa using hnP) hin
  have hw : OnWay c i N 0 { (initSt c) with left := some (N : Int), nPoints := some nP, preferred := some c.nadir } ct := by
    refine ⟨⟨_, .start hb⟩, by simpa using o1, ⟨nP, rfl, hnP⟩, ?_⟩
    have e : onTheWay c.nadir (c.front i) N 0 = c.nadir := by funext j; simp [onTheWay]
    have := onTheWay_next (nadir := c.nadir) (f := c.front i) (N := N) (h := 0) (by omega)
    rw [e] at this
    rw [← this]
    simpa using o2
  obtain ⟨picks, hp, s', sol, hses, hf⟩ := onWay_session hnd hnad hvars kms hw (by omega)
    (by intro h; subst h; simp at hlen; omega) hkms
  refine ⟨_, ct, hb, picks, by omega, s', sol, hses, ?_, ?_⟩
  · exact fun vs hv => findSolution_spec hn hf hv ⟨i, rfl⟩
  · intro hv
    simpa [findSolution, hv] using hf.symm

/-- The hypotheses are met by the running example: three iterations to the middle row. -/
example := C175_two_objectives_partial (c := exCfg) supNorm_spec (by decide +kernel) (by decide +kernel)
  (fun vs hv => by cases hv; rfl) 1 (N := 3) (by decide) (nP := 5) (by decide)
  (km := fun _ m => List.range m.toNat) rangeKm (kms := List.replicate 3 fun _ m => List.range m.toNat) rfl
  (by intro km h; rw [List.eq_of_mem_replicate h]; exact rangeKm)

end Verif.ENautilus
