import Verif.ENautilus.Units
import Mathlib.Tactic.NormNum
import Mathlib.Data.Rat.Sqrt
import Mathlib.Algebra.BigOperators.Fin

/-!
# E-NAUTILUS and objectives measured in different units
-/

namespace Verif.ENautilus

variable {K V : Type} [Field K] [LinearOrder K] {n k : Nat}

/-- What a result shows apart from the distances and the decision vector: the points, their bounds
and the iterations left, or the final objective vector. -/
def shown : Out k K V → Sum (List (Vec k K) × List (Vec k K) × List (Vec k K) × Int) (Vec k K)
  | .points ct => .inl (ct.points, ct.lowers, ct.uppers, ct.left)
  | .stop z _ => .inr z

/-- The same problem with another norm. -/
def reNorm (c : Cfg n k K V) (N : Vec k K → K) : Cfg n k K V := { c with nrm := N }

/-- Specification: there is a decision vector for every row of the front, or none at all. -/
def VarsMatch (c : Cfg n k K V) : Prop := ∀ vars, c.vars = some vars → vars.length = n

theorem compute_reNorm (c : Cfg n k K V) (N : Vec k K → K) (reach : List (Fin n)) (pref : Vec k K)
    (m left : Int) (km : KMeans k K) :
    (compute (reNorm c N) reach pref m left km).map (fun ct => { ct with distances := [] }) =
      (compute c reach pref m left km).map (fun ct => { ct with distances := [] }) := by
  unfold compute
  simp only [reNorm]
  cases representative c.front reach m km with
  | error e => rfl
  | ok zbars =>
    simp only
    cases intermediate pref zbars left with
    | error e => rfl
    | ok zs =>
      simp only
      cases bounds c.front zs with
      | error e => rfl
      | ok p => obtain ⟨lo, hi⟩ := p; rfl

/-- Requests agreeing in everything but the distances. -/
def Alike (a b : Content k K) : Prop :=
  a.points = b.points ∧ a.lowers = b.lowers ∧ a.uppers = b.uppers ∧ a.left = b.left

omit [Field K] [LinearOrder K] in
theorem mkRequest_shown {a b : Content k K} (h : Alike a b) :
    (mkRequest (V := V) a).map shown = (mkRequest (V := V) b).map shown := by
  obtain ⟨h1, h2, h3, h4⟩ := h
  unfold mkRequest
  rw [h1]
  cases maxIndex b.points with
  | error e => rfl
  | ok m => simp only [Except.map, shown, h1, h2, h3, h4]

theorem compute_alike (c : Cfg n k K V) (N : Vec k K → K) (reach : List (Fin n)) (pref : Vec k K)
    (m left : Int) (km : KMeans k K) :
    (∃ e, compute (reNorm c N) reach pref m left km = .error e ∧ compute c reach pref m left km = .error e) ∨
    ∃ a b, compute (reNorm c N) reach pref m left km = .ok a ∧ compute c reach pref m left km = .ok b ∧
      Alike a b := by
  have h := compute_reNorm c N reach pref m left km
  cases h1 : compute (reNorm c N) reach pref m left km with
  | error e =>
    cases h2 : compute c reach pref m left km with
    | error e' => rw [h1, h2] at h; exact Or.inl ⟨e, rfl, by simpa [Except.map] using h.symm⟩
    | ok b => rw [h1, h2] at h; simp [Except.map] at h
  | ok a =>
    cases h2 : compute c reach pref m left km with
    | error e' => rw [h1, h2] at h; simp [Except.map] at h
    | ok b =>
      rw [h1, h2] at h
      simp only [Except.map, Except.ok.injEq, Content.mk.injEq] at h
      exact Or.inr ⟨a, b, rfl, rfl, h.1, h.2.1, h.2.2.1, h.2.2.2.1⟩

omit [Field K] in
theorem npArgmin_lt {l : List K} {i : Nat} (h : npArgmin l = .ok i) : i < l.length := by
  cases l with
  | nil => simp [npArgmin] at h
  | cons a l =>
    simp only [npArgmin, Except.ok.injEq] at h
    have key : ∀ (l : List K) (b : K) (bi i : Nat), bi < i → argminGo b bi i l < i + l.length := by
      intro l
      induction l with
      | nil => intro b bi i h; simpa [argminGo] using h
      | cons x xs ih =>
        intro b bi i h
        simp only [argminGo, List.length_cons]
        split
        · have := ih x i (i + 1) (by omega); omega
        · have := ih b bi (i + 1) (by omega); omega
    have := key l a 0 1 (by omega)
    simp only [List.length_cons]; omega

theorem findSolution_alike {c : Cfg n k K V} (hv : VarsMatch c) (N : Vec k K → K) (z : Vec k K) :
    (∃ e, findSolution (reNorm c N) z = .error e ∧ findSolution c z = .error e) ∨
    ∃ a b, findSolution (reNorm c N) z = .ok a ∧ findSolution c z = .ok b := by
  unfold findSolution
  simp only [reNorm]
  cases hc : c.vars with
  | none => exact Or.inr ⟨_, _, rfl, rfl⟩
  | some vars =>
    have hlen := hv vars hc
    have tot : ∀ M : Vec k K → K,
        (n = 0 ∧ npArgmin ((List.finRange n).map fun i => M fun j => |c.front i j - z j|) =
          .error .valueError) ∨
        ∃ idx, npArgmin ((List.finRange n).map fun i => M fun j => |c.front i j - z j|) = .ok idx ∧
          ∃ v, vars[idx]? = some v := by
      intro M
      cases h : npArgmin ((List.finRange n).map fun i => M fun j => |c.front i j - z j|) with
      | error e =>
        left
        cases hl : (List.finRange n).map fun i => M fun j => |c.front i j - z j| with
        | nil =>
          rw [hl] at h
          simp only [npArgmin, Except.error.injEq] at h
          have := congrArg List.length hl
          simp at this
          exact ⟨this, by rw [h]⟩
        | cons a l => rw [hl] at h; simp [npArgmin] at h
      | ok idx =>
        right
        have := npArgmin_lt h
        rw [List.length_map, List.length_finRange, ← hlen] at this
        exact ⟨idx, rfl, vars[idx], List.getElem?_eq_getElem this⟩
    rcases tot N with ⟨h0, h1⟩ | ⟨i1, h1, v1, h2⟩
    · rcases tot c.nrm with ⟨_, h3⟩ | ⟨i, h3, v, h4⟩
      · left; exact ⟨.valueError, by simp only [h1], by simp only [h3]⟩
      · have := npArgmin_lt h3
        rw [List.length_map, List.length_finRange, h0] at this
        omega
    · rcases tot c.nrm with ⟨h0, h3⟩ | ⟨i, h3, v, h4⟩
      · have := npArgmin_lt h1
        rw [List.length_map, List.length_finRange, h0] at this
        omega
      · right
        exact ⟨some v1, some v, by simp only [h1, h2], by simp only [h3, h4]⟩

/-- Outcomes showing the same. -/
def Same (x y : St n k K × Except Err (Out k K V)) : Prop :=
  x.1 = y.1 ∧ x.2.map shown = y.2.map shown

theorem handleStop_same {c : Cfg n k K V} (hv : VarsMatch c) (N : Vec k K → K) (s : St n k K)
    (z : Vec k K) : Same (handleStop (reNorm c N) s z) (handleStop c s z) := by
  unfold handleStop
  rcases findSolution_alike hv N z with ⟨e, h1, h2⟩ | ⟨a, b, h1, h2⟩
  · simp only [h1, h2]; exact ⟨rfl, rfl⟩
  · simp only [h1, h2]; exact ⟨rfl, rfl⟩

theorem handleChoice_same {c : Cfg n k K V} (hv : VarsMatch c) (N : Vec k K → K) (s : St n k K)
    {ct' ct : Content k K} (hct : Alike ct' ct) (r : Resp k K) (km : KMeans k K) :
    Same (handleChoice (reNorm c N) s ct' r km) (handleChoice c s ct r km) := by
  obtain ⟨hp, hlo, hhi, -⟩ := hct
  unfold handleChoice
  rw [hp, hlo, hhi]
  cases r.preferredIndex with
  | none => exact ⟨rfl, rfl⟩
  | some i =>
    simp only
    cases pyGet ct.points i with
    | error e => exact ⟨rfl, rfl⟩
    | ok z =>
      simp only
      cases s.left with
      | none => exact ⟨rfl, rfl⟩
      | some left =>
        simp only
        by_cases hl : left ≤ 1
        · rw [if_pos hl, if_pos hl]
          exact handleStop_same hv N s z
        · rw [if_neg hl, if_neg hl]
          cases pyGet ct.lowers i with
          | error e => exact ⟨rfl, rfl⟩
          | ok lo =>
            cases pyGet ct.uppers i with
            | error e => exact ⟨rfl, rfl⟩
            | ok hi =>
              have hf : (reNorm c N).front = c.front := rfl
              simp only [hf]
              cases r.changeRemaining with
              | none => exact ⟨rfl, rfl⟩
              | some ch =>
                simp only
                cases (if ch then r.iterationsLeft else some (left - 1)) with
                | none => exact ⟨rfl, rfl⟩
                | some left' =>
                  simp only
                  cases s.nPoints with
                  | none => exact ⟨rfl, rfl⟩
                  | some nP =>
                    simp only
                    rcases compute_alike c N (reachable c.front lo hi) z nP left' km with
                      ⟨e, h1, h2⟩ | ⟨a, b, h1, h2, hab⟩
                    · simp only [h1, h2]; exact ⟨rfl, rfl⟩
                    · simp only [h1, h2]; exact ⟨rfl, mkRequest_shown hab⟩

/-- Responses agreeing in everything but the distances sent back. -/
def AlikeResp (a b : Resp k K) : Prop :=
  a.preferredIndex = b.preferredIndex ∧ a.stepBack = b.stepBack ∧
  a.changeRemaining = b.changeRemaining ∧ a.iterationsLeft = b.iterationsLeft ∧
  a.prevSolutions = b.prevSolutions ∧ a.prevLower = b.prevLower ∧ a.prevUpper = b.prevUpper ∧
  a.prevDistances.isSome = b.prevDistances.isSome

theorem next_same {c : Cfg n k K V} (hv : VarsMatch c) (N : Vec k K → K) (s : St n k K)
    {o' o : Out k K V} (ho : shown o' = shown o) {r' r : Resp k K} (hr : AlikeResp r' r)
    (km : KMeans k K) :
    Same (next (reNorm c N) s o' r' km) (next c s o r km) := by
  cases o' with
  | stop z' sol' =>
    cases o with
    | stop z sol => simp only [next]; exact ⟨rfl, by simpa [Except.map] using ho⟩
    | points ct => simp [shown] at ho
  | points ct' =>
    cases o with
    | stop z sol => simp [shown] at ho
    | points ct =>
      simp only [shown, Sum.inl.injEq, Prod.mk.injEq] at ho
      have hal : Alike ct' ct := ⟨ho.1, ho.2.1, ho.2.2.1, ho.2.2.2⟩
      obtain ⟨p1, sb1, ch1, it1, s1, l1, u1, d1⟩ := r'
      obtain ⟨p2, sb2, ch2, it2, s2, l2, u2, d2⟩ := r
      simp only [AlikeResp] at hr
      obtain ⟨rfl, rfl, rfl, rfl, rfl, rfl, rfl, hd⟩ := hr
      have hv' : validate ct' (⟨p1, sb1, ch1, it1, s1, l1, u1, d1⟩ : Resp k K) =
          validate ct ⟨p1, sb1, ch1, it1, s1, l1, u1, d2⟩ := by
        have : d1.isNone = d2.isNone := by
          cases d1 <;> cases d2 <;> simp_all
        unfold validate
        simp only [hal.1, this]
      unfold next answer
      simp only
      rw [hv']
      cases validate ct (⟨p1, sb1, ch1, it1, s1, l1, u1, d2⟩ : Resp k K) with
      | error e => exact ⟨rfl, rfl⟩
      | ok _ =>
        simp only [handle]
        cases sb1 with
        | none => exact ⟨rfl, rfl⟩
        | some b =>
          cases b with
          | false => 
            have h := handleChoice_same hv N s hal ⟨p1, some false, ch1, it1, s1, l1, u1, d1⟩ km
            have e : handleChoice c s ct ⟨p1, some false, ch1, it1, s1, l1, u1, d2⟩ km =
                handleChoice c s ct ⟨p1, some false, ch1, it1, s1, l1, u1, d1⟩ km := rfl
            simp only [e]
            exact h
          | true =>
            simp only [handleBack]
            cases s1 with
            | none => exact ⟨rfl, rfl⟩
            | some zs =>
            cases l1 with
            | none => exact ⟨rfl, rfl⟩
            | some lo =>
            cases u1 with
            | none => exact ⟨rfl, rfl⟩
            | some hi =>
            cases it1 with
            | none => exact ⟨rfl, rfl⟩
            | some left =>
            cases d1 with
            | none =>
              cases d2 with
              | none => exact ⟨rfl, rfl⟩
              | some d => simp at hd
            | some d' =>
              cases d2 with
              | none => simp at hd
              | some d => exact ⟨rfl, mkRequest_shown ⟨rfl, rfl, rfl, rfl⟩⟩

theorem session_same {c : Cfg n k K V} (hv : VarsMatch c) (N : Vec k K → K)
    {steps' steps : List (Resp k K × KMeans k K)}
    (hst : List.Forall₂ (fun p q => AlikeResp p.1 q.1 ∧ p.2 = q.2) steps' steps)
    (s : St n k K) {o' o : Out k K V} (ho : shown o' = shown o) :
    (session (reNorm c N) s o' steps').map (fun p => shown p.2) =
      (session c s o steps).map (fun p => shown p.2) := by
  induction hst generalizing s o' o with
  | nil => simp only [session, Except.map, ho]
  | @cons p q _ _ hpq _ ih =>
    obtain ⟨r', km'⟩ := p
    obtain ⟨r, km⟩ := q
    obtain ⟨hr, hk⟩ := hpq
    simp only at hk hr
    subst hk
    have hs := next_same hv N s ho hr km'
    unfold Same at hs
    simp only [session]
    cases h1 : next (reNorm c N) s o' r' km' with
    | mk s1 x1 =>
      cases h2 : next c s o r km' with
      | mk s2 x2 =>
        rw [h1, h2] at hs
        obtain ⟨e1, e2⟩ := hs
        simp only at e1 e2
        subst e1
        cases x1 with
        | error e =>
          cases x2 with
          | error e' => simpa [Except.map] using e2
          | ok b => simp [Except.map] at e2
        | ok a =>
          cases x2 with
          | error e' => simp [Except.map] at e2
          | ok b => exact ih s1 (by simpa [Except.map] using e2)

theorem run_same {c : Cfg n k K V} (hv : VarsMatch c) (N : Vec k K → K) (r₀ : InitResp)
    (km₀ : KMeans k K) {steps' steps : List (Resp k K × KMeans k K)}
    (hst : List.Forall₂ (fun p q => AlikeResp p.1 q.1 ∧ p.2 = q.2) steps' steps) :
    (run (reNorm c N) r₀ km₀ steps').map shown = (run c r₀ km₀ steps).map shown := by
  have hb : Same (begin (reNorm c N) (initSt (reNorm c N)) r₀ km₀) (begin c (initSt c) r₀ km₀) := by
    have h0 : initSt (reNorm c N) = initSt c := rfl
    rw [h0]
    unfold begin
    cases validateInitial r₀ with
    | error e => exact ⟨rfl, rfl⟩
    | ok _ =>
      simp only [handleInitial]
      cases r₀.nIterations with
      | none => exact ⟨rfl, rfl⟩
      | some nIt =>
        cases r₀.nPoints with
        | none => exact ⟨rfl, rfl⟩
        | some nP =>
          have hn : (reNorm c N).nadir = c.nadir := rfl
          simp only [hn]
          rcases compute_alike c N (initSt c).reach c.nadir nP.asInt nIt.asInt km₀ with
            ⟨e, h1, h2⟩ | ⟨a, b, h1, h2, hab⟩
          · simp only [h1, h2]; exact ⟨rfl, rfl⟩
          · simp only [h1, h2]; exact ⟨rfl, mkRequest_shown hab⟩
  unfold run
  unfold Same at hb
  cases h1 : begin (reNorm c N) (initSt (reNorm c N)) r₀ km₀ with
  | mk s1 x1 =>
    cases h2 : begin c (initSt c) r₀ km₀ with
    | mk s2 x2 =>
      rw [h1, h2] at hb
      obtain ⟨e1, e2⟩ := hb
      simp only at e1 e2
      subst e1
      cases x1 with
      | error e =>
        cases x2 with
        | error e' => simpa [Except.map] using e2
        | ok b => simp [Except.map] at e2
      | ok a =>
        cases x2 with
        | error e' => simp [Except.map] at e2
        | ok b =>
          have := session_same hv N hst s1 (o' := a) (o := b) (by simpa [Except.map] using e2)
          simp only
          cases h3 : session (reNorm c N) s1 a steps' <;> cases h4 : session c s1 b steps <;>
            rw [h3, h4] at this <;> simp_all [Except.map]

/-- The responses of a run in the new units: converted, except that the distances sent back with a
step back may be others. -/
def Follows (u : Units k K) (steps' steps : List (Resp k K × KMeans k K)) : Prop :=
  List.Forall₂ (fun p q => AlikeResp p.1 (u.resp q.1) ∧ p.2 = u.kmeans q.2) steps' steps

variable [IsStrictOrderedRing K]

/-- **C106 (partial).** Measure each objective in units of its own (a positive factor and an origin per
objective). If k-means groups the same rows, every point, lower and upper bound, the iterations left
and the final objective vector are the converted ones, and exceptions are the same. Not the same: the
distances, see `C106_run_units_fails`. -/
theorem C106_run_units_partial {c : Cfg n k K V} (hv : VarsMatch c) (u : Units k K) (r₀ : InitResp)
    (km₀ : KMeans k K) {steps' steps : List (Resp k K × KMeans k K)} (hst : Follows u steps' steps) :
    (run (u.cfg c.nrm c) r₀ (u.kmeans km₀) steps').map shown =
      (run c r₀ km₀ steps).map fun o => shown (u.out o) := by
  have hs : u.Similar (fun v => c.nrm fun j => v j / u.scale j) c.nrm := by
    refine ⟨1, one_pos, fun v => ?_⟩
    rw [one_mul]
    refine congrArg c.nrm (funext fun j => ?_)
    exact mul_div_cancel_left₀ _ (u.pos j).ne'
  have h1 := run_units u hs r₀ km₀ steps
  have h2 := run_same (c := u.cfg (fun v => c.nrm fun j => v j / u.scale j) c) hv c.nrm r₀
    (u.kmeans km₀) (steps' := steps') (steps := steps.map fun p => (u.resp p.1, u.kmeans p.2)) (by
      rw [List.forall₂_map_right_iff]
      exact hst)
  rw [h1] at h2
  have h3 : reNorm (u.cfg (fun v => c.nrm fun j => v j / u.scale j) c) c.nrm = u.cfg c.nrm c := rfl
  rw [h3] at h2
  rw [h2]
  cases run c r₀ km₀ steps <;> rfl

/-! ### examples -/

/-- The Euclidean length of a rational vector when that is a rational number. -/
def ratLen (v : Vec 2 ℚ) : ℚ := Rat.sqrt (v 0 * v 0 + v 1 * v 1)

theorem ratLen_exact (v : Vec 2 ℚ) {x : ℚ} (hx : 0 ≤ x) (h : x * x = v 0 * v 0 + v 1 * v 1) :
    ratLen v = x := by
  unfold ratLen
  rw [← h, Rat.sqrt_eq, abs_of_nonneg hx]

/-- Two rows, two objectives. -/
def unCfg : Cfg 2 2 ℚ String :=
  { front := ![![60, 0], ![0, 7]], ideal := ![0, 0], nadir := ![60, 39],
    vars := some ["A", "B"], nrm := ratLen }

/-- Half units for the first objective, fifths for the second. -/
def unUnits : Units 2 ℚ :=
  { scale := ![2, 5], origin := ![0, 0], pos := by decide +kernel }

/-- Tenths for both objectives, shifted origins. -/
def unTenths : Units 2 ℚ :=
  { scale := ![10, 10], origin := ![-3, 4], pos := by decide +kernel }

/-- "Three iterations, show up to five points". -/
def unInit : InitResp := { nIterations := some (.int 3), nPoints := some (.int 5) }

/-- The request after choosing the first point. -/
def unCt : Content 2 ℚ :=
  { points := [![60, 13], ![30, 33/2]], lowers := [![0, 0], ![0, 7]], uppers := [![60, 7], ![60, 7]],
    left := 2, distances := [.num (200 / 3), .num (1875 / 34)] }

/-- The same request, computed in the units `unUnits`. -/
def unCt' : Content 2 ℚ :=
  { points := [![120, 65], ![60, 165/2]], lowers := [![0, 0], ![0, 35]],
    uppers := [![120, 35], ![120, 35]], left := 2, distances := [.num (200 / 3), .num (255 / 4)] }

theorem un_run : run unCfg unInit noKm [(chooseResp 0, noKm)] = .ok (.points unCt) :=
  eq_of_beq (by decide +kernel)

theorem un_run' : run (unUnits.cfg ratLen unCfg) unInit noKm [(chooseResp 0, noKm)] =
    .ok (.points unCt') :=
  eq_of_beq (by decide +kernel)

/-- All lengths computed for `unCt` are exact. -/
example : ratLen ![0, -26] = 26 ∧ ratLen ![0, -39] = 39 ∧ ratLen ![-30, -45/2] = 75 / 2 ∧
    ratLen ![-60, -32] = 68 ∧ ratLen ![0, -130] = 130 ∧ ratLen ![0, -195] = 195 ∧
    ratLen ![-60, -225/2] = 255 / 2 ∧ ratLen ![-120, -160] = 200 := by
  refine ⟨?_, ?_, ?_, ?_, ?_, ?_, ?_, ?_⟩ <;> exact ratLen_exact _ (by norm_num) (by decide +kernel)

/-- **C106 fails.** With the Euclidean norm, halving the unit of one objective and dividing that of the
other by five changes a distance shown from 1875/34 to 255/4 percent. -/
theorem C106_run_units_fails : run (unUnits.cfg unCfg.nrm unCfg) unInit (unUnits.kmeans noKm)
      ([(chooseResp 0, noKm)].map fun p => (unUnits.resp p.1, unUnits.kmeans p.2)) ≠
    (run unCfg unInit noKm [(chooseResp 0, noKm)]).map unUnits.out := by
  have h : ([(chooseResp 0, noKm)].map fun p => (unUnits.resp p.1, unUnits.kmeans p.2)) =
    [(chooseResp 0, noKm)] := rfl
  have h2 : run (unUnits.cfg unCfg.nrm unCfg) unInit (unUnits.kmeans noKm) [(chooseResp 0, noKm)] =
    .ok (.points unCt') := un_run'
  rw [h, h2, un_run]
  intro h3
  simp only [Except.map, Units.out, Except.ok.injEq, Out.points.injEq] at h3
  have h4 := congrArg Content.distances h3
  simp only [unCt', unCt, Units.content, List.cons.injEq, Fl.num.injEq] at h4
  exact absurd h4.2.1 (by norm_num)

/-- C105 on a concrete problem: the request above, in tenths from other origins. -/
example : run (unTenths.cfg supNorm { unCfg with nrm := supNorm }) unInit (unTenths.kmeans noKm)
      ([(chooseResp 0, noKm)].map fun p => (unTenths.resp p.1, unTenths.kmeans p.2)) =
    (run { unCfg with nrm := supNorm } unInit noKm [(chooseResp 0, noKm)]).map unTenths.out :=
  C105_run_similar supNorm_spec unTenths (a := 10) (by decide +kernel) (by norm_num) _ _ _

/-- C106 on a concrete problem: the shown values are converted. -/
example : (run (unUnits.cfg unCfg.nrm unCfg) unInit (unUnits.kmeans noKm)
      [(chooseResp 0, noKm)]).map shown =
    (Except.ok (.points unCt)).map fun o => shown (unUnits.out (V := String) o) := by
  rw [← un_run]
  refine C106_run_units_partial (fun vars h => ?_) unUnits _ _ ?_
  · cases h; rfl
  · exact List.Forall₂.cons ⟨⟨rfl, rfl, rfl, rfl, rfl, rfl, rfl, rfl⟩, rfl⟩ List.Forall₂.nil

end Verif.ENautilus
