import Verif.ENautilus.Units2
import Verif.Norms

set_option linter.unusedSectionVars false

/-!
# E-NAUTILUS does not depend on the order of the objectives, C144
-/

namespace Verif.ENautilus

variable {K V : Type} [Field K] [LinearOrder K] [IsStrictOrderedRing K] {n k : Nat}

/-- Specification: another order of the objectives. -/
structure Order (k : Nat) where
  perm : Equiv.Perm (Fin k)

/-- Specification: an objective vector in the new order. -/
def Order.conv (u : Order k) (v : Vec k K) : Vec k K := fun j => v (u.perm j)

/-- Specification: an objective vector back in the old order. -/
def Order.back (u : Order k) (v : Vec k K) : Vec k K := fun j => v (u.perm.symm j)

/-- Specification: the same problem data in the new order, with norm `nrm`. -/
def Order.cfg (u : Order k) (nrm : Vec k K → K) (c : Cfg n k K V) : Cfg n k K V :=
  { front := fun i => u.conv (c.front i), ideal := u.conv c.ideal, nadir := u.conv c.nadir,
    vars := c.vars, nrm := nrm }

/-- Specification: the same request in the new order (percentages are not converted). -/
def Order.content (u : Order k) (ct : Content k K) : Content k K :=
  { points := ct.points.map u.conv, lowers := ct.lowers.map u.conv, uppers := ct.uppers.map u.conv,
    left := ct.left, distances := ct.distances }

/-- Specification: the same result in the new order. -/
def Order.out (u : Order k) : Out k K V → Out k K V
  | .points ct => .points (u.content ct)
  | .stop z sol => .stop (u.conv z) sol

/-- Specification: the same response in the new order. -/
def Order.resp (u : Order k) (r : Resp k K) : Resp k K :=
  { preferredIndex := r.preferredIndex, stepBack := r.stepBack, changeRemaining := r.changeRemaining,
    iterationsLeft := r.iterationsLeft, prevSolutions := r.prevSolutions.map (List.map u.conv),
    prevLower := r.prevLower.map (List.map u.conv), prevUpper := r.prevUpper.map (List.map u.conv),
    prevDistances := r.prevDistances }

/-- Specification: k-means picking, in the new order, the rows it picks in the old order. -/
def Order.kmeans (u : Order k) (km : KMeans k K) : KMeans k K := fun pts m => km (pts.map u.back) m

/-- The same state in the new order. -/
def Order.st (u : Order k) (s : St n k K) : St n k K :=
  { preferred := s.preferred.map u.conv, lb := u.conv s.lb, ub := u.conv s.ub, reach := s.reach,
    nPoints := s.nPoints, left := s.left }

/-- The same outcome of a call in the new order: exceptions stay the same. -/
def Order.res (u : Order k) (x : St n k K × Except Err (Out k K V)) :
    St n k K × Except Err (Out k K V) :=
  (u.st x.1, x.2.map u.out)

/-- Specification: the two norms are the same function of the objectives. -/
def Order.Symmetric (u : Order k) (nrm' nrm : Vec k K → K) : Prop := ∀ v, nrm' (fun j => v (u.perm j)) = nrm v

theorem Order.back_conv (u : Order k) (v : Vec k K) : u.back (u.conv v) = v := by
  funext j
  simp [Order.back, Order.conv]

/-- An error of a vector of results is the error of one of them; all are `e`. -/
theorem vecM_all_error {α : Type} {m : Nat} {f : Fin m → Except Err α} {e : Err} (he : ∀ i e', f i = .error e' → e' = e) :
    (∃ v, vecM f = .ok v ∧ ∀ i, f i = .ok (v i)) ∨ (vecM f = .error e ∧ ∃ i, f i = .error e) := by
  induction m with
  | zero => exact .inl ⟨fun i => i.elim0, rfl, fun i => i.elim0⟩
  | succ m ih =>
    unfold vecM
    cases h0 : f 0 with
    | error e' =>
      have := he 0 e' h0
      subst this
      exact .inr ⟨rfl, 0, h0⟩
    | ok a =>
      rcases ih (f := fun i => f i.succ) (fun i e' h => he i.succ e' h) with ⟨v, h1, h2⟩ | ⟨h1, i, h2⟩
      · refine .inl ⟨Fin.cons a v, by simp only [h1], ?_⟩
        intro i
        refine Fin.cases ?_ (fun j => ?_) i
        · simpa using h0
        · simpa using h2 j
      · exact .inr ⟨by simp only [h1], i.succ, h2⟩

theorem vecM_perm {α : Type} {m : Nat} (p : Equiv.Perm (Fin m)) (f : Fin m → Except Err α) {e : Err}
    (he : ∀ i e', f i = .error e' → e' = e) :
    (vecM fun i => f (p i)) = (vecM f).map fun v i => v (p i) := by
  rcases vecM_all_error he with ⟨v, h1, h2⟩ | ⟨h1, i, h2⟩
  · rcases vecM_all_error (f := fun i => f (p i)) (fun i => he (p i)) with ⟨w, h3, h4⟩ | ⟨_, i, h4⟩
    · rw [h1, h3]
      refine congrArg Except.ok (funext fun i => ?_)
      have := h4 i
      rw [h2 (p i)] at this
      exact (Except.ok.inj this).symm
    · rw [h2 (p i)] at h4
      exact absurd h4 (by simp)
  · rcases vecM_all_error (f := fun i => f (p i)) (fun i => he (p i)) with ⟨w, _, h4⟩ | ⟨h3, _, _⟩
    · have := h4 (p.symm i)
      rw [Equiv.apply_symm_apply, h2] at this
      exact absurd this (by simp)
    · rw [h1, h3]; rfl

theorem rangeAt_valueError (front : Fin n → Vec k K) (z : Vec k K) :
    ∀ r e', rangeAt front z r = .error e' → e' = .valueError := by
  intro r e' h
  unfold rangeAt at h
  cases hc : candidates front z r with
  | nil => simp only [hc, npMin] at h; cases h; rfl
  | cons a l => simp only [hc, npMin, npMax] at h; cases h

theorem representative_order (u : Order k) (front : Fin n → Vec k K) (subset : List (Fin n))
    (m : Int) (km : KMeans k K) :
    representative (fun i => u.conv (front i)) subset m (u.kmeans km) =
      (representative front subset m km).map (List.map u.conv) := by
  unfold representative
  simp only [map_map_vec]
  by_cases h : (subset.length : Int) > m
  · rw [if_pos h, if_pos h]
    have hk : u.kmeans km ((subset.map front).map u.conv) m = km (subset.map front) m := by
      unfold Order.kmeans
      rw [List.map_map]
      congr 1
      exact List.map_id'' (fun v => u.back_conv v) _
    rw [hk]
    exact mapE_comp _ _ _ (fun a => pyGet_map _ _ _) _
  · rw [if_neg h, if_neg h]; rfl

theorem intermediatePoint_order (u : Order k) (pref zb : Vec k K) (left : Int) :
    intermediatePoint (u.conv pref) (u.conv zb) left = u.conv (intermediatePoint pref zb left) := rfl

theorem intermediate_order (u : Order k) (pref : Vec k K) (zbars : List (Vec k K)) (left : Int) :
    intermediate (u.conv pref) (zbars.map u.conv) left =
      (intermediate pref zbars left).map (List.map u.conv) := by
  unfold intermediate
  by_cases h : left = 0
  · rw [if_pos h, if_pos h]; rfl
  · rw [if_neg h, if_neg h]
    simp only [Except.map, List.map_map]
    rfl

theorem candidates_order (u : Order k) (front : Fin n → Vec k K) (z : Vec k K) (r : Fin k) :
    candidates (fun i => u.conv (front i)) (u.conv z) r = candidates front z (u.perm r) := by
  unfold candidates
  have h : ∀ i : Fin n, (∀ j, j ≠ r → u.conv (front i) j ≤ u.conv z j) ↔ ∀ j, j ≠ u.perm r → front i j ≤ z j := by
    intro i
    constructor
    · intro h j hj
      have := h (u.perm.symm j) (fun e => hj (by rw [← e, Equiv.apply_symm_apply]))
      simpa [Order.conv] using this
    · intro h j hj
      exact h (u.perm j) (fun e => hj (u.perm.injective e))
  simp only [h]
  rfl

theorem rangeAt_order (u : Order k) (front : Fin n → Vec k K) (z : Vec k K) (r : Fin k) :
    rangeAt (fun i => u.conv (front i)) (u.conv z) r = rangeAt front z (u.perm r) := by
  unfold rangeAt
  rw [candidates_order]

theorem boundsAt_order (u : Order k) (front : Fin n → Vec k K) (z : Vec k K) :
    boundsAt (fun i => u.conv (front i)) (u.conv z) =
      (boundsAt front z).map fun p => (u.conv p.1, u.conv p.2) := by
  unfold boundsAt
  have h : (fun r => rangeAt (fun i => u.conv (front i)) (u.conv z) r) = fun r => rangeAt front z (u.perm r) :=
    funext fun r => rangeAt_order u front z r
  rw [show rangeAt (fun i => u.conv (front i)) (u.conv z) = fun r => rangeAt front z (u.perm r) from h,
    vecM_perm u.perm _ (rangeAt_valueError front z)]
  cases vecM (rangeAt front z) <;> rfl

theorem bounds_order (u : Order k) (front : Fin n → Vec k K) (zs : List (Vec k K)) :
    bounds (fun i => u.conv (front i)) (zs.map u.conv) =
      (bounds front zs).map fun p => (p.1.map u.conv, p.2.map u.conv) := by
  unfold bounds
  rw [mapE_map, mapE_comp _ _ _ (boundsAt_order u front)]
  cases mapE (boundsAt front) zs with
  | error e => rfl
  | ok bs => simp only [Except.map, List.map_map]; rfl

theorem reachable_order (u : Order k) (front : Fin n → Vec k K) (lb ub : Vec k K) :
    reachable (fun i => u.conv (front i)) (u.conv lb) (u.conv ub) = reachable front lb ub := by
  unfold reachable
  have h : ∀ P : Fin k → Prop, (∀ j, P (u.perm j)) ↔ ∀ j, P j := fun P => u.perm.forall_congr_right
  refine List.filter_congr fun i _ => ?_
  rw [decide_eq_decide.2 (h fun j => lb j ≤ front i j).symm, decide_eq_decide.2 (h fun j => front i j ≤ ub j).symm]
  rfl

theorem distances_order (u : Order k) {nrm' nrm : Vec k K → K} (hs : u.Symmetric nrm' nrm)
    (zs zbars : List (Vec k K)) (nadir : Vec k K) :
    distances nrm' (zs.map u.conv) (zbars.map u.conv) (u.conv nadir) = distances nrm zs zbars nadir := by
  unfold distances
  rw [List.zipWith_map]
  have h : ∀ v w : Vec k K, nrm' (fun j => u.conv v j - u.conv w j) = nrm fun j => v j - w j :=
    fun v w => hs fun j => v j - w j
  simp only [h]

theorem compute_order (u : Order k) {c : Cfg n k K V} {nrm' : Vec k K → K}
    (hs : u.Symmetric nrm' c.nrm) (reach : List (Fin n)) (pref : Vec k K) (m left : Int) (km : KMeans k K) :
    compute (u.cfg nrm' c) reach (u.conv pref) m left (u.kmeans km) =
      (compute c reach pref m left km).map u.content := by
  unfold compute
  simp only [Order.cfg, representative_order]
  cases representative c.front reach m km with
  | error e => rfl
  | ok zbars =>
    simp only [Except.map, intermediate_order]
    cases intermediate pref zbars left with
    | error e => rfl
    | ok zs =>
      simp only [bounds_order]
      cases bounds c.front zs with
      | error e => rfl
      | ok p =>
        obtain ⟨lo, hi⟩ := p
        simp only [Except.map, distances_order u hs]
        rfl

theorem findSolution_order (u : Order k) {c : Cfg n k K V} {nrm' : Vec k K → K}
    (hs : u.Symmetric nrm' c.nrm) (z : Vec k K) :
    findSolution (u.cfg nrm' c) (u.conv z) = findSolution c z := by
  have hr : ∀ i, nrm' (fun j => |u.conv (c.front i) j - u.conv z j|) = c.nrm fun j => |c.front i j - z j| :=
    fun i => hs fun j => |c.front i j - z j|
  unfold findSolution
  simp only [Order.cfg]
  cases c.vars with
  | none => rfl
  | some vars => simp only [hr]

theorem maxIndex_order (u : Order k) (l : List (Vec k K)) : maxIndex (l.map u.conv) = maxIndex l := by
  unfold maxIndex
  simp only [List.length_map]

theorem mkRequest_order (u : Order k) (ct : Content k K) :
    mkRequest (V := V) (u.content ct) = (mkRequest ct).map u.out := by
  unfold mkRequest
  simp only [Order.content, maxIndex_order]
  cases maxIndex ct.points <;> rfl

theorem validate_order (u : Order k) (ct : Content k K) (r : Resp k K) :
    validate (u.content ct) (u.resp r) = validate ct r := by
  unfold validate
  simp only [Order.content, Order.resp, maxIndex_order, Option.isNone_map]
  rfl

theorem handleStop_order (u : Order k) {c : Cfg n k K V} {nrm' : Vec k K → K}
    (hs : u.Symmetric nrm' c.nrm) (s : St n k K) (z : Vec k K) :
    handleStop (u.cfg nrm' c) (u.st s) (u.conv z) = u.res (handleStop c s z) := by
  unfold handleStop
  simp only [findSolution_order u hs]
  cases findSolution c z <;> rfl

theorem handleChoice_order (u : Order k) {c : Cfg n k K V} {nrm' : Vec k K → K}
    (hs : u.Symmetric nrm' c.nrm) (s : St n k K) (ct : Content k K) (r : Resp k K) (km : KMeans k K) :
    handleChoice (u.cfg nrm' c) (u.st s) (u.content ct) (u.resp r) (u.kmeans km) =
      u.res (handleChoice c s ct r km) := by
  unfold handleChoice
  simp only [Order.resp]
  cases r.preferredIndex with
  | none => rfl
  | some i =>
    simp only [Order.content, pyGet_map]
    cases pyGet ct.points i with
    | error e => rfl
    | ok z =>
      simp only [Except.map]
      have hleft : (u.st s).left = s.left := rfl
      rw [hleft]
      cases s.left with
      | none => rfl
      | some left =>
        simp only
        by_cases hl : left ≤ 1
        · rw [if_pos hl, if_pos hl]
          exact handleStop_order u hs s z
        · rw [if_neg hl, if_neg hl]
          cases pyGet ct.lowers i with
          | error e => rfl
          | ok lo =>
            cases pyGet ct.uppers i with
            | error e => rfl
            | ok hi =>
              have hre : reachable (u.cfg nrm' c).front (u.conv lo) (u.conv hi) =
                  reachable c.front lo hi := reachable_order u c.front lo hi
              simp only [hre]
              cases r.changeRemaining with
              | none => rfl
              | some ch =>
                simp only
                cases (if ch then r.iterationsLeft else some (left - 1)) with
                | none => rfl
                | some left' =>
                  simp only
                  have hn : (u.st s).nPoints = s.nPoints := rfl
                  rw [hn]
                  cases s.nPoints with
                  | none => rfl
                  | some nP =>
                    simp only [compute_order u hs]
                    cases compute c (reachable c.front lo hi) z nP left' km with
                    | error e => rfl
                    | ok ct' =>
                      simp only [Except.map, mkRequest_order]
                      rfl

theorem handleBack_order (u : Order k) (s : St n k K) (r : Resp k K) :
    handleBack (V := V) (u.st s) (u.resp r) = u.res (handleBack s r) := by
  unfold handleBack
  simp only [Order.resp]
  cases r.prevSolutions with
  | none => rfl
  | some zs =>
    cases r.prevLower with
    | none => rfl
    | some lo =>
      cases r.prevUpper with
      | none => rfl
      | some hi =>
        cases r.iterationsLeft with
        | none => rfl
        | some left =>
          cases r.prevDistances with
          | none => rfl
          | some ds =>
            have := mkRequest_order (V := V) u
              { points := zs, lowers := lo, uppers := hi, left := left, distances := ds }
            simp only [Order.content] at this
            simp only [Option.map_some, this]
            rfl

theorem answer_order (u : Order k) {c : Cfg n k K V} {nrm' : Vec k K → K}
    (hs : u.Symmetric nrm' c.nrm) (s : St n k K) (ct : Content k K) (r : Resp k K) (km : KMeans k K) :
    answer (u.cfg nrm' c) (u.st s) (u.content ct) (u.resp r) (u.kmeans km) =
      u.res (answer c s ct r km) := by
  unfold answer
  rw [validate_order]
  cases validate ct r with
  | error e => rfl
  | ok _ =>
    simp only [handle]
    have hb : (u.resp r).stepBack = r.stepBack := rfl
    rw [hb]
    cases r.stepBack with
    | none => rfl
    | some b =>
      cases b with
      | false => exact handleChoice_order u hs s ct r km
      | true => exact handleBack_order u s r

theorem begin_order (u : Order k) {c : Cfg n k K V} {nrm' : Vec k K → K}
    (hs : u.Symmetric nrm' c.nrm) (s : St n k K) (r : InitResp) (km : KMeans k K) :
    begin (u.cfg nrm' c) (u.st s) r (u.kmeans km) = u.res (begin c s r km) := by
  unfold begin
  cases validateInitial r with
  | error e => rfl
  | ok _ =>
    simp only [handleInitial]
    cases r.nIterations with
    | none => rfl
    | some nIt =>
      cases r.nPoints with
      | none => rfl
      | some nP =>
        have hn : (u.cfg nrm' c).nadir = u.conv c.nadir := rfl
        have hre : (u.st s).reach = s.reach := rfl
        simp only [hn, hre, compute_order u hs]
        cases compute c s.reach c.nadir nP.asInt nIt.asInt km with
        | error e => rfl
        | ok ct => simp only [Except.map, mkRequest_order]; rfl

theorem next_order (u : Order k) {c : Cfg n k K V} {nrm' : Vec k K → K}
    (hs : u.Symmetric nrm' c.nrm) (s : St n k K) (o : Out k K V) (r : Resp k K) (km : KMeans k K) :
    next (u.cfg nrm' c) (u.st s) (u.out o) (u.resp r) (u.kmeans km) = u.res (next c s o r km) := by
  cases o with
  | points ct => exact answer_order u hs s ct r km
  | stop z sol => rfl

theorem session_order (u : Order k) {c : Cfg n k K V} {nrm' : Vec k K → K}
    (hs : u.Symmetric nrm' c.nrm) (steps : List (Resp k K × KMeans k K)) (s : St n k K) (o : Out k K V) :
    session (u.cfg nrm' c) (u.st s) (u.out o) (steps.map fun p => (u.resp p.1, u.kmeans p.2)) =
      (session c s o steps).map fun p => (u.st p.1, u.out p.2) := by
  induction steps generalizing s o with
  | nil => rfl
  | cons p rest ih =>
    obtain ⟨r, km⟩ := p
    simp only [List.map_cons, session, next_order u hs]
    cases h : next c s o r km with
    | mk s' x =>
      cases x with
      | error e => rfl
      | ok o' => exact ih s' o'

theorem run_order (u : Order k) {c : Cfg n k K V} {nrm' : Vec k K → K}
    (hs : u.Symmetric nrm' c.nrm) (r₀ : InitResp) (km₀ : KMeans k K)
    (steps : List (Resp k K × KMeans k K)) :
    run (u.cfg nrm' c) r₀ (u.kmeans km₀) (steps.map fun p => (u.resp p.1, u.kmeans p.2)) =
      (run c r₀ km₀ steps).map u.out := by
  have h0 : initSt (u.cfg nrm' c) = u.st (initSt c) := rfl
  unfold run
  rw [h0, begin_order u hs]
  cases begin c (initSt c) r₀ km₀ with
  | mk s x =>
    cases x with
    | error e => rfl
    | ok o =>
      simp only [Order.res, Except.map, session_order u hs]
      cases session c s o steps <;> rfl

/-- **C144.** List the objectives in another order: in the front, in the ideal and nadir points and in the previously
shown points sent back by the decision maker. If k-means groups the same rows, every request and the final result are
the same up to that order; the distances, the iterations left, the decision vector and the exceptions are the same. The
norm has to treat all objectives alike, as the Euclidean norm does. -/
theorem C144_run_order {c : Cfg n k K V} (p : Equiv.Perm (Fin k)) (hn : ∀ v : Vec k K, c.nrm (fun j => v (p j)) = c.nrm v)
    (r₀ : InitResp) (km₀ : KMeans k K) (steps : List (Resp k K × KMeans k K)) :
    run ((Order.mk p).cfg c.nrm c) r₀ ((Order.mk p).kmeans km₀)
        (steps.map fun q => ((Order.mk p).resp q.1, (Order.mk p).kmeans q.2)) =
      (run c r₀ km₀ steps).map (Order.mk p).out :=
  run_order ⟨p⟩ hn r₀ km₀ steps

/-- The Euclidean norm treats all objectives alike. -/
theorem euclid_order (p : Equiv.Perm (Fin k)) (v : Vec k ℝ) : euclid (fun j => v (p j)) = euclid v := by
  unfold euclid
  exact congrArg Real.sqrt (Equiv.sum_comp p fun j => v j * v j)

/-- C144 on a concrete problem, with the two objectives exchanged and the Euclidean length. -/
example : run ((Order.mk (Equiv.swap 0 1)).cfg unCfg.nrm unCfg) unInit ((Order.mk (Equiv.swap 0 1)).kmeans noKm)
      ([(chooseResp 0, noKm)].map fun q => ((Order.mk (Equiv.swap 0 1)).resp q.1, (Order.mk (Equiv.swap 0 1)).kmeans q.2)) =
    (Except.ok (.points unCt)).map (Order.mk (Equiv.swap 0 1)).out := by
  rw [C144_run_order (c := unCfg) (Equiv.swap 0 1) (fun v => by
    show ratLen (fun j => v (Equiv.swap 0 1 j)) = ratLen v
    unfold ratLen
    simp only [Equiv.swap_apply_left, Equiv.swap_apply_right]
    rw [add_comm]), un_run]

end Verif.ENautilus
