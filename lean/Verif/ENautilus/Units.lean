import Verif.ENautilus.Lemmas
import Verif.ENautilus.ExampleData
import Mathlib.Tactic.FieldSimp
import Mathlib.Tactic.Ring

/-!
# E-NAUTILUS does not depend on the units and origins of the objectives

Converting every objective value to other units (`f ↦ scale · f + origin`, per objective) and running
the method on the converted data gives the converted requests of the original run.
-/

namespace Verif.ENautilus

variable {K V : Type} [Field K] [LinearOrder K] [IsStrictOrderedRing K] {n k : Nat}

/-- Specification: a change of measurement units, one positive factor and one new origin per
objective. -/
structure Units (k : Nat) (K : Type) [Field K] [LinearOrder K] where
  scale : Vec k K
  origin : Vec k K
  pos : ∀ j, 0 < scale j

/-- Specification: an objective vector in the new units. -/
def Units.conv (u : Units k K) (v : Vec k K) : Vec k K := fun j => u.scale j * v j + u.origin j

/-- Specification: an objective vector back in the old units. -/
def Units.back (u : Units k K) (v : Vec k K) : Vec k K := fun j => (v j - u.origin j) / u.scale j

/-- Specification: the same problem data in the new units, with norm `nrm`. -/
def Units.cfg (u : Units k K) (nrm : Vec k K → K) (c : Cfg n k K V) : Cfg n k K V :=
  { front := fun i => u.conv (c.front i), ideal := u.conv c.ideal, nadir := u.conv c.nadir,
    vars := c.vars, nrm := nrm }

/-- Specification: the same request in the new units (percentages are not converted). -/
def Units.content (u : Units k K) (ct : Content k K) : Content k K :=
  { points := ct.points.map u.conv, lowers := ct.lowers.map u.conv, uppers := ct.uppers.map u.conv,
    left := ct.left, distances := ct.distances }

/-- Specification: the same result in the new units. -/
def Units.out (u : Units k K) : Out k K V → Out k K V
  | .points ct => .points (u.content ct)
  | .stop z sol => .stop (u.conv z) sol

/-- Specification: the same response in the new units. -/
def Units.resp (u : Units k K) (r : Resp k K) : Resp k K :=
  { preferredIndex := r.preferredIndex, stepBack := r.stepBack, changeRemaining := r.changeRemaining,
    iterationsLeft := r.iterationsLeft, prevSolutions := r.prevSolutions.map (List.map u.conv),
    prevLower := r.prevLower.map (List.map u.conv), prevUpper := r.prevUpper.map (List.map u.conv),
    prevDistances := r.prevDistances }

/-- Specification: k-means picking, in the new units, the rows it picks in the old ones. -/
def Units.kmeans (u : Units k K) (km : KMeans k K) : KMeans k K := fun pts m => km (pts.map u.back) m

/-- The same state in the new units. -/
def Units.st (u : Units k K) (s : St n k K) : St n k K :=
  { preferred := s.preferred.map u.conv, lb := u.conv s.lb, ub := u.conv s.ub, reach := s.reach,
    nPoints := s.nPoints, left := s.left }

/-- The same outcome of a call in the new units: exceptions stay the same. -/
def Units.res (u : Units k K) (x : St n k K × Except Err (Out k K V)) :
    St n k K × Except Err (Out k K V) :=
  (u.st x.1, x.2.map u.out)

omit [IsStrictOrderedRing K] in
theorem Units.back_conv (u : Units k K) (v : Vec k K) : u.back (u.conv v) = v := by
  funext j
  have := (u.pos j).ne'
  simp only [Units.back, Units.conv, add_sub_cancel_right]
  field_simp

theorem Units.le_iff (u : Units k K) (x y : K) (j : Fin k) :
    u.scale j * x + u.origin j ≤ u.scale j * y + u.origin j ↔ x ≤ y := by
  rw [add_le_add_iff_right, mul_le_mul_iff_right₀ (u.pos j)]

theorem Units.conv_le_iff (u : Units k K) (v w : Vec k K) (j : Fin k) :
    u.conv v j ≤ u.conv w j ↔ v j ≤ w j := u.le_iff _ _ j

/-! ### numpy helpers -/

theorem pyGet_map {α β : Type} (f : α → β) (l : List α) (i : Int) :
    pyGet (l.map f) i = (pyGet l i).map f := by
  unfold pyGet
  simp only [List.length_map, List.getElem?_map]
  generalize (if i < 0 then i + (l.length : Int) else i) = j
  by_cases h : j < 0
  · rw [if_pos h, if_pos h]; rfl
  · rw [if_neg h, if_neg h]
    cases l[j.toNat]? <;> rfl

theorem mapE_comp {α β γ : Type} (f : α → Except Err β) (g : α → Except Err γ) (h : β → γ)
    (hg : ∀ a, g a = (f a).map h) (l : List α) : mapE g l = (mapE f l).map (List.map h) := by
  induction l with
  | nil => rfl
  | cons a l ih =>
    simp only [mapE, hg, ih]
    cases f a with
    | error e => rfl
    | ok b => cases mapE f l <;> rfl

theorem mapE_map {α β γ : Type} (f : β → Except Err γ) (g : α → β) (l : List α) :
    mapE f (l.map g) = mapE (fun a => f (g a)) l := by
  induction l with
  | nil => rfl
  | cons a l ih => simp only [List.map_cons, mapE, ih]

omit [Field K] [IsStrictOrderedRing K] in
theorem foldl_min_mono (f : K → K) (hf : ∀ x y, f x ≤ f y ↔ x ≤ y) (l : List K) (a : K) :
    (l.map f).foldl min (f a) = f (l.foldl min a) := by
  induction l generalizing a with
  | nil => rfl
  | cons x xs ih =>
    have : min (f a) (f x) = f (min a x) := by
      rcases le_total a x with h | h
      · rw [min_eq_left h, min_eq_left ((hf _ _).2 h)]
      · rw [min_eq_right h, min_eq_right ((hf _ _).2 h)]
    simp only [List.map_cons, List.foldl_cons, this, ih]

omit [Field K] [IsStrictOrderedRing K] in
theorem foldl_max_mono (f : K → K) (hf : ∀ x y, f x ≤ f y ↔ x ≤ y) (l : List K) (a : K) :
    (l.map f).foldl max (f a) = f (l.foldl max a) := by
  induction l generalizing a with
  | nil => rfl
  | cons x xs ih =>
    have : max (f a) (f x) = f (max a x) := by
      rcases le_total a x with h | h
      · rw [max_eq_right h, max_eq_right ((hf _ _).2 h)]
      · rw [max_eq_left h, max_eq_left ((hf _ _).2 h)]
    simp only [List.map_cons, List.foldl_cons, this, ih]

omit [Field K] [IsStrictOrderedRing K] in
theorem npMin_map (f : K → K) (hf : ∀ x y, f x ≤ f y ↔ x ≤ y) (l : List K) :
    npMin (l.map f) = (npMin l).map f := by
  cases l with
  | nil => rfl
  | cons a l => simp only [List.map_cons, npMin, foldl_min_mono f hf]; rfl

omit [Field K] [IsStrictOrderedRing K] in
theorem npMax_map (f : K → K) (hf : ∀ x y, f x ≤ f y ↔ x ≤ y) (l : List K) :
    npMax (l.map f) = (npMax l).map f := by
  cases l with
  | nil => rfl
  | cons a l => simp only [List.map_cons, npMax, foldl_max_mono f hf]; rfl

omit [Field K] [IsStrictOrderedRing K] in
theorem argminGo_map (f : K → K) (hf : ∀ x y, f x ≤ f y ↔ x ≤ y) (l : List K) (b : K) (bi i : Nat) :
    argminGo (f b) bi i (l.map f) = argminGo b bi i l := by
  induction l generalizing b bi i with
  | nil => rfl
  | cons x xs ih =>
    have : f x < f b ↔ x < b := by rw [← not_le, hf, not_le]
    simp only [List.map_cons, argminGo, this, ih]

omit [Field K] [IsStrictOrderedRing K] in
theorem npArgmin_map (f : K → K) (hf : ∀ x y, f x ≤ f y ↔ x ≤ y) (l : List K) :
    npArgmin (l.map f) = npArgmin l := by
  cases l with
  | nil => rfl
  | cons a l => simp only [List.map_cons, npArgmin, argminGo_map f hf]

theorem vecM_map {α β : Type} {m : Nat} (f : Fin m → Except Err α) (g : Fin m → Except Err β)
    (h : Fin m → α → β) (hg : ∀ i, g i = (f i).map (h i)) :
    vecM g = (vecM f).map fun v i => h i (v i) := by
  induction m with
  | zero =>
    simp only [vecM, Except.map]
    congr 1; funext i; exact i.elim0
  | succ m ih =>
    simp only [vecM, hg]
    cases f 0 with
    | error e => rfl
    | ok a =>
      have := ih (fun i => f i.succ) (fun i => (f i.succ).map (h i.succ)) (fun i => h i.succ)
        (fun i => rfl)
      rw [this]
      cases vecM (fun i => f i.succ) with
      | error e => rfl
      | ok w =>
        simp only [Except.map]
        congr 1; funext i
        refine Fin.cases rfl (fun i => rfl) i

/-! ### the calculations -/

omit [Field K] [LinearOrder K] [IsStrictOrderedRing K] in
theorem map_map_vec (front : Fin n → Vec k K) (f : Vec k K → Vec k K) (l : List (Fin n)) :
    (l.map fun i => f (front i)) = (l.map front).map f := by
  rw [List.map_map]; rfl

omit [IsStrictOrderedRing K] in
theorem representative_units (u : Units k K) (front : Fin n → Vec k K) (subset : List (Fin n))
    (m : Int) (km : KMeans k K) :
    representative (fun i => u.conv (front i)) subset m (u.kmeans km) =
      (representative front subset m km).map (List.map u.conv) := by
  unfold representative
  simp only [map_map_vec]
  by_cases h : (subset.length : Int) > m
  · rw [if_pos h, if_pos h]
    have hk : u.kmeans km ((subset.map front).map u.conv) m = km (subset.map front) m := by
      unfold Units.kmeans
      rw [List.map_map]
      congr 1
      exact List.map_id'' (fun v => u.back_conv v) _
    rw [hk]
    exact mapE_comp _ _ _ (fun a => pyGet_map _ _ _) _
  · rw [if_neg h, if_neg h]; rfl

theorem intermediatePoint_units (u : Units k K) (pref zb : Vec k K) {left : Int} (hl : left ≠ 0) :
    intermediatePoint (u.conv pref) (u.conv zb) left = u.conv (intermediatePoint pref zb left) := by
  funext j
  have : (left : K) ≠ 0 := by exact_mod_cast hl
  simp only [intermediatePoint, Units.conv]
  field_simp
  ring

theorem intermediate_units (u : Units k K) (pref : Vec k K) (zbars : List (Vec k K)) (left : Int) :
    intermediate (u.conv pref) (zbars.map u.conv) left =
      (intermediate pref zbars left).map (List.map u.conv) := by
  unfold intermediate
  by_cases h : left = 0
  · rw [if_pos h, if_pos h]; rfl
  · rw [if_neg h, if_neg h]
    simp only [Except.map, List.map_map]
    congr 1
    apply List.map_congr_left
    intro zb _
    exact intermediatePoint_units u pref zb h

theorem candidates_units (u : Units k K) (front : Fin n → Vec k K) (z : Vec k K) (r : Fin k) :
    candidates (fun i => u.conv (front i)) (u.conv z) r =
      (candidates front z r).map fun x => u.scale r * x + u.origin r := by
  unfold candidates
  simp only [u.conv_le_iff, List.map_map]
  rfl

theorem rangeAt_units (u : Units k K) (front : Fin n → Vec k K) (z : Vec k K) (r : Fin k) :
    rangeAt (fun i => u.conv (front i)) (u.conv z) r =
      (rangeAt front z r).map fun p => (u.scale r * p.1 + u.origin r, u.scale r * p.2 + u.origin r) := by
  unfold rangeAt
  rw [candidates_units, npMin_map _ (fun x y => u.le_iff x y r), npMax_map _ (fun x y => u.le_iff x y r)]
  cases npMin (candidates front z r) with
  | error e => rfl
  | ok lo => cases npMax (candidates front z r) <;> rfl

theorem boundsAt_units (u : Units k K) (front : Fin n → Vec k K) (z : Vec k K) :
    boundsAt (fun i => u.conv (front i)) (u.conv z) =
      (boundsAt front z).map fun p => (u.conv p.1, u.conv p.2) := by
  unfold boundsAt
  rw [vecM_map _ _ _ (rangeAt_units u front z)]
  cases vecM (rangeAt front z) <;> rfl

theorem bounds_units (u : Units k K) (front : Fin n → Vec k K) (zs : List (Vec k K)) :
    bounds (fun i => u.conv (front i)) (zs.map u.conv) =
      (bounds front zs).map fun p => (p.1.map u.conv, p.2.map u.conv) := by
  unfold bounds
  rw [mapE_map, mapE_comp _ _ _ (boundsAt_units u front)]
  cases mapE (boundsAt front) zs with
  | error e => rfl
  | ok bs => simp only [Except.map, List.map_map]; rfl

theorem reachable_units (u : Units k K) (front : Fin n → Vec k K) (lb ub : Vec k K) :
    reachable (fun i => u.conv (front i)) (u.conv lb) (u.conv ub) = reachable front lb ub := by
  unfold reachable
  simp only [u.conv_le_iff]

/-- What relates the norm of a difference in the two systems of units. -/
def Units.Similar (u : Units k K) (nrm' nrm : Vec k K → K) : Prop :=
  ∃ g, 0 < g ∧ ∀ v, nrm' (fun j => u.scale j * v j) = g * nrm v

omit [IsStrictOrderedRing K] in
theorem Units.conv_sub (u : Units k K) (v w : Vec k K) (j : Fin k) :
    u.conv v j - u.conv w j = u.scale j * (v j - w j) := by
  simp only [Units.conv]; ring

theorem fdiv_common {g : K} (hg : 0 < g) (a b : K) :
    fdiv (g * a) (g * b) = fdiv a b := by
  unfold fdiv
  have h1 : ∀ x : K, g * x = 0 ↔ x = 0 := fun x => by simp [hg.ne']
  simp only [h1, mul_pos_iff_of_pos_left hg, mul_div_mul_left _ _ hg.ne']

theorem distances_units (u : Units k K) {nrm' nrm : Vec k K → K} (hs : u.Similar nrm' nrm)
    (zs zbars : List (Vec k K)) (nadir : Vec k K) :
    distances nrm' (zs.map u.conv) (zbars.map u.conv) (u.conv nadir) = distances nrm zs zbars nadir := by
  obtain ⟨g, hg, hn⟩ := hs
  unfold distances
  rw [List.zipWith_map]
  simp only [u.conv_sub, hn, fdiv_common hg]

theorem compute_units (u : Units k K) {c : Cfg n k K V} {nrm' : Vec k K → K}
    (hs : u.Similar nrm' c.nrm) (reach : List (Fin n)) (pref : Vec k K) (m left : Int) (km : KMeans k K) :
    compute (u.cfg nrm' c) reach (u.conv pref) m left (u.kmeans km) =
      (compute c reach pref m left km).map u.content := by
  unfold compute
  simp only [Units.cfg, representative_units]
  cases representative c.front reach m km with
  | error e => rfl
  | ok zbars =>
    simp only [Except.map, intermediate_units]
    cases intermediate pref zbars left with
    | error e => rfl
    | ok zs =>
      simp only [bounds_units]
      cases bounds c.front zs with
      | error e => rfl
      | ok p =>
        obtain ⟨lo, hi⟩ := p
        simp only [Except.map, distances_units u hs]
        rfl

theorem findSolution_units (u : Units k K) {c : Cfg n k K V} {nrm' : Vec k K → K}
    (hs : u.Similar nrm' c.nrm) (z : Vec k K) :
    findSolution (u.cfg nrm' c) (u.conv z) = findSolution c z := by
  obtain ⟨g, hg, hn⟩ := hs
  have hr : ∀ i, nrm' (fun j => |u.conv (c.front i) j - u.conv z j|) =
      g * c.nrm fun j => |c.front i j - z j| := by
    intro i
    simp only [u.conv_sub, abs_mul, abs_of_pos (u.pos _), hn]
  unfold findSolution
  simp only [Units.cfg]
  cases c.vars with
  | none => rfl
  | some vars =>
    simp only [hr]
    have : (List.finRange n).map (fun i => g * c.nrm fun j => |c.front i j - z j|) =
        ((List.finRange n).map fun i => c.nrm fun j => |c.front i j - z j|).map (fun x => g * x) := by
      rw [List.map_map]; rfl
    rw [this, npArgmin_map _ (fun x y => mul_le_mul_iff_right₀ hg)]

omit [IsStrictOrderedRing K] in
theorem maxIndex_units (u : Units k K) (l : List (Vec k K)) : maxIndex (l.map u.conv) = maxIndex l := by
  unfold maxIndex
  simp only [List.length_map]

omit [IsStrictOrderedRing K] in
theorem mkRequest_units (u : Units k K) (ct : Content k K) :
    mkRequest (V := V) (u.content ct) = (mkRequest ct).map u.out := by
  unfold mkRequest
  simp only [Units.content, maxIndex_units]
  cases maxIndex ct.points <;> rfl

omit [IsStrictOrderedRing K] in
theorem validate_units (u : Units k K) (ct : Content k K) (r : Resp k K) :
    validate (u.content ct) (u.resp r) = validate ct r := by
  unfold validate
  simp only [Units.content, Units.resp, maxIndex_units, Option.isNone_map]
  rfl

theorem handleStop_units (u : Units k K) {c : Cfg n k K V} {nrm' : Vec k K → K}
    (hs : u.Similar nrm' c.nrm) (s : St n k K) (z : Vec k K) :
    handleStop (u.cfg nrm' c) (u.st s) (u.conv z) = u.res (handleStop c s z) := by
  unfold handleStop
  simp only [findSolution_units u hs]
  cases findSolution c z <;> rfl

theorem handleChoice_units (u : Units k K) {c : Cfg n k K V} {nrm' : Vec k K → K}
    (hs : u.Similar nrm' c.nrm) (s : St n k K) (ct : Content k K) (r : Resp k K) (km : KMeans k K) :
    handleChoice (u.cfg nrm' c) (u.st s) (u.content ct) (u.resp r) (u.kmeans km) =
      u.res (handleChoice c s ct r km) := by
  unfold handleChoice
  simp only [Units.resp]
  cases r.preferredIndex with
  | none => rfl
  | some i =>
    simp only [Units.content, pyGet_map]
    cases pyGet ct.points i with
    | error e => rfl
    | ok z =>
      simp only [Except.map]
      have hleft : (u.st s).left = s.left := rfl
      rw [hleft]
      cases s.left with
      | none => rfl
      | some left =>
        simp only
        by_cases hl : left ≤ 1
        · rw [if_pos hl, if_pos hl]
          exact handleStop_units u hs s z
        · rw [if_neg hl, if_neg hl]
          cases pyGet ct.lowers i with
          | error e => rfl
          | ok lo =>
            cases pyGet ct.uppers i with
            | error e => rfl
            | ok hi =>
              have hre : reachable (u.cfg nrm' c).front (u.conv lo) (u.conv hi) =
                  reachable c.front lo hi := reachable_units u c.front lo hi
              simp only [hre]
              cases r.changeRemaining with
              | none => rfl
              | some ch =>
                simp only
                cases (if ch then r.iterationsLeft else some (left - 1)) with
                | none => rfl
                | some left' =>
                  simp only
                  have hn : (u.st s).nPoints = s.nPoints := rfl
                  rw [hn]
                  cases s.nPoints with
                  | none => rfl
                  | some nP =>
                    simp only [compute_units u hs]
                    cases compute c (reachable c.front lo hi) z nP left' km with
                    | error e => rfl
                    | ok ct' =>
                      simp only [Except.map, mkRequest_units]
                      rfl

omit [IsStrictOrderedRing K] in
theorem handleBack_units (u : Units k K) (s : St n k K) (r : Resp k K) :
    handleBack (V := V) (u.st s) (u.resp r) = u.res (handleBack s r) := by
  unfold handleBack
  simp only [Units.resp]
  cases r.prevSolutions with
  | none => rfl
  | some zs =>
    cases r.prevLower with
    | none => rfl
    | some lo =>
      cases r.prevUpper with
      | none => rfl
      | some hi =>
        cases r.iterationsLeft with
        | none => rfl
        | some left =>
          cases r.prevDistances with
          | none => rfl
          | some ds =>
            have := mkRequest_units (V := V) u
              { points := zs, lowers := lo, uppers := hi, left := left, distances := ds }
            simp only [Units.content] at this
            simp only [Option.map_some, this]
            rfl

theorem answer_units (u : Units k K) {c : Cfg n k K V} {nrm' : Vec k K → K}
    (hs : u.Similar nrm' c.nrm) (s : St n k K) (ct : Content k K) (r : Resp k K) (km : KMeans k K) :
    answer (u.cfg nrm' c) (u.st s) (u.content ct) (u.resp r) (u.kmeans km) =
      u.res (answer c s ct r km) := by
  unfold answer
  rw [validate_units]
  cases validate ct r with
  | error e => rfl
  | ok _ =>
    simp only [handle]
    have hb : (u.resp r).stepBack = r.stepBack := rfl
    rw [hb]
    cases r.stepBack with
    | none => rfl
    | some b =>
      cases b with
      | false => exact handleChoice_units u hs s ct r km
      | true => exact handleBack_units u s r

theorem begin_units (u : Units k K) {c : Cfg n k K V} {nrm' : Vec k K → K}
    (hs : u.Similar nrm' c.nrm) (s : St n k K) (r : InitResp) (km : KMeans k K) :
    begin (u.cfg nrm' c) (u.st s) r (u.kmeans km) = u.res (begin c s r km) := by
  unfold begin
  cases validateInitial r with
  | error e => rfl
  | ok _ =>
    simp only [handleInitial]
    cases r.nIterations with
    | none => rfl
    | some nIt =>
      cases r.nPoints with
      | none => rfl
      | some nP =>
        have hn : (u.cfg nrm' c).nadir = u.conv c.nadir := rfl
        have hre : (u.st s).reach = s.reach := rfl
        simp only [hn, hre, compute_units u hs]
        cases compute c s.reach c.nadir nP.asInt nIt.asInt km with
        | error e => rfl
        | ok ct => simp only [Except.map, mkRequest_units]; rfl

theorem next_units (u : Units k K) {c : Cfg n k K V} {nrm' : Vec k K → K}
    (hs : u.Similar nrm' c.nrm) (s : St n k K) (o : Out k K V) (r : Resp k K) (km : KMeans k K) :
    next (u.cfg nrm' c) (u.st s) (u.out o) (u.resp r) (u.kmeans km) = u.res (next c s o r km) := by
  cases o with
  | points ct => exact answer_units u hs s ct r km
  | stop z sol => rfl

theorem session_units (u : Units k K) {c : Cfg n k K V} {nrm' : Vec k K → K}
    (hs : u.Similar nrm' c.nrm) (steps : List (Resp k K × KMeans k K)) (s : St n k K) (o : Out k K V) :
    session (u.cfg nrm' c) (u.st s) (u.out o) (steps.map fun p => (u.resp p.1, u.kmeans p.2)) =
      (session c s o steps).map fun p => (u.st p.1, u.out p.2) := by
  induction steps generalizing s o with
  | nil => rfl
  | cons p rest ih =>
    obtain ⟨r, km⟩ := p
    simp only [List.map_cons, session, next_units u hs]
    cases h : next c s o r km with
    | mk s' x =>
      cases x with
      | error e => rfl
      | ok o' => exact ih s' o'

/-- A whole use of the method: the initial request is answered with `r₀`, then each request in turn;
the result is the last request, or the first exception. -/
def run (c : Cfg n k K V) (r₀ : InitResp) (km₀ : KMeans k K) (steps : List (Resp k K × KMeans k K)) :
    Except Err (Out k K V) :=
  match begin c (initSt c) r₀ km₀ with
  | (_, .error e) => .error e
  | (s, .ok o) =>
    match session c s o steps with
    | .error e => .error e
    | .ok p => .ok p.2

theorem run_units (u : Units k K) {c : Cfg n k K V} {nrm' : Vec k K → K}
    (hs : u.Similar nrm' c.nrm) (r₀ : InitResp) (km₀ : KMeans k K)
    (steps : List (Resp k K × KMeans k K)) :
    run (u.cfg nrm' c) r₀ (u.kmeans km₀) (steps.map fun p => (u.resp p.1, u.kmeans p.2)) =
      (run c r₀ km₀ steps).map u.out := by
  have h0 : initSt (u.cfg nrm' c) = u.st (initSt c) := rfl
  unfold run
  rw [h0, begin_units u hs]
  cases begin c (initSt c) r₀ km₀ with
  | mk s x =>
    cases x with
    | error e => rfl
    | ok o =>
      simp only [Units.res, Except.map, session_units u hs]
      cases session c s o steps <;> rfl

/-- **C105.** Measure every objective in units that are the same multiple `a > 0` of the old ones, from
new origins: the front, ideal and nadir points, the previously shown points sent back by the decision
maker, all converted. If k-means groups the same rows, every request and the final result are the
converted ones, the distances (percentages), the iterations left, the decision vector and the
exceptions being the same. -/
theorem C105_run_similar {c : Cfg n k K V} (hn : NormSpec c.nrm) (u : Units k K) {a : K}
    (ha : ∀ j, u.scale j = a) (hk : 0 < a) (r₀ : InitResp) (km₀ : KMeans k K)
    (steps : List (Resp k K × KMeans k K)) :
    run (u.cfg c.nrm c) r₀ (u.kmeans km₀) (steps.map fun p => (u.resp p.1, u.kmeans p.2)) =
      (run c r₀ km₀ steps).map u.out := by
  refine run_units u ⟨a, hk, fun v => ?_⟩ r₀ km₀ steps
  have : (fun j => u.scale j * v j) = fun j => a * v j := by funext j; rw [ha]
  rw [this, hn.homog, abs_of_pos hk]

end Verif.ENautilus
