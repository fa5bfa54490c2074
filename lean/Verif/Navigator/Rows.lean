import Verif.Navigator.Recast

set_option linter.unusedSectionVars false

/-!
# NAUTILUS Navigator: the order of the rows of the front does not matter (C152)

The rows of the front, with their decision vectors, may be listed in another order or repeatedly.
-/

namespace Verif.Navigator

variable {K V : Type} [Field K] [LinearOrder K] {n m k : Nat}

/-! ### Specification -/

/-- Specification: the same data with other rows; row `i` of the new table is row `σ i` of the old one. -/
def relist (σ : Fin m → Fin n) (c : Cfg n k K V) : Cfg m k K V :=
  { front := fun i => c.front (σ i), ideal := c.ideal, nadir := c.nadir,
    vars := c.vars.map fun d i => d (σ i), nrm := c.nrm, asf := c.asf }

/-- Specification: the numbers in the first list denote the same rows as those in the second. -/
def SameRows (σ : Fin m → Fin n) (l : List (Fin m)) (l₀ : List (Fin n)) : Prop := ∀ i, i ∈ l ↔ σ i ∈ l₀

/-- Specification: the lists have the same members. -/
def SameSet {α : Type} (l l₀ : List α) : Prop := ∀ x, x ∈ l ↔ x ∈ l₀

/-- Specification: two navigation requests show the same, up to the numbers of the rows. -/
def SameContent (σ : Fin m → Fin n) (a : Content m k K) (b : Content n k K) : Prop :=
  a.lb = b.lb ∧ a.ub = b.ub ∧ a.userBounds = b.userBounds ∧ SameRows σ a.reach b.reach ∧ a.step = b.step ∧
  a.rem = b.rem ∧ a.dist = b.dist ∧ a.speed = b.speed ∧ a.nav = b.nav

/-- Specification: two results are the same, up to the numbers of the rows. -/
def SameOut (σ : Fin m → Fin n) : Except Err (Out m k K V) → Except Err (Out n k K V) → Prop
  | .error e, .error e₀ => e = e₀
  | .ok (.nav a), .ok (.nav b) => SameContent σ a b
  | .ok (.stop idx objs ds), .ok (.stop idx₀ objs₀ ds₀) =>
    SameRows σ idx idx₀ ∧ SameSet objs objs₀ ∧
      match ds, ds₀ with
      | none, none => True
      | some d, some d₀ => SameSet d d₀
      | _, _ => False
  | _, _ => False

/-- Specification: no two different objective vectors of the front have the same achievement value for `q`. -/
def NoTies (c : Cfg n k K V) (q : Vec k K) : Prop :=
  ∀ i j, c.asf q (c.front i) = c.asf q (c.front j) → c.front i = c.front j

/-! ### The state -/

/-- The projections are onto the same objective vector. -/
def SameProj (c : Cfg n k K V) (σ : Fin m → Fin n) (p : Option (Fin m)) (p₀ : Option (Fin n)) : Prop :=
  p.map (fun i => c.front (σ i)) = p₀.map c.front

/-- The two states are the same, up to the numbers of the rows. -/
structure SameSt (c : Cfg n k K V) (σ : Fin m → Fin n) (s : St m k K) (s₀ : St n k K) : Prop where
  lb : s.lb = s₀.lb
  ub : s.ub = s₀.ub
  userBounds : s.userBounds = s₀.userBounds
  reach : SameRows σ s.reach s₀.reach
  step : s.step = s₀.step
  rem : s.rem = s₀.rem
  dist : s.dist = s₀.dist
  speed : s.speed = s₀.speed
  ref : s.ref = s₀.ref
  nav : s.nav = s₀.nav
  proj : SameProj c σ s.proj s₀.proj

theorem SameSt.content {c : Cfg n k K V} {σ : Fin m → Fin n} {s : St m k K} {s₀ : St n k K} (h : SameSt c σ s s₀) :
    SameContent σ s.content s₀.content :=
  ⟨h.lb, h.ub, h.userBounds, h.reach, h.step, h.rem, h.dist, h.speed, h.nav⟩

/-- What a call does to both. -/
def SameRes (c : Cfg n k K V) (σ : Fin m → Fin n) (x : St m k K × Except Err (Out m k K V))
    (x₀ : St n k K × Except Err (Out n k K V)) : Prop := SameSt c σ x.1 x₀.1 ∧ SameOut σ x.2 x₀.2

theorem npMin_set {l l₀ : List K} (h : SameSet l l₀) : npMin l = npMin l₀ := by
  cases h1 : npMin l₀ with
  | ok x =>
    obtain ⟨a, b⟩ := (npMin_ok_iff _ _).1 h1
    exact (npMin_ok_iff _ _).2 ⟨(h x).2 a, fun y hy => b y ((h y).1 hy)⟩
  | error e =>
    obtain ⟨a, b⟩ := (npMin_error_iff _ _).1 h1
    refine (npMin_error_iff _ _).2 ⟨List.eq_nil_iff_forall_not_mem.2 fun x hx => ?_, b⟩
    have := (h x).1 hx
    rw [a] at this
    cases this

theorem npMax_set {l l₀ : List K} (h : SameSet l l₀) : npMax l = npMax l₀ := by
  cases h1 : npMax l₀ with
  | ok x =>
    obtain ⟨a, b⟩ := (npMax_ok_iff _ _).1 h1
    exact (npMax_ok_iff _ _).2 ⟨(h x).2 a, fun y hy => b y ((h y).1 hy)⟩
  | error e =>
    obtain ⟨a, b⟩ := (npMax_error_iff _ _).1 h1
    refine (npMax_error_iff _ _).2 ⟨List.eq_nil_iff_forall_not_mem.2 fun x hx => ?_, b⟩
    have := (h x).1 hx
    rw [a] at this
    cases this

theorem candidates_set {front : Fin n → Vec k K} {σ : Fin m → Fin n} (hσ : Function.Surjective σ)
    {l : List (Fin m)} {l₀ : List (Fin n)} (h : SameRows σ l l₀) (nav : Vec k K) (u : Vec k (Option K)) (r : Fin k) :
    SameSet (candidates (fun i => front (σ i)) l nav u r) (candidates front l₀ nav u r) := by
  intro x
  unfold candidates
  simp only [List.mem_map, List.mem_filter]
  constructor
  · rintro ⟨i, ⟨h1, h2⟩, h3⟩
    exact ⟨σ i, ⟨(h i).1 h1, h2⟩, h3⟩
  · rintro ⟨i, ⟨h1, h2⟩, h3⟩
    obtain ⟨j, rfl⟩ := hσ i
    exact ⟨j, ⟨(h j).2 h1, h2⟩, h3⟩

variable {c : Cfg n k K V} {σ : Fin m → Fin n} [IsStrictOrderedRing K]

theorem solve_rows (hσ : Function.Surjective σ) {l : List (Fin m)} {l₀ : List (Fin n)} (h : SameRows σ l l₀)
    (q u : Vec k (Option K)) (ht : ∀ qv : Vec k K, q = (fun j => some (qv j)) → NoTies c qv) :
    (∃ e, solve (relist σ c) l q u = .error e ∧ solve c l₀ q u = .error e) ∨
    ∃ p p₀, solve (relist σ c) l q u = .ok p ∧ solve c l₀ q u = .ok p₀ ∧ c.front (σ p) = c.front p₀ := by
  cases h1 : solve (relist σ c) l q u with
  | error e =>
    obtain ⟨rfl, h3⟩ := solve_error h1
    cases h2 : solve c l₀ q u with
    | error e₀ =>
      obtain ⟨rfl, _⟩ := solve_error h2
      exact .inl ⟨_, rfl, rfl⟩
    | ok p₀ =>
      obtain ⟨m1, m2, qv, hq, _⟩ := solve_ok h2
      rcases h3 with ⟨j, hj⟩ | h3
      · rw [hq] at hj
        cases hj
      · obtain ⟨i, rfl⟩ := hσ p₀
        exact absurd m2 (h3 i ((h i).2 m1))
  | ok p =>
    obtain ⟨m1, m2, qv, hq, b⟩ := solve_ok h1
    cases h2 : solve c l₀ q u with
    | error e₀ =>
      obtain ⟨_, h3⟩ := solve_error h2
      rcases h3 with ⟨j, hj⟩ | h3
      · rw [hq] at hj
        cases hj
      · exact absurd m2 (h3 _ ((h p).1 m1))
    | ok p₀ =>
      obtain ⟨m1', m2', qv', hq', b'⟩ := solve_ok h2
      have hqq : qv' = qv := by
        funext j
        have := congrFun (hq'.symm.trans hq) j
        simpa using this
      subst hqq
      refine .inr ⟨p, p₀, rfl, rfl, ht qv' hq _ _ (le_antisymm ?_ (b' _ ((h p).1 m1) m2))⟩
      obtain ⟨i, rfl⟩ := hσ p₀
      exact b i ((h i).2 m1') m2'

theorem move_rows (hσ : Function.Surjective σ) {s : St m k K} {s₀ : St n k K} (h : SameSt c σ s s₀) {p : Fin m}
    {p₀ : Fin n} (hp : c.front (σ p) = c.front p₀) (hpr : SameProj c σ s.proj s₀.proj) (u : Vec k (Option K)) :
    SameSt c σ (move (relist σ c) s p u) (move c s₀ p₀ u) := by
  have hnav : navPoint ((relist σ c).front p) s.nav s.rem = navPoint (c.front p₀) s₀.nav s₀.rem := by
    rw [h.nav, h.rem, ← hp]
    rfl
  have hlb : lowerBounds (relist σ c).front s.reach (navPoint ((relist σ c).front p) s.nav s.rem) u s.lb =
      lowerBounds c.front s₀.reach (navPoint (c.front p₀) s₀.nav s₀.rem) u s₀.lb := by
    funext r
    unfold lowerBounds minOr
    have := npMin_set (candidates_set (front := c.front) hσ h.reach (navPoint (c.front p₀) s₀.nav s₀.rem) u r)
    change npMin (candidates (relist σ c).front _ _ _ _) = _ at this
    rw [hnav, h.lb, this]
  have hub : upperBounds (relist σ c).front s.reach (navPoint ((relist σ c).front p) s.nav s.rem) u s.ub =
      upperBounds c.front s₀.reach (navPoint (c.front p₀) s₀.nav s₀.rem) u s₀.ub := by
    funext r
    unfold upperBounds maxOr
    have := npMax_set (candidates_set (front := c.front) hσ h.reach (navPoint (c.front p₀) s₀.nav s₀.rem) u r)
    change npMax (candidates (relist σ c).front _ _ _ _) = _ at this
    rw [hnav, h.ub, this]
  unfold move
  simp only
  rw [hlb, hub, hnav]
  refine ⟨rfl, rfl, rfl, ?_, ?_, ?_, ?_, h.speed, h.ref, rfl, hpr⟩
  · intro i
    rw [mem_reachable, mem_reachable]
    rfl
  · simp only [h.rem, h.step]
  · simp only [h.rem]
  · show distance c.nrm _ (c.front (σ p)) c.nadir = _
    rw [hp]

theorem advance_rows (hσ : Function.Surjective σ) {s : St m k K} {s₀ : St n k K} (h : SameSt c σ s s₀)
    (u : Vec k (Option K)) : SameRes c σ (advance (relist σ c) s u) (advance c s₀ u) := by
  have hpr := h.proj
  unfold advance
  cases hp : s.proj with
  | none =>
    cases hp₀ : s₀.proj with
    | none => exact ⟨h, rfl⟩
    | some p₀ => rw [hp, hp₀] at hpr; cases hpr
  | some p =>
    cases hp₀ : s₀.proj with
    | none => rw [hp, hp₀] at hpr; cases hpr
    | some p₀ =>
      simp only [h.rem]
      by_cases h0 : s₀.rem = 0
      · rw [if_pos h0, if_pos h0]
        exact ⟨h, rfl⟩
      · rw [if_neg h0, if_neg h0]
        have he : c.front (σ p) = c.front p₀ := by
          rw [hp, hp₀] at hpr
          exact Option.some.inj hpr
        have := move_rows hσ h he hpr u
        exact ⟨this, this.content⟩

theorem answer_rows (hσ : Function.Surjective σ) {s : St m k K} {s₀ : St n k K} (h : SameSt c σ s s₀)
    {ct : Content m k K} {ct₀ : Content n k K} (hct : SameContent σ ct ct₀) {r : Resp K}
    (ht : ∀ l (qv : Vec k K), r.ref = some l → Denotes l (fun j => some (qv j)) → InBox c.ideal c.nadir qv →
      NoTies c qv) : SameRes c σ (answer (relist σ c) s ct r) (answer c s₀ ct₀ r) := by
  unfold answer
  have hv : validate (relist σ c) r = validate c r := rfl
  rw [hv]
  cases hvv : validate c r with
  | error e => exact ⟨h, rfl⟩
  | ok _ =>
    simp only
    obtain ⟨⟨l, q, hl, hq, hbox⟩, ⟨v, z, hsp, -⟩, ⟨g, hg⟩, ⟨ul, hul, -⟩, ⟨st, hst⟩⟩ := validate_ok_iff.1 hvv
    unfold handle
    simp only [hl, hsp, hg, hul, hst, hq]
    by_cases h1 : PyVal.bool st = .bool true
    · rw [if_pos h1, if_pos h1]
      refine ⟨h, hct.2.2.2.1, ?_, ?_⟩
      · intro f
        simp only [List.mem_map]
        constructor
        · rintro ⟨i, hi, rfl⟩
          exact ⟨σ i, (hct.2.2.2.1 i).1 hi, rfl⟩
        · rintro ⟨i, hi, rfl⟩
          obtain ⟨j, rfl⟩ := hσ i
          exact ⟨j, (hct.2.2.2.1 j).2 hi, rfl⟩
      · simp only [relist]
        cases c.vars with
        | none => trivial
        | some d =>
          intro x
          simp only [List.mem_map]
          constructor
          · rintro ⟨i, hi, rfl⟩
            exact ⟨σ i, (hct.2.2.2.1 i).1 hi, rfl⟩
          · rintro ⟨i, hi, rfl⟩
            obtain ⟨j, rfl⟩ := hσ i
            exact ⟨j, (hct.2.2.2.1 j).2 hi, rfl⟩
    · rw [if_neg h1, if_neg h1]
      by_cases h2 : PyVal.bool g = .bool true
      · rw [if_pos h2, if_pos h2]
        have hb : SameSt c σ (goBack s ct (toBounds k ul)) (goBack s₀ ct₀ (toBounds k ul)) :=
          ⟨hct.1, hct.2.1, rfl, hct.2.2.2.1, hct.2.2.2.2.1, hct.2.2.2.2.2.1, hct.2.2.2.2.2.2.1, h.speed, h.ref,
            hct.2.2.2.2.2.2.2.2, h.proj⟩
        exact ⟨hb, hb.content⟩
      · rw [if_neg h2, if_neg h2]
        unfold forward
        have hn : needsProjection s q = needsProjection s₀ q := by
          unfold needsProjection
          rw [h.step, h.ref]
        rw [hn]
        cases needsProjection s₀ q with
        | error e => exact ⟨h, rfl⟩
        | ok b =>
          cases b with
          | false => exact advance_rows hσ h _
          | true =>
            have h1 : SameSt c σ { s with speed := if s.step = 1 then some v else s.speed }
                { s₀ with speed := if s₀.step = 1 then some v else s₀.speed } :=
              ⟨h.lb, h.ub, h.userBounds, h.reach, h.step, h.rem, h.dist, by simp only [h.step, h.speed], h.ref, h.nav,
                h.proj⟩
            rcases solve_rows hσ h.reach q s.userBounds (c := c) (by
                intro qv hqv
                subst hqv
                exact ht l qv hl (denotes_of_broadcast hq) fun j => hbox j _ rfl) with ⟨e, e1, e2⟩ | ⟨p, p₀, e1, e2, he⟩
            · rw [h.userBounds] at e2
              simp only [e1, e2]
              exact ⟨h1, rfl⟩
            · rw [h.userBounds] at e2
              simp only [e1, e2]
              have h2 : SameSt c σ
                  { s with speed := if s.step = 1 then some v else s.speed, ref := some q, proj := some p }
                  { s₀ with speed := if s₀.step = 1 then some v else s₀.speed, ref := some q, proj := some p₀ } :=
                ⟨h.lb, h.ub, h.userBounds, h.reach, h.step, h.rem, h.dist, by simp only [h.step, h.speed],
                  rfl, h.nav, by simp only [SameProj, Option.map_some, he]⟩
              exact advance_rows hσ h2 _

theorem replay_rows (hσ : Function.Surjective σ) (steps : List (Nat × Resp K))
    (ht : ∀ qv : Vec k K, Asked steps (fun j => some (qv j)) → InBox c.ideal c.nadir qv → NoTies c qv)
    {s : St m k K} {s₀ : St n k K} (h : SameSt c σ s s₀) {reqs : List (Content m k K)} {reqs₀ : List (Content n k K)}
    (hr : List.Forall₂ (SameContent σ) reqs reqs₀) :
    List.Forall₂ (SameOut σ) (replay (relist σ c) s reqs steps) (replay c s₀ reqs₀ steps) := by
  induction steps generalizing s s₀ reqs reqs₀ with
  | nil => exact .nil
  | cons p rest ih =>
    obtain ⟨i, r⟩ := p
    have ht' : ∀ qv : Vec k K, Asked rest (fun j => some (qv j)) → InBox c.ideal c.nadir qv → NoTies c qv :=
      fun qv ⟨p, hp, h⟩ => ht qv ⟨p, List.mem_cons_of_mem _ hp, h⟩
    simp only [replay]
    have hget : ∀ (l : List (Content m k K)) (l₀ : List (Content n k K)), List.Forall₂ (SameContent σ) l l₀ → ∀ i : Nat,
        (l[i]? = none ∧ l₀[i]? = none) ∨ ∃ a b, l[i]? = some a ∧ l₀[i]? = some b ∧ SameContent σ a b := by
      intro l l₀ hf
      induction hf with
      | nil => intro i; exact .inl ⟨by simp, by simp⟩
      | cons hab _ ih =>
        intro i
        cases i with
        | zero => exact .inr ⟨_, _, rfl, rfl, hab⟩
        | succ i => simpa using ih i
    rcases hget _ _ hr i with ⟨e1, e2⟩ | ⟨ct, ct₀, e1, e2, hct⟩
    · rw [e1, e2]
      exact ih ht' h hr
    · rw [e1, e2]
      have ha := answer_rows hσ h hct (r := r) fun l qv h1 h2 h3 => ht qv ⟨(i, r), by simp, l, h1, h2⟩ h3
      refine .cons ha.2 (ih ht' ha.1 ?_)
      have ho := ha.2
      revert ho
      cases (answer (relist σ c) s ct r).2 with
      | error e =>
        cases (answer c s₀ ct₀ r).2 with
        | error e₀ => intro _; exact hr
        | ok o₀ => cases o₀ <;> exact fun ho => ho.elim
      | ok o =>
        cases (answer c s₀ ct₀ r).2 with
        | error e₀ => cases o <;> exact fun ho => ho.elim
        | ok o₀ =>
          cases o with
          | nav a =>
            cases o₀ with
            | nav b => intro ho; exact .cons ho hr
            | stop i1 i2 i3 => intro ho; exact ho.elim
          | stop j1 j2 j3 =>
            cases o₀ with
            | nav b => intro ho; exact ho.elim
            | stop i1 i2 i3 => intro ho; exact hr

/-! ### C152 -/

/-- The full claim: whatever the responses and the requests they are given to, a front that lists the same rows in
another order, or some of them repeatedly, leads to the same results up to the numbers of the rows. -/
def RowOrderIrrelevant (c : Cfg n k K V) : Prop :=
  ∀ (m : Nat) (σ : Fin m → Fin n), Function.Surjective σ → ∀ steps : List (Nat × Resp K),
    List.Forall₂ (SameOut σ) (use (relist σ c) steps) (use c steps)

/-- C152, for reference points for which no two different rows have the same achievement value: the same rows listed
in another order, or some of them repeatedly, lead to the same results in the whole use of the method, whatever the
responses and the requests they are given to. Missing: ties, where the first row is taken (`C152_fails`). -/
theorem C152_rows_partial (c : Cfg n k K V) {σ : Fin m → Fin n} (hσ : Function.Surjective σ)
    (steps : List (Nat × Resp K))
    (ht : ∀ qv : Vec k K, Asked steps (fun j => some (qv j)) → InBox c.ideal c.nadir qv → NoTies c qv) :
    List.Forall₂ (SameOut σ) (use (relist σ c) steps) (use c steps) := by
  have h : SameSt c σ (initSt (relist σ c)) (initSt c) :=
    ⟨rfl, rfl, rfl, fun i => by simp [initSt], rfl, rfl, rfl, rfl, rfl, rfl, rfl⟩
  exact replay_rows hσ steps ht h (.cons h.content .nil)

/-- If rows are only reordered, lists of row numbers without repetitions that denote the same rows are permutations
of each other. -/
theorem SameRows.perm {σ : Fin m → Fin n} (hi : Function.Injective σ) (hs : Function.Surjective σ) {l : List (Fin m)}
    {l₀ : List (Fin n)} (h : SameRows σ l l₀) (h1 : l.Nodup) (h2 : l₀.Nodup) : (l.map σ).Perm l₀ := by
  rw [List.perm_ext_iff_of_nodup (h1.map hi) h2]
  intro x
  obtain ⟨i, rfl⟩ := hs x
  rw [List.mem_map, ← h i]
  constructor
  · rintro ⟨j, hj, he⟩
    rwa [← hi he]
  · intro hj
    exact ⟨i, hj, rfl⟩

/-- The rows of the example in reverse order, the second twice. -/
def exRows : Fin 4 → Fin 3 := ![2, 1, 0, 1]

/-- Two steps towards (1/2, 1), which is not equally far from two rows, back to the first request, stop. -/
def exRowSteps : List (Nat × Resp ℚ) :=
  [(0, forwardResp [some (1/2), some 1] (.int 3) noB), (0, forwardResp [some (1/2), some 1] (.int 3) noB),
    (2, backResp [some (1/2), some 1] (.int 3) noB), (0, stopResp [some (1/2), some 1] (.int 3) false noB)]

theorem exRowSteps_noTies (qv : Vec 2 ℚ) (h : Asked exRowSteps (fun j => some (qv j))) : NoTies exCfg qv := by
  have hq : qv = ![1/2, 1] := by
    obtain ⟨p, hp, l, hl, hd⟩ := h
    have hl' : l = [some (1/2), some 1] := by
      simp only [exRowSteps, List.mem_cons, List.not_mem_nil, or_false] at hp
      rcases hp with rfl | rfl | rfl | rfl <;> exact (Option.some.inj hl).symm
    subst hl'
    funext j
    rcases hd with ⟨_, h2⟩ | ⟨h1, _⟩
    · have := h2 j
      match j with
      | 0 => simpa using this.symm
      | 1 => simpa using this.symm
    · simp at h1
  subst hq
  unfold NoTies
  decide +kernel

example := C152_rows_partial exCfg (σ := exRows) (by unfold Function.Surjective; decide +kernel) exRowSteps
  fun qv h _ => exRowSteps_noTies qv h

/-- What is returned on the relisted example: three navigation requests and the stop request. -/
example : (use (relist exRows exCfg) exRowSteps).length = 4 ∧
    (use (relist exRows exCfg) exRowSteps).all (fun o => o matches .ok _) = true := by decide +kernel

/-- The front with the rows (0, 1) and (1, 0). -/
def twoRows : Cfg 2 2 ℚ String :=
  { front := ![![0, 1], ![1, 0]], ideal := ![0, 0], nadir := ![1, 1],
    vars := some ![ "a", "b"], nrm := supNorm, asf := pointAsf ![0, 0] ![1, 1] }

/-- The navigation point of a result. -/
def navOf : Except Err (Out n k K V) → Option (Vec k K)
  | .ok (.nav ct) => some ct.nav
  | _ => none

/-- C152 fails: with the reference point (1/2, 1/2) the first row listed is navigated to, (0, 1) or (1, 0), depending
on the order. -/
theorem C152_fails : ¬ RowOrderIrrelevant twoRows := by
  intro h
  have h1 := h 2 ![1, 0] (by unfold Function.Surjective; decide +kernel)
    [(0, forwardResp [some (1/2), some (1/2)] (.int 3) noB)]
  have h2 : (use (relist ![1, 0] twoRows) [(0, forwardResp [some (1/2), some (1/2)] (.int 3) noB)]).map navOf ≠
      (use twoRows [(0, forwardResp [some (1/2), some (1/2)] (.int 3) noB)]).map navOf := by decide +kernel
  refine h2 ?_
  clear h2
  revert h1
  generalize use (relist ![1, 0] twoRows) _ = a
  generalize use twoRows _ = b
  intro h1
  induction h1 with
  | nil => rfl
  | @cons x y l₁ l₂ hxy _ ih =>
    simp only [List.map_cons]
    rw [ih]
    congr 1
    cases x with
    | error e =>
      cases y with
      | error e₀ => rfl
      | ok o => cases o <;> exact hxy.elim
    | ok o =>
      cases y with
      | error e₀ => cases o <;> exact hxy.elim
      | ok o₀ =>
        cases o <;> cases o₀
        · exact congrArg some hxy.2.2.2.2.2.2.2.2
        · exact hxy.elim
        · exact hxy.elim
        · rfl

end Verif.Navigator
