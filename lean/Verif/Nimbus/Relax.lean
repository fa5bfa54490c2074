import Verif.Nimbus.Props4

/-!
# NIMBUS: allowing an objective to get worse (C163)

Raising the levels of objectives classified '>=' enlarges the set of solutions that honour the
classification; the first scalarizing function does not look at these levels. So the first solution either
is the one the old levels lead to, or it makes use of the additional room - and then it is better in
another objective.
-/

namespace Verif.Nimbus

/-! ### The first of several smallest entries -/

section first
variable {K : Type} [LinearOrder K]

/-- `nanargmin` returns the first of the smallest entries: every earlier entry is larger. -/
theorem nanArgminGo_first (pre xs : List (Option K)) (b : Option (K × Nat))
    (hs : ∀ y i, b = some (y, i) → pre[i]? = some (some y) ∧ (∀ x, some x ∈ pre → y ≤ x) ∧
      ∀ j x, j < i → pre[j]? = some (some x) → y < x)
    (hn : b = none → ∀ x, some x ∉ pre) :
    ∀ y i, nanArgminGo b pre.length xs = some (y, i) →
      (∀ j x, j < i → (pre ++ xs)[j]? = some (some x) → y < x) := by
  induction xs generalizing pre b with
  | nil =>
    intro y i h
    simp only [nanArgminGo] at h
    simpa using (hs y i h).2.2
  | cons o xs ih =>
    have e : pre ++ o :: xs = (pre ++ [o]) ++ xs := by simp
    have hl : (pre ++ [o]).length = pre.length + 1 := by simp
    have new : ∀ x : K, (∀ z, some z ∈ pre → x < z) → ∀ y i, (some (x, pre.length) : Option (K × Nat)) = some (y, i) →
        (pre ++ [some x])[i]? = some (some y) ∧ (∀ z, some z ∈ pre ++ [some x] → y ≤ z) ∧
          ∀ j z, j < i → (pre ++ [some x])[j]? = some (some z) → y < z := by
      intro x hx y i hb
      simp only [Option.some.injEq, Prod.mk.injEq] at hb
      obtain ⟨rfl, rfl⟩ := hb
      refine ⟨by simp, ?_, ?_⟩
      · intro z hz
        simp only [List.mem_append, List.mem_singleton, Option.some.injEq] at hz
        rcases hz with hz | hz
        · exact (hx z hz).le
        · rw [hz]
      · intro j z hj hz
        rw [List.getElem?_append_left hj] at hz
        exact hx z (List.mem_of_getElem? hz)
    have old : ∀ o : Option K, (∀ y i, b = some (y, i) → ∀ z, o = some z → y ≤ z) → ∀ y i, b = some (y, i) →
        (pre ++ [o])[i]? = some (some y) ∧ (∀ z, some z ∈ pre ++ [o] → y ≤ z) ∧
          ∀ j z, j < i → (pre ++ [o])[j]? = some (some z) → y < z := by
      intro o ho y i hb
      obtain ⟨h1, h2, h3⟩ := hs y i hb
      have hi := (List.getElem?_eq_some_iff.1 h1).1
      refine ⟨by rw [List.getElem?_append_left hi]; exact h1, ?_, ?_⟩
      · intro z hz
        simp only [List.mem_append, List.mem_singleton] at hz
        rcases hz with hz | hz
        · exact h2 z hz
        · exact ho y i hb z hz.symm
      · intro j z hj hz
        rw [List.getElem?_append_left (by omega)] at hz
        exact h3 j z hj hz
    rw [e]
    cases o with
    | none =>
      have := ih (pre ++ [none]) b (old none (by simp)) (by
        intro hb x hx
        simp at hx
        exact hn hb x hx)
      rw [hl] at this
      simpa only [nanArgminGo] using this
    | some x =>
      cases b with
      | none =>
        have := ih (pre ++ [some x]) (some (x, pre.length))
          (new x fun z hz => absurd hz (hn rfl z)) (by simp)
        rw [hl] at this
        simpa only [nanArgminGo] using this
      | some p =>
        obtain ⟨y, bi⟩ := p
        by_cases h : x < y
        · have := ih (pre ++ [some x]) (some (x, pre.length))
            (new x fun z hz => lt_of_lt_of_le h ((hs y bi rfl).2.1 z hz)) (by simp)
          rw [hl] at this
          simpa only [nanArgminGo, h, if_true] using this
        · have := ih (pre ++ [some x]) (some (y, bi)) (old (some x) (by
            intro y' i hb z hz
            simp only [Option.some.injEq, Prod.mk.injEq] at hb hz
            rw [← hb.1, ← hz]
            exact not_lt.1 h)) (by simp)
          rw [hl] at this
          simpa only [nanArgminGo, h, if_false] using this

theorem npNanArgmin_first {l : List (Option K)} {i : Nat} (h : npNanArgmin l = .ok i) {v : K}
    (hv : l[i]? = some (some v)) {j : Nat} {x : K} (hj : j < i) (hx : l[j]? = some (some x)) : v < x := by
  have key := nanArgminGo_first [] l none (by simp) (by simp)
  simp only [List.length_nil, List.nil_append] at key
  have hsp := (nanArgminGo_spec [] l none (by simp) (by simp)).2
  simp only [List.length_nil, List.nil_append] at hsp
  unfold npNanArgmin at h
  split at h
  · simp at h
  · rename_i y i' hi'
    simp only [Except.ok.injEq] at h
    subst h
    have := (hsp y i' hi').1
    rw [hv, Option.some.injEq, Option.some.injEq] at this
    rw [this]
    exact key y i' hi' j x hj hx

end first

variable {K : Type} [Field K] [LinearOrder K] {k m : Nat}

/-- Among equally good feasible rows the discrete minimizer takes the first. -/
theorem discreteMin_first {N : Nat} {obj : Fin N → Vec k K} {asf : Vec k K → K} {fe : Vec k K → Bool}
    {x : Fin N} (h : discreteMin obj asf fe = .ok x) {i : Fin N} (hi : fe (obj i) = true)
    (hle : asf (obj i) ≤ asf (obj x)) : x ≤ i := by
  have hok := discreteMin_ok h
  unfold discreteMin at h
  split at h
  · simp at h
  · rename_i idx hidx
    split at h
    · rename_i hlt
      simp only [Except.ok.injEq] at h
      subst h
      by_contra hc
      have hl : i.val < idx := by
        have := not_le.1 hc
        exact this
      have := npNanArgmin_first hidx (v := asf (obj ⟨idx, hlt⟩)) (j := i.val) (x := asf (obj i))
        (by
          rw [List.getElem?_map, List.getElem?_eq_getElem (by simpa using hlt)]
          simp [hok.1]) hl
        (by
          rw [List.getElem?_map, List.getElem?_eq_getElem (by simp)]
          simp [hi])
      exact absurd hle (not_le.2 this)
    · simp at h

/-! ### Raising the levels of '>=' -/

/-- The first scalarizing function uses the levels of the objectives to be improved up to a level ('<=')
only, as documented for synchronous NIMBUS. -/
def UsesAspirationsOnly (asf : (lt le : List Nat) → (ref f : Vec k K) → K) : Prop :=
  ∀ lt le z z' f, (∀ j : Fin k, j.val ∈ le → z j = z' j) → asf lt le z f = asf lt le z' f

/-- The second levels allow the objectives classified '>=' to get at least as bad, and ask for the same
improvements. Levels of other objectives have no meaning. -/
def Relaxes (cls : Fin k → Cls) (lv lv' : Vec k K) : Prop :=
  ∀ j, (cls j = .ge → lv j ≤ lv' j) ∧ (cls j = .le → lv j = lv' j)

theorem Relaxes.honours [IsStrictOrderedRing K] {cls : Fin k → Cls} {lv lv' cur f : Vec k K} (h : Relaxes cls lv lv')
    (hf : Honours cls cur lv f) : Honours cls cur lv' f :=
  fun j => ⟨(hf j).1, fun hj => le_trans ((hf j).2 hj) ((h j).1 hj)⟩

theorem mem_positions {cls : Fin k → Cls} {x : Cls} {j : Fin k} : j.val ∈ positions cls x ↔ cls j = x := by
  simp only [positions, List.mem_map, List.mem_filter, List.mem_finRange, true_and, decide_eq_true_eq]
  constructor
  · rintro ⟨i, hi, hij⟩
    rw [← Fin.ext hij]
    exact hi
  · exact fun h => ⟨j, h, rfl⟩

omit [Field K] in
theorem honours_or {cls : Fin k → Cls} {lv lv' cur f : Vec k K} (hf : Honours cls cur lv' f) :
    Honours cls cur lv f ∨ ∃ j, cls j = .ge ∧ lv j < f j ∧ f j ≤ lv' j := by
  by_cases h : ∃ j, cls j = .ge ∧ lv j < f j ∧ f j ≤ lv' j
  · exact .inr h
  · left
    intro j
    refine ⟨(hf j).1, fun hj => ?_⟩
    by_contra hc
    exact h ⟨j, hj, not_le.1 hc, (hf j).2 hj⟩

variable [IsStrictOrderedRing K]

/-- The row found for a classification, with everything known about it. -/
theorem first_row {c : Cfg k m K} {s s' : St k m K} {l : List (Req k m K)}
    (h : Reached c s l) (hns : ∀ x f, Req.stop x f ∉ l) {N : Nat} {obj : Fin N → Vec k K}
    {dec : Fin N → Vec m K} {cl : Option (Vec m K) → Fin N} (hd : c.problem = .discrete N obj dec cl)
    {f0 : Vec k K} {cls : Fin k → Cls} {lv : Vec k K} {num : Int} {orc : Oracle k m K} {r' : Req k m K}
    (ha : answer c s (.classify f0) (.classify (complete cls lv num)) orc = (s', .ok r')) :
    ∃ sols objs p, r' = .save sols objs ∧ sols[0]? = some (dec p) ∧ objs[0]? = some (obj p) ∧
      Honours cls s.obj lv (obj p) ∧
      (∀ q, Honours cls s.obj lv (obj q) →
        c.asf1 (positions cls .lt) (positions cls .le) lv (obj p) ≤
          c.asf1 (positions cls .lt) (positions cls .le) lv (obj q)) ∧
      ∀ q, Honours cls s.obj lv (obj q) →
        c.asf1 (positions cls .lt) (positions cls .le) lv (obj q) ≤
          c.asf1 (positions cls .lt) (positions cls .le) lv (obj p) → p ≤ q := by
  obtain ⟨hv, sols, objs, rfl, hnth⟩ := classify_nth h hns ha
  obtain ⟨_, v2, _, _⟩ := validate_complete hv
  obtain ⟨p, x, f, hp, hx, hf, hsol⟩ := hnth 0 (by omega)
  simp [problems] at hp
  subst hp
  simp only [← inds_ofFn]
  simp only [solveOne, hd] at hsol
  split at hsol
  · simp at hsol
  · rename_i y hy
    simp only [Except.ok.injEq, Prod.mk.injEq] at hsol
    obtain ⟨rfl, rfl⟩ := hsol
    have hok := discreteMin_ok hy
    exact ⟨sols, objs, y, rfl, hx, hf, (cons1_iff _ _ _ _).1 hok.1,
      fun q hq => hok.2 q ((cons1_iff _ _ _ _).2 hq),
      fun q hq hle => discreteMin_first hy ((cons1_iff _ _ _ _).2 hq) hle⟩

/-- **C163** (data-based problems). Two complete classifications of the same request, the second of which
allows the objectives classified '>=' to get worse than the first. If the first scalarizing function does
not look at these levels, the second answer leads to a first solution with at least as good a value of it,
and this is the same row as before unless it exceeds one of the old levels. -/
theorem C163_room {c : Cfg k m K} {s s1 s2 : St k m K} {l : List (Req k m K)}
    (h : Reached c s l) (hns : ∀ x f, Req.stop x f ∉ l) {N : Nat} {obj : Fin N → Vec k K}
    {dec : Fin N → Vec m K} {cl : Option (Vec m K) → Fin N} (hd : c.problem = .discrete N obj dec cl)
    (hasp : UsesAspirationsOnly c.asf1)
    {f0 : Vec k K} {cls : Fin k → Cls} {lv lv' : Vec k K} {num num' : Int} {orc orc' : Oracle k m K}
    {r1 r2 : Req k m K}
    (ha : answer c s (.classify f0) (.classify (complete cls lv num)) orc = (s1, .ok r1))
    (ha' : answer c s (.classify f0) (.classify (complete cls lv' num')) orc' = (s2, .ok r2))
    (hrel : Relaxes cls lv lv') :
    ∃ sols objs sols' objs' p p', r1 = .save sols objs ∧ r2 = .save sols' objs' ∧
      sols[0]? = some (dec p) ∧ objs[0]? = some (obj p) ∧ sols'[0]? = some (dec p') ∧ objs'[0]? = some (obj p') ∧
      c.asf1 (positions cls .lt) (positions cls .le) lv (obj p') ≤
        c.asf1 (positions cls .lt) (positions cls .le) lv (obj p) ∧
      (p' = p ∨ ∃ j, cls j = .ge ∧ lv j < obj p' j ∧ obj p' j ≤ lv' j) := by
  obtain ⟨sols, objs, p, rfl, hs, ho, hh, hmin, hfst⟩ := first_row h hns hd ha
  obtain ⟨sols', objs', p', rfl, hs', ho', hh', hmin', hfst'⟩ := first_row h hns hd ha'
  have e : ∀ f, c.asf1 (positions cls .lt) (positions cls .le) lv' f =
      c.asf1 (positions cls .lt) (positions cls .le) lv f := fun f =>
    (hasp _ _ _ _ f fun j hj => (hrel j).2 (mem_positions.1 hj)).symm
  simp only [e] at hmin' hfst'
  refine ⟨sols, objs, sols', objs', p, p', rfl, rfl, hs, ho, hs', ho', hmin' p (hrel.honours hh), ?_⟩
  rcases honours_or (lv := lv) hh' with g | g
  · left
    exact le_antisymm (hfst' p (hrel.honours hh) (hmin p' g)) (hfst p' g (hmin' p (hrel.honours hh)))
  · exact .inr g

/-- **C163** (the room is paid for). If, moreover, the first scalarizing function prefers dominating
vectors, then a first solution that differs from the old one is better than it in some objective. -/
theorem C163_paid {c : Cfg k m K} {s s1 s2 : St k m K} {l : List (Req k m K)}
    (h : Reached c s l) (hns : ∀ x f, Req.stop x f ∉ l) {N : Nat} {obj : Fin N → Vec k K}
    {dec : Fin N → Vec m K} {cl : Option (Vec m K) → Fin N} (hd : c.problem = .discrete N obj dec cl)
    (hasp : UsesAspirationsOnly c.asf1) (hpd : ∀ a b z, PrefersDominating (c.asf1 a b z))
    {f0 : Vec k K} {cls : Fin k → Cls} {lv lv' : Vec k K} {num num' : Int} {orc orc' : Oracle k m K}
    {r1 r2 : Req k m K}
    (ha : answer c s (.classify f0) (.classify (complete cls lv num)) orc = (s1, .ok r1))
    (ha' : answer c s (.classify f0) (.classify (complete cls lv' num')) orc' = (s2, .ok r2))
    (hrel : Relaxes cls lv lv') :
    ∃ sols objs sols' objs' p p', r1 = .save sols objs ∧ r2 = .save sols' objs' ∧
      sols[0]? = some (dec p) ∧ objs[0]? = some (obj p) ∧ sols'[0]? = some (dec p') ∧ objs'[0]? = some (obj p') ∧
      (p' = p ∨ (∃ j, cls j = .ge ∧ lv j < obj p' j) ∧ ∃ i, obj p' i < obj p i) := by
  obtain ⟨sols, objs, p, e1, hs, ho, hh, _, _⟩ := first_row h hns hd ha
  obtain ⟨sols1, objs1, sols', objs', p1, p', e1', e2, hs1, ho1, hs', ho', hle, hor⟩ :=
    C163_room h hns hd hasp ha ha' hrel
  refine ⟨sols1, objs1, sols', objs', p1, p', e1', e2, hs1, ho1, hs', ho', ?_⟩
  rcases hor with g | ⟨j, hj, hlt, _⟩
  · exact .inl g
  · right
    refine ⟨⟨j, hj, hlt⟩, ?_⟩
    by_contra hno
    have hno' : ∀ i, obj p1 i ≤ obj p' i := fun i => not_lt.1 fun hc => hno ⟨i, hc⟩
    rw [e1] at e1'
    injection e1' with _ eo
    rw [eo, ho1, Option.some.injEq] at ho
    have hb : obj p1 j ≤ lv j := by rw [ho]; exact (hh j).2 hj
    exact absurd hle (not_le.2 (hpd _ _ _ _ _ ⟨hno', j, lt_of_le_of_lt hb hlt⟩))

/-- **C163** (two objectives). If one of two objectives is to be improved and the other may get worse up
to a level, a higher level never makes the first solution worse in the objective to be improved. -/
theorem C163_two_objectives {c : Cfg 2 m K} {s s1 s2 : St 2 m K} {l : List (Req 2 m K)}
    (h : Reached c s l) (hns : ∀ x f, Req.stop x f ∉ l) {N : Nat} {obj : Fin N → Vec 2 K}
    {dec : Fin N → Vec m K} {cl : Option (Vec m K) → Fin N} (hd : c.problem = .discrete N obj dec cl)
    (hasp : UsesAspirationsOnly c.asf1) (hpd : ∀ a b z, PrefersDominating (c.asf1 a b z))
    {f0 : Vec 2 K} {cls : Fin 2 → Cls} {a b : Fin 2} (hab : a ≠ b) (hb : cls b = .ge) {lv lv' : Vec 2 K}
    {num num' : Int} {orc orc' : Oracle 2 m K} {r1 r2 : Req 2 m K}
    (ha : answer c s (.classify f0) (.classify (complete cls lv num)) orc = (s1, .ok r1))
    (ha' : answer c s (.classify f0) (.classify (complete cls lv' num')) orc' = (s2, .ok r2))
    (hrel : Relaxes cls lv lv') (hacls : cls a = .lt ∨ cls a = .le) :
    ∃ sols objs sols' objs' f f', r1 = .save sols objs ∧ r2 = .save sols' objs' ∧
      objs[0]? = some f ∧ objs'[0]? = some f' ∧ f' a ≤ f a := by
  obtain ⟨sols, objs, p, e1, hs, ho, hh, _, _⟩ := first_row h hns hd ha
  obtain ⟨sols1, objs1, sols', objs', p1, p', e1', e2, hs1, ho1, hs', ho', hor⟩ :=
    C163_paid h hns hd hasp hpd ha ha' hrel
  refine ⟨sols1, objs1, sols', objs', _, _, e1', e2, ho1, ho', ?_⟩
  rcases hor with g | ⟨⟨j, hj, hlt⟩, i, hi⟩
  · rw [g]
  · rw [e1] at e1'
    injection e1' with _ eo
    rw [eo, ho1, Option.some.injEq] at ho
    have two : ∀ i : Fin 2, i = a ∨ i = b := by
      clear * - hab
      intro i
      omega
    have hj' : j = b := by
      rcases two j with rfl | e
      · rcases hacls with e | e <;> rw [e] at hj <;> cases hj
      · exact e
    subst hj'
    rcases two i with rfl | rfl
    · exact hi.le
    · have : obj p1 i ≤ lv i := by rw [ho]; exact (hh i).2 hj
      exact absurd (lt_of_lt_of_le hi this) (not_lt.2 hlt.le)

/-- **C163** (analytic problems). With an exact minimizer: the second answer leads to at least as good a
value of the first scalarizing function, and to a solution of the old problem unless it exceeds one of the
old levels. -/
theorem C163_room_analytic {c : Cfg k m K} {s s1 s2 : St k m K} {l : List (Req k m K)}
    (h : Reached c s l) (hns : ∀ x f, Req.stop x f ∉ l) {ev : Vec m K → Vec k K} (hmo : c.problem = .mo ev)
    (hasp : UsesAspirationsOnly c.asf1)
    {f0 : Vec k K} {cls : Fin k → Cls} {lv lv' : Vec k K} {num num' : Int} {orc orc' : Oracle k m K}
    {r1 r2 : Req k m K}
    (ha : answer c s (.classify f0) (.classify (complete cls lv num)) orc = (s1, .ok r1))
    (ha' : answer c s (.classify f0) (.classify (complete cls lv' num')) orc' = (s2, .ok r2))
    (hexact : ∀ t, (∃ x, Solves t x) → Solves t (orc.minimize 0 t))
    (hexact' : ∀ t, (∃ x, Solves t x) → Solves t (orc'.minimize 0 t))
    (hmin : ∃ x, c.feasible x = true ∧ Honours cls s.obj lv (ev x) ∧
      ∀ y, c.feasible y = true → Honours cls s.obj lv (ev y) →
        c.asf1 (positions cls .lt) (positions cls .le) lv (ev x) ≤
          c.asf1 (positions cls .lt) (positions cls .le) lv (ev y))
    (hmin' : ∃ x, c.feasible x = true ∧ Honours cls s.obj lv' (ev x) ∧
      ∀ y, c.feasible y = true → Honours cls s.obj lv' (ev y) →
        c.asf1 (positions cls .lt) (positions cls .le) lv' (ev x) ≤
          c.asf1 (positions cls .lt) (positions cls .le) lv' (ev y))
    (hrel : Relaxes cls lv lv') :
    ∃ sols objs sols' objs' x x', r1 = .save sols objs ∧ r2 = .save sols' objs' ∧
      sols[0]? = some x ∧ objs[0]? = some (ev x) ∧ sols'[0]? = some x' ∧ objs'[0]? = some (ev x') ∧
      c.asf1 (positions cls .lt) (positions cls .le) lv (ev x') ≤
        c.asf1 (positions cls .lt) (positions cls .le) lv (ev x) ∧
      ((Honours cls s.obj lv (ev x') ∧
        c.asf1 (positions cls .lt) (positions cls .le) lv (ev x') =
          c.asf1 (positions cls .lt) (positions cls .le) lv (ev x)) ∨
        ∃ j, cls j = .ge ∧ lv j < ev x' j ∧ ev x' j ≤ lv' j) := by
  obtain ⟨sols, objs, x, rfl, hs, ho, hf, hh, hm⟩ := C93_first_solution_honours h hns hmo ha hexact hmin
  obtain ⟨sols', objs', x', rfl, hs', ho', hf', hh', hm'⟩ :=
    C93_first_solution_honours h hns hmo ha' hexact' hmin'
  have e : ∀ f, c.asf1 (positions cls .lt) (positions cls .le) lv' f =
      c.asf1 (positions cls .lt) (positions cls .le) lv f := fun f =>
    (hasp _ _ _ _ f fun j hj => (hrel j).2 (mem_positions.1 hj)).symm
  simp only [e] at hm'
  refine ⟨sols, objs, sols', objs', x, x', rfl, rfl, hs, ho, hs', ho', hm' x hf (hrel.honours hh), ?_⟩
  rcases honours_or (lv := lv) hh' with g | g
  · exact .inl ⟨g, le_antisymm (hm' x hf (hrel.honours hh)) (hm x' hf' g)⟩
  · exact .inr g

/-! ### Examples -/

/-- The part of the first scalarizing function for one objective: distance to the ideal value 0 if it is
to be improved, to the level if it is to be improved up to the level. -/
def exTerm (lt le : List Nat) (z f : Vec 2 ℚ) (j : Fin 2) : ℚ :=
  if j.val ∈ lt then f j else if j.val ∈ le then f j - z j else -1000

/-- The first scalarizing function of synchronous NIMBUS, for ideal 0 and a common unit. -/
def exMaxAsf (lt le : List Nat) (z f : Vec 2 ℚ) : ℚ :=
  max (exTerm lt le z f 0) (exTerm lt le z f 1) + (f 0 + f 1) / 1000000

theorem exTerm_mono (lt le : List Nat) (z : Vec 2 ℚ) {f f' : Vec 2 ℚ} (h : AtLeastAsGood f f') (j : Fin 2) :
    exTerm lt le z f j ≤ exTerm lt le z f' j := by
  have := h j
  unfold exTerm
  split
  · exact this
  · split
    · linarith
    · exact le_refl _

theorem exMaxAsf_prefers (lt le : List Nat) (z : Vec 2 ℚ) : PrefersDominating (exMaxAsf lt le z) := by
  intro f f' ⟨h, j, hj⟩
  have h1 := max_le_max (exTerm_mono lt le z h 0) (exTerm_mono lt le z h 1)
  have h2 : f 0 + f 1 < f' 0 + f' 1 := by
    have a := h 0
    have b := h 1
    rcases (by clear * -; omega : j = 0 ∨ j = 1) with rfl | rfl <;> linarith
  unfold exMaxAsf
  linarith

theorem exMaxAsf_aspirations : UsesAspirationsOnly exMaxAsf := by
  intro lt le z z' f h
  have : ∀ j, exTerm lt le z f j = exTerm lt le z' f j := by
    intro j
    unfold exTerm
    by_cases h1 : j.val ∈ lt
    · rw [if_pos h1, if_pos h1]
    · by_cases h2 : j.val ∈ le
      · rw [if_neg h1, if_neg h1, if_pos h2, if_pos h2, h j h2]
      · rw [if_neg h1, if_neg h1, if_neg h2, if_neg h2]
  simp only [exMaxAsf, this]

def exRoom : Cfg 2 1 ℚ := { exPareto with asf1 := exMaxAsf }

theorem exRoom_reached : Reached exRoom exParS [.classify ![1, 2]] :=
  .init (s := exParS) (sp := some [2, 3]) (res := fun _ => none) (eq_of_beq (by decide +kernel))

def exRoomS : St 2 1 ℚ := { exParS with phase := .archive }

/-- With level 3 the current solution stays the best one, ... -/
theorem exRoom_low : answer exRoom exParS (.classify ![1, 2]) (.classify (complete ![.lt, .ge] ![0, 3] 1)) exOrc =
    (exRoomS, .ok (.save [![1]] [![1, 2]])) := eq_of_beq (by decide +kernel)

/-- ... with level 4 a better one is found, which uses the room. -/
theorem exRoom_high : answer exRoom exParS (.classify ![1, 2]) (.classify (complete ![.lt, .ge] ![0, 4] 1)) exOrc =
    (exRoomS, .ok (.save [![0]] [![0, 4]])) := eq_of_beq (by decide +kernel)

theorem exRoom_relaxes : Relaxes (![.lt, .ge] : Fin 2 → Cls) (![0, 3] : Vec 2 ℚ) ![0, 4] := by
  unfold Relaxes
  decide +kernel

example := C163_room exRoom_reached (by simp) (obj := ![![0, 4], ![1, 2], ![2, 3], ![4, 0]]) rfl exMaxAsf_aspirations
  exRoom_low exRoom_high exRoom_relaxes
example := C163_paid exRoom_reached (by simp) (obj := ![![0, 4], ![1, 2], ![2, 3], ![4, 0]]) rfl exMaxAsf_aspirations
  exMaxAsf_prefers exRoom_low exRoom_high exRoom_relaxes
example := C163_two_objectives exRoom_reached (by simp) (obj := ![![0, 4], ![1, 2], ![2, 3], ![4, 0]]) rfl
  exMaxAsf_aspirations exMaxAsf_prefers (a := 0) (b := 1) (by decide) rfl exRoom_low exRoom_high exRoom_relaxes
  (.inl rfl)

def exFinRoom : Cfg 2 1 ℚ := { exFin with asf1 := exMaxAsf }

theorem exFinRoom_reached : Reached exFinRoom exFinS [.classify ![1, 1]] := by
  have e : construct exFinRoom none exFinRes = construct exFin none exFinRes := rfl
  exact .init (e.trans exFin_construct)

theorem exFinRoom_min (lv : Vec 2 ℚ) (v : ℚ)
    (h1 : exFinOk ![v] = true ∧ cons1 (List.ofFn ![.ge, .lt]) ![1, 1] lv (exFinEv ![v]) = true)
    (h2 : ∀ w ∈ ([0, 1, 2, 3] : List ℚ), cons1 (List.ofFn ![.ge, .lt]) ![1, 1] lv (exFinEv ![w]) = true →
      exMaxAsf (positions ![.ge, .lt] .lt) (positions ![.ge, .lt] .le) lv (exFinEv ![v]) ≤
        exMaxAsf (positions ![.ge, .lt] .lt) (positions ![.ge, .lt] .le) lv (exFinEv ![w])) :
    ∃ x, exFinRoom.feasible x = true ∧ Honours ![.ge, .lt] exFinS.obj lv (exFinEv x) ∧
      ∀ y, exFinRoom.feasible y = true → Honours ![.ge, .lt] exFinS.obj lv (exFinEv y) →
        exFinRoom.asf1 (positions ![.ge, .lt] .lt) (positions ![.ge, .lt] .le) lv (exFinEv x) ≤
          exFinRoom.asf1 (positions ![.ge, .lt] .lt) (positions ![.ge, .lt] .le) lv (exFinEv y) := by
  obtain ⟨⟨g1, g2⟩, g3⟩ := (task_asks _ _ _ _ _).solves (exFin_solves (z := lv) h1 h2)
  exact ⟨![v], g1, (cons1_iff _ _ _ _).1 g2, fun y hy hy' => g3 y ⟨hy, (cons1_iff _ _ _ _).2 hy'⟩⟩

/-- The hypotheses of `C163_room_analytic` are met: level 1 keeps the decision vector 1, level 2 leads
to 2. -/
example : ∃ sols objs sols' objs' x x',
    (answer exFinRoom exFinS (.classify ![1, 1]) (.classify (complete ![.ge, .lt] ![1, 0] 1)) exExact).2 =
      .ok (.save sols objs) ∧
    (answer exFinRoom exFinS (.classify ![1, 1]) (.classify (complete ![.ge, .lt] ![2, 0] 1)) exExact).2 =
      .ok (.save sols' objs') ∧ objs[0]? = some (exFinEv x) ∧ objs'[0]? = some (exFinEv x') ∧
    exMaxAsf [1] [] ![1, 0] (exFinEv x') ≤ exMaxAsf [1] [] ![1, 0] (exFinEv x) := by
  have step : ∀ lv : Vec 2 ℚ, validate exFinRoom (.classify ![1, 1]) (.classify (complete ![.ge, .lt] lv 1)) = .ok () →
      ∃ s' r', answer exFinRoom exFinS (.classify ![1, 1]) (.classify (complete ![.ge, .lt] lv 1)) exExact =
        (s', .ok r') := by
    intro lv hv
    obtain ⟨r', hr⟩ := C25_mo_never_raises (c := exFinRoom) (l := []) exFinRoom_reached (ev := exFinEv) rfl
      (cls := List.ofFn ![.ge, .lt]) (lv := List.ofFn lv) (num := 1) rfl hv exExact
    exact ⟨_, r', Prod.ext rfl hr⟩
  obtain ⟨s1, r1, ha⟩ := step ![1, 0] (eq_of_beq (by decide +kernel))
  obtain ⟨s2, r2, ha'⟩ := step ![2, 0] (eq_of_beq (by decide +kernel))
  obtain ⟨sols, objs, sols', objs', x, x', rfl, rfl, _, h2, _, h4, h5, _⟩ :=
    C163_room_analytic exFinRoom_reached (by simp) (ev := exFinEv) rfl exMaxAsf_aspirations ha ha'
      (exExact_solves 0) (exExact_solves 0)
      (exFinRoom_min ![1, 0] 1 (by decide +kernel) (by decide +kernel))
      (exFinRoom_min ![2, 0] 2 (by decide +kernel) (by decide +kernel))
      (by unfold Relaxes; decide +kernel)
  exact ⟨sols, objs, sols', objs', x, x', by rw [ha], by rw [ha'], h2, h4, h5⟩

end Verif.Nimbus
