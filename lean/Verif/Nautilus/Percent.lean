import Verif.Nautilus.RoundedProps

set_option linter.unusedSectionVars false

/-!
# Property C118: which percentages NAUTILUS accepts in floating-point arithmetic, and examples of C117
-/

namespace Verif

/-- `x` is the sum of the numbers in the list computed with rounded additions, in some order and with some
bracketing (numpy adds pairwise). -/
inductive Summed {K : Type} [Add K] [Zero K] (rnd : K → K) : List K → K → Prop
  | nil : Summed rnd [] 0
  | one (x : K) : Summed rnd [x] x
  | add {l l' : List K} {x y : K} : l ≠ [] → l' ≠ [] → Summed rnd l x → Summed rnd l' y →
      Summed rnd (l ++ l') (rnd (x + y))
  | perm {l l' : List K} {x : K} : l.Perm l' → Summed rnd l x → Summed rnd l' x

/-- Every entry is an integer multiple of `g`, and the integers add up to at most `B` in absolute value. -/
def OnGrid {K : Type} [Field K] (g : K) (B : ℤ) (l : List K) : Prop :=
  ∃ ms : List ℤ, l = ms.map (fun n : ℤ => (n : K) * g) ∧ (ms.map fun n => |n|).sum ≤ B

variable {K : Type} [Field K] [LinearOrder K] [IsStrictOrderedRing K] {k m : Nat} {u : K}

theorem abs_sum_le_sum_abs (l : List ℤ) : |l.sum| ≤ (l.map fun n => |n|).sum := by
  induction l with
  | nil => simp
  | cons a l ih =>
    simp only [List.sum_cons, List.map_cons]
    exact (abs_add_le _ _).trans (by linarith)

theorem sum_abs_nonneg (l : List ℤ) : 0 ≤ (l.map fun n => |n|).sum :=
  (abs_nonneg _).trans (abs_sum_le_sum_abs l)

/-- Sums on a grid whose multiples are machine numbers are exact, in whatever order they are computed. -/
theorem Summed.exact {rnd : K → K} {g : K} {B : ℤ} (hg : ∀ n : ℤ, |n| ≤ B → Machine rnd ((n : K) * g))
    {l : List K} {x : K} (h : Summed rnd l x) : ∀ ms : List ℤ, l = ms.map (fun n : ℤ => (n : K) * g) →
      (ms.map fun n => |n|).sum ≤ B → x = l.sum := by
  induction h with
  | nil => intro _ _ _; simp
  | one x => intro _ _ _; simp
  | @add l l' x y hl hl' _ _ ih1 ih2 =>
    intro ms hms hB
    obtain ⟨m1, m2, rfl, h1, h2⟩ := List.map_eq_append_iff.1 hms.symm
    simp only [List.map_append, List.sum_append] at hB
    have e1 := ih1 m1 h1.symm (by have := sum_abs_nonneg m2; linarith)
    have e2 := ih2 m2 h2.symm (by have := sum_abs_nonneg m1; linarith)
    have hsum : ∀ t : List ℤ, (t.map (fun n : ℤ => (n : K) * g)).sum = ((t.sum : ℤ) : K) * g := by
      intro t
      induction t with
      | nil => simp
      | cons a t ih => simp [ih, add_mul]
    rw [List.sum_append, e1, e2, ← h1, ← h2, hsum, hsum, ← add_mul]
    have hm := hg (m1.sum + m2.sum) (by
      refine (abs_add_le _ _).trans ?_
      have := abs_sum_le_sum_abs m1
      have := abs_sum_le_sum_abs m2
      linarith)
    rw [Int.cast_add] at hm
    exact hm
  | @perm l l' x hp _ ih =>
    intro ms hms hB
    subst hms
    rw [← hp.sum_eq]
    obtain ⟨ms', hperm, hl⟩ : ∃ ms', ms.Perm ms' ∧ l = ms'.map (fun n : ℤ => (n : K) * g) := by
      obtain ⟨ms', h1, h2⟩ := (congrFun (congrFun (List.eq_map_comp_perm (fun n : ℤ => (n : K) * g)) l) ms).symm ▸ hp
      exact ⟨ms', h2.symm, h1⟩
    exact ih ms' hl (by rw [← (hperm.map _).sum_eq]; exact hB)

/-- The error of a computed sum. -/
theorem Summed.close {rnd : K → K} (hr : IsRounding u rnd) (hu : 0 ≤ u) {l : List K} {x : K} (h : Summed rnd l x) :
    |x - l.sum| ≤ ((1 + u) ^ (l.length - 1) - 1) * (l.map fun y => |y|).sum ∧
      |l.sum| ≤ (l.map fun y => |y|).sum := by
  induction h with
  | nil => simp
  | one x => simp
  | @add l l' x y hl hl' _ _ ih1 ih2 =>
    obtain ⟨a1, b1⟩ := ih1
    obtain ⟨a2, b2⟩ := ih2
    rw [List.sum_append, List.map_append, List.sum_append, List.length_append]
    set S := l.sum
    set S' := l'.sum
    set A := (l.map fun y => |y|).sum
    set A' := (l'.map fun y => |y|).sum
    have n1 : 1 ≤ l.length := List.length_pos_iff.2 hl
    have n2 : 1 ≤ l'.length := List.length_pos_iff.2 hl'
    have hA : 0 ≤ A := (abs_nonneg _).trans b1
    have hA' : 0 ≤ A' := (abs_nonneg _).trans b2
    refine ⟨?_, (abs_add_le _ _).trans (add_le_add b1 b2)⟩
    set n := l.length + l'.length - 1 - 1 with hn
    have en : l.length + l'.length - 1 = n + 1 := by omega
    rw [en, pow_succ]
    set P := (1 + u) ^ n
    have hP : 1 ≤ P := one_le_pow₀ (by linarith)
    have p1 : (1 + u) ^ (l.length - 1) ≤ P := pow_le_pow_right₀ (by linarith) (by omega)
    have p2 : (1 + u) ^ (l'.length - 1) ≤ P := pow_le_pow_right₀ (by linarith) (by omega)
    have c1 : |x - S| ≤ (P - 1) * A := a1.trans (mul_le_mul_of_nonneg_right (by linarith) hA)
    have c2 : |y - S'| ≤ (P - 1) * A' := a2.trans (mul_le_mul_of_nonneg_right (by linarith) hA')
    have c3 : |x + y - (S + S')| ≤ (P - 1) * (A + A') := by
      have e : x + y - (S + S') = (x - S) + (y - S') := by ring
      rw [e]
      refine (abs_add_le _ _).trans ?_
      rw [mul_add]
      linarith
    have c4 : |x + y| ≤ P * (A + A') := by
      have h1 := abs_sub_abs_le_abs_sub (x + y) (S + S')
      have h2 : |S + S'| ≤ A + A' := (abs_add_le _ _).trans (add_le_add b1 b2)
      have e : (P - 1) * (A + A') = P * (A + A') - (A + A') := by ring
      linarith
    have c5 := hr.close (x + y)
    have c6 : |rnd (x + y) - (S + S')| ≤ |rnd (x + y) - (x + y)| + |x + y - (S + S')| := abs_sub_le _ _ _
    have c7 := mul_le_mul_of_nonneg_left c4 hu
    have e : (P * (1 + u) - 1) * (A + A') = (P - 1) * (A + A') + u * (P * (A + A')) := by ring
    linarith
  | @perm l l' x hp _ ih =>
    rw [← hp.sum_eq, ← hp.length_eq, ← (hp.map _).sum_eq]
    exact ih

namespace Nautilus.Rounded

/-- `np.sum` adds up the entries in some order. -/
def Sums (c : Cfg k m K) : Prop := ∀ l, Summed c.rnd l (c.sum l)

/-- **C118**, partial. A first response with a usable number of iterations and with percentages that sum up to 100 is
accepted, if the percentages are integer multiples of a number `g` whose multiples (up to a bound) are machine numbers -
as integers, halves, quarters and so on are -, whatever the order of the additions. Missing: percentages with other
fractional parts (`C118_fails`). -/
theorem C118_accepted_partial {c : Cfg k m K} (hs : Sums c) {g : K} {B : ℤ}
    (hg : ∀ n : ℤ, |n| ≤ B → Machine c.rnd ((n : K) * g)) {r : Resp K} {v : PyVal} {info : List K}
    (hn : r.nIterations = some v) (hv : v.isInstanceInt = true ∧ 1 ≤ v.asInt) (hb : r.stepBack = none)
    (hp : r.usePrevious = none) (hm : r.method = some 2) (hi : r.info = some info) (hk : k ≤ info.length)
    (hgrid : OnGrid g B info) (hsum : info.sum = 100) : validate c .initial r = .ok () := by
  obtain ⟨ms, hms, hB⟩ := hgrid
  have he : c.sum info = 100 := ((hs info).exact hg ms hms hB).trans hsum
  have hvp : validatePreferences c r = .ok () := by
    unfold validatePreferences
    simp only [hm, hi]
    rw [if_neg (by simp), if_neg (by simp), if_neg (by omega), if_neg (by simpa using he)]
  simp only [validate, validateInitial, hn, hb, hp, hvp, validateN]
  simp [hv]

/-- **C118**, partial, the same for a later response that asks for the next iteration. -/
theorem C118_accepted_later_partial {c : Cfg k m K} (hs : Sums c) {g : K} {B : ℤ}
    (hg : ∀ n : ℤ, |n| ≤ B → Machine c.rnd ((n : K) * g)) {r : Resp K} {info : List K} {z lo up : Vec k K} {d : Fl K}
    (hn : ∀ v, r.nIterations = some v → v.isInstanceInt = true ∧ 1 ≤ v.asInt) (hb : r.stepBack = some false)
    (hp : r.usePrevious = some false) (hm : r.method = some 2) (hi : r.info = some info) (hk : k ≤ info.length)
    (hgrid : OnGrid g B info) (hsum : info.sum = 100) : validate c (.nav z lo up d) r = .ok () := by
  obtain ⟨ms, hms, hB⟩ := hgrid
  have he : c.sum info = 100 := ((hs info).exact hg ms hms hB).trans hsum
  have hvp : validatePreferences c r = .ok () := by
    unfold validatePreferences
    simp only [hm, hi]
    rw [if_neg (by simp), if_neg (by simp), if_neg (by omega), if_neg (by simpa using he)]
  cases hv : r.nIterations with
  | none => simp [validate, validateNav, hb, hp, hvp, validateN, hv]
  | some v =>
    have := hn v hv
    simp [validate, validateNav, hb, hp, hvp, validateN, hv, this]

/-- **C118**, the other direction: percentages that are accepted sum up to 100, up to rounding errors of one addition
per further entry. -/
theorem C118_only_sums_near_100 {c : Cfg k m K} (hs : Sums c) (hr : IsRounding u c.rnd) (hu : 0 ≤ u) {r : Resp K}
    {info : List K} (hm : r.method = some 2) (hi : r.info = some info)
    (ha : validate c .initial r = .ok () ∨
      ∃ z lo up d, r.usePrevious = some false ∧ validate c (.nav z lo up d) r = .ok ()) :
    k ≤ info.length ∧ |info.sum - 100| ≤ ((1 + u) ^ (info.length - 1) - 1) * (info.map fun y => |y|).sum := by
  have hvp : validatePreferences c r = .ok () := by
    rcases ha with ha | ⟨z, lo, up, d, hp, ha⟩
    · obtain ⟨_, _, _, _, _, _, h⟩ := validateInitial_ok (show validateInitial c r = .ok () from ha)
      exact h
    · obtain ⟨back, prev, _, hp', _, h, _⟩ := validateNav_ok (show validateNav c z r = .ok () from ha)
      rw [hp] at hp'
      exact h (Option.some.inj hp').symm
  obtain ⟨meth, info', hm', hi', hlen, h⟩ := validatePreferences_ok hvp
  rw [hm] at hm'
  rw [hi] at hi'
  cases hm'; cases hi'
  refine ⟨hlen, ?_⟩
  rcases h with ⟨h, _⟩ | ⟨_, h⟩
  · simp at h
  · have := ((hs info).close hr hu).1
    rw [h, abs_sub_comm] at this
    exact this

/-! ### In double precision -/

/-- The sum from left to right in double precision. -/
def doubleSum : List ℚ → ℚ
  | [] => 0
  | x :: l => l.foldl (fun s y => double (s + y)) x

theorem summed_doubleSum (l : List ℚ) : Summed double l (doubleSum l) := by
  cases l with
  | nil => exact .nil
  | cons x l =>
    suffices h : ∀ (t t0 : List ℚ) (s : ℚ), t0 ≠ [] → Summed double t0 s →
        Summed double (t0 ++ t) (t.foldl (fun s y => double (s + y)) s) from
      h l [x] x (by simp) (.one x)
    intro t
    induction t with
    | nil => intro t0 s _ h; simpa using h
    | cons y t ih =>
      intro t0 s hne h
      have := ih (t0 ++ [y]) (double (s + y)) (by simp) (.add hne (by simp) h (.one y))
      simpa using this

/-- Three objectives in double precision: `x`, the complement of `x`, and a constant objective with the value 3. -/
def dblCfg : Cfg 3 1 ℚ where
  ideal := ![0, 0, 3]
  nadir := ![1, 1, 3]
  utopian := ![-1, -1, 2]
  evaluate := fun x => ![double (x 0), double (1 - x 0), 3]
  nrm := supNorm
  rnd := double
  sum := doubleSum

/-- Multiples of a power of two are doubles. -/
theorem double_grid (q : ℤ) : ∀ n : ℤ, |n| ≤ 2 ^ 53 → Machine dblCfg.rnd ((n : ℚ) * (2 : ℚ) ^ q) :=
  fun n hn => double_dyadic n q hn

theorem dbl_sums : Sums dblCfg := summed_doubleSum

theorem dbl_machined : dblCfg.Machined ((1 / 2) ^ 53) where
  rounding := isRounding_double
  objectives := by
    intro x j
    match j with
    | 0 => exact double_idem _
    | 1 => exact double_idem _
    | 2 => exact machine_int 3 (by norm_num)

theorem dbl_definite : Definite dblCfg.nrm := ⟨supNorm_spec.nonneg, supNorm_spec.eq_zero⟩

/-- Four iterations with the percentages 12.5, 50 and 37.5. -/
def dblFirst : Resp ℚ := { nIterations := some (.int 4), method := some 2, info := some [25 / 2, 50, 75 / 2] }

example : validate dblCfg .initial dblFirst = .ok () :=
  C118_accepted_partial dbl_sums (double_grid (-1)) rfl ⟨rfl, by decide⟩ rfl rfl rfl rfl (by decide)
    ⟨[25, 100, 75], by norm_num, by decide⟩ (by norm_num)

/-- The next iteration with these percentages. -/
def dblChange : Resp ℚ :=
  { stepBack := some false, usePrevious := some false, method := some 2, info := some [25 / 2, 50, 75 / 2] }

example : validate dblCfg (.nav ![1, 1, 3] ![0, 0, 3] ![1, 1, 3] (.num 25)) dblChange = .ok () :=
  C118_accepted_later_partial dbl_sums (double_grid (-1)) (by simp [dblChange]) rfl rfl rfl rfl (by decide)
    ⟨[25, 100, 75], by norm_num, by decide⟩ (by norm_num)

example :=
  C118_only_sums_near_100 dbl_sums isRounding_double (by norm_num) (r := dblFirst) rfl rfl
    (.inl (by decide +kernel))

/-- C118 fails: the percentages 0.1, 64.1 and 35.8 sum up to 100, but a response giving them (as doubles, as Python
reads them) is refused, because their sum is computed as 99.99999999999999. -/
theorem C118_fails : ((1 : ℚ) / 10 + 641 / 10 + 358 / 10 = 100) ∧
    validate dblCfg .initial
      { nIterations := some (.int 4), method := some 2,
        info := some [double (1 / 10), double (641 / 10), double (358 / 10)] } = .error .refused :=
  ⟨by norm_num, by decide +kernel⟩

/-! ### Examples of C117 -/

/-- A minimizer that finds a third. -/
def dblOrc : Oracle 3 1 ℚ where
  asf := fun _ _ => ![1 / 3]
  eps := fun _ _ => ![1 / 3]

def getReq3 (o : Except Err (Option (Req 3 1 ℚ))) : Req 3 1 ℚ :=
  match o with
  | .ok (some r) => r
  | _ => .initial

/-- Two iterations. -/
def dblTwo : Resp ℚ := { nIterations := some (.int 2), method := some 2, info := some [25 / 2, 50, 75 / 2] }

def dblS1 : St 3 1 ℚ := (answer dblCfg St.init .initial dblTwo dblOrc).1
def dblR1 : Req 3 1 ℚ := getReq3 (answer dblCfg St.init .initial dblTwo dblOrc).2
theorem dbl_step1 : answer dblCfg St.init .initial dblTwo dblOrc = (dblS1, .ok (some dblR1)) :=
  eq_of_beq (by decide +kernel)
def dblS2 : St 3 1 ℚ := (answer dblCfg dblS1 dblR1 keepResp dblOrc).1
def dblR2 : Req 3 1 ℚ := getReq3 (answer dblCfg dblS1 dblR1 keepResp dblOrc).2
theorem dbl_step2 : answer dblCfg dblS1 dblR1 keepResp dblOrc = (dblS2, .ok (some dblR2)) :=
  eq_of_beq (by decide +kernel)
def dblZ1 : Vec 3 ℚ := ![double (1 / 2 + double (1 / 3) / 2), double (1 / 2 + double (2 / 3) / 2), 3]
def dblD1 : Fl ℚ := match dblR1 with
  | .nav _ _ _ d => d
  | _ => .nan
theorem dblR1_eq : dblR1 = .nav dblZ1 ![double (1 / 3), double (2 / 3), 3] dblZ1 dblD1 :=
  eq_of_beq (by decide +kernel)
theorem dblR2_eq : dblR2 = .nav ![double (1 / 3), double (2 / 3), 3] ![double (1 / 3), double (2 / 3), 3]
    ![double (1 / 3), double (2 / 3), 3] (.num 100) := eq_of_beq (by decide +kernel)
def dblS3 : St 3 1 ℚ := (answer dblCfg dblS2 dblR2 keepResp dblOrc).1
theorem dbl_step3 : answer dblCfg dblS2 dblR2 keepResp dblOrc =
    (dblS3, .ok (some (.stop (some ![1 / 3]) (some ![double (1 / 3), double (2 / 3), 3])))) :=
  eq_of_beq (by decide +kernel)

theorem dbl_smooth1 : Smooth dblCfg (fun _ => True) dblS1 [dblR1] := .first rfl trivial dbl_step1
theorem dbl_smooth2 : Smooth dblCfg (fun _ => True) dblS2 [dblR2, dblR1] :=
  .next dbl_smooth1 List.mem_cons_self trivial dbl_step2 fun _ => ⟨_, rfl⟩
theorem dbl_smooth3 : Smooth dblCfg (fun _ => True) dblS3
    [.stop (some ![1 / 3]) (some ![double (1 / 3), double (2 / 3), 3]), dblR2, dblR1] :=
  .next dbl_smooth2 List.mem_cons_self trivial dbl_step3 fun _ => ⟨_, rfl⟩

example := C117_first dbl_machined (by norm_num) (by norm_num) dbl_definite (machine_int 100 (by norm_num)) rfl
  (dblR1_eq ▸ dbl_step1)
example := C117_forward dbl_machined (by norm_num) (by norm_num) dbl_definite (machine_int 100 (by norm_num))
  dbl_smooth1 List.mem_cons_self (dblR2_eq ▸ dbl_step2) rfl
example := C117_stop_pair dbl_machined dbl_smooth3 List.mem_cons_self
example := C117_stop_at_last_point dbl_machined dbl_smooth2 (by rw [dblR2_eq]; simp) List.mem_cons_self dbl_step3
  (by decide +kernel) rfl
example := C117_even_steps dbl_machined (by norm_num) (by norm_num) dbl_definite (machine_int 100 (by norm_num)) rfl
  dbl_step1

end Nautilus.Rounded

end Verif
