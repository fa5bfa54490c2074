import Verif.NautilusV2.Rounded
import Verif.NautilusV2.Doi
import Mathlib.Tactic.Positivity
import Mathlib.Tactic.GCongr

/-!
# The direction of improvement of NAUTILUS 2 in floating-point arithmetic (property C133)

The code goes through the missing objectives again and again until no delta is 0, and recomputes the deltas it has
already found on the way. In exact arithmetic this changes nothing; in floating-point arithmetic each time adds two
rounding errors. The loop ends for the same lists of pairs, and the errors stay bounded.
-/

set_option linter.unusedSectionVars false

namespace Verif.NautilusV2.Rounded

variable {K : Type} [Field K] [LinearOrder K] [IsStrictOrderedRing K] {n m : Nat} {u : K}

/-! ### Specification -/

/-- The deltas after `t` turns of the `while` loop. -/
def after (c : Cfg (n + 1) m K) (l : List (Pair K)) (t : Nat) : Vec (n + 1) K :=
  (pass c (missing (deltas1 c l)) l)^[t] (deltas1 c l)

/-- `d` satisfies the ratios of the decision maker exactly, with 1 for the first objective. -/
structure Satisfies (l : List (Pair K)) (P : Vec (n + 1) K) : Prop where
  first : P 0 = 1
  pos : ∀ i, 0 < P i
  ratio : ∀ p ∈ l, ∀ i j, Relates p i j → P j = p.ratio * P i

/-! ### The same zeros as in exact arithmetic -/

/-- The same deltas are missing. -/
def Sim (d d' : Vec (n + 1) K) : Prop := ∀ i, d i = 0 ↔ d' i = 0

section

variable {c : Cfg (n + 1) m K} {l : List (Pair K)} (hl : Proper n l) (hR : IsRounding u c.rnd) (hu : u < 1)

include hR hu in
theorem rnd_ne {x : K} (hx : x ≠ 0) : c.rnd x ≠ 0 := fun h => hx (hR.eq_zero hu h)

include hl hR hu

theorem sim_firstTurn {d d' : Vec (n + 1) K} (h : Sim d d') {p : Pair K} (hp : p ∈ l) :
    Sim (firstTurn c d p) (Verif.NautilusV2.firstTurn d' p) := by
  obtain ⟨x, y, h1, h2⟩ := hl.idx p hp
  have hT := (hl.pos p hp).ne'
  intro i
  unfold firstTurn Verif.NautilusV2.firstTurn
  by_cases c1 : p.fst.asInt = 1
  · rw [if_pos c1, if_pos c1, wr_obj _ y _ h2, wr_obj _ y _ h2]
    split_ifs
    · exact Iff.rfl
    · exact h i
  · rw [if_neg c1, if_neg c1]
    by_cases c2 : p.snd.asInt = 1
    · rw [if_pos c2, if_pos c2, wr_obj _ x _ h1, wr_obj _ x _ h1]
      split_ifs
      · exact ⟨fun h => absurd h (rnd_ne hR hu (one_div_ne_zero hT)), fun h => absurd h (one_div_ne_zero hT)⟩
      · exact h i
    · rw [if_neg c2, if_neg c2]; exact h i

theorem sim_innerTurn {d d' : Vec (n + 1) K} (h : Sim d d') (a : Int) {p : Pair K} (hp : p ∈ l) :
    Sim (innerTurn c a d p) (Verif.NautilusV2.innerTurn a d' p) := by
  obtain ⟨x, y, h1, h2⟩ := hl.idx p hp
  have hT := (hl.pos p hp).ne'
  intro i
  unfold innerTurn Verif.NautilusV2.innerTurn
  rw [rd_obj _ x h1, rd_obj _ y h2, rd_obj _ x h1, rd_obj _ y h2]
  by_cases c1 : p.fst.asInt = a
  · rw [if_pos c1, if_pos c1]
    by_cases c2 : d y = 0
    · rw [if_neg (not_not.2 c2), if_neg (not_not.2 ((h y).1 c2))]; exact h i
    · have c2' : d' y ≠ 0 := fun e => c2 ((h y).2 e)
      rw [if_pos c2, if_pos c2', wr_obj _ x _ h1, wr_obj _ x _ h1]
      split_ifs
      · exact ⟨fun h => absurd h (rnd_ne hR hu (mul_ne_zero c2 (rnd_ne hR hu (one_div_ne_zero hT)))),
          fun h => absurd h (mul_ne_zero c2' (one_div_ne_zero hT))⟩
      · exact h i
  · rw [if_neg c1, if_neg c1]
    by_cases c3 : p.snd.asInt = a
    · rw [if_pos c3, if_pos c3]
      by_cases c2 : d x = 0
      · rw [if_neg (not_not.2 c2), if_neg (not_not.2 ((h x).1 c2))]; exact h i
      · have c2' : d' x ≠ 0 := fun e => c2 ((h x).2 e)
        rw [if_pos c2, if_pos c2', wr_obj _ y _ h2, wr_obj _ y _ h2]
        split_ifs
        · exact ⟨fun h => absurd h (rnd_ne hR hu (mul_ne_zero c2 hT)), fun h => absurd h (mul_ne_zero c2' hT)⟩
        · exact h i
    · rw [if_neg c3, if_neg c3]; exact h i

theorem sim_deltas1 : Sim (deltas1 c l) (Verif.NautilusV2.deltas1 l) := by
  have : ∀ (q : List (Pair K)) (d d' : Vec (n + 1) K), (∀ p ∈ q, p ∈ l) → Sim d d' →
      Sim (q.foldl (firstTurn c) d) (q.foldl Verif.NautilusV2.firstTurn d') := by
    intro q
    induction q with
    | nil => intro d d' _ h; exact h
    | cons p q ih =>
      intro d d' hq h
      exact ih _ _ (fun x hx => hq x (by simp [hx])) (sim_firstTurn hl hR hu h (hq p (by simp)))
  exact this l _ _ (fun p hp => hp) fun i => Iff.rfl

theorem sim_pass (miss : List Int) {d d' : Vec (n + 1) K} (h : Sim d d') :
    Sim (pass c miss l d) (Verif.NautilusV2.pass miss l d') := by
  have inner : ∀ (a : Int) (q : List (Pair K)) (d d' : Vec (n + 1) K), (∀ p ∈ q, p ∈ l) → Sim d d' →
      Sim (q.foldl (innerTurn c a) d) (q.foldl (Verif.NautilusV2.innerTurn a) d') := by
    intro a q
    induction q with
    | nil => intro d d' _ h; exact h
    | cons p q ih =>
      intro d d' hq h
      exact ih _ _ (fun x hx => hq x (by simp [hx])) (sim_innerTurn hl hR hu h a (hq p (by simp)))
  unfold pass Verif.NautilusV2.pass
  induction miss generalizing d d' with
  | nil => exact h
  | cons a miss ih => exact ih (inner a l d d' (fun p hp => hp) h)

omit hl hR hu in
theorem Sim.missing {d d' : Vec (n + 1) K} (h : Sim d d') : missing d = missing d' := by
  unfold Verif.NautilusV2.missing
  simp only [h _]

omit hl hR hu in
theorem Sim.hasZero {d d' : Vec (n + 1) K} (h : Sim d d') : hasZero d = hasZero d' := by
  unfold Verif.NautilusV2.hasZero
  simp only [h _]

theorem sim_after (t : Nat) : Sim (after c l t) (Verif.NautilusV2.after l t) := by
  unfold after Verif.NautilusV2.after
  rw [(sim_deltas1 hl hR hu).missing]
  induction t with
  | zero => exact sim_deltas1 hl hR hu
  | succ t ih =>
    rw [Function.iterate_succ_apply', Function.iterate_succ_apply']
    exact sim_pass hl hR hu _ ih

end

theorem doiLoop_ok {c : Cfg (n + 1) m K} {miss : List Int} {l : List (Pair K)} {fuel : Nat} {d0 d : Vec (n + 1) K}
    (h : doiLoop c miss l fuel d0 = .ok d) : ∃ t ≤ fuel, d = (pass c miss l)^[t] d0 ∧ (∀ i, d i ≠ 0) ∧
      ∀ t' < t, ∃ i, ((pass c miss l)^[t'] d0) i = 0 := by
  induction fuel generalizing d0 with
  | zero =>
    unfold doiLoop at h
    split at h
    · simp at h
    · rename_i hz
      simp only [Except.ok.injEq] at h
      subst h
      refine ⟨0, le_rfl, rfl, ?_, by simp⟩
      rw [hasZero_iff] at hz
      push Not at hz
      exact hz
  | succ fuel ih =>
    unfold doiLoop at h
    split at h
    · rename_i hz
      obtain ⟨t, h1, h2, h3, h4⟩ := ih h
      refine ⟨t + 1, by omega, by rw [Function.iterate_succ_apply]; exact h2, h3, ?_⟩
      intro t' ht'
      cases t' with
      | zero => exact (hasZero_iff _).1 hz
      | succ t' => rw [Function.iterate_succ_apply]; exact h4 t' (by omega)
    · rename_i hz
      simp only [Except.ok.injEq] at h
      subst h
      refine ⟨0, by omega, rfl, ?_, by simp⟩
      rw [hasZero_iff] at hz
      push Not at hz
      exact hz

theorem doiLoop_error {c : Cfg (n + 1) m K} {miss : List Int} {l : List (Pair K)} {fuel : Nat} {d0 : Vec (n + 1) K}
    {e : Err} (h : doiLoop c miss l fuel d0 = .error e) :
    e = .diverges ∧ ∀ t ≤ fuel, ∃ i, ((pass c miss l)^[t] d0) i = 0 := by
  induction fuel generalizing d0 with
  | zero =>
    unfold doiLoop at h
    split at h
    · rename_i hz
      simp only [Except.error.injEq] at h
      refine ⟨h.symm, fun t ht => ?_⟩
      rw [Nat.le_zero.1 ht]
      exact (hasZero_iff _).1 hz
    · simp at h
  | succ fuel ih =>
    unfold doiLoop at h
    split at h
    · rename_i hz
      obtain ⟨h1, h2⟩ := ih h
      refine ⟨h1, fun t ht => ?_⟩
      cases t with
      | zero => exact (hasZero_iff _).1 hz
      | succ t => rw [Function.iterate_succ_apply]; exact h2 t (by omega)
    · simp at h

/-- The model returns `d` exactly when the unlimited loop ends with `d`. -/
theorem doi_returns {c : Cfg (n + 1) m K} {l : List (Pair K)} (hl : Proper n l) (hR : IsRounding u c.rnd) (hu : u < 1)
    {d : Vec (n + 1) K} : doi c l = .ok d ↔
      ∃ t, d = after c l t ∧ (∀ i, d i ≠ 0) ∧ ∀ t' < t, ∃ i, after c l t' i = 0 := by
  constructor
  · intro h
    obtain ⟨t, _, h2, h3, h4⟩ := doiLoop_ok h
    exact ⟨t, h2, h3, h4⟩
  · rintro ⟨t, rfl, h3, h4⟩
    rcases h : doi c l with e | d'
    · exfalso
      have hc : Connected n l := by
        by_contra hc
        obtain ⟨i, hi⟩ := loops_of_not_connected hl hc t
        exact h3 i ((sim_after hl hR hu t i).2 hi)
      obtain ⟨i, hi⟩ := (doiLoop_error h).2 n (by omega)
      exact complete hl hc i ((sim_after hl hR hu n i).1 hi)
    · obtain ⟨t', _, h2', h3', h4'⟩ := doiLoop_ok h
      rcases Nat.lt_trichotomy t t' with hlt | heq | hgt
      · obtain ⟨i, hi⟩ := h4' t hlt
        exact absurd hi (h3 i)
      · subst heq
        rw [h2']
        rfl
      · obtain ⟨i, hi⟩ := h4 t' hgt
        subst h2'
        exact absurd hi (h3' i)

/-- The model reports divergence exactly when the loop never ends, that is when the pairs do not connect all
objectives; nothing else can go wrong. -/
theorem doi_diverges {c : Cfg (n + 1) m K} {l : List (Pair K)} (hl : Proper n l) (hR : IsRounding u c.rnd) (hu : u < 1)
    {e : Err} : doi c l = .error e ↔ e = .diverges ∧ ∀ t, ∃ i, after c l t i = 0 := by
  constructor
  · intro h
    obtain ⟨h1, h2⟩ := doiLoop_error h
    refine ⟨h1, fun t => ?_⟩
    obtain ⟨i, hi⟩ := loops_of_not_connected hl (fun hc => by
      obtain ⟨i, hi⟩ := h2 n (by omega)
      exact complete hl hc i ((sim_after hl hR hu n i).1 hi)) t
    exact ⟨i, (sim_after hl hR hu t i).2 hi⟩
  · rintro ⟨rfl, h⟩
    rcases h' : doi c l with e | d
    · rw [(doiLoop_error h').1]
    · obtain ⟨t, rfl, h3, _⟩ := (doi_returns hl hR hu).1 h'
      obtain ⟨i, hi⟩ := h t
      exact absurd hi (h3 i)

/-! ### The errors -/

/-- `n` pairs that connect `n + 1` objectives compare different objectives. -/
theorem no_loop {l : List (Pair K)} (hl : Proper n l) (hc : Connected n l) {p : Pair K} (hp : p ∈ l)
    {i : Fin (n + 1)} : ¬ Relates p i i := by
  intro hi
  -- change the ratios of such pairs to 2
  let g : Pair K → Pair K := fun q => if q.fst.asInt = q.snd.asInt then { q with ratio := 2 } else q
  have g1 : ∀ q, (g q).fst = q.fst ∧ (g q).snd = q.snd := by
    intro q; dsimp only [g]; split_ifs <;> exact ⟨rfl, rfl⟩
  have g2 : ∀ q (x y : Fin (n + 1)), Relates (g q) x y ↔ Relates q x y := by
    intro q x y; unfold Relates; rw [(g1 q).1, (g1 q).2]
  have hl' : Proper n (l.map g) := by
    refine ⟨by rw [List.length_map, hl.len], ?_, ?_⟩
    · intro q hq
      obtain ⟨q', hq', rfl⟩ := List.mem_map.1 hq
      obtain ⟨x, y, h⟩ := hl.idx q' hq'
      exact ⟨x, y, (g2 q' x y).2 h⟩
    · intro q hq
      obtain ⟨q', hq', rfl⟩ := List.mem_map.1 hq
      dsimp only [g]
      split_ifs
      · exact two_pos
      · exact hl.pos q' hq'
  have hc' : Connected n (l.map g) := by
    intro x
    have hm : ∀ a b : Fin (n + 1), Linked l a b → Linked (l.map g) a b := by
     rintro a b ⟨q, hq, h⟩
     refine ⟨g q, List.mem_map_of_mem hq, ?_⟩
     rw [g2, g2]
     exact h
    have hx := hc x
    induction hx with
    | refl => exact .refl
    | tail _ h ih => exact .tail ih (hm _ _ h)
  obtain ⟨P, -, hpos, hP⟩ := potential hl' hc'
  have h := hP (g p) (List.mem_map_of_mem hp) i i ((g2 p i i).2 hi)
  have e : (g p).ratio = 2 := by
    dsimp only [g]
    rw [if_pos (by rw [hi.1, hi.2])]
  rw [e] at h
  linarith [hpos i]

/-- `x` is `y` up to `e` rounding errors. -/
def Within (u : K) (e : Nat) (x y : K) : Prop := (1 - u) ^ e * y ≤ x ∧ x ≤ (1 + u) ^ e * y

theorem Within.mono {e e' : Nat} {x y : K} (h : Within u e x y) (hu : 0 ≤ u) (hu1 : u < 1) (hy : 0 ≤ y)
    (he : e ≤ e') : Within u e' x y := by
  refine ⟨le_trans ?_ h.1, h.2.trans ?_⟩
  · exact mul_le_mul_of_nonneg_right (pow_le_pow_of_le_one (by linarith) (by linarith) he) hy
  · exact mul_le_mul_of_nonneg_right (pow_le_pow_right₀ (by linarith) he) hy

theorem Within.refl (y : K) : Within u 0 y y := by simp [Within]

/-- One more rounding. -/
theorem Within.round {rnd : K → K} (hR : IsRounding u rnd) (hu : 0 ≤ u) (hu1 : u < 1) {e : Nat} {x y : K}
    (hy : 0 ≤ y) (h : Within u e x y) : Within u (e + 1) (rnd x) y := by
  have hx : 0 ≤ x := le_trans (mul_nonneg (pow_nonneg (by linarith) _) hy) h.1
  have := hR.close x
  rw [abs_of_nonneg hx, abs_le] at this
  constructor
  · have h1 := mul_le_mul_of_nonneg_left h.1 (by linarith : 0 ≤ 1 - u)
    rw [pow_succ]
    linarith
  · have h1 := mul_le_mul_of_nonneg_left h.2 (by linarith : 0 ≤ 1 + u)
    rw [pow_succ]
    linarith

theorem Within.mul {e e' : Nat} {x y x' y' : K} (hu : 0 ≤ u) (hu1 : u < 1) (hy : 0 ≤ y) (hy' : 0 ≤ y')
    (h : Within u e x y) (h' : Within u e' x' y') : Within u (e + e') (x * x') (y * y') := by
  have p1 : (0 : K) ≤ (1 - u) ^ e := pow_nonneg (by linarith) _
  have p2 : (0 : K) ≤ (1 - u) ^ e' := pow_nonneg (by linarith) _
  have hx : 0 ≤ x := le_trans (mul_nonneg p1 hy) h.1
  have hx' : 0 ≤ x' := le_trans (mul_nonneg p2 hy') h'.1
  constructor
  · have := mul_le_mul h.1 h'.1 (mul_nonneg p2 hy') hx
    rw [pow_add]; linarith
  · have p3 : (0 : K) ≤ (1 + u) ^ e := pow_nonneg (by linarith) _
    have := mul_le_mul h.2 h'.2 hx' (mul_nonneg p3 hy)
    rw [pow_add]; linarith

/-- The deltas found so far are those of `P` up to `e` rounding errors. -/
def Near (u : K) (e : Nat) (P d : Vec (n + 1) K) : Prop := ∀ i, d i = 0 ∨ Within u e (d i) (P i)

section

variable {c : Cfg (n + 1) m K} {l : List (Pair K)} (hl : Proper n l) (hR : IsRounding u c.rnd) (hu : 0 ≤ u)
  (hu1 : u < 1) {P : Vec (n + 1) K} (hP : Satisfies l P) (hc : Connected n l)

include hl hR hu hu1 hP

theorem near_deltas1 : Near u 1 P (deltas1 c l) := by
  have step : ∀ (d : Vec (n + 1) K) (p : Pair K), p ∈ l → Near u 1 P d → Near u 1 P (firstTurn c d p) := by
    intro d p hp hd i
    obtain ⟨x, y, h1, h2⟩ := hl.idx p hp
    have hT := hl.pos p hp
    have he := hP.ratio p hp x y ⟨h1, h2⟩
    unfold firstTurn
    split_ifs with c1 c2
    · rw [wr_obj _ y _ h2]
      split_ifs with hy
      · subst hy
        have : x = 0 := Fin.ext (by rw [Fin.val_zero]; omega)
        subst this
        rw [hP.first, mul_one] at he
        right
        rw [he]
        exact (Within.refl p.ratio).mono hu hu1 hT.le (by omega)
      · exact hd i
    · rw [wr_obj _ x _ h1]
      split_ifs with hx
      · subst hx
        have : y = 0 := Fin.ext (by rw [Fin.val_zero]; omega)
        subst this
        rw [hP.first] at he
        have e2 : P i = 1 / p.ratio := by rw [eq_div_iff hT.ne', mul_comm]; exact he.symm
        right
        rw [e2]
        exact (Within.refl (1 / p.ratio)).round hR hu hu1 (by positivity)
      · exact hd i
    · exact hd i
  have h0 : Near u 1 P deltas0 := by
    intro i
    by_cases h : i = 0
    · subst h
      right
      rw [hP.first]
      have : (deltas0 : Vec (n + 1) K) 0 = 1 := by simp [deltas0]
      rw [this]
      exact (Within.refl 1).mono hu hu1 (by norm_num) (by omega)
    · left
      have : i.val ≠ 0 := fun h' => h (Fin.ext h')
      simp [deltas0, this]
  have : ∀ (q : List (Pair K)) (d : Vec (n + 1) K), (∀ p ∈ q, p ∈ l) → Near u 1 P d →
      Near u 1 P (q.foldl (firstTurn c) d) := by
    intro q
    induction q with
    | nil => intro d _ h; exact h
    | cons p q ih =>
      intro d hq h
      exact ih _ (fun x hx => hq x (by simp [hx])) (step d p (hq p (by simp)) h)
  exact this l _ (fun p hp => hp) h0

include hc

omit hl hR hu hu1 hP hc in
/-- Two more errors for the objective `a`. -/
def errAt (a : Int) (e : Nat) (i : Fin (n + 1)) : Nat := if (i : Int) + 1 = a then e + 2 else e

/-- Going through the pairs for the objective `a`: two more roundings for the delta of `a`. -/
theorem near_inner (a : Int) {e : Nat} {d : Vec (n + 1) K} (hd : Near u e P d) :
    Near u (e + 2) P (l.foldl (innerTurn c a) d) := by
  let Q : Vec (n + 1) K → Prop := fun d =>
    ∀ i : Fin (n + 1), d i = 0 ∨ Within u (errAt a e i) (d i) (P i)
  have step : ∀ (d : Vec (n + 1) K) (p : Pair K), p ∈ l → Q d → Q (innerTurn c a d p) := by
    intro d p hp hd i
    obtain ⟨x, y, h1, h2⟩ := hl.idx p hp
    have hT := hl.pos p hp
    have he := hP.ratio p hp x y ⟨h1, h2⟩
    have hxy : x ≠ y := by
      rintro rfl
      exact no_loop hl hc hp ⟨h1, h2⟩
    have hxy' : x.val ≠ y.val := fun h => hxy (Fin.ext h)
    unfold innerTurn
    split_ifs with c1 c2 c3 c4
    · rw [wr_obj _ x _ h1]
      rw [rd_obj _ y h2] at c2 ⊢
      split_ifs with hx
      · subst hx
        right
        have hy := (hd y).resolve_left c2
        rw [errAt, if_neg (by omega)] at hy
        rw [errAt, if_pos (by omega)]
        have e2 : P i = P y * (1 / p.ratio) := by rw [he]; field_simp
        rw [e2]
        have w1 := (Within.refl (u := u) (1 / p.ratio)).round hR hu hu1 (by positivity)
        have w2 := (hy.mul hu hu1 (hP.pos y).le (by positivity) w1).round hR hu hu1
          (mul_nonneg (hP.pos y).le (by positivity))
        exact w2
      · exact hd i
    · exact hd i
    · rw [wr_obj _ y _ h2]
      rw [rd_obj _ x h1] at c4 ⊢
      split_ifs with hy
      · subst hy
        right
        have hx := (hd x).resolve_left c4
        rw [errAt, if_neg (by omega)] at hx
        rw [errAt, if_pos (by omega), he, mul_comm p.ratio]
        have w2 := (hx.mul hu hu1 (hP.pos x).le hT.le (Within.refl p.ratio)).round hR hu hu1
          (mul_nonneg (hP.pos x).le hT.le)
        exact w2.mono hu hu1 (mul_nonneg (hP.pos x).le hT.le) (by omega)
      · exact hd i
    · exact hd i
    · exact hd i
  have fold : ∀ (q : List (Pair K)) (d : Vec (n + 1) K), (∀ p ∈ q, p ∈ l) → Q d →
      Q (q.foldl (innerTurn c a) d) := by
    intro q
    induction q with
    | nil => intro d _ h; exact h
    | cons p q ih =>
      intro d hq h
      exact ih _ (fun x hx => hq x (by simp [hx])) (step d p (hq p (by simp)) h)
  have h0 : Q d := fun i => (hd i).imp id fun h => h.mono hu hu1 (hP.pos i).le (by unfold errAt; split_ifs <;> omega)
  intro i
  exact (fold l d (fun p hp => hp) h0 i).imp id fun h => h.mono hu hu1 (hP.pos i).le (by unfold errAt; split_ifs <;> omega)

theorem near_pass (miss : List Int) {e : Nat} {d : Vec (n + 1) K} (hd : Near u e P d) :
    Near u (e + 2 * miss.length) P (pass c miss l d) := by
  unfold pass
  induction miss generalizing d e with
  | nil => exact hd
  | cons a miss ih =>
    have := ih (near_inner hl hR hu hu1 hP hc a hd)
    rw [List.length_cons]
    rw [show e + 2 * (miss.length + 1) = e + 2 + 2 * miss.length by ring]
    exact this

end

/-- At most `n` deltas are missing at the beginning. -/
theorem missing_length {l : List (Pair K)} (hl : Proper n l) :
    (missing (Verif.NautilusV2.deltas1 l : Vec (n + 1) K)).length ≤ n := by
  unfold missing
  rw [List.length_map]
  have h0 : (Verif.NautilusV2.deltas1 l : Vec (n + 1) K) 0 ≠ 0 := deltas1_first hl
  have hlt := List.length_filter_lt_length_iff_exists.2
    (⟨0, List.mem_finRange 0, by simpa using h0⟩ : ∃ x ∈ List.finRange (n + 1),
      ¬ (decide ((Verif.NautilusV2.deltas1 l : Vec (n + 1) K) x = 0) = true))
  rw [List.length_finRange] at hlt
  omega

/-- Turns of the `while` loop do not change a delta that was found before it. -/
theorem pass_found {c : Cfg (n + 1) m K} {l : List (Pair K)} (hl : Proper n l) {miss : List Int} {i : Fin (n + 1)}
    (hi : (i : Int) + 1 ∉ miss) (d : Vec (n + 1) K) : pass c miss l d i = d i := by
  have turn : ∀ (a : Int) (d : Vec (n + 1) K) (p : Pair K), p ∈ l → (i : Int) + 1 ≠ a → innerTurn c a d p i = d i := by
    intro a d p hp ha
    obtain ⟨x, y, h1, h2⟩ := hl.idx p hp
    unfold innerTurn
    split_ifs with c1 c2 c3 c4
    · rw [wr_obj _ x _ h1, if_neg (by rintro rfl; omega)]
    · rfl
    · rw [wr_obj _ y _ h2, if_neg (by rintro rfl; omega)]
    · rfl
    · rfl
  have inner : ∀ (a : Int), (i : Int) + 1 ≠ a → ∀ (q : List (Pair K)) (d : Vec (n + 1) K), (∀ p ∈ q, p ∈ l) →
      q.foldl (innerTurn c a) d i = d i := by
    intro a ha q
    induction q with
    | nil => intro d _; rfl
    | cons p q ih =>
      intro d hq
      rw [List.foldl_cons, ih _ (fun x hx => hq x (by simp [hx])), turn a d p (hq p (by simp)) ha]
  unfold pass
  induction miss generalizing d with
  | nil => rfl
  | cons a miss ih =>
    rw [List.foldl_cons, ih (fun h => hi (by simp [h])), inner a (fun h => hi (by simp [h])) l d fun p hp => hp]

theorem deltas1_one {c : Cfg (n + 1) m K} {l : List (Pair K)} (hl : Proper n l) (hc : Connected n l) :
    deltas1 c l 0 = 1 := by
  have : ∀ (q : List (Pair K)) (d : Vec (n + 1) K), (∀ p ∈ q, p ∈ l) → d 0 = 1 →
      q.foldl (firstTurn c) d 0 = 1 := by
    intro q
    induction q with
    | nil => intro d _ h; exact h
    | cons p q ih =>
      intro d hq h
      refine ih _ (fun x hx => hq x (by simp [hx])) ?_
      have hp := hq p (by simp)
      obtain ⟨x, y, h1, h2⟩ := hl.idx p hp
      have hxy : x ≠ y := by
        rintro rfl
        exact no_loop hl hc hp ⟨h1, h2⟩
      have hxy' : x.val ≠ y.val := fun h => hxy (Fin.ext h)
      unfold firstTurn
      split_ifs with c1 c2
      · rw [wr_obj _ y _ h2, if_neg (fun h0 => hxy' (by have := congrArg Fin.val h0; rw [Fin.val_zero] at this; omega))]; exact h
      · rw [wr_obj _ x _ h1, if_neg (fun h0 => hxy' (by have := congrArg Fin.val h0; rw [Fin.val_zero] at this; omega))]; exact h
      · exact h
  exact this l _ (fun p hp => hp) (by simp [deltas0])

/-- The number of rounding errors in the direction of improvement for `k` objectives. -/
def doiErrors (k : Nat) : Nat := 2 * k ^ 2

/-- **C133**. In floating-point arithmetic, for an accepted list of pairs:

* the search for the direction of improvement ends exactly when the pairs connect all objectives, and otherwise never;
* if it ends, every entry is positive, the entry of the first objective is exactly 1, and the others differ from those
  of the exact direction `P` (the one with the given ratios and 1 for the first objective) by at most `2 k ^ 2` rounding
  errors for `k` objectives. -/
theorem C133_direction_rounded {c : Cfg (n + 1) m K} {l : List (Pair K)} (hR : IsRounding u c.rnd)
    (hu : 0 ≤ u) (hu1 : u < 1) (hv : validatePairs (n + 1) l = .ok ()) :
    ((∃ d, doi c l = .ok d) ↔ Connected n l) ∧
    (¬ Connected n l → doi c l = .error .diverges ∧ ∀ t, ∃ i, after c l t i = 0) ∧
    ∀ d, doi c l = .ok d → d 0 = 1 ∧ (∀ i, 0 < d i) ∧
      ∃ P : Vec (n + 1) K, Satisfies l P ∧ ∀ i, Within u (doiErrors (n + 1)) (d i) (P i) := by
  obtain ⟨n', hn, hl, -⟩ := validatePairs_ok hv
  obtain rfl : n = n' := by omega
  have hdiv : ¬ Connected n l → doi c l = .error .diverges ∧ ∀ t, ∃ i, after c l t i = 0 := by
    intro hc
    have h : ∀ t, ∃ i, after c l t i = 0 := by
      intro t
      obtain ⟨i, hi⟩ := loops_of_not_connected hl hc t
      exact ⟨i, (sim_after hl hR hu1 t i).2 hi⟩
    exact ⟨(doi_diverges hl hR hu1).2 ⟨rfl, h⟩, h⟩
  have hconn : ∀ d, doi c l = .ok d → Connected n l := by
    intro d h
    by_contra hc
    rw [(hdiv hc).1] at h
    simp at h
  refine ⟨⟨fun ⟨d, h⟩ => hconn d h, fun hc => ?_⟩, hdiv, ?_⟩
  · rcases h : doi c l with e | d
    · obtain ⟨i, hi⟩ := ((doi_diverges hl hR hu1).1 h).2 n
      exact absurd ((sim_after hl hR hu1 n i).1 hi) (complete hl hc i)
    · exact ⟨d, rfl⟩
  · intro d h
    have hc := hconn d h
    obtain ⟨P, hP0, hPp, hPr⟩ := potential hl hc
    have hP : Satisfies l P := ⟨hP0, hPp, hPr⟩
    obtain ⟨t, ht, rfl, h3, -⟩ := doiLoop_ok h
    have hmiss : (missing (deltas1 c l)).length ≤ n := by
      rw [(sim_deltas1 hl hR hu1).missing]
      exact missing_length hl
    have hnear : ∀ t, Near u (1 + 2 * n * t) P ((pass c (missing (deltas1 c l)) l)^[t] (deltas1 c l)) := by
      intro t
      induction t with
      | zero => exact near_deltas1 hl hR hu hu1 hP
      | succ t ih =>
        rw [Function.iterate_succ_apply']
        intro i
        refine (near_pass hl hR hu hu1 hP hc (missing (deltas1 c l)) ih i).imp id fun h =>
          h.mono hu hu1 (hPp i).le ?_
        rw [show 1 + 2 * n * (t + 1) = 1 + 2 * n * t + 2 * n by ring]
        omega
    have hw : ∀ i, Within u (doiErrors (n + 1)) (((pass c (missing (deltas1 c l)) l)^[t] (deltas1 c l)) i) (P i) := by
      intro i
      refine ((hnear t i).resolve_left (h3 i)).mono hu hu1 (hPp i).le ?_
      have : n * t ≤ n * (n + 1) := Nat.mul_le_mul_left n ht
      unfold doiErrors
      nlinarith
    refine ⟨?_, fun i => ?_, P, hP, hw⟩
    · have hi : ((0 : Fin (n + 1)) : Int) + 1 ∉ missing (deltas1 c l) := by
        intro h
        obtain ⟨j, hj, h1⟩ := mem_missing.1 h
        have : j = 0 := Fin.ext (by rw [Fin.val_zero] at h1 ⊢; omega)
        subst this
        rw [deltas1_one hl hc] at *
        simp_all
      have : ∀ t, ((pass c (missing (deltas1 c l)) l)^[t] (deltas1 c l)) 0 = 1 := by
        intro t
        induction t with
        | zero => exact deltas1_one hl hc
        | succ t ih =>
          rw [Function.iterate_succ_apply', pass_found hl hi, ih]
      exact this t
    · exact lt_of_lt_of_le (mul_pos (pow_pos (by linarith) _) (hPp i)) (hw i).1

end Verif.NautilusV2.Rounded
