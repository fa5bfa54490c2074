import Verif.ParetoNav.Task

set_option linter.unusedSectionVars false

/-!
# Pareto Navigator: navigating towards an attainable reference point, C101
-/

namespace Verif.ParetoNav

open Exec

variable {K : Type} [Field K] [LinearOrder K] [IsStrictOrderedRing K] {k : Nat} {X D : Type}

/-! ### The step length in every history -/

/-- The step length has an absolute value between 1/50 and 6/50. -/
def Short (o : Option K) : Prop := ∀ a, o = some a → 1 / 50 ≤ |a| ∧ |a| < 6 / 50

/-- The computation keeps the step length short. -/
def KeepsShort {α : Type} (x : Exec (St k X K) α) : Prop := ∀ s, Short s.speed → Short (x s).1.speed

theorem KeepsShort.bind {α β : Type} {x : Exec (St k X K) α} {f : α → Exec (St k X K) β}
    (hx : KeepsShort x) (hf : ∀ a, KeepsShort (f a)) : KeepsShort (x >>= f) := by
  intro s hs
  show Short (Exec.bind x f s).1.speed
  unfold Exec.bind
  have h := hx s hs
  split
  · exact hf _ _ h
  · exact h

theorem keepsShort_same {α : Type} {x : Exec (St k X K) α} (h : ∀ s, (x s).1.speed = s.speed) : KeepsShort x :=
  fun s hs => by rw [h s]; exact hs

theorem calcSpeed_short {v : PyVal} {a : K} (hv : validateSpeed v = .ok ()) (ha : calcSpeed v = .ok a) :
    1 / 50 ≤ |a| ∧ |a| < 6 / 50 := by
  obtain ⟨x, _, rfl, h1, h2, _⟩ := speed_range hv ha
  rw [abs_of_nonneg (by linarith)]
  constructor <;> linarith

theorem keepsShort_set {v : PyVal} (hv : validateSpeed v = .ok ()) :
    KeepsShort (do let a ← Exec.lift (calcSpeed v); Exec.modify fun s => { s with speed := some a } :
      Exec (St k X K) Unit) := by
  intro s hs
  cases hc : (calcSpeed v : Except Err K) with
  | error e => rw [lift_error_bind]; exact hs
  | ok a =>
    rw [lift_ok_bind]
    intro b hb
    have hb : some a = some b := hb
    cases hb
    exact calcSpeed_short hv hc

theorem keepsShort_move (orc : Oracle k D K) {r : Resp K} (hr : ∀ v, r.speed = some v → validateSpeed v = .ok ()) :
    KeepsShort (do
      setSpeed r
      let a ← setSign r
      setRef r
      step orc a : Exec (St k X K) (Req k X K)) := by
  refine KeepsShort.bind ?_ fun _ => KeepsShort.bind ?_ fun a => KeepsShort.bind ?_ fun _ => ?_
  · unfold setSpeed
    cases h : r.speed with
    | none => exact keepsShort_same fun _ => rfl
    | some v => exact keepsShort_set (hr v h)
  · intro s hs
    rcases setSign_cases r s with ⟨_, h⟩ | ⟨a, ha, h⟩
    · rw [h]; exact hs
    · rw [h]
      intro b hb
      have hb : some (if r.stepBack = some true then a * (-1) else |a|) = some b := hb
      obtain ⟨h1, h2⟩ := hs a ha
      have : |b| = |a| := by
        cases hb
        split
        · rw [mul_neg_one, abs_neg]
        · exact abs_abs a
      rw [this]
      exact ⟨h1, h2⟩
  · unfold setRef
    cases r.ref with
    | some l => exact keepsShort_same fun _ => rfl
    | none =>
      cases r.classes with
      | none => exact keepsShort_same fun _ => rfl
      | some cs =>
        exact KeepsShort.bind (keepsShort_same fun _ => rfl) fun _ => KeepsShort.bind (keepsShort_same fun _ => rfl)
          fun _ => keepsShort_same fun _ => rfl
  · unfold step
    exact KeepsShort.bind (keepsShort_same fun _ => rfl) fun _ => KeepsShort.bind (keepsShort_same fun _ => rfl)
      fun _ => KeepsShort.bind (keepsShort_same fun _ => rfl) fun _ => KeepsShort.bind (keepsShort_same fun _ => rfl)
      fun _ => KeepsShort.bind (keepsShort_same fun _ => rfl) fun _ => keepsShort_same fun _ => rfl

theorem keepsShort_initial (P : Prob k X D K) (orc : Oracle k D K) {r : Resp K}
    (hr : ∀ v, r.speed = some v → validateSpeed v = .ok ()) : KeepsShort (handleInitial P r orc) := by
  unfold handleInitial
  refine KeepsShort.bind ?_ fun p => KeepsShort.bind (keepsShort_same fun _ => rfl) fun _ => ?_
  · unfold startingPoint
    cases r.ref with
    | some l =>
      exact KeepsShort.bind (keepsShort_same fun _ => rfl) fun _ => KeepsShort.bind (keepsShort_same fun _ => rfl)
        fun _ => keepsShort_same fun _ => rfl
    | none =>
      cases r.preferred with
      | none => exact keepsShort_same fun _ => rfl
      | some i =>
        exact KeepsShort.bind (keepsShort_same fun _ => rfl) fun _ => KeepsShort.bind (keepsShort_same fun _ => rfl)
          fun _ => keepsShort_same fun _ => rfl
  · cases h : r.speed with
    | none => exact keepsShort_same fun _ => rfl
    | some v =>
      intro s hs
      cases hc : (calcSpeed v : Except Err K) with
      | error e =>
        simp only [hc, lift_error_bind]
        exact hs
      | ok a =>
        simp only [hc, lift_ok_bind, modify_bind, get_bind, pure_run]
        intro b hb
        cases hb
        exact calcSpeed_short (hr v h) hc

theorem answer_short {P : Prob k X D K} {s : St k X K} {req : Req k X K} {r : Option (Resp K)} {orc : Oracle k D K}
    (hs : Short s.speed) : Short (answer P s req r orc).1.speed := by
  unfold answer
  split
  · exact hs
  · rename_i u hv
    cases req with
    | initial lo hi l =>
      cases r with
      | none => exact hs
      | some r =>
        exact keepsShort_initial P orc (fun v h => validateInitial_speed (nadir := hi) hv h) s hs
    | nav c lo hi =>
      show Short (handleNav P r orc s).1.speed
      by_cases hsh : (r.getD {}).showSolution = some true
      · simp only [handleNav, hsh, if_true]
        rcases show_cases P orc s with ⟨e, he⟩ | ⟨p, d, _, _, he⟩ <;> rw [he] <;> exact hs
      · simp only [handleNav]
        rw [if_neg hsh]
        refine keepsShort_move orc (fun v h => ?_) s hs
        cases r with
        | none => simp at h
        | some r => exact validateNav_speed (nadir := hi) hv hsh h
    | solution c x f =>
      show Short (handleSolution r orc s).1.speed
      unfold handleSolution
      split
      · exact hs
      · rcases add_cases orc s with ⟨hf, he⟩ | ⟨f', hf, ⟨e, hh, he⟩ | ⟨eqs, hi, lo, hh, hex, he⟩⟩ <;>
          rw [he] <;> exact hs
    | stop => exact hs

theorem Reached.short {P : Prob k X D K} {sup G} {s : St k X K} {iss} (h : Reached P sup G s iss) :
    Short s.speed := by
  induction h with
  | init hG hc =>
    obtain ⟨sols, ideal, nadir, eqs, _, _, he, rfl⟩ := construct_ok hc
    intro a ha
    cases ha
  | start _ ih => exact ih
  | @next s iss req r orc s' o hR hr hG ha ih =>
    have := answer_short (P := P) (req := req) (r := r) (orc := orc) ih
    rw [ha] at this
    exact this

/-! ### C101 -/

/-- `n` times in a row the newest request is answered without a new preference, and navigation goes on. -/
inductive GoesOn (P : Prob k X D K) (G : Oracle k D K → Prop) : Nat → St k X K → St k X K → Prop
  | zero {s} : GoesOn P G 0 s s
  | succ {n s s1 s2 c lo hi c' lo' hi' orc} : GoesOn P G n s s1 → G orc →
      answer P s1 (.nav c lo hi) none orc = (s2, .ok (.nav c' lo' hi')) → GoesOn P G (n + 1) s s2

theorem dot_move {n : Nat} (u x y : Vec n K) (a : K) :
    dot u (fun j => x j + a * (y j - x j)) = dot u x + a * (dot u y - dot u x) := by
  unfold dot
  rw [← Finset.sum_sub_distrib, Finset.mul_sum, ← Finset.sum_add_distrib]
  exact Finset.sum_congr rfl fun j _ => by ring

theorem Inside.move {eqs : List (Vec k K × K)} {x y : Vec k K} {a : K} (hx : Inside eqs x) (hy : Inside eqs y)
    (h0 : 0 ≤ a) (h1 : a ≤ 1) : Inside eqs fun j => x j + a * (y j - x j) := by
  intro e he
  rw [dot_move]
  have := hx e he
  have := hy e he
  nlinarith

theorem InBox.move {lo hi x y : Vec k K} {a : K} (hx : InBox lo hi x) (hy : InBox lo hi y)
    (h0 : 0 ≤ a) (h1 : a ≤ 1) : InBox lo hi fun j => x j + a * (y j - x j) := by
  intro j
  obtain ⟨b1, b2⟩ := hx j
  obtain ⟨b3, b4⟩ := hy j
  constructor <;> nlinarith

/-- **C101**. In every history: if the reference point in force is attainable in the approximation (some convex
combination of the stored solutions between ideal and nadir is at least as good), and the current solution
belongs to the approximation, then going on `n` times without a new preference brings every objective closer to the
reference value: what it exceeds the reference value by shrinks at least by the factor `1 - a` in each step, where
`a` is the step length, a number between 1/50 and 6/50. An objective that meets the reference value goes on
meeting it. The stored solutions are meant for which Qhull computed the facets: all of them, if it has not failed. -/
theorem C101_approaches {P : Prob k X D K} {sup} {G : Oracle k D K → Prop} {s : St k X K} {iss : List (Req k X K)}
    (hR : Reached P sup G s iss) (hG : ∀ orc, G orc → Exact orc) (hlt : ∀ i, s.ideal i < s.nadir i) {a : K}
    (ha : s.speed = some a) {q cur z0 : Vec k K} (hq : s.ref = some (List.ofFn q))
    (hc : s.cur = some (.vec (List.ofFn cur))) (hcb : InBox s.ideal s.nadir cur) (hzb : InBox s.ideal s.nadir z0)
    (hz : AtLeastAsGood z0 q) :
    1 / 50 ≤ |a| ∧ |a| < 6 / 50 ∧ ∃ pts, pts <+: s.sols ∧ (HullWorks G → pts = s.sols) ∧
      (∃ orc eqs, G orc ∧ orc.hull pts = .ok eqs) ∧
      (InHull pts cur → InHull pts z0 → ∀ n s', GoesOn P G n s s' →
        ∃ z : Vec k K, s'.cur = some (.vec (List.ofFn z)) ∧ InHull pts z ∧ InBox s.ideal s.nadir z ∧
          ∀ i, z i - q i ≤ (1 - |a|) ^ n * (cur i - q i)) := by
  obtain ⟨ha1, ha2⟩ := hR.short a ha
  refine ⟨ha1, ha2, ?_⟩
  have ha0 : 0 ≤ |a| := abs_nonneg a
  have ha3 : |a| ≤ 1 := by linarith
  obtain ⟨pts, eqs, orc0, hG0, hh, hp, hpe, hE⟩ := hR.approx
  refine ⟨pts, hp, hpe, ⟨orc0, eqs, hG0, hh⟩, fun hcur hz0 n s' hgo => ?_⟩
  have hull := (hG _ hG0).hull pts eqs hh
  have key : ∃ z : Vec k K, s'.cur = some (.vec (List.ofFn z)) ∧ Inside eqs z ∧ InBox s.ideal s.nadir z ∧
      (∀ i, z i - q i ≤ (1 - |a|) ^ n * (cur i - q i)) ∧ Frame s s' ∧ s'.ref = s.ref ∧
      ∃ a', s'.speed = some a' ∧ |a'| = |a| := by
    induction hgo with
    | zero => exact ⟨cur, hc, (hull cur).2 hcur, hcb, by simp, Frame.refl _, rfl, a, ha, rfl⟩
    | @succ n s1 s2 s3 c lo hi c' lo' hi' orc hgo hGo hans ih =>
      obtain ⟨z, h1, h2, h3, h4, h5, h6, a', h7, h8⟩ := ih hR hlt ha hq hc hcb hzb hp hpe hE
      have hst := answer_step hans
      generalize hqq : Except.ok (Req.nav c' lo' hi' : Req k X K) = o at hst
      generalize hrr : (none : Option (Resp K)) = r0 at hst
      cases hst with
      | refused => simp at hqq
      | showFails => simp at hqq
      | showed => simp at hqq
      | moveFails => simp at hqq
      | @moved _ _ _ _ a0 a1 l m x hv hs hb hsg hn hm hx =>
        subst hrr
        have hb : a' = a0 := by simpa [baseSpeed, h7] using hb
        subst hb
        have hsg : a1 = |a| := by rw [hsg, ← h8]; simp
        subst hsg
        have hn : l = some (List.ofFn q) := by
          have : Except.ok (ε := Err) s2.ref = .ok l := hn
          rw [h6, hq] at this
          cases this
          rfl
        subst hn
        have hm' : ∀ i, m i = z i + |a| * (q i - z i) := by
          rw [h1] at hm
          unfold ParetoNav.moved at hm
          simp only [List.length_ofFn, ne_eq, not_true_eq_false, if_false, if_true] at hm
          cases hm
          intro i
          simp [toVec]
        rw [hE.frame h5 |>.A, hE.frame h5 |>.b, h5.ideal, h5.nadir] at hx
        obtain ⟨hf, hmin⟩ := (hG _ hGo).lp _ _ _ _ _ hx
        have hxc : x = (Fin.cons (x 0) (fun i => x i.succ) : Vec (k + 1) K) := (Fin.cons_self_tail x).symm
        rw [hxc, C50_constraints _ _ _ _ _ _ hlt] at hf
        have hz' : x 0 ≤ 0 := hmin (Fin.cons 0 fun j => z j + |a| * (z0 j - z j))
          ((C50_constraints _ _ _ _ _ _ hlt).2 ⟨fun i => by
            rw [hm' i]
            have h9 := hz i
            have h10 : 0 < 1 / (s1.nadir i - s1.ideal i) := div_pos one_pos (by have := hlt i; linarith)
            have h11 : z i + |a| * (z0 i - z i) - (z i + |a| * (q i - z i)) ≤ 0 := by nlinarith
            nlinarith, Inside.move h2 ((hull z0).2 hz0) ha0 ha3, InBox.move h3 hzb ha0 ha3⟩)
        refine ⟨fun i => x i.succ, rfl, hf.2.1, hf.2.2, fun i => ?_, ?_, ?_, |a|, rfl, abs_abs a⟩
        · have h9 := (hf.1 i).trans hz'
          rw [hm' i] at h9
          have h10 : 0 < 1 / (s1.nadir i - s1.ideal i) := div_pos one_pos (by have := hlt i; linarith)
          have h11 : x i.succ - (z i + |a| * (q i - z i)) ≤ 0 := by
            by_contra hcon
            push Not at hcon
            nlinarith
          have h12 := h4 i
          have h13 : (1 - |a|) * (z i - q i) ≤ (1 - |a|) * ((1 - |a|) ^ n * (cur i - q i)) :=
            mul_le_mul_of_nonneg_left h12 (by linarith)
          rw [pow_succ]
          nlinarith
        · exact h5.trans ⟨rfl, rfl, rfl, rfl, rfl, rfl, rfl⟩
        · show some (List.ofFn q) = s1.ref
          exact hq.symm
  obtain ⟨z, h1, h2, h3, h4, _⟩ := key
  exact ⟨z, h1, (hull z).1 h2, h3, h4⟩

theorem ex_hull_cur : InHull exSols ![1/20, 19/20] :=
  ⟨[19/20, 1/20, 0], rfl, by decide +kernel, by decide +kernel, by decide +kernel⟩

theorem ex_hull_mid : InHull exSols ![1/2, 1/2] :=
  ⟨[1/2, 1/2, 0], rfl, by decide +kernel, by decide +kernel, by decide +kernel⟩

def exGo3 : St 2 ℚ ℚ := (answer exProb exS2 exR2 none exOrc).1
def exGo4 : St 2 ℚ ℚ := (answer exProb exGo3 (.nav exGo3.cur ![0, 0] ![1, 1]) none exOrc).1

theorem ex_goesOn : GoesOn exProb (fun o => o = exOrc) 2 exS2 exGo4 :=
  .succ (s1 := exGo3) (c := exGo3.cur) (lo := ![0, 0]) (hi := ![1, 1]) (c' := exGo4.cur) (lo' := ![0, 0]) (hi' := ![1, 1]) (orc := exOrc)
    (.succ (c := some (.vec [1/20, 19/20])) (lo := ![0, 0]) (hi := ![1, 1]) (c' := exGo3.cur) (lo' := ![0, 0])
      (hi' := ![1, 1]) (orc := exOrc) .zero rfl (eq_of_beq (by decide +kernel)))
    rfl (eq_of_beq (by decide +kernel))

/-- In the example, towards the reference point (1/2, 1/2), from (1/20, 19/20). -/
example : ∃ z : Vec 2 ℚ, exGo4.cur = some (.vec (List.ofFn z)) ∧ InHull exSols z ∧
    z 1 - 1/2 ≤ (1 - 1/10) ^ 2 * (19/20 - 1/2) := by
  have hsp : exS2.speed = some (1/10) := eq_of_beq (by decide +kernel)
  have hs : exS2.sols = exSols := by decide +kernel
  obtain ⟨_, _, pts, hp, _, ⟨orc, eqs, rfl, ho⟩, h⟩ := C101_approaches (q := ![1/2, 1/2]) (cur := ![1/20, 19/20])
    (z0 := ![1/2, 1/2]) (ex_reached2 (G := fun o => o = exOrc) rfl) (by rintro _ rfl; exact exOrc_exact)
    (by decide +kernel) hsp (by decide +kernel) (eq_of_beq (by decide +kernel)) (by unfold InBox; decide +kernel)
    (by unfold InBox; decide +kernel) (fun _ => le_refl _)
  have hpts : pts = exSols := by
    rw [hs] at hp
    have : exHull pts = .ok eqs := ho
    unfold exHull at this
    split at this
    · rename_i hc
      exact hp.eq_of_length_le hc.1.length_le
    · cases this
  subst hpts
  obtain ⟨z, h1, h2, _, h3⟩ := h ex_hull_cur ex_hull_mid 2 exGo4 ex_goesOn
  refine ⟨z, h1, h2, ?_⟩
  have := h3 1
  simpa using this

end Verif.ParetoNav
