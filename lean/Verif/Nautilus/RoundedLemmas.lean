import Verif.Nautilus.Rounded
import Verif.Nautilus.ExampleData

set_option linter.unusedSectionVars false

/-! What the handlers of NAUTILUS in rounded arithmetic do, case by case, their histories and invariants: the
development of `Lemmas`, `Errors`, `History` and `Total` for the rounded model. -/

namespace Verif.Nautilus.Rounded

open Exec

variable {K : Type} [Field K] [LinearOrder K] {k m : Nat}

/-- The request showing the point `z` on the way to `f`. -/
def navReq (c : Cfg k m K) (orc : Oracle k m K) (z f : Vec k K) : Req k m K :=
  .nav z (bounds c orc z) z (distance c z f)

theorem solveNew_ok {c : Cfg k m K} {orc : Oracle k m K} {meth : Int} {info : List K} {arr : Bool}
    {s s' : St k m K} {u : Unit} (h : solveNew c orc meth info arr s = (s', .ok u)) :
    ∃ w q, factors c meth info arr = .ok w ∧ s.zs[s.step - 1]? = some (some q) ∧
      s.step < s.xs.length ∧ s.step < s.fs.length ∧
      s' = { s with xs := s.xs.set s.step (some (orc.asf w q)),
                    fs := s.fs.set s.step (some (c.evaluate (orc.asf w q))) } := by
  unfold solveNew at h
  rw [bind_ok] at h
  obtain ⟨s1, w, h1, h⟩ := h
  simp only [lift_run, Prod.mk.injEq] at h1
  obtain ⟨rfl, hw⟩ := h1
  rw [get_bind, bind_ok] at h
  obtain ⟨s2, q, h2, h⟩ := h
  obtain ⟨rfl, hq⟩ := getZ_ok.1 h2
  rw [bind_ok] at h
  obtain ⟨s3, u3, h3, h⟩ := h
  obtain ⟨hx, rfl⟩ := setX_ok.1 h3
  obtain ⟨hf, rfl⟩ := setF_ok.1 h
  exact ⟨w, q, hw, hq, hx, hf, rfl⟩

theorem movePoint_ok {c : Cfg k m K} {orc : Oracle k m K} {s s' : St k m K} {r : Option (Req k m K)}
    (h : movePoint c orc s = (s', .ok r)) :
    ∃ q f, s.zs[s.step - 1]? = some (some q) ∧ s.fs[s.step]? = some (some f) ∧
      s.step < s.zs.length ∧
      s' = { s with zs := s.zs.set s.step (some (iterationPoint c s.left q f)) } ∧
      r = some (navReq c orc (iterationPoint c s.left q f) f) := by
  unfold movePoint at h
  rw [get_bind, bind_ok] at h
  obtain ⟨s2, q, h2, h⟩ := h
  obtain ⟨rfl, hq⟩ := getZ_ok.1 h2
  rw [bind_ok] at h
  obtain ⟨s3, f, h3, h⟩ := h
  obtain ⟨rfl, hf⟩ := getF_ok.1 h3
  rw [bind_ok] at h
  obtain ⟨s4, u4, h4, h⟩ := h
  obtain ⟨hz, rfl⟩ := setZ_ok.1 h4
  simp only [pure_run, Prod.mk.injEq, Except.ok.injEq] at h
  obtain ⟨rfl, rfl⟩ := h
  exact ⟨q, f, hq, hf, hz, rfl, rfl⟩

theorem validatePreferences_ok {c : Cfg k m K} {r : Resp K} (h : validatePreferences c r = .ok ()) :
    ∃ meth info, r.method = some meth ∧ r.info = some info ∧ k ≤ info.length ∧
      ((meth = 1 ∧ ∃ mx, pyMax info = .ok mx ∧ 1 ≤ mx ∧ mx ≤ (k : K)) ∨
        (meth = 2 ∧ c.sum info = 100)) := by
  unfold validatePreferences at h
  split at h
  · rename_i meth info h1 h2
    refine ⟨meth, info, h1, h2, ?_⟩
    split at h
    · simp at h
    · rename_i hm
      simp only [not_not] at hm
      split at h
      · rename_i hm1
        split at h
        · simp at h
        · rename_i hl
          split at h
          · simp at h
          · rename_i mx hmx
            split at h
            · rename_i hb
              exact ⟨not_lt.1 hl, .inl ⟨hm1, mx, hmx, hb⟩⟩
            · simp at h
      · rename_i hm1
        split at h
        · simp at h
        · rename_i hl
          split at h
          · simp at h
          · rename_i hs
            simp only [ne_eq, not_not] at hs
            exact ⟨not_lt.1 hl, .inr ⟨hm.resolve_left hm1, hs⟩⟩
  · simp at h

theorem validateInitial_ok {c : Cfg k m K} {r : Resp K} (h : validateInitial c r = .ok ()) :
    ∃ v, r.nIterations = some v ∧ v.isInstanceInt ∧ 1 ≤ v.asInt ∧ r.stepBack = none ∧
      r.usePrevious = none ∧ validatePreferences c r = .ok () := by
  unfold validateInitial at h
  split at h
  · simp at h
  · rename_i h0
    split at h
    · simp at h
    · rename_i h1
      split at h
      · simp at h
      · rename_i h2
        split at h
        · simp at h
        · rename_i u hp
          rcases validateN_ok h with h3 | ⟨v, h3, h4, h5⟩
          · simp [h3] at h0
          · exact ⟨v, h3, h4, h5, by simpa using h1, by simpa using h2, hp⟩

theorem validateNav_ok {c : Cfg k m K} {z : Vec k K} {r : Resp K} (h : validateNav c z r = .ok ()) :
    ∃ back prev, r.stepBack = some back ∧ r.usePrevious = some prev ∧
      (back = true → z ≠ c.nadir) ∧ (prev = false → validatePreferences c r = .ok ()) ∧
      (r.nIterations = none ∨ ∃ v, r.nIterations = some v ∧ v.isInstanceInt ∧ 1 ≤ v.asInt) := by
  unfold validateNav at h
  split at h
  · simp at h
  · rename_i back hb
    split at h
    · simp at h
    · rename_i hz
      split at h
      · simp at h
      · rename_i prev hp
        split at h
        · simp at h
        · rename_i u hv
          refine ⟨back, prev, hb, hp, ?_, ?_, validateN_ok h⟩
          · rintro rfl rfl; simp at hz
          · rintro rfl; simpa using hv

/-- The ways in which answering a request can return normally. -/
inductive Step (c : Cfg k m K) (orc : Oracle k m K) (s : St k m K) :
    Req k m K → Resp K → St k m K → Option (Req k m K) → Prop
  /-- a stop request is returned as it is -/
  | ended {x f r} : Step c orc s (.stop x f) r s (some (.stop x f))
  /-- the first iteration -/
  | initial {r : Resp K} {v w meth info cap x f z} : validateInitial c r = .ok () →
      r.nIterations = some v → r.method = some meth → r.info = some info →
      factors c meth info r.isArray = .ok w →
      cap = (v.asInt + 2).toNat → s.step < cap → 1 ≤ s.step →
      x = orc.asf w c.nadir → f = c.evaluate x → z = iterationPoint c v.asInt c.nadir f →
      Step c orc s .initial r
        { step := s.step, n := v.asInt, left := v.asInt
          zs := ((slots _ cap).set (s.step - 1) (some c.nadir)).set s.step (some z)
          xs := (slots _ cap).set s.step (some x)
          fs := (slots _ cap).set s.step (some f) }
        (some (navReq c orc z f))
  /-- the last iteration has been done -/
  | stop {z lo up d r s1 x f} : validateNav c z r = .ok () → s1 = changeN s r.nIterations →
      s1.left ≤ 1 → s1.xs[s1.step]? = some x → s1.fs[s1.step]? = some f →
      Step c orc s (.nav z lo up d) r { s1 with left := 0 } (some (.stop x f))
  /-- forward with the solution found before -/
  | keep {z lo up d r s1 x f zp z'} : validateNav c z r = .ok () → s1 = changeN s r.nIterations →
      1 < s1.left → r.stepBack = some false → r.usePrevious = some true →
      s1.step + 1 < s1.zs.length → s1.step + 1 < s1.xs.length → s1.step + 1 < s1.fs.length →
      s1.xs[s1.step]? = some x → s1.fs[s1.step]? = some (some f) →
      s1.zs[s1.step]? = some (some zp) → z' = iterationPoint c (s1.left - 1) zp f →
      Step c orc s (.nav z lo up d) r
        { step := s1.step + 1, n := s1.n, left := s1.left - 1
          zs := s1.zs.set (s1.step + 1) (some z')
          xs := s1.xs.set (s1.step + 1) x
          fs := s1.fs.set (s1.step + 1) (some f) }
        (some (navReq c orc z' f))
  /-- forward with new preferences -/
  | change {z lo up d r s1 w meth info x f zp z'} : validateNav c z r = .ok () →
      s1 = changeN s r.nIterations →
      1 < s1.left → r.stepBack = some false → r.usePrevious = some false →
      r.method = some meth → r.info = some info → factors c meth info r.isArray = .ok w →
      s1.step + 1 < s1.zs.length → s1.step + 1 < s1.xs.length → s1.step + 1 < s1.fs.length →
      s1.zs[s1.step]? = some (some zp) → x = orc.asf w zp → f = c.evaluate x →
      z' = iterationPoint c (s1.left - 1) zp f →
      Step c orc s (.nav z lo up d) r
        { step := s1.step + 1, n := s1.n, left := s1.left - 1
          zs := s1.zs.set (s1.step + 1) (some z')
          xs := s1.xs.set (s1.step + 1) (some x)
          fs := s1.fs.set (s1.step + 1) (some f) }
        (some (navReq c orc z' f))
  /-- step back and take a short step -/
  | short {z lo up d r s1 f z0 zp z'} : validateNav c z r = .ok () → s1 = changeN s r.nIterations →
      1 < s1.left → r.stepBack = some true → r.shortStep = some true →
      s1.zs[s1.step]? = some (some z0) → s1.zs[s1.step - 1]? = some (some zp) →
      s1.fs[s1.step]? = some (some f) → z' = (fun j => c.rnd (c.rnd (1 / 2 * z0 j) + c.rnd (1 / 2 * zp j))) →
      Step c orc s (.nav z lo up d) r { s1 with zs := s1.zs.set s1.step (some z') }
        (some (navReq c orc z' f))
  /-- step back and give new preferences -/
  | redo {z lo up d r s1 w meth info x f zp z'} : validateNav c z r = .ok () →
      s1 = changeN s r.nIterations →
      1 < s1.left → r.stepBack = some true → r.shortStep = some false → r.usePrevious = some false →
      r.method = some meth → r.info = some info → factors c meth info r.isArray = .ok w →
      s1.step < s1.zs.length → s1.step < s1.xs.length → s1.step < s1.fs.length →
      s1.zs[s1.step - 1]? = some (some zp) → x = orc.asf w zp → f = c.evaluate x →
      z' = iterationPoint c s1.left zp f →
      Step c orc s (.nav z lo up d) r
        { s1 with
          zs := s1.zs.set s1.step (some z')
          xs := s1.xs.set s1.step (some x)
          fs := s1.fs.set s1.step (some f) }
        (some (navReq c orc z' f))
  /-- step back with the previous preference: nothing is done and `None` returned -/
  | nothing {z lo up d r s1} : validateNav c z r = .ok () → s1 = changeN s r.nIterations →
      1 < s1.left → r.stepBack = some true → r.shortStep = some false → r.usePrevious = some true →
      Step c orc s (.nav z lo up d) r s1 none

theorem answer_ok {c : Cfg k m K} {orc : Oracle k m K} {s s' : St k m K} {req : Req k m K}
    {o : Option (Req k m K)} {r : Resp K} (hs : 1 ≤ s.step)
    (h : answer c s req r orc = (s', .ok o)) : Step c orc s req r s' o := by
  unfold answer at h
  split at h
  · simp at h
  rename_i u hv
  unfold iterate at h
  split at h
  · simp only [validate] at hv
    obtain ⟨v, hn, hi, h1, hb, hp, hpref⟩ := validateInitial_ok hv
    obtain ⟨meth, info, hm, hinf, _⟩ := validatePreferences_ok hpref
    simp only [handleInitial, hn, hm, hinf] at h
    rw [modify_bind, get_bind, bind_ok] at h
    obtain ⟨s1, u1, h1', h⟩ := h
    obtain ⟨hz, rfl⟩ := setZ_ok.1 h1'
    rw [bind_ok] at h
    obtain ⟨s2, u2, h2, h⟩ := h
    obtain ⟨w, q, hw, hq, hx, hf, rfl⟩ := solveNew_ok h2
    obtain ⟨q', f, hq', hf', hz', rfl, rfl⟩ := movePoint_ok h
    simp only [slots_length] at hz hx hf hz' hq hq' hf'
    rw [getElem?_set_same (by simpa using hz)] at hq hq'
    rw [getElem?_set_same (by simpa using hf)] at hf'
    simp only [Option.some.injEq] at hq hq' hf'
    subst hq hq' hf'
    exact .initial hv hn hm hinf hw rfl hx hs rfl rfl rfl
  · rename_i z lo up d
    simp only [validate] at hv
    unfold handleNav at h
    rw [modify_bind, get_bind] at h
    generalize hs1 : changeN s r.nIterations = s1 at h
    split at h
    · rename_i hl
      rw [modify_bind, bind_ok] at h
      obtain ⟨s2, x, h2, h⟩ := h
      obtain ⟨rfl, hx⟩ := readX_ok.1 h2
      rw [bind_ok] at h
      obtain ⟨s3, f, h3, h⟩ := h
      obtain ⟨rfl, hf⟩ := readF_ok.1 h3
      simp only [pure_run, Prod.mk.injEq, Except.ok.injEq] at h
      obtain ⟨rfl, rfl⟩ := h
      exact .stop hv hs1.symm hl hx hf
    · rename_i hl
      have hl : 1 < s1.left := not_le.1 hl
      obtain ⟨back, prev, hb, hp, _, hpref, _⟩ := validateNav_ok hv
      simp only [hb] at h
      cases back with
      | false =>
        simp only [forward, hp] at h
        rw [modify_bind] at h
        cases prev with
        | true =>
          dsimp only at h
          rw [get_bind, bind_ok] at h
          obtain ⟨s2, x, h2, h⟩ := h
          obtain ⟨rfl, hx⟩ := readX_ok.1 h2
          rw [bind_ok] at h
          obtain ⟨s3, u3, h3, h⟩ := h
          obtain ⟨hxl, rfl⟩ := setX_ok.1 h3
          rw [bind_ok] at h
          obtain ⟨s4, f, h4, h⟩ := h
          obtain ⟨rfl, hf⟩ := readF_ok.1 h4
          rw [bind_ok] at h
          obtain ⟨s5, u5, h5, h⟩ := h
          obtain ⟨hfl, rfl⟩ := setF_ok.1 h5
          obtain ⟨q, f', hq, hf', hz', rfl, rfl⟩ := movePoint_ok h
          simp only [Nat.add_sub_cancel] at *
          rw [getElem?_set_same hfl, Option.some.injEq] at hf'
          subst hf'
          exact .keep hv hs1.symm hl hb hp hz' hxl hfl hx hf hq rfl
        | false =>
          obtain ⟨meth, info, hm, hinf, _⟩ := validatePreferences_ok (hpref rfl)
          simp only [hm, hinf] at h
          rw [bind_ok] at h
          obtain ⟨s2, u2, h2, h⟩ := h
          obtain ⟨w, q, hw, hq, hx, hf, rfl⟩ := solveNew_ok h2
          obtain ⟨q', f, hq', hf', hz', rfl, rfl⟩ := movePoint_ok h
          simp only [Nat.add_sub_cancel] at *
          rw [getElem?_set_same hf, Option.some.injEq, Option.some.injEq] at hf'
          rw [hq, Option.some.injEq, Option.some.injEq] at hq'
          subst hq' hf'
          exact .change hv hs1.symm hl hb hp hm hinf hw hz' hx hf hq rfl rfl rfl
      | true =>
        simp only [goBack] at h
        cases hsh : r.shortStep with
        | none => simp [hsh] at h
        | some sh =>
          simp only [hsh] at h
          cases sh with
          | true =>
            simp only [shortStep] at h
            rw [get_bind, bind_ok] at h
            obtain ⟨s2, z0, h2, h⟩ := h
            obtain ⟨rfl, hz0⟩ := getZ_ok.1 h2
            rw [bind_ok] at h
            obtain ⟨s3, zp, h3, h⟩ := h
            obtain ⟨rfl, hzp⟩ := getZ_ok.1 h3
            rw [bind_ok] at h
            obtain ⟨s4, u4, h4, h⟩ := h
            obtain ⟨hzl, rfl⟩ := setZ_ok.1 h4
            rw [bind_ok] at h
            obtain ⟨s5, f, h5, h⟩ := h
            obtain ⟨rfl, hf⟩ := getF_ok.1 h5
            simp only [pure_run, Prod.mk.injEq, Except.ok.injEq] at h
            obtain ⟨rfl, rfl⟩ := h
            exact .short hv hs1.symm hl hb hsh hz0 hzp hf rfl
          | false =>
            simp only [hp] at h
            cases prev with
            | true =>
              simp only [pure_run, Prod.mk.injEq, Except.ok.injEq] at h
              obtain ⟨rfl, rfl⟩ := h
              exact .nothing hv hs1.symm hl hb hsh hp
            | false =>
              obtain ⟨meth, info, hm, hinf, _⟩ := validatePreferences_ok (hpref rfl)
              simp only [hm, hinf] at h
              rw [bind_ok] at h
              obtain ⟨s2, u2, h2, h⟩ := h
              obtain ⟨w, q, hw, hq, hx, hf, rfl⟩ := solveNew_ok h2
              obtain ⟨q', f, hq', hf', hz', rfl, rfl⟩ := movePoint_ok h
              rw [getElem?_set_same hf, Option.some.injEq, Option.some.injEq] at hf'
              dsimp only at hq'
              rw [hq, Option.some.injEq, Option.some.injEq] at hq'
              subst hq' hf'
              exact .redo hv hs1.symm hl hb hsh hp hm hinf hw hz' hx hf hq rfl rfl rfl
  · simp only [pure_run, Prod.mk.injEq, Except.ok.injEq] at h
    obtain ⟨rfl, rfl⟩ := h
    exact .ended

theorem factors_error {c : Cfg k m K} {meth : Int} {info : List K} {arr : Bool} {e : Err}
    (h : factors c meth info arr = .error e) : e = .typeError ∧ meth ≠ 1 ∧ arr = false := by
  unfold factors at h
  split at h
  · simp at h
  · split at h
    · simp at h
    · rename_i h1 h2
      simp only [Except.error.injEq] at h
      exact ⟨h.symm, h1, by simpa using h2⟩

theorem triple_solveNew (c : Cfg k m K) (orc : Oracle k m K) (meth : Int) (info : List K) (arr : Bool) :
    Triple Store (solveNew c orc meth info arr) (fun _ s => Store s) Bad := by
  unfold solveNew
  refine Triple.bind (Triple.lift (Q := fun _ s => Store s) (fun s h _ _ => h) ?_) fun w => ?_
  · intro s hs e he
    exact ⟨hs, by rw [(factors_error he).1]; simp⟩
  refine Triple.bind triple_get fun t => ?_
  refine Triple.bind (triple_getZ (by omega)) fun q => ?_
  refine Triple.bind (triple_setX le_rfl) fun _ => ?_
  exact (triple_setF le_rfl).weaken (fun _ h => h) (fun _ _ h => h.1) (fun _ _ h => h)

theorem triple_movePoint (c : Cfg k m K) (orc : Oracle k m K) :
    Triple Store (movePoint c orc) (fun _ s => Store s) Bad := by
  unfold movePoint
  refine Triple.bind triple_get fun t => ?_
  refine Triple.bind (triple_getZ (by omega)) fun q => ?_
  refine Triple.bind (triple_getF le_rfl) fun f => ?_
  refine Triple.bind (triple_setZ le_rfl) fun _ => ?_
  exact Triple.pure fun s h => h.1

theorem triple_shortStep (c : Cfg k m K) (orc : Oracle k m K) :
    Triple Store (shortStep c orc) (fun _ s => Store s) Bad := by
  unfold shortStep
  refine Triple.bind triple_get fun t => ?_
  refine Triple.bind (triple_getZ le_rfl) fun q => ?_
  refine Triple.bind (triple_getZ (by omega)) fun q => ?_
  refine Triple.bind (triple_setZ le_rfl) fun _ => ?_
  refine Triple.bind (triple_getF le_rfl) fun f => ?_
  exact Triple.pure fun s h => h.1

theorem triple_forward (c : Cfg k m K) (r : Resp K) (orc : Oracle k m K) :
    Triple (fun s => Store s ∧ 1 < s.left) (forward c r orc) (fun _ s => Store s) Bad := by
  unfold forward
  refine Triple.bind (Triple.modify (Q := fun _ s => Store s) ?_) fun _ => ?_
  · intro s ⟨hs, hl⟩
    obtain ⟨h1, h2, h3, h4, h5, h6⟩ := hs
    refine ⟨h1, h2, ?_, ?_, ?_, ?_⟩ <;> simp <;> omega
  · split
    · exact Triple.raise fun s h => ⟨h, by simp⟩
    · refine Triple.bind triple_get fun t => ?_
      refine Triple.bind (triple_readX (by omega)) fun q => ?_
      refine Triple.bind (triple_setX le_rfl) fun _ => ?_
      refine Triple.bind (triple_readF (by omega)) fun f => ?_
      refine Triple.bind (triple_setF le_rfl) fun f => ?_
      exact (triple_movePoint c orc).weaken (fun _ h => h.1) (fun _ _ h => h) (fun _ _ h => h)
    · exact Triple.bind (triple_solveNew _ _ _ _ _) fun _ => triple_movePoint c orc
    · exact Triple.raise fun s h => ⟨h, by simp⟩

theorem triple_goBack (c : Cfg k m K) (r : Resp K) (orc : Oracle k m K) :
    Triple Store (goBack c r orc) (fun _ s => Store s) Bad := by
  unfold goBack
  split
  · exact Triple.raise fun s h => ⟨h, by simp⟩
  · exact triple_shortStep c orc
  · split
    · exact Triple.raise fun s h => ⟨h, by simp⟩
    · exact Triple.pure fun s h => h
    · exact Triple.bind (triple_solveNew _ _ _ _ _) fun _ => triple_movePoint c orc
    · exact Triple.raise fun s h => ⟨h, by simp⟩

theorem triple_handleNav (c : Cfg k m K) (r : Resp K) (orc : Oracle k m K) :
    Triple Store (handleNav c r orc) (fun _ s => Store s) Bad := by
  intro s hs
  obtain ⟨h1, h2, h3, h4, h5⟩ := hs.changeN r.nIterations
  unfold handleNav
  rw [modify_bind, get_bind]
  generalize changeN s r.nIterations = s1 at *
  split
  · have hs0 : Store { s1 with left := 0 } := ⟨h1, h2, h3, h4, le_rfl, by simp; omega⟩
    have T : Triple (fun s : St k m K => Store s ∧ s.step = ({ s1 with left := 0 } : St k m K).step)
        (do
          let x ← readX s1.step
          let f ← readF s1.step
          pure (some (Req.stop x f))) (fun _ s => Store s) Bad := by
      refine Triple.bind (triple_readX (t := { s1 with left := 0 }) le_rfl) fun x => ?_
      refine Triple.bind (triple_readF (t := { s1 with left := 0 }) le_rfl) fun f => ?_
      exact Triple.pure fun s h => h.1
    rw [modify_bind]
    exact T _ ⟨hs0, rfl⟩
  · rename_i hl
    have hs1 : Store s1 := ⟨h1, h2, h3, h4, by omega, h5⟩
    cases r.stepBack with
    | none => exact (Triple.raise fun s h => ⟨h, by simp⟩ : Triple Store _ _ _) s1 hs1
    | some b =>
      cases b with
      | false => exact triple_forward c r orc s1 ⟨hs1, not_le.1 hl⟩
      | true => exact triple_goBack c r orc s1 hs1

/-- Answering any later request keeps room in the storage and never raises `IndexError`. -/
theorem answer_store {c : Cfg k m K} {orc : Oracle k m K} {s s' : St k m K} {req : Req k m K}
    {r : Resp K} {o : Except Err (Option (Req k m K))} (hs : Store s) (hreq : req ≠ .initial)
    (h : answer c s req r orc = (s', o)) : Store s' ∧ o ≠ .error .indexError := by
  unfold answer at h
  split at h
  · rename_i e he
    simp only [Prod.mk.injEq] at h
    obtain ⟨rfl, rfl⟩ := h
    refine ⟨hs, ?_⟩
    simp only [ne_eq, Except.error.injEq]
    rintro rfl
    cases req with
    | initial => exact hreq rfl
    | nav z lo up d =>
      simp only [validate, validateNav] at he
      split at he
      · simp at he
      · split at he
        · simp at he
        · split at he
          · simp at he
          · split at he
            · rename_i e2 he2
              simp only [Except.error.injEq] at he
              subst he
              split at he2
              · simp at he2
              · simp only [validatePreferences, pyMax] at he2
                repeat' split at he2
                all_goals first
                  | (simp at he2; done)
                  | (rename_i h3; simp only [Except.error.injEq] at he2; subst he2
                     have := (npMax_error_iff _ _).1 h3; simp_all)
            · simp only [validateN] at he
              repeat' split at he
              all_goals simp at he
    | stop x f => simp [validate] at he
  · unfold iterate at h
    cases req with
    | initial => exact absurd rfl hreq
    | nav z lo up d =>
      rcases o with e | a
      · obtain ⟨h1, h2⟩ := (triple_handleNav c r orc s hs).2 s' e h
        exact ⟨h1, by simpa using h2⟩
      · exact ⟨(triple_handleNav c r orc s hs).1 s' a h, by simp⟩
    | stop x f =>
      simp only [pure_run, Prod.mk.injEq] at h
      obtain ⟨rfl, rfl⟩ := h
      exact ⟨hs, by simp⟩

/-- The histories of one run: the initial request is answered successfully once, with the iteration
number still 1 (as it is when only failed attempts have been made, `initial_fail_step`); from then on any
issued request is answered with any response, exceptions included. The solver outcomes satisfy `G`. -/
inductive Session (c : Cfg k m K) (G : Oracle k m K → Prop) : St k m K → List (Req k m K) → Prop
  | first {s0 r orc s' q} : s0.step = 1 → G orc → answer c s0 .initial r orc = (s', .ok (some q)) →
      Session c G s' [q]
  | next {s iss req r orc s' o} : Session c G s iss → req ∈ iss → G orc →
      answer c s req r orc = (s', o) → Session c G s' (extend o iss)

/-- The same, when no response that was accepted has raised an exception. -/
inductive Smooth (c : Cfg k m K) (G : Oracle k m K → Prop) : St k m K → List (Req k m K) → Prop
  | first {s0 r orc s' q} : s0.step = 1 → G orc → answer c s0 .initial r orc = (s', .ok (some q)) →
      Smooth c G s' [q]
  | next {s iss req r orc s' o} : Smooth c G s iss → req ∈ iss → G orc →
      answer c s req r orc = (s', o) → (validate c req r = .ok () → ∃ q, o = .ok q) →
      Smooth c G s' (extend o iss)

theorem Smooth.session {c : Cfg k m K} {G} {s iss} (h : Smooth c G s iss) : Session c G s iss := by
  induction h with
  | first h0 hG ha => exact .first h0 hG ha
  | next _ hr hG ha _ ih => exact .next ih hr hG ha

theorem Step.ne_initial {c : Cfg k m K} {orc} {s s' : St k m K} {req r o}
    (h : Step c orc s req r s' o) : o ≠ some .initial := by
  cases h <;> simp [navReq]

/-- No request issued later is an initial request. -/
theorem Session.not_initial {c : Cfg k m K} {G} {s iss} (h : Session c G s iss) :
    1 ≤ s.step ∧ Store s ∧ ∀ q ∈ iss, q ≠ .initial := by
  induction h with
  | first h0 hG ha =>
    have hst := answer_ok (by omega) ha
    have hq := hst.ne_initial
    generalize hqq : some _ = q' at hst
    cases hst with
    | initial hv hn hm hi hw hcap hlt h1 hx hf hz =>
      obtain ⟨v', hv', _, hv1, _⟩ := validateInitial_ok hv
      rw [hn] at hv'
      cases hv'
      refine ⟨h1, ⟨?_, ?_, h1, ?_, ?_, ?_⟩, ?_⟩
      · simp
      · simp
      · simp; omega
      · simp; omega
      · simp; omega
      · intro q hq'
        rw [List.mem_singleton.1 hq']
        rintro rfl
        exact hq rfl
  | @next s iss req r orc s' o hs hr hG ha ih =>
    obtain ⟨h1, h2, h3⟩ := ih
    obtain ⟨h4, _⟩ := answer_store h2 (h3 _ hr) ha
    refine ⟨h4.step, h4, ?_⟩
    intro q hq
    unfold extend at hq
    split at hq
    · rename_i r'
      rcases List.mem_cons.1 hq with rfl | hq
      · rintro rfl
        exact (answer_ok h1 ha).ne_initial rfl
      · exact h3 q hq
    · exact h3 q hq

/-- What is stored for the current iteration. -/
structure Inv (c : Cfg k m K) (s : St k m K) (iss : List (Req k m K)) : Prop where
  store : Store s
  prev : ∃ zp, s.zs[s.step - 1]? = some (some zp)
  cur : ∃ z, s.zs[s.step]? = some (some z) ∧ lastPoint iss = some z
  sol : ∃ x, s.xs[s.step]? = some (some x) ∧ s.fs[s.step]? = some (some (c.evaluate x))
  done : s.left = 1 → s.zs[s.step]? = s.fs[s.step]?

variable [IsStrictOrderedRing K] {u : K}

/-- What the configuration has to be for the arithmetic to be floating-point arithmetic: the rounding is one, and the
objectives are stored as machine numbers. -/
structure Cfg.Machined (c : Cfg k m K) (u : K) : Prop where
  rounding : IsRounding u c.rnd
  objectives : ∀ x, MachineVec c.rnd (c.evaluate x)

theorem iterationPoint_one {c : Cfg k m K} (hc : c.Machined u) (z : Vec k K) (x : Vec m K) :
    iterationPoint c 1 z (c.evaluate x) = c.evaluate x := by
  funext j
  simp only [iterationPoint, Int.cast_one]
  exact stepTo_one hc.rounding _ _ (hc.objectives x j)

theorem Inv.initial {c : Cfg k m K} {s0 s' : St k m K} {r orc q} (hc : c.Machined u) (h0 : s0.step = 1)
    (ha : answer c s0 .initial r orc = (s', .ok (some q))) : Inv c s' [q] := by
  have hS : Session c (fun _ => True) s' [q] := .first h0 trivial ha
  obtain ⟨h1, hst, _⟩ := hS.not_initial
  have h := answer_ok (by omega) ha
  cases h with
  | @initial _ v w meth info cap x f z hv hn hm hi hw hcap hlt h1' hx hf hz =>
    refine ⟨hst, ⟨c.nadir, ?_⟩, ⟨z, ?_, rfl⟩, ⟨x, ?_, ?_⟩, ?_⟩
    · dsimp only
      rw [getElem?_set_other (by omega), getElem?_set_same (by simp; omega)]
    · dsimp only
      rw [getElem?_set_same (by simpa using hlt)]
    · dsimp only
      rw [getElem?_set_same (by simpa using hlt)]
    · dsimp only
      rw [getElem?_set_same (by simpa using hlt), hf]
    · dsimp only
      intro hl
      rw [getElem?_set_same (by simpa using hlt), getElem?_set_same (by simpa using hlt), hz, hl, hf,
        iterationPoint_one hc]

theorem Inv.step {c : Cfg k m K} {s s' : St k m K} {iss : List (Req k m K)} {req r orc o}
    (hc : c.Machined u) (hi : Inv c s iss) (hreq : req ≠ .initial) (ha : answer c s req r orc = (s', .ok o)) :
    Inv c s' (extend (.ok o) iss) := by
  obtain ⟨hst, -⟩ := answer_store hi.store hreq ha
  have h := answer_ok hi.store.step ha
  obtain ⟨zp, hzp⟩ := hi.prev
  obtain ⟨z, hz, hlp⟩ := hi.cur
  obtain ⟨x, hx, hf⟩ := hi.sol
  obtain ⟨e1, e2, e3, e4⟩ := changeN_get (s := s) r.nIterations
  have hzp' := e2 _ _ hzp
  have hz' := e2 _ _ hz
  have hx' := e3 _ _ hx
  have hf' := e4 _ _ hf
  rw [← e1] at hzp' hz' hx' hf'
  cases h with
  | ended =>
    exact ⟨hst, hi.prev, ⟨z, hz, by simpa [extend, lastPoint] using hlp⟩, hi.sol, hi.done⟩
  | initial => exact absurd rfl hreq
  | stop hv hs1 hl hx1 hf1 =>
    subst hs1
    exact ⟨hst, ⟨zp, hzp'⟩, ⟨z, hz', by simpa [extend, lastPoint] using hlp⟩, ⟨x, hx', hf'⟩, by simp⟩
  | keep hv hs1 hl hb hp hzl hxl hfl hx1 hf1 hz1 hz2 =>
    subst hs1
    rw [hx'] at hx1
    rw [hf'] at hf1
    rw [hz'] at hz1
    cases hx1; cases hf1; cases hz1
    refine ⟨hst, ⟨z, ?_⟩, ⟨_, ?_, rfl⟩, ⟨x, ?_, ?_⟩, ?_⟩
    · dsimp only
      rw [Nat.add_sub_cancel, getElem?_set_other (by omega), hz']
    · exact getElem?_set_same hzl
    · exact getElem?_set_same hxl
    · exact getElem?_set_same hfl
    · dsimp only
      intro hl1
      rw [getElem?_set_same hzl, getElem?_set_same hfl, hz2, hl1, iterationPoint_one hc]
  | @change z0 lo up d _ s1 w meth info x1 f1 zp1 z1 hv hs1 hl hb hp hm hinf hw hzl hxl hfl hz1 hx1 hf1 hz2 =>
    subst hs1
    refine ⟨hst, ⟨z, ?_⟩, ⟨_, ?_, rfl⟩, ⟨x1, ?_, ?_⟩, ?_⟩
    · dsimp only
      rw [Nat.add_sub_cancel, getElem?_set_other (by omega), hz']
    · exact getElem?_set_same hzl
    · exact getElem?_set_same hxl
    · rw [← hf1]; exact getElem?_set_same hfl
    · dsimp only
      intro hl1
      rw [getElem?_set_same hzl, getElem?_set_same hfl, hz2, hl1, hf1, iterationPoint_one hc]
  | short hv hs1 hl hb hsh hz0 hzp1 hf1 hz2 =>
    subst hs1
    have hlen := (List.getElem?_eq_some_iff.1 hz0).1
    refine ⟨hst, ⟨zp, ?_⟩, ⟨_, ?_, rfl⟩, ⟨x, hx', hf'⟩, ?_⟩
    · dsimp only
      have : (changeN s r.nIterations).step ≠ (changeN s r.nIterations).step - 1 := by
        have := hi.store.step; omega
      rw [getElem?_set_other this, hzp']
    · exact getElem?_set_same hlen
    · dsimp only
      intro hl1
      omega
  | @redo z0 lo up d _ s1 w meth info x1 f1 zp1 z1 hv hs1 hl hb hsh hp hm hinf hw hzl hxl hfl hz1 hx1 hf1 hz2 =>
    subst hs1
    refine ⟨hst, ⟨zp, ?_⟩, ⟨_, ?_, rfl⟩, ⟨x1, ?_, ?_⟩, ?_⟩
    · dsimp only
      have : (changeN s r.nIterations).step ≠ (changeN s r.nIterations).step - 1 := by
        have := hi.store.step; omega
      rw [getElem?_set_other this, hzp']
    · exact getElem?_set_same hzl
    · exact getElem?_set_same hxl
    · rw [← hf1]; exact getElem?_set_same hfl
    · dsimp only
      intro hl1
      omega
  | nothing hv hs1 hl hb hsh hp =>
    subst hs1
    exact ⟨hst, ⟨zp, hzp'⟩, ⟨z, hz', by simpa [extend] using hlp⟩, ⟨x, hx', hf'⟩, by omega⟩

theorem answer_refused {c : Cfg k m K} {s s' : St k m K} {req r orc o}
    (ha : answer c s req r orc = (s', o)) (h : validate c req r ≠ .ok ()) :
    s' = s ∧ ∃ e, o = .error e := by
  unfold answer at ha
  split at ha
  · simp only [Prod.mk.injEq] at ha
    exact ⟨ha.1.symm, _, ha.2.symm⟩
  · rename_i u hv
    exact absurd hv h

theorem Smooth.inv {c : Cfg k m K} {G} {s iss} (hc : c.Machined u) (h : Smooth c G s iss) : Inv c s iss := by
  induction h with
  | first h0 hG ha => exact Inv.initial hc h0 ha
  | @next s iss req r orc s' o hs hr hG ha hok ih =>
    have hni := hs.session.not_initial.2.2 _ hr
    by_cases hv : validate c req r = .ok ()
    · obtain ⟨q, rfl⟩ := hok hv
      exact ih.step hc hni ha
    · obtain ⟨rfl, e, rfl⟩ := answer_refused ha hv
      simpa [extend] using ih

theorem solveNew_total {c : Cfg k m K} {orc : Oracle k m K} {meth : Int} {info : List K} {arr : Bool}
    {s : St k m K} {w q} (hw : factors c meth info arr = .ok w)
    (hq : s.zs[s.step - 1]? = some (some q)) (hx : s.step < s.xs.length) (hf : s.step < s.fs.length) :
    solveNew c orc meth info arr s =
      ({ s with xs := s.xs.set s.step (some (orc.asf w q)),
                fs := s.fs.set s.step (some (c.evaluate (orc.asf w q))) }, .ok ()) := by
  unfold solveNew
  rw [hw, lift_ok_bind, get_bind]
  refine bind_ok.2 ⟨s, q, getZ_ok.2 ⟨rfl, hq⟩, ?_⟩
  refine bind_ok.2 ⟨_, (), setX_ok.2 ⟨hx, rfl⟩, ?_⟩
  exact setF_ok.2 ⟨hf, rfl⟩

theorem movePoint_total {c : Cfg k m K} {orc : Oracle k m K} {s : St k m K} {q f}
    (hq : s.zs[s.step - 1]? = some (some q)) (hf : s.fs[s.step]? = some (some f))
    (hz : s.step < s.zs.length) : ∃ s' r, movePoint c orc s = (s', .ok (some r)) := by
  unfold movePoint
  rw [get_bind]
  exact ⟨_, _, bind_ok.2 ⟨s, q, getZ_ok.2 ⟨rfl, hq⟩,
    bind_ok.2 ⟨s, f, getF_ok.2 ⟨rfl, hf⟩,
    bind_ok.2 ⟨_, (), setZ_ok.2 ⟨hz, rfl⟩, rfl⟩⟩⟩⟩

theorem solve_move_total {c : Cfg k m K} {orc : Oracle k m K} {meth : Int} {info : List K} {arr : Bool}
    {s : St k m K} {w q} (hw : factors c meth info arr = .ok w)
    (hq : s.zs[s.step - 1]? = some (some q)) (hx : s.step < s.xs.length) (hf : s.step < s.fs.length)
    (hz : s.step < s.zs.length) :
    ∃ s' r, (solveNew c orc meth info arr >>= fun _ => movePoint c orc) s = (s', .ok (some r)) := by
  obtain ⟨s', r, h⟩ := movePoint_total (c := c) (orc := orc)
    (s := { s with xs := s.xs.set s.step (some (orc.asf w q)),
                   fs := s.fs.set s.step (some (c.evaluate (orc.asf w q))) }) (q := q)
    (f := c.evaluate (orc.asf w q)) hq (getElem?_set_same hf) hz
  exact ⟨s', r, bind_ok.2 ⟨_, (), solveNew_total hw hq hx hf, h⟩⟩

theorem factors_exist (c : Cfg k m K) {r : Resp K} (hp : validatePreferences c r = .ok ())
    (hu : UsablePref r) :
    ∃ meth info w, r.method = some meth ∧ r.info = some info ∧ factors c meth info r.isArray = .ok w := by
  obtain ⟨meth, info, hm, hi, _, h⟩ := validatePreferences_ok hp
  refine ⟨meth, info, ?_⟩
  unfold factors
  rcases h with ⟨rfl, _⟩ | ⟨rfl, _⟩
  · exact ⟨_, hm, hi, rfl⟩
  · rw [hu hm]
    exact ⟨_, hm, hi, rfl⟩

theorem answer_total {c : Cfg k m K} {s : St k m K} {iss : List (Req k m K)} {req r orc}
    (hi : Inv c s iss) (hreq : req ≠ .initial) (hv : validate c req r = .ok ())
    (himp : Implemented r) : ∃ s' q, answer c s req r orc = (s', .ok (some q)) := by
  obtain ⟨zp, hzp⟩ := hi.prev
  obtain ⟨z, hz, hlp⟩ := hi.cur
  obtain ⟨x, hx, hf⟩ := hi.sol
  obtain ⟨e1, e2, e3, e4⟩ := changeN_get (s := s) r.nIterations
  have hzp' := e2 _ _ hzp
  have hz' := e2 _ _ hz
  have hx' := e3 _ _ hx
  have hf' := e4 _ _ hf
  rw [← e1] at hzp' hz' hx' hf'
  obtain ⟨l1, l2, l3, l4, l5⟩ := hi.store.changeN r.nIterations
  unfold answer
  rw [hv]
  dsimp only
  cases req with
  | initial => exact absurd rfl hreq
  | stop x f => exact ⟨_, _, rfl⟩
  | nav zz lo up d =>
    simp only [validate] at hv
    obtain ⟨back, prev, hb, hp, _, hpref, _⟩ := validateNav_ok hv
    show ∃ s' q, handleNav c r orc s = (s', .ok (some q))
    unfold handleNav
    rw [modify_bind, get_bind]
    generalize changeN s r.nIterations = s1 at *
    split
    · rw [modify_bind]
      exact ⟨_, _, bind_ok.2 ⟨_, some x, readX_ok.2 ⟨rfl, hx'⟩,
        bind_ok.2 ⟨_, some _, readF_ok.2 ⟨rfl, hf'⟩, rfl⟩⟩⟩
    · rename_i hl
      simp only [hb, forward, goBack, hp]
      cases back with
      | false =>
        dsimp only
        rw [modify_bind]
        cases prev with
        | true =>
          dsimp only
          rw [get_bind]
          have hl1 : s1.step + 1 < s1.zs.length := by omega
          obtain ⟨s', q, h⟩ := movePoint_total (c := c) (orc := orc)
            (s := { step := s1.step + 1, n := s1.n, left := s1.left - 1, zs := s1.zs,
                    xs := s1.xs.set (s1.step + 1) (some x),
                    fs := s1.fs.set (s1.step + 1) (some (c.evaluate x)) }) (q := z) (f := c.evaluate x)
            (by simpa using hz') (getElem?_set_same (by omega)) hl1
          refine ⟨s', q, bind_ok.2 ⟨_, some x, readX_ok.2 ⟨rfl, by simpa using hx'⟩, ?_⟩⟩
          refine bind_ok.2 ⟨_, (), setX_ok.2 ⟨by dsimp only; omega, rfl⟩, ?_⟩
          refine bind_ok.2 ⟨_, some (c.evaluate x), readF_ok.2 ⟨rfl, by simpa using hf'⟩, ?_⟩
          exact bind_ok.2 ⟨_, (), setF_ok.2 ⟨by dsimp only; omega, rfl⟩, h⟩
        | false =>
          simp only [Implemented, hb] at himp
          obtain ⟨meth, info, w, hm, hinf, hw⟩ := factors_exist c (hpref rfl) (himp hp)
          simp only [hm, hinf]
          exact solve_move_total hw (q := z) (by simpa using hz') (by dsimp only; omega)
            (by dsimp only; omega) (by dsimp only; omega)
      | true =>
        dsimp only
        cases hsh : r.shortStep with
        | none => simp [Implemented, hb, hsh] at himp
        | some sh =>
          cases sh with
          | true =>
            dsimp only
            unfold shortStep
            rw [get_bind]
            exact ⟨_, _, bind_ok.2 ⟨s1, z, getZ_ok.2 ⟨rfl, hz'⟩,
              bind_ok.2 ⟨s1, zp, getZ_ok.2 ⟨rfl, hzp'⟩,
              bind_ok.2 ⟨_, (), setZ_ok.2 ⟨by omega, rfl⟩,
              bind_ok.2 ⟨_, c.evaluate x, getF_ok.2 ⟨rfl, hf'⟩, rfl⟩⟩⟩⟩⟩
          | false =>
            simp only [Implemented, hb, hsh] at himp
            rw [hp] at himp
            obtain ⟨hpr, hu⟩ := himp
            simp only [Option.some.injEq] at hpr
            subst hpr
            obtain ⟨meth, info, w, hm, hinf, hw⟩ := factors_exist c (hpref rfl) hu
            simp only [hm, hinf]
            exact solve_move_total hw (q := zp) hzp' (by omega) (by omega) (by omega)

/-- The first answer succeeds whenever it is accepted with a usable preference and the iteration number
is 1. -/
theorem initial_total {c : Cfg k m K} {s : St k m K} {r orc} (h0 : s.step = 1)
    (hv : validate c .initial r = .ok ()) (hu : UsablePref r) :
    ∃ s' q, answer c s .initial r orc = (s', .ok (some q)) := by
  unfold answer
  rw [hv]
  show ∃ s' q, handleInitial c r orc s = (s', .ok (some q))
  obtain ⟨v, hn, _, h1, _, _, hpref⟩ := validateInitial_ok hv
  obtain ⟨meth, info, w, hm, hinf, hw⟩ := factors_exist c hpref hu
  simp only [handleInitial, hn, hm, hinf]
  rw [modify_bind, get_bind]
  obtain ⟨s', q, h⟩ := solve_move_total (c := c) (orc := orc)
    (s := { s with n := v.asInt, left := v.asInt,
                   zs := (slots _ (v.asInt + 2).toNat).set (s.step - 1) (some c.nadir),
                   xs := slots _ (v.asInt + 2).toNat, fs := slots _ (v.asInt + 2).toNat }) hw
    (q := c.nadir) (getElem?_set_same (by simp; omega)) (by simp; omega) (by simp; omega)
    (by simp; omega)
  exact ⟨s', q, bind_ok.2 ⟨_, (), setZ_ok.2 ⟨by simp; omega, rfl⟩, h⟩⟩

/-- Answering `keepResp` (go on with the same preferences) once per element of the list. -/
def keepRun (c : Cfg k m K) : List (Oracle k m K) → St k m K → Req k m K →
    St k m K × Except Err (Option (Req k m K))
  | [], s, q => (s, .ok (some q))
  | o :: os, s, q =>
    match answer c s q keepResp o with
    | (s', .ok (some q')) => keepRun c os s' q'
    | res => res

theorem keep_step {c : Cfg k m K} {s : St k m K} {iss : List (Req k m K)} {z lo up : Vec k K}
    {d : Fl K} {orc : Oracle k m K} {x : Vec m K} {a : Vec k K} (hi : Inv c s iss)
    (hx : s.xs[s.step]? = some (some x)) (ha : s.zs[s.step]? = some (some a)) :
    (s.left ≤ 1 → ∃ s', answer c s (.nav z lo up d) keepResp orc =
      (s', .ok (some (.stop (some x) (some (c.evaluate x)))))) ∧
    (1 < s.left → ∃ s', answer c s (.nav z lo up d) keepResp orc =
        (s', .ok (some (navReq c orc (iterationPoint c (s.left - 1) a (c.evaluate x)) (c.evaluate x)))) ∧
      s'.left = s.left - 1 ∧ s'.xs[s'.step]? = some (some x) ∧
      s'.zs[s'.step]? = some (some (iterationPoint c (s.left - 1) a (c.evaluate x)))) := by
  have hv : validate c (.nav z lo up d) (keepResp (K := K)) = .ok () := rfl
  obtain ⟨s', q, h⟩ := answer_total (orc := orc) hi (by simp) hv (by simp [Implemented, keepResp])
  have hst := answer_ok hi.store.step h
  obtain ⟨x0, hx0, hf⟩ := hi.sol
  rw [hx] at hx0
  cases hx0
  have hcn : changeN s (keepResp (K := K)).nIterations = s := rfl
  refine ⟨fun hl => ⟨s', ?_⟩, fun hl => ⟨s', ?_⟩⟩
  · generalize hq : some q = q' at hst
    cases hst with
    | stop hv hs1 hl1 hx1 hf1 =>
      rw [hcn] at hs1
      subst hs1
      rw [hx] at hx1
      rw [hf] at hf1
      cases hx1; cases hf1; cases hq
      exact h
    | keep hv hs1 hl1 => rw [hcn] at hs1; subst hs1; omega
    | change hv hs1 hl1 => rw [hcn] at hs1; subst hs1; omega
    | short hv hs1 hl1 => rw [hcn] at hs1; subst hs1; omega
    | redo hv hs1 hl1 => rw [hcn] at hs1; subst hs1; omega
    | nothing => simp at hq
  · generalize hq : some q = q' at hst
    cases hst with
    | stop hv hs1 hl1 hx1 hf1 => rw [hcn] at hs1; subst hs1; omega
    | keep hv hs1 hl1 hb hp hzl hxl hfl hx1 hf1 hz1 hz2 =>
      rw [hcn] at hs1
      subst hs1
      rw [hx] at hx1
      rw [hf] at hf1
      rw [ha] at hz1
      cases hx1; cases hf1; cases hz1
      subst hz2
      cases hq
      exact ⟨h, rfl, getElem?_set_same hxl, getElem?_set_same hzl⟩
    | change hv hs1 hl1 hb hp => simp [keepResp] at hp
    | short hv hs1 hl1 hb => simp [keepResp] at hb
    | redo hv hs1 hl1 hb => simp [keepResp] at hb
    | nothing => simp at hq

end Verif.Nautilus.Rounded
