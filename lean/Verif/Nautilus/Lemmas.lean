import Verif.Nautilus.Model
import Verif.BaseLemmas

set_option linter.unusedSectionVars false

/-! What the handlers of NAUTILUS do, case by case (derived from the model). -/

namespace Verif.Nautilus

open Exec

variable {K : Type} [Field K] [LinearOrder K] {k m : Nat}

theorem setZ_ok {i : Nat} {v : Vec k K} {s s' : St k m K} {u : Unit} :
    setZ i v s = (s', .ok u) ↔ i < s.zs.length ∧ s' = { s with zs := s.zs.set i (some v) } := by
  unfold setZ slotSet
  by_cases h : i < s.zs.length <;> simp [h, eq_comm]

theorem setZ_error {i : Nat} {v : Vec k K} {s s' : St k m K} {e : Err} :
    setZ i v s = (s', .error e) ↔ s.zs.length ≤ i ∧ s' = s ∧ e = .indexError := by
  unfold setZ slotSet
  by_cases h : i < s.zs.length
  · simp [h]
  · simp [h, not_lt.1 h, eq_comm]

theorem setX_ok {i : Nat} {v : Option (Vec m K)} {s s' : St k m K} {u : Unit} :
    setX i v s = (s', .ok u) ↔ i < s.xs.length ∧ s' = { s with xs := s.xs.set i v } := by
  unfold setX slotSet
  by_cases h : i < s.xs.length <;> simp [h, eq_comm]

theorem setX_error {i : Nat} {v : Option (Vec m K)} {s s' : St k m K} {e : Err} :
    setX i v s = (s', .error e) ↔ s.xs.length ≤ i ∧ s' = s ∧ e = .indexError := by
  unfold setX slotSet
  by_cases h : i < s.xs.length
  · simp [h]
  · simp [h, not_lt.1 h, eq_comm]

theorem setF_ok {i : Nat} {v : Option (Vec k K)} {s s' : St k m K} {u : Unit} :
    setF i v s = (s', .ok u) ↔ i < s.fs.length ∧ s' = { s with fs := s.fs.set i v } := by
  unfold setF slotSet
  by_cases h : i < s.fs.length <;> simp [h, eq_comm]

theorem setF_error {i : Nat} {v : Option (Vec k K)} {s s' : St k m K} {e : Err} :
    setF i v s = (s', .error e) ↔ s.fs.length ≤ i ∧ s' = s ∧ e = .indexError := by
  unfold setF slotSet
  by_cases h : i < s.fs.length
  · simp [h]
  · simp [h, not_lt.1 h, eq_comm]

theorem getZ_ok {i : Nat} {v : Vec k K} {s s' : St k m K} :
    getZ i s = (s', .ok v) ↔ s' = s ∧ s.zs[i]? = some (some v) := by
  rw [getZ, Prod.mk.injEq, slotGet_ok_iff, eq_comm (a := s)]

theorem getZ_error {i : Nat} {e : Err} {s s' : St k m K} :
    getZ i s = (s', .error e) ↔ s' = s ∧ ((s.zs.length ≤ i ∧ e = .indexError) ∨
      (s.zs[i]? = some none ∧ e = .typeError)) := by
  rw [getZ, Prod.mk.injEq, slotGet_error_iff, eq_comm (a := s)]

theorem getF_ok {i : Nat} {v : Vec k K} {s s' : St k m K} :
    getF i s = (s', .ok v) ↔ s' = s ∧ s.fs[i]? = some (some v) := by
  rw [getF, Prod.mk.injEq, slotGet_ok_iff, eq_comm (a := s)]

theorem getF_error {i : Nat} {e : Err} {s s' : St k m K} :
    getF i s = (s', .error e) ↔ s' = s ∧ ((s.fs.length ≤ i ∧ e = .indexError) ∨
      (s.fs[i]? = some none ∧ e = .typeError)) := by
  rw [getF, Prod.mk.injEq, slotGet_error_iff, eq_comm (a := s)]

theorem readX_ok {i : Nat} {v : Option (Vec m K)} {s s' : St k m K} :
    readX i s = (s', .ok v) ↔ s' = s ∧ s.xs[i]? = some v := by
  rw [readX, Prod.mk.injEq, slotRead_ok_iff, eq_comm (a := s)]

theorem readX_error {i : Nat} {e : Err} {s s' : St k m K} :
    readX i s = (s', .error e) ↔ s' = s ∧ s.xs.length ≤ i ∧ e = .indexError := by
  rw [readX, Prod.mk.injEq, slotRead_error_iff, eq_comm (a := s)]

theorem readF_ok {i : Nat} {v : Option (Vec k K)} {s s' : St k m K} :
    readF i s = (s', .ok v) ↔ s' = s ∧ s.fs[i]? = some v := by
  rw [readF, Prod.mk.injEq, slotRead_ok_iff, eq_comm (a := s)]

theorem readF_error {i : Nat} {e : Err} {s s' : St k m K} :
    readF i s = (s', .error e) ↔ s' = s ∧ s.fs.length ≤ i ∧ e = .indexError := by
  rw [readF, Prod.mk.injEq, slotRead_error_iff, eq_comm (a := s)]

/-- The request showing the point `z` on the way to `f`. -/
def navReq (c : Cfg k m K) (orc : Oracle k m K) (z f : Vec k K) : Req k m K :=
  .nav z (bounds c orc z) z (distance c z f)

theorem solveNew_ok {c : Cfg k m K} {orc : Oracle k m K} {meth : Int} {info : List K} {arr : Bool}
    {s s' : St k m K} {u : Unit} (h : solveNew c orc meth info arr s = (s', .ok u)) :
    ∃ w q, factors c meth info arr = .ok w ∧ s.zs[s.step - 1]? = some (some q) ∧
      s.step < s.xs.length ∧ s.step < s.fs.length ∧
      s' = { s with xs := s.xs.set s.step (some (orc.asf w q)),
                    fs := s.fs.set s.step (some (c.evaluate (orc.asf w q))) } := by
  unfold solveNew at h
  rw [bind_ok] at h
  obtain ⟨s1, w, h1, h⟩ := h
  simp only [lift_run, Prod.mk.injEq] at h1
  obtain ⟨rfl, hw⟩ := h1
  rw [get_bind, bind_ok] at h
  obtain ⟨s2, q, h2, h⟩ := h
  obtain ⟨rfl, hq⟩ := getZ_ok.1 h2
  rw [bind_ok] at h
  obtain ⟨s3, u3, h3, h⟩ := h
  obtain ⟨hx, rfl⟩ := setX_ok.1 h3
  obtain ⟨hf, rfl⟩ := setF_ok.1 h
  exact ⟨w, q, hw, hq, hx, hf, rfl⟩

theorem movePoint_ok {c : Cfg k m K} {orc : Oracle k m K} {s s' : St k m K} {r : Option (Req k m K)}
    (h : movePoint c orc s = (s', .ok r)) :
    ∃ q f, s.zs[s.step - 1]? = some (some q) ∧ s.fs[s.step]? = some (some f) ∧
      s.step < s.zs.length ∧
      s' = { s with zs := s.zs.set s.step (some (iterationPoint s.left q f)) } ∧
      r = some (navReq c orc (iterationPoint s.left q f) f) := by
  unfold movePoint at h
  rw [get_bind, bind_ok] at h
  obtain ⟨s2, q, h2, h⟩ := h
  obtain ⟨rfl, hq⟩ := getZ_ok.1 h2
  rw [bind_ok] at h
  obtain ⟨s3, f, h3, h⟩ := h
  obtain ⟨rfl, hf⟩ := getF_ok.1 h3
  rw [bind_ok] at h
  obtain ⟨s4, u4, h4, h⟩ := h
  obtain ⟨hz, rfl⟩ := setZ_ok.1 h4
  simp only [pure_run, Prod.mk.injEq, Except.ok.injEq] at h
  obtain ⟨rfl, rfl⟩ := h
  exact ⟨q, f, hq, hf, hz, rfl, rfl⟩

theorem validateN_ok {n : Option PyVal} (h : validateN n = .ok ()) :
    n = none ∨ ∃ v, n = some v ∧ v.isInstanceInt ∧ 1 ≤ v.asInt := by
  unfold validateN at h
  split at h
  · exact .inl rfl
  · split at h
    · rename_i v h1; exact .inr ⟨v, rfl, h1⟩
    · simp at h

theorem validatePreferences_ok {r : Resp K} (h : validatePreferences k r = .ok ()) :
    ∃ meth info, r.method = some meth ∧ r.info = some info ∧ k ≤ info.length ∧
      ((meth = 1 ∧ ∃ mx, pyMax info = .ok mx ∧ 1 ≤ mx ∧ mx ≤ (k : K)) ∨
        (meth = 2 ∧ info.sum = 100)) := by
  unfold validatePreferences at h
  split at h
  · rename_i meth info h1 h2
    refine ⟨meth, info, h1, h2, ?_⟩
    split at h
    · simp at h
    · rename_i hm
      simp only [not_not] at hm
      split at h
      · rename_i hm1
        split at h
        · simp at h
        · rename_i hl
          split at h
          · simp at h
          · rename_i mx hmx
            split at h
            · rename_i hb
              exact ⟨not_lt.1 hl, .inl ⟨hm1, mx, hmx, hb⟩⟩
            · simp at h
      · rename_i hm1
        split at h
        · simp at h
        · rename_i hl
          split at h
          · simp at h
          · rename_i hs
            simp only [ne_eq, not_not] at hs
            exact ⟨not_lt.1 hl, .inr ⟨hm.resolve_left hm1, hs⟩⟩
  · simp at h

theorem validateInitial_ok {r : Resp K} (h : validateInitial k r = .ok ()) :
    ∃ v, r.nIterations = some v ∧ v.isInstanceInt ∧ 1 ≤ v.asInt ∧ r.stepBack = none ∧
      r.usePrevious = none ∧ validatePreferences k r = .ok () := by
  unfold validateInitial at h
  split at h
  · simp at h
  · rename_i h0
    split at h
    · simp at h
    · rename_i h1
      split at h
      · simp at h
      · rename_i h2
        split at h
        · simp at h
        · rename_i u hp
          rcases validateN_ok h with h3 | ⟨v, h3, h4, h5⟩
          · simp [h3] at h0
          · exact ⟨v, h3, h4, h5, by simpa using h1, by simpa using h2, hp⟩

theorem validateNav_ok {c : Cfg k m K} {z : Vec k K} {r : Resp K} (h : validateNav c z r = .ok ()) :
    ∃ back prev, r.stepBack = some back ∧ r.usePrevious = some prev ∧
      (back = true → z ≠ c.nadir) ∧ (prev = false → validatePreferences k r = .ok ()) ∧
      (r.nIterations = none ∨ ∃ v, r.nIterations = some v ∧ v.isInstanceInt ∧ 1 ≤ v.asInt) := by
  unfold validateNav at h
  split at h
  · simp at h
  · rename_i back hb
    split at h
    · simp at h
    · rename_i hz
      split at h
      · simp at h
      · rename_i prev hp
        split at h
        · simp at h
        · rename_i u hv
          refine ⟨back, prev, hb, hp, ?_, ?_, validateN_ok h⟩
          · rintro rfl rfl; simp at hz
          · rintro rfl; simpa using hv

/-- The ways in which answering a request can return normally. -/
inductive Step (c : Cfg k m K) (orc : Oracle k m K) (s : St k m K) :
    Req k m K → Resp K → St k m K → Option (Req k m K) → Prop
  /-- a stop request is returned as it is -/
  | ended {x f r} : Step c orc s (.stop x f) r s (some (.stop x f))
  /-- the first iteration -/
  | initial {r : Resp K} {v w meth info cap x f z} : validateInitial k r = .ok () →
      r.nIterations = some v → r.method = some meth → r.info = some info →
      factors c meth info r.isArray = .ok w →
      cap = (v.asInt + 2).toNat → s.step < cap → 1 ≤ s.step →
      x = orc.asf w c.nadir → f = c.evaluate x → z = iterationPoint v.asInt c.nadir f →
      Step c orc s .initial r
        { step := s.step, n := v.asInt, left := v.asInt
          zs := ((slots _ cap).set (s.step - 1) (some c.nadir)).set s.step (some z)
          xs := (slots _ cap).set s.step (some x)
          fs := (slots _ cap).set s.step (some f) }
        (some (navReq c orc z f))
  /-- the last iteration has been done -/
  | stop {z lo up d r s1 x f} : validateNav c z r = .ok () → s1 = changeN s r.nIterations →
      s1.left ≤ 1 → s1.xs[s1.step]? = some x → s1.fs[s1.step]? = some f →
      Step c orc s (.nav z lo up d) r { s1 with left := 0 } (some (.stop x f))
  /-- forward with the solution found before -/
  | keep {z lo up d r s1 x f zp z'} : validateNav c z r = .ok () → s1 = changeN s r.nIterations →
      1 < s1.left → r.stepBack = some false → r.usePrevious = some true →
      s1.step + 1 < s1.zs.length → s1.step + 1 < s1.xs.length → s1.step + 1 < s1.fs.length →
      s1.xs[s1.step]? = some x → s1.fs[s1.step]? = some (some f) →
      s1.zs[s1.step]? = some (some zp) → z' = iterationPoint (s1.left - 1) zp f →
      Step c orc s (.nav z lo up d) r
        { step := s1.step + 1, n := s1.n, left := s1.left - 1
          zs := s1.zs.set (s1.step + 1) (some z')
          xs := s1.xs.set (s1.step + 1) x
          fs := s1.fs.set (s1.step + 1) (some f) }
        (some (navReq c orc z' f))
  /-- forward with new preferences -/
  | change {z lo up d r s1 w meth info x f zp z'} : validateNav c z r = .ok () →
      s1 = changeN s r.nIterations →
      1 < s1.left → r.stepBack = some false → r.usePrevious = some false →
      r.method = some meth → r.info = some info → factors c meth info r.isArray = .ok w →
      s1.step + 1 < s1.zs.length → s1.step + 1 < s1.xs.length → s1.step + 1 < s1.fs.length →
      s1.zs[s1.step]? = some (some zp) → x = orc.asf w zp → f = c.evaluate x →
      z' = iterationPoint (s1.left - 1) zp f →
      Step c orc s (.nav z lo up d) r
        { step := s1.step + 1, n := s1.n, left := s1.left - 1
          zs := s1.zs.set (s1.step + 1) (some z')
          xs := s1.xs.set (s1.step + 1) (some x)
          fs := s1.fs.set (s1.step + 1) (some f) }
        (some (navReq c orc z' f))
  /-- step back and take a short step -/
  | short {z lo up d r s1 f z0 zp z'} : validateNav c z r = .ok () → s1 = changeN s r.nIterations →
      1 < s1.left → r.stepBack = some true → r.shortStep = some true →
      s1.zs[s1.step]? = some (some z0) → s1.zs[s1.step - 1]? = some (some zp) →
      s1.fs[s1.step]? = some (some f) → z' = (fun j => 1 / 2 * z0 j + 1 / 2 * zp j) →
      Step c orc s (.nav z lo up d) r { s1 with zs := s1.zs.set s1.step (some z') }
        (some (navReq c orc z' f))
  /-- step back and give new preferences -/
  | redo {z lo up d r s1 w meth info x f zp z'} : validateNav c z r = .ok () →
      s1 = changeN s r.nIterations →
      1 < s1.left → r.stepBack = some true → r.shortStep = some false → r.usePrevious = some false →
      r.method = some meth → r.info = some info → factors c meth info r.isArray = .ok w →
      s1.step < s1.zs.length → s1.step < s1.xs.length → s1.step < s1.fs.length →
      s1.zs[s1.step - 1]? = some (some zp) → x = orc.asf w zp → f = c.evaluate x →
      z' = iterationPoint s1.left zp f →
      Step c orc s (.nav z lo up d) r
        { s1 with
          zs := s1.zs.set s1.step (some z')
          xs := s1.xs.set s1.step (some x)
          fs := s1.fs.set s1.step (some f) }
        (some (navReq c orc z' f))
  /-- step back with the previous preference: nothing is done and `None` returned -/
  | nothing {z lo up d r s1} : validateNav c z r = .ok () → s1 = changeN s r.nIterations →
      1 < s1.left → r.stepBack = some true → r.shortStep = some false → r.usePrevious = some true →
      Step c orc s (.nav z lo up d) r s1 none

theorem getElem?_set_same {α : Type} {l : List (Option α)} {i : Nat} {v : Option α}
    (h : i < l.length) : (l.set i v)[i]? = some v := by
  rw [List.getElem?_set]; simp [h]

theorem getElem?_set_other {α : Type} {l : List (Option α)} {i j : Nat} {v : Option α}
    (h : i ≠ j) : (l.set i v)[j]? = l[j]? := by
  rw [List.getElem?_set]; simp [h]

theorem answer_ok {c : Cfg k m K} {orc : Oracle k m K} {s s' : St k m K} {req : Req k m K}
    {o : Option (Req k m K)} {r : Resp K} (hs : 1 ≤ s.step)
    (h : answer c s req r orc = (s', .ok o)) : Step c orc s req r s' o := by
  unfold answer at h
  split at h
  · simp at h
  rename_i u hv
  unfold iterate at h
  split at h
  · simp only [validate] at hv
    obtain ⟨v, hn, hi, h1, hb, hp, hpref⟩ := validateInitial_ok hv
    obtain ⟨meth, info, hm, hinf, _⟩ := validatePreferences_ok hpref
    simp only [handleInitial, hn, hm, hinf] at h
    rw [modify_bind, get_bind, bind_ok] at h
    obtain ⟨s1, u1, h1', h⟩ := h
    obtain ⟨hz, rfl⟩ := setZ_ok.1 h1'
    rw [bind_ok] at h
    obtain ⟨s2, u2, h2, h⟩ := h
    obtain ⟨w, q, hw, hq, hx, hf, rfl⟩ := solveNew_ok h2
    obtain ⟨q', f, hq', hf', hz', rfl, rfl⟩ := movePoint_ok h
    simp only [slots_length] at hz hx hf hz' hq hq' hf'
    rw [getElem?_set_same (by simpa using hz)] at hq hq'
    rw [getElem?_set_same (by simpa using hf)] at hf'
    simp only [Option.some.injEq] at hq hq' hf'
    subst hq hq' hf'
    exact .initial hv hn hm hinf hw rfl hx hs rfl rfl rfl
  · rename_i z lo up d
    simp only [validate] at hv
    unfold handleNav at h
    rw [modify_bind, get_bind] at h
    generalize hs1 : changeN s r.nIterations = s1 at h
    split at h
    · rename_i hl
      rw [modify_bind, bind_ok] at h
      obtain ⟨s2, x, h2, h⟩ := h
      obtain ⟨rfl, hx⟩ := readX_ok.1 h2
      rw [bind_ok] at h
      obtain ⟨s3, f, h3, h⟩ := h
      obtain ⟨rfl, hf⟩ := readF_ok.1 h3
      simp only [pure_run, Prod.mk.injEq, Except.ok.injEq] at h
      obtain ⟨rfl, rfl⟩ := h
      exact .stop hv hs1.symm hl hx hf
    · rename_i hl
      have hl : 1 < s1.left := not_le.1 hl
      obtain ⟨back, prev, hb, hp, _, hpref, _⟩ := validateNav_ok hv
      simp only [hb] at h
      cases back with
      | false =>
        simp only [forward, hp] at h
        rw [modify_bind] at h
        cases prev with
        | true =>
          dsimp only at h
          rw [get_bind, bind_ok] at h
          obtain ⟨s2, x, h2, h⟩ := h
          obtain ⟨rfl, hx⟩ := readX_ok.1 h2
          rw [bind_ok] at h
          obtain ⟨s3, u3, h3, h⟩ := h
          obtain ⟨hxl, rfl⟩ := setX_ok.1 h3
          rw [bind_ok] at h
          obtain ⟨s4, f, h4, h⟩ := h
          obtain ⟨rfl, hf⟩ := readF_ok.1 h4
          rw [bind_ok] at h
          obtain ⟨s5, u5, h5, h⟩ := h
          obtain ⟨hfl, rfl⟩ := setF_ok.1 h5
          obtain ⟨q, f', hq, hf', hz', rfl, rfl⟩ := movePoint_ok h
          simp only [Nat.add_sub_cancel] at *
          rw [getElem?_set_same hfl, Option.some.injEq] at hf'
          subst hf'
          exact .keep hv hs1.symm hl hb hp hz' hxl hfl hx hf hq rfl
        | false =>
          obtain ⟨meth, info, hm, hinf, _⟩ := validatePreferences_ok (hpref rfl)
          simp only [hm, hinf] at h
          rw [bind_ok] at h
          obtain ⟨s2, u2, h2, h⟩ := h
          obtain ⟨w, q, hw, hq, hx, hf, rfl⟩ := solveNew_ok h2
          obtain ⟨q', f, hq', hf', hz', rfl, rfl⟩ := movePoint_ok h
          simp only [Nat.add_sub_cancel] at *
          rw [getElem?_set_same hf, Option.some.injEq, Option.some.injEq] at hf'
          rw [hq, Option.some.injEq, Option.some.injEq] at hq'
          subst hq' hf'
          exact .change hv hs1.symm hl hb hp hm hinf hw hz' hx hf hq rfl rfl rfl
      | true =>
        simp only [goBack] at h
        cases hsh : r.shortStep with
        | none => simp [hsh] at h
        | some sh =>
          simp only [hsh] at h
          cases sh with
          | true =>
            simp only [shortStep] at h
            rw [get_bind, bind_ok] at h
            obtain ⟨s2, z0, h2, h⟩ := h
            obtain ⟨rfl, hz0⟩ := getZ_ok.1 h2
            rw [bind_ok] at h
            obtain ⟨s3, zp, h3, h⟩ := h
            obtain ⟨rfl, hzp⟩ := getZ_ok.1 h3
            rw [bind_ok] at h
            obtain ⟨s4, u4, h4, h⟩ := h
            obtain ⟨hzl, rfl⟩ := setZ_ok.1 h4
            rw [bind_ok] at h
            obtain ⟨s5, f, h5, h⟩ := h
            obtain ⟨rfl, hf⟩ := getF_ok.1 h5
            simp only [pure_run, Prod.mk.injEq, Except.ok.injEq] at h
            obtain ⟨rfl, rfl⟩ := h
            exact .short hv hs1.symm hl hb hsh hz0 hzp hf rfl
          | false =>
            simp only [hp] at h
            cases prev with
            | true =>
              simp only [pure_run, Prod.mk.injEq, Except.ok.injEq] at h
              obtain ⟨rfl, rfl⟩ := h
              exact .nothing hv hs1.symm hl hb hsh hp
            | false =>
              obtain ⟨meth, info, hm, hinf, _⟩ := validatePreferences_ok (hpref rfl)
              simp only [hm, hinf] at h
              rw [bind_ok] at h
              obtain ⟨s2, u2, h2, h⟩ := h
              obtain ⟨w, q, hw, hq, hx, hf, rfl⟩ := solveNew_ok h2
              obtain ⟨q', f, hq', hf', hz', rfl, rfl⟩ := movePoint_ok h
              rw [getElem?_set_same hf, Option.some.injEq, Option.some.injEq] at hf'
              dsimp only at hq'
              rw [hq, Option.some.injEq, Option.some.injEq] at hq'
              subst hq' hf'
              exact .redo hv hs1.symm hl hb hsh hp hm hinf hw hz' hx hf hq rfl rfl rfl
  · simp only [pure_run, Prod.mk.injEq, Except.ok.injEq] at h
    obtain ⟨rfl, rfl⟩ := h
    exact .ended

end Verif.Nautilus
