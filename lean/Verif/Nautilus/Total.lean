import Verif.Nautilus.History

set_option linter.unusedSectionVars false

/-! When accepted responses are answered with a request. -/

namespace Verif.Nautilus

open Exec

variable {K : Type} [Field K] [LinearOrder K] {k m : Nat}

theorem solveNew_total {c : Cfg k m K} {orc : Oracle k m K} {meth : Int} {info : List K} {arr : Bool}
    {s : St k m K} {w q} (hw : factors c meth info arr = .ok w)
    (hq : s.zs[s.step - 1]? = some (some q)) (hx : s.step < s.xs.length) (hf : s.step < s.fs.length) :
    solveNew c orc meth info arr s =
      ({ s with xs := s.xs.set s.step (some (orc.asf w q)),
                fs := s.fs.set s.step (some (c.evaluate (orc.asf w q))) }, .ok ()) := by
  unfold solveNew
  rw [hw, lift_ok_bind, get_bind]
  refine bind_ok.2 ⟨s, q, getZ_ok.2 ⟨rfl, hq⟩, ?_⟩
  refine bind_ok.2 ⟨_, (), setX_ok.2 ⟨hx, rfl⟩, ?_⟩
  exact setF_ok.2 ⟨hf, rfl⟩

theorem movePoint_total {c : Cfg k m K} {orc : Oracle k m K} {s : St k m K} {q f}
    (hq : s.zs[s.step - 1]? = some (some q)) (hf : s.fs[s.step]? = some (some f))
    (hz : s.step < s.zs.length) : ∃ s' r, movePoint c orc s = (s', .ok (some r)) := by
  unfold movePoint
  rw [get_bind]
  exact ⟨_, _, bind_ok.2 ⟨s, q, getZ_ok.2 ⟨rfl, hq⟩,
    bind_ok.2 ⟨s, f, getF_ok.2 ⟨rfl, hf⟩,
    bind_ok.2 ⟨_, (), setZ_ok.2 ⟨hz, rfl⟩, rfl⟩⟩⟩⟩

theorem solve_move_total {c : Cfg k m K} {orc : Oracle k m K} {meth : Int} {info : List K} {arr : Bool}
    {s : St k m K} {w q} (hw : factors c meth info arr = .ok w)
    (hq : s.zs[s.step - 1]? = some (some q)) (hx : s.step < s.xs.length) (hf : s.step < s.fs.length)
    (hz : s.step < s.zs.length) :
    ∃ s' r, (solveNew c orc meth info arr >>= fun _ => movePoint c orc) s = (s', .ok (some r)) := by
  obtain ⟨s', r, h⟩ := movePoint_total (c := c) (orc := orc)
    (s := { s with xs := s.xs.set s.step (some (orc.asf w q)),
                   fs := s.fs.set s.step (some (c.evaluate (orc.asf w q))) }) (q := q)
    (f := c.evaluate (orc.asf w q)) hq (getElem?_set_same hf) hz
  exact ⟨s', r, bind_ok.2 ⟨_, (), solveNew_total hw hq hx hf, h⟩⟩

/-- The preference of the response can be turned into weights: percentages must be an array. -/
def UsablePref (r : Resp K) : Prop := r.method = some 2 → r.isArray = true

instance (r : Resp K) : Decidable (UsablePref r) :=
  inferInstanceAs (Decidable (r.method = some 2 → r.isArray = true))

/-- The response asks for something `handle_request` implements. -/
def Implemented (r : Resp K) : Prop :=
  match r.stepBack with
  | some true =>
    match r.shortStep with
    | none => False
    | some true => True
    | some false => r.usePrevious = some false ∧ UsablePref r
  | _ => r.usePrevious = some false → UsablePref r

theorem factors_exist (c : Cfg k m K) {r : Resp K} (hp : validatePreferences k r = .ok ())
    (hu : UsablePref r) :
    ∃ meth info w, r.method = some meth ∧ r.info = some info ∧ factors c meth info r.isArray = .ok w := by
  obtain ⟨meth, info, hm, hi, _, h⟩ := validatePreferences_ok hp
  refine ⟨meth, info, ?_⟩
  unfold factors
  rcases h with ⟨rfl, _⟩ | ⟨rfl, _⟩
  · exact ⟨_, hm, hi, rfl⟩
  · rw [hu hm]
    exact ⟨_, hm, hi, rfl⟩

theorem answer_total {c : Cfg k m K} {s : St k m K} {iss : List (Req k m K)} {req r orc}
    (hi : Inv c s iss) (hreq : req ≠ .initial) (hv : validate c req r = .ok ())
    (himp : Implemented r) : ∃ s' q, answer c s req r orc = (s', .ok (some q)) := by
  obtain ⟨zp, hzp⟩ := hi.prev
  obtain ⟨z, hz, hlp⟩ := hi.cur
  obtain ⟨x, hx, hf⟩ := hi.sol
  obtain ⟨e1, e2, e3, e4⟩ := changeN_get (s := s) r.nIterations
  have hzp' := e2 _ _ hzp
  have hz' := e2 _ _ hz
  have hx' := e3 _ _ hx
  have hf' := e4 _ _ hf
  rw [← e1] at hzp' hz' hx' hf'
  obtain ⟨l1, l2, l3, l4, l5⟩ := hi.store.changeN r.nIterations
  unfold answer
  rw [hv]
  dsimp only
  cases req with
  | initial => exact absurd rfl hreq
  | stop x f => exact ⟨_, _, rfl⟩
  | nav zz lo up d =>
    simp only [validate] at hv
    obtain ⟨back, prev, hb, hp, _, hpref, _⟩ := validateNav_ok hv
    show ∃ s' q, handleNav c r orc s = (s', .ok (some q))
    unfold handleNav
    rw [modify_bind, get_bind]
    generalize changeN s r.nIterations = s1 at *
    split
    · rw [modify_bind]
      exact ⟨_, _, bind_ok.2 ⟨_, some x, readX_ok.2 ⟨rfl, hx'⟩,
        bind_ok.2 ⟨_, some _, readF_ok.2 ⟨rfl, hf'⟩, rfl⟩⟩⟩
    · rename_i hl
      simp only [hb, forward, goBack, hp]
      cases back with
      | false =>
        dsimp only
        rw [modify_bind]
        cases prev with
        | true =>
          dsimp only
          rw [get_bind]
          have hl1 : s1.step + 1 < s1.zs.length := by omega
          obtain ⟨s', q, h⟩ := movePoint_total (c := c) (orc := orc)
            (s := { step := s1.step + 1, n := s1.n, left := s1.left - 1, zs := s1.zs,
                    xs := s1.xs.set (s1.step + 1) (some x),
                    fs := s1.fs.set (s1.step + 1) (some (c.evaluate x)) }) (q := z) (f := c.evaluate x)
            (by simpa using hz') (getElem?_set_same (by omega)) hl1
          refine ⟨s', q, bind_ok.2 ⟨_, some x, readX_ok.2 ⟨rfl, by simpa using hx'⟩, ?_⟩⟩
          refine bind_ok.2 ⟨_, (), setX_ok.2 ⟨by dsimp only; omega, rfl⟩, ?_⟩
          refine bind_ok.2 ⟨_, some (c.evaluate x), readF_ok.2 ⟨rfl, by simpa using hf'⟩, ?_⟩
          exact bind_ok.2 ⟨_, (), setF_ok.2 ⟨by dsimp only; omega, rfl⟩, h⟩
        | false =>
          simp only [Implemented, hb] at himp
          obtain ⟨meth, info, w, hm, hinf, hw⟩ := factors_exist c (hpref rfl) (himp hp)
          simp only [hm, hinf]
          exact solve_move_total hw (q := z) (by simpa using hz') (by dsimp only; omega)
            (by dsimp only; omega) (by dsimp only; omega)
      | true =>
        dsimp only
        cases hsh : r.shortStep with
        | none => simp [Implemented, hb, hsh] at himp
        | some sh =>
          cases sh with
          | true =>
            dsimp only
            unfold shortStep
            rw [get_bind]
            exact ⟨_, _, bind_ok.2 ⟨s1, z, getZ_ok.2 ⟨rfl, hz'⟩,
              bind_ok.2 ⟨s1, zp, getZ_ok.2 ⟨rfl, hzp'⟩,
              bind_ok.2 ⟨_, (), setZ_ok.2 ⟨by omega, rfl⟩,
              bind_ok.2 ⟨_, c.evaluate x, getF_ok.2 ⟨rfl, hf'⟩, rfl⟩⟩⟩⟩⟩
          | false =>
            simp only [Implemented, hb, hsh] at himp
            rw [hp] at himp
            obtain ⟨hpr, hu⟩ := himp
            simp only [Option.some.injEq] at hpr
            subst hpr
            obtain ⟨meth, info, w, hm, hinf, hw⟩ := factors_exist c (hpref rfl) hu
            simp only [hm, hinf]
            exact solve_move_total hw (q := zp) hzp' (by omega) (by omega) (by omega)

/-- The first answer succeeds whenever it is accepted with a usable preference and the iteration number
is 1. -/
theorem initial_total {c : Cfg k m K} {s : St k m K} {r orc} (h0 : s.step = 1)
    (hv : validate c .initial r = .ok ()) (hu : UsablePref r) :
    ∃ s' q, answer c s .initial r orc = (s', .ok (some q)) := by
  unfold answer
  rw [hv]
  show ∃ s' q, handleInitial c r orc s = (s', .ok (some q))
  obtain ⟨v, hn, _, h1, _, _, hpref⟩ := validateInitial_ok hv
  obtain ⟨meth, info, w, hm, hinf, hw⟩ := factors_exist c hpref hu
  simp only [handleInitial, hn, hm, hinf]
  rw [modify_bind, get_bind]
  obtain ⟨s', q, h⟩ := solve_move_total (c := c) (orc := orc)
    (s := { s with n := v.asInt, left := v.asInt,
                   zs := (slots _ (v.asInt + 2).toNat).set (s.step - 1) (some c.nadir),
                   xs := slots _ (v.asInt + 2).toNat, fs := slots _ (v.asInt + 2).toNat }) hw
    (q := c.nadir) (getElem?_set_same (by simp; omega)) (by simp; omega) (by simp; omega)
    (by simp; omega)
  exact ⟨s', q, bind_ok.2 ⟨_, (), setZ_ok.2 ⟨by simp; omega, rfl⟩, h⟩⟩

end Verif.Nautilus
