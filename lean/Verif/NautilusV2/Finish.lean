import Verif.NautilusV2.Props2
import Verif.Finish

set_option linter.unusedSectionVars false

/-!
# Can the decision maker always finish NAUTILUS 2? Property C162
-/

namespace Verif.NautilusV2

open Exec

variable {K : Type} [Field K] [LinearOrder K] [IsStrictOrderedRing K] {k m : Nat}

/-- Specification: the response is accepted and answered with the request `q'`. -/
def Next (c : Cfg k m K) (s : St k m K) (q : Req k m K) (r : Resp K) (orc : Oracle k m K) (s' : St k m K)
    (q' : Req k m K) : Prop :=
  validate c q r = .ok () ∧ answer c s q r orc = (s', .ok (some q'))

/-- Specification: a stop request. -/
def IsStop : Req k m K → Prop
  | .stop .. => True
  | _ => False

/-- Specification: a stop request with a decision vector and its own objective vector. -/
def IsSolution (c : Cfg k m K) (q : Req k m K) : Prop := ∃ x, q = .stop (some x) (some (c.evaluate x))

/-- The response that finishes: one iteration left. -/
def lastResp : Resp K := { nIterations := some (.int 1), stepBack := some false, usePrevious := some true }

theorem last_accepted (c : Cfg k m K) (z lo up : Vec k K) (d : Fl K) :
    validate c (.nav z lo up d) lastResp = .ok () := by
  simp [validate, validateNav, lastResp, validateN, PyVal.isInstanceInt, PyVal.asInt]

theorem last_stops {c : Cfg k m K} {s : St k m K} {z lo up d orc} {x f}
    (hx : (changeN s (some (.int 1))).xs[s.step]? = some x) (hf : (changeN s (some (.int 1))).fs[s.step]? = some f) :
    answer c s (.nav z lo up d) lastResp orc =
      ({ changeN s (some (.int 1)) with left := 0 }, .ok (some (.stop x f))) := by
  unfold answer
  rw [last_accepted]
  show handleNav c lastResp orc s = _
  unfold handleNav
  rw [modify_bind, get_bind]
  have hle : (changeN s (lastResp (K := K)).nIterations).left ≤ 1 := le_refl (1 : Int)
  rw [if_pos hle, modify_bind]
  have hst : (changeN s (lastResp (K := K)).nIterations).step = s.step := (changeN_get _).1
  refine bind_ok.2 ⟨_, x, readX_ok.2 ⟨rfl, ?_⟩, bind_ok.2 ⟨_, f, readF_ok.2 ⟨rfl, ?_⟩, rfl⟩⟩
  · rw [hst]; exact hx
  · rw [hst]; exact hf

/-- C162 for NAUTILUS 2, partial: in every run in which each number of iterations given fits the storage, also after
refused responses and exceptions, one answer to any request shown is enough for a stop request. Missing: numbers that
do not fit, for which it is false (`C162_nautilusV2_fails`). -/
theorem C162_nautilusV2_partial {c : Cfg k m K} (G : Oracle k m K → Prop) {s : St k m K} {iss : List (Req k m K)}
    (hS : Planned c s iss) {q : Req k m K} (h : q ∈ iss) : Finishes (Next c) G IsStop s q 1 := by
  obtain ⟨hst, hni⟩ := hS.not_initial
  cases q with
  | initial => exact absurd rfl (hni _ h)
  | stop x f => exact .done trivial
  | nav z lo up d =>
    refine .of_step lastResp fun orc _ => ?_
    have hroom := hst.room
    have hx : s.step < (changeN s (some (.int 1))).xs.length := by
      simp only [changeN, List.length_append, hst.x]; omega
    have hf : s.step < (changeN s (some (.int 1))).fs.length := by
      simp only [changeN, List.length_append, hst.f]; omega
    exact ⟨_, _, ⟨last_accepted c z lo up d, last_stops (List.getElem?_eq_getElem hx)
      (List.getElem?_eq_getElem hf)⟩, .done trivial⟩

/-- C162 for NAUTILUS 2: the same with a solution and its objectives, for any numbers of iterations, if no accepted
response has raised an exception before. -/
theorem C162_nautilusV2_solution {c : Cfg k m K} {G : Oracle k m K → Prop} {s : St k m K} {iss : List (Req k m K)}
    (hS : Smooth c G s iss) {q : Req k m K} (h : q ∈ iss) : Finishes (Next c) G (IsSolution c) s q 1 := by
  have hni := hS.session.not_initial
  cases q with
  | initial => exact absurd rfl (hni _ h)
  | stop x f =>
    obtain ⟨x', rfl, rfl⟩ := C66_stop_pair hS h
    exact .done ⟨x', rfl⟩
  | nav z lo up d =>
    refine .of_step lastResp fun orc _ => ?_
    obtain ⟨x, hx, hf⟩ := hS.inv.sol
    obtain ⟨_, _, h2, h3⟩ := changeN_get (s := s) (some (.int 1))
    exact ⟨_, _, ⟨last_accepted c z lo up d, last_stops (h2 _ _ hx) (h3 _ _ hf)⟩, .done ⟨x, rfl⟩⟩

/-- C162 for NAUTILUS 2, from the start: two answers are enough for a solution. -/
theorem C162_nautilusV2_start (c : Cfg k m K) (G : Oracle k m K → Prop) :
    Finishes (Next c) G (IsSolution c) St.init .initial 2 := by
  have hv : validate c .initial
      { nIterations := some (.int 1), method := some 1, info := some (.arr (List.replicate k 1)) } = .ok () := by
    have hall : ((List.replicate k (1 : K)).any fun x => decide (x ≤ 0)) = false := by
      rw [List.any_eq_false]
      intro x hx
      rw [(List.mem_replicate.1 hx).2]
      simp
    simp only [validate, validateInitial, validatePreferences, hall]
    simp [validateN, PyVal.isInstanceInt, PyVal.asInt]
  refine .of_step { nIterations := some (.int 1), method := some 1, info := some (.arr (List.replicate k 1)) }
    fun orc ho => ?_
  obtain ⟨s', q, ha⟩ := initial_total (c := c) (s := St.init) (orc := orc) rfl hv
    (by show (List.replicate k (1 : K)).length = k; simp)
  exact ⟨s', q, ⟨hv, ha⟩, C162_nautilusV2_solution (.first rfl ho ha) List.mem_cons_self⟩

/-! ### After an index error -/

theorem slots_none {α : Type} {l : List (Option α)} {n i : Nat} {v : α} (h : l.length ≤ i) :
    (l ++ slots α n)[i]? ≠ some (some v) := by
  rw [List.getElem?_append_right h]
  intro h'
  have := List.mem_of_getElem? h'
  simp [slots] at this

/-- When the iteration number has left the storage behind, no answer to a request shown is followed by a request. -/
theorem stuck {c : Cfg k m K} {s : St k m K} (hz : s.zs.length < s.step) (hx : s.xs.length = s.zs.length) (hn : 1 ≤ s.n)
    {z lo up d} {r : Resp K} {orc : Oracle k m K} {s' : St k m K} {q : Req k m K} :
    answer c s (.nav z lo up d) r orc ≠ (s', .ok (some q)) := by
  intro ha
  have hst := answer_ok (by omega) ha
  have hzs : ∀ i v, s.step - 1 ≤ i → (changeN s r.nIterations).zs[i]? ≠ some (some v) := by
    intro i v hi
    unfold changeN
    split
    · rw [List.getElem?_eq_none (by omega)]; simp
    · exact slots_none (by omega)
  have hstep : (changeN s r.nIterations).step = s.step := (changeN_get _).1
  generalize hq : some q = o at hst
  cases hst with
  | stop hv hs1 hl hx' hf' =>
    subst hs1
    obtain ⟨hlt, _⟩ := List.getElem?_eq_some_iff.1 hx'
    rw [hstep] at hlt
    cases hrn : r.nIterations with
    | none =>
      rw [hrn] at hlt
      simp only [changeN] at hlt
      omega
    | some v =>
      rw [hrn] at hlt hl
      simp only [changeN, List.length_append, slots_length] at hlt hl
      omega
  | keep _ hs1 _ _ _ _ _ _ _ _ _ hz' => subst hs1; exact hzs _ _ (by omega) hz'
  | change _ hs1 _ _ _ _ _ _ _ _ _ _ hz' => subst hs1; exact hzs _ _ (by omega) hz'
  | short _ hs1 _ _ _ hz' => subst hs1; exact hzs _ _ (by omega) hz'
  | redo _ hs1 _ _ _ _ _ _ _ _ _ _ _ hz' => subst hs1; exact hzs _ _ (by omega) hz'
  | nothing => cases hq

def exT4 : St 2 1 ℚ := (answer exCfg exT3 exQ3 exMore exOrc).1
def exT5 : St 2 1 ℚ := (answer exCfg exT4 exQ3 exMore exOrc).1
def exT6 : St 2 1 ℚ := (answer exCfg exT5 exQ3 exMore exOrc).1

theorem exT_step4 : answer exCfg exT3 exQ3 exMore exOrc = (exT4, .error .indexError) := eq_of_beq (by decide +kernel)
theorem exT_step5 : answer exCfg exT4 exQ3 exMore exOrc = (exT5, .error .indexError) := eq_of_beq (by decide +kernel)
theorem exT_step6 : answer exCfg exT5 exQ3 exMore exOrc = (exT6, .error .indexError) := eq_of_beq (by decide +kernel)

theorem exT_session3 (G : Oracle 2 1 ℚ → Prop) (h : G exOrc) : Session exCfg G exT3 [exQ3, exQ2, exQ1] :=
  .next (.next (.first rfl h exT_step1) List.mem_cons_self h exT_step2) List.mem_cons_self h exT_step3

theorem exT_session6 (G : Oracle 2 1 ℚ → Prop) (h : G exOrc) : Session exCfg G exT6 [exQ3, exQ2, exQ1] :=
  .next (.next (.next (exT_session3 G h) List.mem_cons_self h exT_step4) List.mem_cons_self h exT_step5)
    List.mem_cons_self h exT_step6

theorem exQ3_nav : exQ3 = .nav ![3/8, 5/8] ![3/8, 5/8] ![3/8, 5/8] (.num 100) := eq_of_beq (by decide +kernel)

/-- C162 fails for NAUTILUS 2: after three of three iterations, asking for three more three times (every time accepted,
and followed by an `IndexError`) leaves a state in which the last request shown cannot be answered at all any more: no
number of answers brings about a stop request, although one was possible before. -/
theorem C162_nautilusV2_fails (G : Oracle 2 1 ℚ → Prop) (hG : G exOrc) :
    Session exCfg G exT6 [exQ3, exQ2, exQ1] ∧ (∀ n, ¬ Finishes (Next exCfg) G IsStop exT6 exQ3 n) ∧
    (∀ r orc s' q, answer exCfg exT6 exQ3 r orc ≠ (s', .ok (some q))) ∧
    Finishes (Next exCfg) G IsStop exT3 exQ3 1 := by
  have hst : ∀ r orc s' q, answer exCfg exT6 exQ3 r orc ≠ (s', .ok (some q)) := by
    intro r orc s' q
    rw [exQ3_nav]
    exact stuck (by decide +kernel) (by decide +kernel) (by decide +kernel)
  refine ⟨exT_session6 G hG, ?_, hst, C162_nautilusV2_partial G exT_planned3 List.mem_cons_self⟩
  intro n h
  cases h with
  | done h => rw [exQ3_nav] at h; exact h
  | step r next h1 _ => exact hst _ _ _ _ (h1 exOrc hG).2

example := C162_nautilusV2_partial (fun _ => True) exT_planned3 List.mem_cons_self
example := C162_nautilusV2_solution (ex_smooth5 (fun _ => True) trivial) List.mem_cons_self
example := C162_nautilusV2_start exCfg (fun _ => True)
example := C162_nautilusV2_fails (fun _ => True) trivial

end Verif.NautilusV2
