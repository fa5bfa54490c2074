import Verif.Nimbus.Step
import Verif.Nimbus.ExampleData

set_option linter.unusedSectionVars false

/-!
# Properties C21-C25 and C29 of NIMBUS
-/

namespace Verif.Nimbus

variable {K : Type} [Field K] [LinearOrder K] [IsStrictOrderedRing K] {k m : Nat}

/-! ### Specification vocabulary -/

/-- The kinds of requests a user sees. -/
inductive Kind
  | classification | save | intermediate | mostPreferred | stop
  deriving DecidableEq

/-- The kind of a request. -/
def Req.kind : Req k m K → Kind
  | .classify _ => .classification
  | .save .. => .save
  | .inter .. => .intermediate
  | .preferred .. => .mostPreferred
  | .stop .. => .stop

/-- The documented order of the requests. -/
inductive Follows : Kind → Kind → Prop
  | toSave : Follows .classification .save
  | toIntermediate : Follows .save .intermediate
  | again : Follows .intermediate .save
  | toPreferred : Follows .intermediate .mostPreferred
  | next : Follows .mostPreferred .classification
  | finish : Follows .mostPreferred .stop

/-- The (decision vector, objective vector) pairs a request shows. -/
def Req.pairs : Req k m K → List (Vec m K × Vec k K)
  | .classify _ => []
  | .save sols objs => sols.zip objs
  | .inter sols objs => sols.zip objs
  | .preferred sols objs => sols.zip objs
  | .stop x f => [(x, f)]

/-- `f` is the objective vector of the decision vector `x` in the problem at hand. -/
def Genuine (c : Cfg k m K) (x : Vec m K) (f : Vec k K) : Prop :=
  match c.problem with
  | .mo evaluate => f = evaluate x
  | .discrete _ obj dec _ => ∃ i, x = dec i ∧ f = obj i

/-- The request issued by a call of `iterate`, if any. -/
def issued (o : Except Err (Req k m K)) : List (Req k m K) :=
  match o with
  | .ok r => [r]
  | .error _ => []

/-- Everything that can happen: starting from any successful construction, any already issued request
(not only the last one) may be answered with any response - accepted or refused, also ones on which
the code raises - and with any outcome of the minimizers. `l` are the requests issued so far,
newest first. -/
inductive Reached (c : Cfg k m K) : St k m K → List (Req k m K) → Prop
  | init {s sp res} : construct c sp res = .ok s → Reached c s [Nimbus.start s]
  | step {s s' l req a orc o} : Reached c s l → req ∈ l → answer c s req a orc = (s', o) →
      Reached c s' (issued o ++ l)

theorem ex_reached0 : Reached exCfg exS0 [exR0] := .init ex_construct
theorem ex_reached1 : Reached exCfg exS1 [exR1, exR0] := .step ex_reached0 List.mem_cons_self ex_step0
theorem ex_reached2 : Reached exCfg exS2 [exR2, exR1, exR0] :=
  .step ex_reached1 List.mem_cons_self ex_step1
theorem ex_reached3 : Reached exCfg exS3 [exR3, exR2, exR1, exR0] :=
  .step ex_reached2 List.mem_cons_self ex_step2
theorem ex_reached4 : Reached exCfg exS4 [exR4, exR3, exR2, exR1, exR0] :=
  .step ex_reached3 List.mem_cons_self ex_step3
theorem ex_reached5 : Reached exCfg exS5 [exR5, exR4, exR3, exR2, exR1, exR0] :=
  .step ex_reached4 List.mem_cons_self ex_step4
theorem ex_reached6 : Reached exCfg exS6 [exR6, exR5, exR4, exR3, exR2, exR1, exR0] :=
  .step ex_reached5 List.mem_cons_self ex_step5

/-! ### Invariant -/

theorem solveOne_genuine {c : Cfg k m K} {orc : Oracle k m K} {i : Nat}
    {p : Vec k K × (Vec k K → K) × (Vec k K → Bool)} {x : Vec m K} {f : Vec k K}
    (h : solveOne c orc i p = .ok (x, f)) : Genuine c x f := by
  unfold solveOne at h
  unfold Genuine
  split at h
  · rename_i ev he
    simp only [Except.ok.injEq, Prod.mk.injEq] at h
    obtain ⟨rfl, rfl⟩ := h
    simp [he]
  · rename_i N obj dec cl he
    split at h
    · simp at h
    · rename_i y _
      simp only [Except.ok.injEq, Prod.mk.injEq] at h
      obtain ⟨rfl, rfl⟩ := h
      first
        | exact ⟨y, rfl, rfl⟩
        | (simp only [he]; exact ⟨y, rfl, rfl⟩)

theorem interSolve_genuine {c : Cfg k m K} {orc : Oracle k m K} {p : Option (Vec m K) × Nat}
    {x : Vec m K} {f : Vec k K} (h : interSolve c orc p = .ok (x, f)) : Genuine c x f := by
  unfold interSolve at h
  unfold Genuine
  split at h
  · rename_i ev he
    simp only [Except.ok.injEq, Prod.mk.injEq] at h
    obtain ⟨rfl, rfl⟩ := h
    simp [he]
  · rename_i N obj dec cl he
    split at h
    · simp at h
    · rename_i y _
      simp only [Except.ok.injEq, Prod.mk.injEq] at h
      obtain ⟨rfl, rfl⟩ := h
      first
        | exact ⟨y, rfl, rfl⟩
        | (simp only [he]; exact ⟨y, rfl, rfl⟩)

theorem forall₂_right {α β : Type} {R : α → β → Prop} {l : List α} {r : List β}
    (h : List.Forall₂ R l r) : ∀ b ∈ r, ∃ a ∈ l, R a b := by
  induction h with
  | nil => simp
  | cons h1 _ ih =>
    intro b hb
    rcases List.mem_cons.1 hb with rfl | hb
    · exact ⟨_, List.mem_cons_self, h1⟩
    · obtain ⟨a, ha, hr⟩ := ih b hb
      exact ⟨a, List.mem_cons_of_mem _ ha, hr⟩

theorem newSolutions_genuine {c : Cfg k m K} {s : St k m K} {cls : List Cls} {lv : Vec k K} {num : Int}
    {orc : Oracle k m K} {l : List (Vec m K × Vec k K)} (h : newSolutions c s cls lv num orc = .ok l) :
    ∀ p ∈ l, Genuine c p.1 p.2 := by
  unfold newSolutions at h
  split at h
  · simp at h
  · split at h
    · simp at h
    · rw [mapE_ok_iff] at h
      intro p hp
      obtain ⟨q, _, hq⟩ := forall₂_right h p hp
      exact solveOne_genuine hq

theorem zip_map_fst_snd {α β : Type} (l : List (α × β)) : (l.map (·.1)).zip (l.map (·.2)) = l := by
  induction l with
  | nil => rfl
  | cons a l ih => simp [ih]

/-- The invariant of all histories. -/
structure Inv (c : Cfg k m K) (s : St k m K) (l : List (Req k m K)) : Prop where
  aligned : ∀ req ∈ l, req.Aligned
  arch_len : s.archSols.length = s.archObjs.length
  arch_shown : ∀ p ∈ s.archSols.zip s.archObjs, ∃ sols objs, Req.save sols objs ∈ l ∧ p ∈ sols.zip objs
  genuine : ∀ req ∈ l, ∀ p ∈ req.pairs, Genuine c p.1 p.2
  current : Genuine c s.sol s.obj
  nonempty : l ≠ []
  phase : ∀ r0 rest, l = r0 :: rest → s.phase ≠ .ended → s.phase = phaseAfter r0
  shown : ∀ f rest, l = Req.classify f :: rest → s.phase ≠ .ended → f = s.obj
  ended : s.phase = .ended → ∃ x f, Req.stop x f ∈ l
  stopped : ∀ x f, Req.stop x f ∈ l → s.phase = .ended ∧ s.sol = x ∧ s.obj = f

theorem pick_mem_zip {α β : Type} {l1 r1 : List α} {l2 r2 : List β} {idx : List Int}
    (h1 : pick l1 idx = .ok r1) (h2 : pick l2 idx = .ok r2) (h0 : ∀ i ∈ idx, 0 ≤ i) {p : α × β}
    (hp : p ∈ r1.zip r2) : p ∈ l1.zip l2 := by
  have e := pick_zip h1 h2 h0
  have : some p ∈ (r1.zip r2).map some := by simp [hp]
  rw [e] at this
  simp only [List.mem_map] at this
  obtain ⟨i, _, hi⟩ := this
  exact List.mem_of_getElem? hi

theorem Inv.init {c : Cfg k m K} {s : St k m K} {sp : Option (List K)} {res : Task k m K → Option (Vec m K)}
    (h : construct c sp res = .ok s) : Inv c s [Nimbus.start s] := by
  unfold construct at h
  have key : s.archSols = [] ∧ s.archObjs = [] ∧ s.phase = .classify ∧ Genuine c s.sol s.obj := by
    split at h
    · simp at h
    split at h
    · rename_i ev he
      split at h
      · simp at h
      · simp only [Except.ok.injEq] at h
        subst h
        simp [Genuine, he]
    · rename_i N obj dec cl he
      split at h
      · simp at h
      · rename_i x _
        simp only [Except.ok.injEq] at h
        subst h
        refine ⟨rfl, rfl, rfl, ?_⟩
        simp only [Genuine, he]
        exact ⟨x, rfl, rfl⟩
  obtain ⟨h1, h2, h3, h4⟩ := key
  refine ⟨?_, by simp [h1, h2], by simp [h1], ?_, h4, by simp, ?_, ?_, by simp [h3], ?_⟩
  · simp [Nimbus.start, Req.Aligned]
  · simp [Nimbus.start, Req.pairs]
  · intro r0 rest he _
    simp only [Nimbus.start, List.cons.injEq] at he
    rw [← he.1, h3]; rfl
  · intro f rest he _
    simp only [Nimbus.start, List.cons.injEq, Req.classify.injEq] at he
    exact he.1.symm
  · intro x f he
    simp [Nimbus.start] at he

theorem mem_unsaved_mem {α : Type} {l : List α} {idx : List Int} {a : α} (h : a ∈ unsaved l idx) : a ∈ l := by
  obtain ⟨p, _, hp⟩ := (mem_unsaved l idx a).1 h
  exact List.mem_of_getElem? hp

/-- Adding a request that is not a stop request. -/
theorem Inv.cons {c : Cfg k m K} {s s' : St k m K} {l : List (Req k m K)} {r' : Req k m K}
    (hI : Inv c s l) (hne : s.phase ≠ .ended) (hal : r'.Aligned)
    (hlen : s'.archSols.length = s'.archObjs.length)
    (hsh : ∀ p ∈ s'.archSols.zip s'.archObjs, ∃ sols objs, Req.save sols objs ∈ r' :: l ∧ p ∈ sols.zip objs)
    (hg : ∀ p ∈ r'.pairs, Genuine c p.1 p.2) (hcur : Genuine c s'.sol s'.obj)
    (hph : s'.phase = phaseAfter r') (hshown : ∀ f, r' = Req.classify f → f = s'.obj)
    (hstop : ∀ x f, r' = Req.stop x f → s'.sol = x ∧ s'.obj = f) :
    Inv c s' (r' :: l) := by
  obtain ⟨i1, i2, i3, i4, i5, i6, i7, i8, i9, i10⟩ := hI
  refine ⟨?_, hlen, hsh, ?_, hcur, by simp, ?_, ?_, ?_, ?_⟩
  · intro req hr
    rcases List.mem_cons.1 hr with rfl | hr
    · exact hal
    · exact i1 _ hr
  · intro req hr
    rcases List.mem_cons.1 hr with rfl | hr
    · exact hg
    · exact i4 _ hr
  · intro r0 rest he _
    simp only [List.cons.injEq] at he
    rw [← he.1]; exact hph
  · intro f rest he _
    simp only [List.cons.injEq] at he
    exact hshown f he.1
  · intro he
    rw [hph] at he
    cases r' <;> simp [phaseAfter] at he
    exact ⟨_, _, List.mem_cons_self⟩
  · intro x f hm
    rcases List.mem_cons.1 hm with rfl | hm
    · exact ⟨hph, hstop x f rfl⟩
    · exact absurd (i10 x f hm).1 hne

theorem Inv.step {c : Cfg k m K} {s s' : St k m K} {l : List (Req k m K)} {req r' : Req k m K} {a : Ans K}
    {orc : Oracle k m K} (hI : Inv c s l) (hmem : req ∈ l) (h : Step c orc s req a s' r') :
    Inv c s' (r' :: l) := by
  have hI' := hI
  obtain ⟨i1, i2, i3, i4, i5, i6, i7, i8, i9, i10⟩ := hI'
  have i3' : ∀ r' : Req k m K, ∀ p ∈ s.archSols.zip s.archObjs,
      ∃ sols objs, Req.save sols objs ∈ r' :: l ∧ p ∈ sols.zip objs := by
    intro r' p hp
    obtain ⟨so, ob, h1, h2⟩ := i3 p hp
    exact ⟨so, ob, List.mem_cons_of_mem _ h1, h2⟩
  cases h with
  | ended he =>
    refine ⟨?_, i2, i3' _, ?_, i5, by simp, fun _ _ _ hne => absurd he hne,
      fun _ _ _ hne => absurd he hne, ?_, ?_⟩
    · intro q hq
      rcases List.mem_cons.1 hq with rfl | hq
      · exact i1 _ hmem
      · exact i1 _ hq
    · intro q hq
      rcases List.mem_cons.1 hq with rfl | hq
      · exact i4 _ hmem
      · exact i4 _ hq
    · intro _
      obtain ⟨x, f, hx⟩ := i9 he
      exact ⟨x, f, List.mem_cons_of_mem _ hx⟩
    · intro x f hm
      rcases List.mem_cons.1 hm with rfl | hm
      · exact i10 x f hmem
      · exact i10 x f hm
  | classify hp hv hn =>
    rename_i f cls lv num sl
    refine hI.cons (by simp [hp]) (by simp [Req.Aligned]) i2 (i3' _) ?_ i5 rfl (by simp) (by simp)
    simp only [Req.pairs, zip_map_fst_snd]
    exact newSolutions_genuine hn
  | save hp hr hx ho =>
    rename_i sols objs idx xs os
    have hal : sols.length = objs.length := i1 _ hmem
    have h0 : ∀ i ∈ idx, (0 : Int) ≤ i := fun i hi => (hr i hi).1
    have hxo : xs.length = os.length := by rw [pick_length hx, pick_length ho]
    have hzip : ∀ (u : List (Vec m K)) (v : List (Vec k K)),
        (s.archSols ++ xs ++ u).zip (s.archObjs ++ os ++ v) =
          s.archSols.zip s.archObjs ++ xs.zip os ++ u.zip v := by
      intro u v
      rw [List.zip_append (by simp [i2, hxo]), List.zip_append i2]
    have hsaved : ∀ p ∈ xs.zip os, p ∈ sols.zip objs := fun p hp => pick_mem_zip hx ho h0 hp
    refine hI.cons (by simp [hp]) ?_ ?_ ?_ ?_ i5 rfl (by simp) (by simp)
    · have := unsaved_length sols objs idx hal
      simp [Req.Aligned, i2, hxo, this]
    · simp [i2, hxo]
    · intro p hp
      have := hzip [] []
      simp only [List.append_nil, List.zip_nil_left] at this
      simp only [this, List.mem_append] at hp
      rcases hp with hp | hp
      · exact i3' _ p hp
      · exact ⟨sols, objs, List.mem_cons_of_mem _ hmem, hsaved p hp⟩
    · intro p hp
      simp only [Req.pairs, hzip, List.mem_append] at hp
      rcases hp with (hp | hp) | hp
      · obtain ⟨so, ob, h1, h2⟩ := i3 p hp
        exact i4 _ h1 p h2
      · exact i4 _ hmem p (hsaved p hp)
      · rw [unsaved_zip _ _ _ hal] at hp
        exact i4 _ hmem p (mem_unsaved_mem hp)
  | noInter hp =>
    rename_i sols objs
    have h1 := i1 _ hmem
    have h4 := i4 _ hmem
    exact hI.cons (by simp [hp]) h1 i2 (i3' _) h4 i5 rfl (by simp) (by simp)
  | inter hp _ _ _ hl =>
    refine hI.cons (by simp [hp]) (by simp [Req.Aligned]) i2 (i3' _) ?_ i5 rfl (by simp) (by simp)
    simp only [Req.pairs, zip_map_fst_snd]
    rw [mapE_ok_iff] at hl
    intro p hp
    obtain ⟨q, _, hq⟩ := forall₂_right hl p hp
    exact interSolve_genuine hq
  | «continue» hp hx hf =>
    rename_i sols objs x f i
    have hg : Genuine c x f :=
      i4 _ hmem (x, f) (List.mem_of_getElem? (List.getElem?_zip_eq_some (z := (x, f)).2 ⟨hx, hf⟩))
    exact hI.cons (by simp [hp]) (by simp [Req.Aligned]) i2 (i3' _) (by simp [Req.pairs]) hg rfl
      (fun g hg => by simpa using hg.symm) (by simp)
  | stop hp hx hf =>
    rename_i sols objs x f i
    have hg : Genuine c x f :=
      i4 _ hmem (x, f) (List.mem_of_getElem? (List.getElem?_zip_eq_some (z := (x, f)).2 ⟨hx, hf⟩))
    refine hI.cons (by simp [hp]) (by simp [Req.Aligned]) i2 (i3' _) (by simpa [Req.pairs] using hg) hg rfl
      (by simp) ?_
    intro y g he
    simp only [Req.stop.injEq] at he
    exact ⟨he.1, he.2⟩

theorem Reached.inv {c : Cfg k m K} {s : St k m K} {l : List (Req k m K)} (h : Reached c s l) :
    Inv c s l := by
  induction h with
  | init h => exact Inv.init h
  | @step s s' l req a orc o _ hmem ha ih =>
    cases o with
    | error e =>
      have := answer_error (ih.aligned _ hmem) ha
      subst this
      simpa [issued] using ih
    | ok r => exact ih.step hmem (answer_ok ha)

/-! ## C21 -/

/-- A request that does not match the response given to it is refused by the request itself. -/
theorem phaseAfter_eq_iff (r q : Req k m K) : phaseAfter r = phaseAfter q ↔ r.kind = q.kind := by
  cases r <;> cases q <;> simp [phaseAfter, Req.kind]

/-- **C21** (order). In every history in which no stop request was issued yet, a request that is
answered successfully is of the kind of the newest request, and the request returned is of a kind the
documentation allows to follow it. -/
theorem C21_documented_order {c : Cfg k m K} {s s' : St k m K} {r0 : Req k m K} {l : List (Req k m K)}
    (h : Reached c s (r0 :: l)) (hns : ∀ x f, Req.stop x f ∉ r0 :: l) {req r' : Req k m K}
    (hmem : req ∈ r0 :: l) {a : Ans K} {orc : Oracle k m K}
    (ha : answer c s req a orc = (s', .ok r')) :
    req.kind = r0.kind ∧ Follows r0.kind r'.kind := by
  have hI := h.inv
  have hne : s.phase ≠ .ended := by
    intro he
    obtain ⟨x, f, hx⟩ := hI.ended he
    exact hns x f hx
  have hph := hI.phase r0 l rfl hne
  have key : s.phase = phaseAfter req ∧ Follows req.kind r'.kind := by
    cases answer_ok ha with
    | ended he => exact absurd he hne
    | classify hp _ _ => exact ⟨hp, .toSave⟩
    | save hp _ _ _ => exact ⟨hp, .toIntermediate⟩
    | noInter hp => exact ⟨hp, .toPreferred⟩
    | inter hp _ _ _ _ => exact ⟨hp, .again⟩
    | «continue» hp _ _ => exact ⟨hp, .next⟩
    | stop hp _ _ => exact ⟨hp, .finish⟩
  have hk : req.kind = r0.kind := (phaseAfter_eq_iff _ _).1 (key.1.symm.trans hph)
  exact ⟨hk, hk ▸ key.2⟩

/-- **C21** (refusal). In every history in which no stop request was issued yet, a request of another
kind than the newest one is refused whatever the response, and nothing changes. -/
theorem C21_wrong_kind_refused {c : Cfg k m K} {s s' : St k m K} {r0 : Req k m K} {l : List (Req k m K)}
    (h : Reached c s (r0 :: l)) (hns : ∀ x f, Req.stop x f ∉ r0 :: l) {req : Req k m K}
    (hmem : req ∈ r0 :: l) (hk : req.kind ≠ r0.kind) {a : Ans K} {orc : Oracle k m K}
    {o : Except Err (Req k m K)} (ha : answer c s req a orc = (s', o)) :
    s' = s ∧ (∃ e, o = .error e) ∧ (validate c req a = .ok () → o = .error .refused) := by
  cases o with
  | ok r' => exact absurd (C21_documented_order h hns hmem ha).1 hk
  | error e =>
    refine ⟨answer_error (h.inv.aligned _ hmem) ha, ⟨e, rfl⟩, ?_⟩
    intro hv
    have hne : s.phase ≠ .ended := by
      intro he
      obtain ⟨x, f, hx⟩ := h.inv.ended he
      exact hns x f hx
    have hph := h.inv.phase r0 l rfl hne
    have hk' : phaseAfter req ≠ s.phase := fun he => hk ((phaseAfter_eq_iff _ _).1 (he.trans hph))
    unfold answer at ha
    rw [hv] at ha
    dsimp only at ha
    unfold iterate at ha
    split at ha <;> rename_i hp <;> (try (exact absurd hp hne)) <;> (split at ha)
    · rw [hp] at hk'; exact absurd rfl hk'
    · simp only [Prod.mk.injEq] at ha; exact ha.2.symm
    · rw [hp] at hk'; exact absurd rfl hk'
    · simp only [Prod.mk.injEq] at ha; exact ha.2.symm
    · rw [hp] at hk'; exact absurd rfl hk'
    · simp only [Prod.mk.injEq] at ha; exact ha.2.symm
    · rw [hp] at hk'; exact absurd rfl hk'
    · simp only [Prod.mk.injEq] at ha; exact ha.2.symm

/-- **C21** (stopped). Once a stop request was issued, answering any request changes nothing: an
accepted response gets the very same request back. -/
theorem C21_stopped {c : Cfg k m K} {s s' : St k m K} {l : List (Req k m K)} (h : Reached c s l)
    {x : Vec m K} {f : Vec k K} (hst : Req.stop x f ∈ l) {req : Req k m K} {a : Ans K}
    {orc : Oracle k m K} {o : Except Err (Req k m K)} (ha : answer c s req a orc = (s', o)) :
    s' = s ∧ (o = .ok req ∨ ∃ e, validate c req a = .error e ∧ o = .error e) := by
  have he := (h.inv.stopped x f hst).1
  unfold answer at ha
  split at ha
  · rename_i e hv
    simp only [Prod.mk.injEq] at ha
    exact ⟨ha.1.symm, .inr ⟨e, hv, ha.2.symm⟩⟩
  · unfold iterate at ha
    simp only [he, Prod.mk.injEq] at ha
    exact ⟨ha.1.symm, .inl ha.2.symm⟩

/-- The session of `ExampleData` meets the hypotheses: the newest request is answered, an older one is
refused, and after the stop request nothing happens. -/
example : (∀ x f, Req.stop x f ∉ [exR2, exR1, exR0]) ∧ exR1 ∈ [exR2, exR1, exR0] ∧
    exR1.kind ≠ exR2.kind ∧ answer exCfg exS2 exR2 exA2 exOrc = (exS3, .ok exR3) ∧
    exR6 ∈ [exR6, exR5, exR4, exR3, exR2, exR1, exR0] ∧ exR6 = Req.stop ![0] ![0, 4] := by
  refine ⟨?_, by simp, by decide +kernel, ex_step2, by simp, eq_of_beq (by decide +kernel)⟩
  intro x f hm
  have h0 : exR0.kind = .classification := by decide +kernel
  have h1 : exR1.kind = .save := by decide +kernel
  have h2 : exR2.kind = .intermediate := by decide +kernel
  simp only [List.mem_cons, List.not_mem_nil, or_false] at hm
  rcases hm with hm | hm | hm
  · rw [← hm] at h2; simp [Req.kind] at h2
  · rw [← hm] at h1; simp [Req.kind] at h1
  · rw [← hm] at h0; simp [Req.kind] at h0

/-! ## C22 -/

/-- **C22** (aligned, genuine). In every history the archived solutions and objectives have the same
length, and each archived pair was shown together by a save request issued before. -/
theorem C22_archive_aligned {c : Cfg k m K} {s : St k m K} {l : List (Req k m K)} (h : Reached c s l) :
    s.archSols.length = s.archObjs.length ∧
    ∀ (i : Nat) x f, s.archSols[i]? = some x → s.archObjs[i]? = some f →
      ∃ sols objs, Req.save sols objs ∈ l ∧ ∃ j : Nat, sols[j]? = some x ∧ objs[j]? = some f := by
  refine ⟨h.inv.arch_len, ?_⟩
  intro i x f hx hf
  have hp : (x, f) ∈ s.archSols.zip s.archObjs :=
    List.mem_of_getElem? (List.getElem?_zip_eq_some (z := (x, f)).2 ⟨hx, hf⟩)
  obtain ⟨so, ob, h1, h2⟩ := h.inv.arch_shown _ hp
  refine ⟨so, ob, h1, ?_⟩
  obtain ⟨j, hj⟩ := List.mem_iff_getElem?.1 h2
  exact ⟨j, List.getElem?_zip_eq_some.1 hj⟩

/-- **C22** (append-only). Whatever happens next, archived solutions and objectives stay where they
are; only a successfully answered save request adds some, at the end. -/
theorem C22_archive_append_only {c : Cfg k m K} {s s' : St k m K} {l : List (Req k m K)}
    (h : Reached c s l) {req : Req k m K} (hmem : req ∈ l) {a : Ans K} {orc : Oracle k m K}
    {o : Except Err (Req k m K)} (ha : answer c s req a orc = (s', o)) :
    s.archSols <+: s'.archSols ∧ s.archObjs <+: s'.archObjs ∧
    ((s'.archSols ≠ s.archSols ∨ s'.archObjs ≠ s.archObjs) →
      req.kind = .save ∧ ∃ r', o = .ok r' ∧ r'.kind = .intermediate) := by
  cases o with
  | error e =>
    rw [answer_error (h.inv.aligned _ hmem) ha]
    simp
  | ok r' =>
    cases answer_ok ha with
    | save hp hr hx ho => simp [List.append_assoc, Req.kind]
    | _ => simp

example : exS1.archObjs = [] ∧ exS2.archObjs = [![1, 2], ![0, 4]] ∧ exS2.archSols = [![1], ![0]] :=
  ⟨eq_of_beq (by decide +kernel), eq_of_beq (by decide +kernel), eq_of_beq (by decide +kernel)⟩

/-! ## C23 -/

/-- **C23**. Answering a save request with any accepted list of indices (empty, repeated, unordered)
returns an intermediate solutions request that shows: the solutions archived before, then the chosen
ones in the order they were chosen, then those not chosen in the order they were shown. The archive is
exactly the first two parts. -/
theorem C23_offered_after_save {c : Cfg k m K} {s s' : St k m K} {l : List (Req k m K)}
    (h : Reached c s l) (hns : ∀ x f, Req.stop x f ∉ l) {sols : List (Vec m K)} {objs : List (Vec k K)}
    {idx : List Int} {orc : Oracle k m K} {r' : Req k m K}
    (ha : answer c s (.save sols objs) (.save (some idx)) orc = (s', .ok r')) :
    ∃ xs os, xs.map some = idx.map (fun i => sols[i.toNat]?) ∧
      os.map some = idx.map (fun i => objs[i.toNat]?) ∧
      s'.archSols = s.archSols ++ xs ∧ s'.archObjs = s.archObjs ++ os ∧
      ∃ restS restO, r' = .inter (s'.archSols ++ restS) (s'.archObjs ++ restO) ∧
        restS.map some = ((List.range sols.length).filter fun p : Nat => decide ((p : Int) ∉ idx)).map
          (fun p => sols[p]?) ∧
        restO.map some = ((List.range objs.length).filter fun p : Nat => decide ((p : Int) ∉ idx)).map
          (fun p => objs[p]?) := by
  have hne : s.phase ≠ .ended := by
    intro he
    obtain ⟨x, f, hx⟩ := h.inv.ended he
    exact hns x f hx
  cases answer_ok ha with
  | ended he => exact absurd he hne
  | save hp hr hx ho =>
    rename_i xs os
    have h0 : ∀ i ∈ idx, (0 : Int) ≤ i := fun i hi => (hr i hi).1
    exact ⟨xs, os, pick_eq h0 hx, pick_eq h0 ho, rfl, rfl, _, _, rfl, unsaved_eq _ _, unsaved_eq _ _⟩

/-- **C23** (nothing lost). Every pair just shown and every pair archived before is offered, and if no
index is repeated, each exactly as often as before: the offered pairs are a permutation of the archived
pairs and the shown ones. -/
theorem C23_nothing_lost {c : Cfg k m K} {s s' : St k m K} {l : List (Req k m K)}
    (h : Reached c s l) (hns : ∀ x f, Req.stop x f ∉ l) {sols : List (Vec m K)} {objs : List (Vec k K)}
    (hmem : Req.save sols objs ∈ l) {idx : List Int} {orc : Oracle k m K} {r' : Req k m K}
    (ha : answer c s (.save sols objs) (.save (some idx)) orc = (s', .ok r')) :
    (∀ p ∈ s.archSols.zip s.archObjs ++ sols.zip objs, p ∈ r'.pairs) ∧
    (∀ i ∈ idx, ∃ p, (sols.zip objs)[i.toNat]? = some p ∧ p ∈ s'.archSols.zip s'.archObjs) ∧
    (idx.Nodup → r'.pairs.Perm (s.archSols.zip s.archObjs ++ sols.zip objs)) := by
  have hne : s.phase ≠ .ended := by
    intro he
    obtain ⟨x, f, hx⟩ := h.inv.ended he
    exact hns x f hx
  have hal : sols.length = objs.length := h.inv.aligned _ hmem
  have i2 := h.inv.arch_len
  cases answer_ok ha with
  | ended he => exact absurd he hne
  | save hp hr hx ho =>
    rename_i xs os
    have h0 : ∀ i ∈ idx, (0 : Int) ≤ i := fun i hi => (hr i hi).1
    have hxo : xs.length = os.length := by rw [pick_length hx, pick_length ho]
    have e := pick_zip hx ho h0
    have hzl : (sols.zip objs).length = objs.length := by simp [hal]
    obtain ⟨zs, hz⟩ := pick_exists (l := sols.zip objs) (idx := idx) (by rw [hzl]; exact hr)
    have hz' : zs = xs.zip os := by
      have := pick_eq h0 hz
      rw [← e] at this
      exact List.map_injective_iff.2 (Option.some_injective _) this
    subst hz'
    have hpairs : (Req.inter (s.archSols ++ xs ++ unsaved sols idx) (s.archObjs ++ os ++ unsaved objs idx)).pairs
        = s.archSols.zip s.archObjs ++ (xs.zip os ++ unsaved (sols.zip objs) idx) := by
      simp only [Req.pairs]
      rw [List.zip_append (by simp [i2, hxo]), List.zip_append i2, unsaved_zip _ _ _ hal, List.append_assoc]
    rw [hpairs]
    refine ⟨?_, ?_, ?_⟩
    · intro p hp
      rw [List.mem_append] at hp ⊢
      rcases hp with hp | hp
      · exact .inl hp
      · right
        obtain ⟨j, hj⟩ := List.mem_iff_getElem?.1 hp
        by_cases hji : (j : Int) ∈ idx
        · rw [List.mem_append]
          left
          have : some p ∈ (xs.zip os).map some := by
            rw [e, List.mem_map]
            exact ⟨j, hji, by simpa using hj⟩
          simpa using this
        · rw [List.mem_append]
          exact .inr ((mem_unsaved _ _ _).2 ⟨j, hji, hj⟩)
    · intro i hi
      obtain ⟨h1, h2⟩ := hr i hi
      have hlt : i.toNat < (sols.zip objs).length := by rw [hzl]; omega
      refine ⟨(sols.zip objs)[i.toNat], List.getElem?_eq_getElem hlt, ?_⟩
      rw [List.zip_append i2, List.mem_append]
      right
      have : some ((sols.zip objs)[i.toNat]) ∈ (xs.zip os).map some := by
        rw [e, List.mem_map]
        exact ⟨i, hi, List.getElem?_eq_getElem hlt⟩
      simpa using this
    · intro hnd
      exact (pick_unsaved_perm hnd (by rw [hzl]; exact hr) hz).append_left _

/-- Repeated indices are accepted; the archive then holds the solution twice, and nothing is lost. -/
example : (answer exCfg exS1 exR1 (.save (some [2, 2])) exOrc).1.archSols = [![0], ![0]] ∧
    (answer exCfg exS1 exR1 (.save (some [2, 2])) exOrc).2 =
      .ok (.inter [![0], ![0], ![0], ![1]] [![0, 4], ![0, 4], ![0, 4], ![1, 2]]) :=
  ⟨eq_of_beq (by decide +kernel), eq_of_beq (by decide +kernel)⟩

example : ([1, 0] : List Int).Nodup ∧ exR1 = Req.save [![0], ![1], ![0]] [![0, 4], ![1, 2], ![0, 4]] ∧
    exR1 ∈ [exR1, exR0] ∧
    exR2 = Req.inter [![1], ![0], ![0]] [![1, 2], ![0, 4], ![0, 4]] :=
  ⟨by decide, eq_of_beq (by decide +kernel), by simp, eq_of_beq (by decide +kernel)⟩

/-! ## C24 -/

/-- **C24** (accepted indices). Every index accepted by the save, intermediate and most preferred
requests denotes a shown solution. -/
theorem C24_accepted_in_range (c : Cfg k m K) (sols : List (Vec m K)) (objs : List (Vec k K)) :
    (∀ o, validate c (.save sols objs) (.save o) = .ok () →
      ∃ idx, o = some idx ∧ ∀ i ∈ idx, 0 ≤ i ∧ i < (objs.length : Int)) ∧
    (∀ r, validate c (.inter sols objs) (.inter r) = .ok () →
      ∃ idx num, r = ⟨some idx, some num⟩ ∧ (∀ i ∈ idx, 0 ≤ i ∧ i < (objs.length : Int)) ∧
        0 ≤ num ∧ (idx = [] ↔ num = 0)) ∧
    (∀ r, validate c (.preferred sols objs) (.preferred r) = .ok () →
      ∃ (i : Nat) (b : Bool), r = ⟨some (.int i), some (.bool b)⟩ ∧ i < objs.length) :=
  ⟨fun _ h => validateSave_ok h, fun _ h => validateInter_ok h, fun _ h => validatePreferred_ok h⟩

theorem interSolve_exists (c : Cfg k m K) (orc : Oracle k m K) (p : Option (Vec m K) × Nat) :
    ∃ b, interSolve c orc p = .ok b := by
  unfold interSolve
  split
  · exact ⟨_, rfl⟩
  · rename_i N obj dec closest _
    obtain ⟨x, hx⟩ := discreteMin_exists (obj := obj) (asf := c.asf3 (obj (closest p.1)))
      (fe := fun _ => true) (i := closest p.1) rfl
    rw [hx]
    exact ⟨_, rfl⟩

/-- **C24** (no exception), except for one case: in every history, an accepted answer to the newest save
or most preferred request, or to the newest intermediate request with no index or with at least two,
does not raise. What is missing from C24: intermediate requests answered with exactly one index, see
`C24_fails_single_index`. -/
theorem C24_accepted_does_not_raise_partial {c : Cfg k m K} {s : St k m K} {r0 : Req k m K}
    {l : List (Req k m K)} (h : Reached c s (r0 :: l)) {a : Ans K} (hv : validate c r0 a = .ok ())
    (hkind : r0.kind = .save ∨ r0.kind = .mostPreferred ∨
      (r0.kind = .intermediate ∧ ∀ i num, a ≠ .inter ⟨some [i], some num⟩)) (orc : Oracle k m K) :
    ∃ r', (answer c s r0 a orc).2 = .ok r' := by
  unfold answer
  rw [hv]
  dsimp only
  have hal := h.inv.aligned r0 List.mem_cons_self
  by_cases hend : s.phase = .ended
  · exact ⟨r0, by simp [iterate, hend]⟩
  have hph := h.inv.phase r0 l rfl hend
  cases r0 with
  | classify f => simp [Req.kind] at hkind
  | stop x f => simp [Req.kind] at hkind
  | save sols objs =>
    have hal' : sols.length = objs.length := hal
    cases a <;> simp only [validate, reduceCtorEq] at hv
    rename_i o
    obtain ⟨idx, rfl, hr⟩ := validateSave_ok hv
    obtain ⟨os, ho⟩ := pick_exists (l := objs) hr
    obtain ⟨xs, hx⟩ := pick_exists (l := sols) (idx := idx) (by rw [hal']; exact hr)
    refine ⟨.inter (s.archSols ++ xs ++ unsaved sols idx) (s.archObjs ++ os ++ unsaved objs idx), ?_⟩
    unfold iterate
    rw [hph]
    simp only [phaseAfter]
    rw [handleSave_eq]
    simp [ho, hx]
  | inter sols objs =>
    have hal' : sols.length = objs.length := hal
    cases a <;> simp only [validate, reduceCtorEq] at hv
    rename_i r
    obtain ⟨idx, num, rfl, hr, h0, h1⟩ := validateInter_ok hv
    have h2 : ∀ i num, (Ans.inter ⟨some idx, some num⟩ : Ans K) ≠ .inter ⟨some [i], some num⟩ := by
      rcases hkind with hk | hk | hk
      · simp [Req.kind] at hk
      · simp [Req.kind] at hk
      · intro i n he
        apply hk.2 i num
        simp only [Ans.inter.injEq, InterResp.mk.injEq, Option.some.injEq, and_true] at he ⊢
        exact he
    unfold iterate
    rw [hph]
    simp only [phaseAfter, handleInter]
    rcases idx with _ | ⟨i, _ | ⟨j, rest⟩⟩
    · exact ⟨_, rfl⟩
    · exact absurd rfl (h2 i num)
    · rw [if_pos (by simp)]
      obtain ⟨xs, hx⟩ := pick_exists (l := sols) (idx := i :: j :: rest) (by rw [hal']; exact hr)
      have hlen := pick_length hx
      rw [hx]
      rcases xs with _ | ⟨x, _ | ⟨y, rest'⟩⟩
      · simp at hlen
      · simp at hlen
      · dsimp only
        obtain ⟨r, hr⟩ := mapE_exists (f := interSolve c orc)
          (l := (interPoints c.nrm x y num.toNat).zipIdx) fun p _ => interSolve_exists c orc p
        rw [hr]
        exact ⟨_, rfl⟩
  | preferred sols objs =>
    have hal' : sols.length = objs.length := hal
    cases a <;> simp only [validate, reduceCtorEq] at hv
    rename_i r
    obtain ⟨i, b, rfl, hi⟩ := validatePreferred_ok hv
    obtain ⟨x, hx⟩ := pyGet_exists (l := sols) (i := i) (by omega) (by omega)
    obtain ⟨f, hf⟩ := pyGet_exists (l := objs) (i := i) (by omega) (by omega)
    unfold iterate
    rw [hph]
    simp only [phaseAfter, handlePreferred, PyVal.asInt, hx, hf]
    cases b
    · exact ⟨_, rfl⟩
    · exact ⟨_, rfl⟩

/-- C24 fails: an intermediate request accepts a single index, and answering it then always raises an
`IndexError`. -/
theorem C24_fails_single_index {c : Cfg k m K} {s : St k m K} {sols : List (Vec m K)}
    {objs : List (Vec k K)} {l : List (Req k m K)} (h : Reached c s (.inter sols objs :: l))
    (hns : ∀ x f, Req.stop x f ∉ l) {i num : Int} (h0 : 0 ≤ i) (h1 : i < objs.length) (h2 : 0 < num)
    (orc : Oracle k m K) :
    validate c (.inter sols objs) (.inter ⟨some [i], some num⟩) = .ok () ∧
    answer c s (.inter sols objs) (.inter ⟨some [i], some num⟩) orc = (s, .error .indexError) := by
  have hv : validate c (.inter sols objs) (.inter ⟨some [i], some num⟩) = .ok () := by
    simp only [validate, validateInter, List.length_singleton]
    rw [if_neg (by omega), if_neg (by omega), if_neg (by omega), if_neg (by omega), if_neg]
    simp
    omega
  refine ⟨hv, ?_⟩
  have hne : s.phase ≠ .ended := by
    intro he
    obtain ⟨x, f, hx⟩ := h.inv.ended he
    simp only [List.mem_cons, reduceCtorEq, false_or] at hx
    exact hns x f hx
  have hph := h.inv.phase _ l rfl hne
  have hal' : sols.length = objs.length := h.inv.aligned _ List.mem_cons_self
  obtain ⟨x, hx⟩ := pyGet_exists (l := sols) (i := i) h0 (by omega)
  unfold answer
  rw [hv]
  dsimp only
  unfold iterate
  rw [hph]
  simp [phaseAfter, handleInter, pick, mapE, hx, enterAfter]

example : Reached exCfg exS2 [exR2, exR1, exR0] ∧ exR2 = Req.inter [![1], ![0], ![0]] [![1, 2], ![0, 4], ![0, 4]] ∧
    (answer exCfg exS2 exR2 (.inter ⟨some [1], some 2⟩) exOrc).2 = .error .indexError :=
  ⟨ex_reached2, eq_of_beq (by decide +kernel), eq_of_beq (by decide +kernel)⟩

/-! ## C25 -/

/-- **C25** (genuine pairs). In every history, every pair shown by any request consists of a decision
vector and its own objective vector, and so does the current pair. -/
theorem C25_shown_pairs_genuine {c : Cfg k m K} {s : St k m K} {l : List (Req k m K)}
    (h : Reached c s l) : (∀ req ∈ l, ∀ p ∈ req.pairs, Genuine c p.1 p.2) ∧ Genuine c s.sol s.obj :=
  ⟨h.inv.genuine, h.inv.current⟩

theorem newSolutions_length {c : Cfg k m K} {s : St k m K} {cls : List Cls} {lv : Vec k K} {num : Int}
    {orc : Oracle k m K} {l : List (Vec m K × Vec k K)} (h : newSolutions c s cls lv num orc = .ok l)
    (h4 : num ≤ 4) : l.length = num.toNat := by
  unfold newSolutions at h
  split at h
  · simp at h
  · split at h
    · simp at h
    · have := mapE_length h
      simp only [problems, List.length_zipIdx, List.length_take, List.length_cons, List.length_nil] at this
      omega

/-- **C25** (number). A successfully answered classification with `number_of_solutions = m` yields a
save request with exactly `m` solutions and `m` objective vectors, and `1 <= m <= 4`. -/
theorem C25_number_of_solutions {c : Cfg k m K} {s s' : St k m K} {l : List (Req k m K)}
    (h : Reached c s l) (hns : ∀ x f, Req.stop x f ∉ l) {f : Vec k K} {cls : List Cls} {lv : List K}
    {num : Int} {orc : Oracle k m K} {r' : Req k m K}
    (ha : answer c s (.classify f) (.classify ⟨some cls, some lv, some num⟩) orc = (s', .ok r')) :
    1 ≤ num ∧ num ≤ 4 ∧ ∃ sols objs, r' = .save sols objs ∧ (sols.length : Int) = num ∧
      (objs.length : Int) = num := by
  have hne : s.phase ≠ .ended := by
    intro he
    obtain ⟨x, f, hx⟩ := h.inv.ended he
    exact hns x f hx
  cases answer_ok ha with
  | ended he => exact absurd he hne
  | classify hp hv hn =>
    rename_i sl
    obtain ⟨_, _, num', he, _, _, h1, h4, _⟩ := validateClassify_ok hv
    simp only [ClassResp.mk.injEq, Option.some.injEq] at he
    obtain ⟨_, _, rfl⟩ := he
    have := newSolutions_length hn h4
    refine ⟨h1, h4, _, _, rfl, ?_, ?_⟩ <;> simp [this] <;> omega

/-- For an `MOProblem` an accepted classification of as many classes as objectives never raises,
whatever the minimizers return. (For discrete problems see C27.) -/
theorem C25_mo_never_raises {c : Cfg k m K} {s : St k m K} {f : Vec k K} {l : List (Req k m K)}
    (h : Reached c s (.classify f :: l)) {ev : Vec m K → Vec k K} (hmo : c.problem = .mo ev)
    {cls : List Cls} {lv : List K} {num : Int} (hlen : cls.length = k)
    (hv : validate c (.classify f) (.classify ⟨some cls, some lv, some num⟩) = .ok ())
    (orc : Oracle k m K) :
    ∃ r', (answer c s (.classify f) (.classify ⟨some cls, some lv, some num⟩) orc).2 = .ok r' := by
  unfold answer
  rw [hv]
  dsimp only
  by_cases hend : s.phase = .ended
  · exact ⟨.classify f, by simp [iterate, hend]⟩
  have hph := h.inv.phase _ l rfl hend
  unfold iterate
  rw [hph]
  simp only [phaseAfter, handleClassify]
  have : ∃ l, newSolutions c s cls (levelVec k lv) num orc = .ok l := by
    unfold newSolutions
    rw [if_neg (by simp; omega), if_neg (by omega)]
    apply mapE_exists
    intro p _
    exact ⟨_, by simp only [solveOne, hmo]; rfl⟩
  obtain ⟨sl, hsl⟩ := this
  rw [hsl]
  exact ⟨_, rfl⟩

/-- A continuous problem with one variable. -/
def exMo : Cfg 2 1 ℚ := { exCfg with problem := .mo fun x => ![x 0, 1 - x 0] }

example : (answer exMo ⟨![1], ![1, 0], [], [], .classify⟩ (.classify ![1, 0])
    (.classify ⟨some [.lt, .free], some [0, 0], some 4⟩) ⟨fun i _ => ![(i : ℚ)]⟩).2 =
      .ok (.save [![0], ![1], ![2], ![3]] [![0, 1], ![1, 0], ![2, -1], ![3, -2]]) ∧
    construct exMo none (fun _ => some ![1]) = .ok ⟨![1], ![1, 0], [], [], .classify⟩ :=
  ⟨eq_of_beq (by decide +kernel), eq_of_beq (by decide +kernel)⟩

/-! ## C29 -/

/-- **C29**. Answering a most preferred request with index `i` makes the `i`-th shown pair the current
one; the returned request shows exactly it: its objectives to be classified next, or the pair in the
stop request. -/
theorem C29_preferred_becomes_current {c : Cfg k m K} {s s' : St k m K} {l : List (Req k m K)}
    (h : Reached c s l) (hns : ∀ x f, Req.stop x f ∉ l) {sols : List (Vec m K)} {objs : List (Vec k K)}
    {i b : PyVal} {orc : Oracle k m K} {r' : Req k m K}
    (ha : answer c s (.preferred sols objs) (.preferred ⟨some i, some b⟩) orc = (s', .ok r')) :
    ∃ (j : Nat) (x : Vec m K) (f : Vec k K), i = .int j ∧ sols[j]? = some x ∧ objs[j]? = some f ∧
      s'.sol = x ∧ s'.obj = f ∧
      ((b = .bool true ∧ r' = .classify f) ∨ (b = .bool false ∧ r' = .stop x f)) := by
  have hne : s.phase ≠ .ended := by
    intro he
    obtain ⟨x, f, hx⟩ := h.inv.ended he
    exact hns x f hx
  cases answer_ok ha with
  | ended he => exact absurd he hne
  | «continue» hp hx hf => exact ⟨_, _, _, rfl, hx, hf, rfl, rfl, .inl ⟨rfl, rfl⟩⟩
  | stop hp hx hf => exact ⟨_, _, _, rfl, hx, hf, rfl, rfl, .inr ⟨rfl, rfl⟩⟩

/-- **C29** (kept). Only a most preferred answer changes the current pair: in every history the newest
classification request shows the current objectives and a stop request the current pair. -/
theorem C29_current_shown {c : Cfg k m K} {s : St k m K} {l : List (Req k m K)} (h : Reached c s l) :
    (∀ f rest, l = .classify f :: rest → (∀ x g, Req.stop x g ∉ l) → f = s.obj) ∧
    (∀ x f, Req.stop x f ∈ l → s.sol = x ∧ s.obj = f) := by
  refine ⟨?_, fun x f hm => (h.inv.stopped x f hm).2⟩
  intro f rest hl hns
  apply h.inv.shown f rest hl
  intro he
  obtain ⟨x, g, hx⟩ := h.inv.ended he
  exact hns x g hx

/-- **C29** (kept). Answers to the other requests leave the current pair alone. -/
theorem C29_others_keep_current {c : Cfg k m K} {s s' : St k m K} {l : List (Req k m K)}
    (h : Reached c s l) {req : Req k m K} (hmem : req ∈ l) (hk : req.kind ≠ .mostPreferred) {a : Ans K}
    {orc : Oracle k m K} {o : Except Err (Req k m K)} (ha : answer c s req a orc = (s', o)) :
    s'.sol = s.sol ∧ s'.obj = s.obj := by
  cases o with
  | error e => rw [answer_error (h.inv.aligned _ hmem) ha]; simp
  | ok r' =>
    cases answer_ok ha with
    | «continue» => simp [Req.kind] at hk
    | stop => simp [Req.kind] at hk
    | _ => simp

example : answer exCfg exS5 exR5 exA5 exOrc = (exS6, .ok exR6) ∧ exS6.obj = ![0, 4] ∧
    exS5.obj = ![1, 2] ∧ exR5.kind = .mostPreferred :=
  ⟨ex_step5, eq_of_beq (by decide +kernel), eq_of_beq (by decide +kernel), by decide +kernel⟩

end Verif.Nimbus
