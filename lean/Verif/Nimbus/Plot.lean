import Verif.Nimbus.Props4

/-!
# NIMBUS: the plot requests

Every call of `iterate` returns a pair: the next request and, except with a classification request, a plot
request. Here the handlers are modelled with both components; forgetting the second one gives the handlers of
`Verif.Nimbus.Model` (`iterateP_fst`). A data frame is the list of its rows; column names and messages are not
modelled.
-/

set_option linter.unusedSectionVars false

namespace Verif.Nimbus

variable {K : Type} [Field K] [LinearOrder K] {k m : Nat}

/-- `SimplePlotRequest`: the rows of `data`, and the rows "minimize", "ideal" and "nadir" of `dimensions_data`. -/
structure Plot (k : Nat) (K : Type) where
  rows : List (Vec k K)
  minimize : Fin k → Int
  ideal : Vec k K
  nadir : Vec k K
  deriving BEq, ReflBEq, LawfulBEq

/-- NIMBUS.py:463-492, `create_plot_request`. `mult` is `_max_multiplier` of an `MOProblem`; for a discrete
problem the code writes ones (484). -/
def createPlot (c : Cfg k m K) (mult : Fin k → Int) (objectives : List (Vec k K)) : Plot k K :=
  match c.problem with
  | .mo _ => { rows := objectives, minimize := mult, ideal := c.ideal, nadir := c.nadir }
  | .discrete .. => { rows := objectives, minimize := fun _ => 1, ideal := c.ideal, nadir := c.nadir }

/-- What the handlers return: a request and perhaps a plot request. -/
abbrev Reply (k m : Nat) (K : Type) := Req k m K × Option (Plot k K)

/-- NIMBUS.py:494-526 and 941-956. -/
def handleClassifyP (c : Cfg k m K) (mult : Fin k → Int) (s : St k m K) (r : ClassResp K) (orc : Oracle k m K) :
    Except Err (Reply k m K) :=
  match r.classifications, r.levels, r.number with
  | some cls, some lv, some num =>
    match newSolutions c s cls (levelVec k lv) num orc with
    | .error e => .error e
    | .ok l => .ok (.save (l.map (·.1)) (l.map (·.2)), some (createPlot c mult (l.map (·.2))))
  | _, _, _ => .error .keyError

/-- NIMBUS.py:734-751: archive and remaining solutions are plotted. -/
def handleSaveP (c : Cfg k m K) (mult : Fin k → Int) (s : St k m K) (sols : List (Vec m K))
    (objs : List (Vec k K)) (idx : List Int) : St k m K × Except Err (Reply k m K) :=
  if idx.length = 0 then
    (s, .ok (.inter (s.archSols ++ unsaved sols []) (s.archObjs ++ unsaved objs []),
      some (createPlot c mult (s.archObjs ++ unsaved objs []))))
  else match pick objs idx with
    | .error e => (s, .error e)
    | .ok os =>
      let s1 : St k m K := { s with archObjs := s.archObjs ++ os }
      match pick sols idx with
      | .error e => (s1, .error e)
      | .ok xs =>
        let s2 : St k m K := { s1 with archSols := s1.archSols ++ xs }
        (s2, .ok (.inter (s2.archSols ++ unsaved sols idx) (s2.archObjs ++ unsaved objs idx),
          some (createPlot c mult (s2.archObjs ++ unsaved objs idx))))

/-- NIMBUS.py:548-573, 616-639 and 641-715. -/
def handleInterP (c : Cfg k m K) (mult : Fin k → Int) (sols : List (Vec m K)) (objs : List (Vec k K))
    (idx : List Int) (num : Int) (orc : Oracle k m K) : Except Err (Reply k m K) :=
  if 0 < idx.length then
    match pick sols idx with
    | .error e => .error e
    | .ok (a :: b :: _) =>
      match mapE (interSolve c orc) (interPoints c.nrm a b num.toNat).zipIdx with
      | .error e => .error e
      | .ok l => .ok (.save (l.map (·.1)) (l.map (·.2)), some (createPlot c mult (l.map (·.2))))
    | .ok _ => .error .indexError
  else .ok (.preferred sols objs, some (createPlot c mult objs))

/-- NIMBUS.py:575-600, 602-614 and 958-978: `request_classification` comes without a plot (457-461),
`request_stop` plots the current objectives. -/
def handlePreferredP (c : Cfg k m K) (mult : Fin k → Int) (s : St k m K) (sols : List (Vec m K))
    (objs : List (Vec k K)) (i : Int) (cont : Bool) : St k m K × Except Err (Reply k m K) :=
  match pyGet sols i with
  | .error e => (s, .error e)
  | .ok x =>
    match pyGet objs i with
    | .error e => ({ s with sol := x }, .error e)
    | .ok f =>
      let s' : St k m K := { s with sol := x, obj := f }
      (s', if cont then .ok (.classify f, none) else .ok (.stop x f, some (createPlot c mult [s'.obj])))

/-- The phase after a handler's reply (NIMBUS.py:1013-1049). -/
def enterP (s : St k m K) (o : Except Err (Reply k m K)) (ph : Phase) : St k m K :=
  match o with
  | .error _ => s
  | .ok _ => { s with phase := ph }

/-- The phase after a handler's reply, by the kind of the request (NIMBUS.py:1031-1049). -/
def enterAfterP (s : St k m K) (o : Except Err (Reply k m K)) : St k m K :=
  match o with
  | .error _ => s
  | .ok r => { s with phase := phaseAfter r.1 }

/-- NIMBUS.py:980-1059, `iterate` with both components of its result; at the end there is no plot (1055). -/
def iterateP (c : Cfg k m K) (mult : Fin k → Int) (s : St k m K) (req : Req k m K) (a : Ans K)
    (orc : Oracle k m K) : St k m K × Except Err (Reply k m K) :=
  match s.phase with
  | .classify =>
    match req, a with
    | .classify _, .classify r =>
      let o := handleClassifyP c mult s r orc
      (enterP s o .archive, o)
    | _, _ => (s, .error .refused)
  | .archive =>
    match req, a with
    | .save sols objs, .save (some idx) =>
      let so := handleSaveP c mult s sols objs idx
      (enterP so.1 so.2 .intermediate, so.2)
    | _, _ => (s, .error .refused)
  | .intermediate =>
    match req, a with
    | .inter sols objs, .inter ⟨some idx, some num⟩ =>
      let o := handleInterP c mult sols objs idx num orc
      (enterAfterP s o, o)
    | _, _ => (s, .error .refused)
  | .preferred =>
    match req, a with
    | .preferred sols objs, .preferred ⟨some i, some b⟩ =>
      let so := handlePreferredP c mult s sols objs i.asInt (decide (b = .bool true))
      (enterAfterP so.1 so.2, so.2)
    | _, _ => (s, .error .refused)
  | .ended => (s, .ok (req, none))

/-- Setting the response of a request, then calling `iterate`, with the plot request. -/
def answerP (c : Cfg k m K) (mult : Fin k → Int) (s : St k m K) (req : Req k m K) (a : Ans K)
    (orc : Oracle k m K) : St k m K × Except Err (Reply k m K) :=
  match validate c req a with
  | .error e => (s, .error e)
  | .ok _ => iterateP c mult s req a orc

/-- NIMBUS.py:448-462: `start` returns the classification request and no plot. -/
def startP (s : St k m K) : Reply k m K := (.classify s.obj, none)

/-! ### Forgetting the plots -/

/-- Forget the plot. -/
def request (o : Except Err (Reply k m K)) : Except Err (Req k m K) :=
  match o with
  | .error e => .error e
  | .ok r => .ok r.1

theorem enterP_eq (s : St k m K) (o : Except Err (Reply k m K)) (ph : Phase) :
    enterP s o ph = enter s (request o) ph := by cases o <;> rfl

theorem enterAfterP_eq (s : St k m K) (o : Except Err (Reply k m K)) :
    enterAfterP s o = enterAfter s (request o) := by cases o <;> rfl

theorem handleClassifyP_fst (c : Cfg k m K) (mult : Fin k → Int) (s : St k m K) (r : ClassResp K)
    (orc : Oracle k m K) : request (handleClassifyP c mult s r orc) = handleClassify c s r orc := by
  obtain ⟨_ | cls, _ | lv, _ | num⟩ := r <;> try rfl
  simp only [handleClassifyP, handleClassify]
  cases newSolutions c s cls (levelVec k lv) num orc <;> rfl

theorem handleSaveP_fst (c : Cfg k m K) (mult : Fin k → Int) (s : St k m K) (sols : List (Vec m K))
    (objs : List (Vec k K)) (idx : List Int) :
    ((handleSaveP c mult s sols objs idx).1, request (handleSaveP c mult s sols objs idx).2) =
      handleSave s sols objs idx := by
  unfold handleSaveP handleSave
  split
  · rfl
  · cases pick objs idx with
    | error e => rfl
    | ok os =>
      cases pick sols idx with
      | error e => rfl
      | ok xs => rfl

theorem handleInterP_fst (c : Cfg k m K) (mult : Fin k → Int) (sols : List (Vec m K)) (objs : List (Vec k K))
    (idx : List Int) (num : Int) (orc : Oracle k m K) :
    request (handleInterP c mult sols objs idx num orc) = handleInter c sols objs idx num orc := by
  unfold handleInterP handleInter
  split
  · cases pick sols idx with
    | error e => rfl
    | ok xs =>
      rcases xs with _ | ⟨x, _ | ⟨y, rest⟩⟩
      · rfl
      · rfl
      · dsimp only
        cases mapE (interSolve c orc) (interPoints c.nrm x y num.toNat).zipIdx <;> rfl
  · rfl

theorem handlePreferredP_fst (c : Cfg k m K) (mult : Fin k → Int) (s : St k m K) (sols : List (Vec m K))
    (objs : List (Vec k K)) (i : Int) (cont : Bool) :
    ((handlePreferredP c mult s sols objs i cont).1, request (handlePreferredP c mult s sols objs i cont).2) =
      handlePreferred s sols objs i cont := by
  unfold handlePreferredP handlePreferred
  cases pyGet sols i with
  | error e => rfl
  | ok x =>
    cases pyGet objs i with
    | error e => rfl
    | ok f => cases cont <;> rfl

theorem iterateP_fst (c : Cfg k m K) (mult : Fin k → Int) (s : St k m K) (req : Req k m K) (a : Ans K)
    (orc : Oracle k m K) :
    ((iterateP c mult s req a orc).1, request (iterateP c mult s req a orc).2) = iterate c s req a orc := by
  unfold iterateP iterate
  cases s.phase with
  | classify =>
    dsimp only
    split
    · simp only [enterP_eq, handleClassifyP_fst]
    · rename_i h
      first
        | rfl
        | (split
           · exact absurd rfl (h _ _ rfl)
           · rfl)
  | archive =>
    dsimp only
    split
    · rename_i sols objs idx
      have h := handleSaveP_fst c mult s sols objs idx
      simp only [enterP_eq, ← h]
    · rename_i h
      first
        | rfl
        | (split
           · exact absurd rfl (h _ _ _ rfl)
           · rfl)
  | intermediate =>
    dsimp only
    split
    · simp only [enterAfterP_eq, handleInterP_fst]
    · rename_i h
      first
        | rfl
        | (split
           · exact absurd rfl (h _ _ _ _ rfl)
           · rfl)
  | preferred =>
    dsimp only
    split
    · rename_i sols objs i b
      have h := handlePreferredP_fst c mult s sols objs i.asInt (decide (b = .bool true))
      simp only [enterAfterP_eq, ← h]
    · rename_i h
      first
        | rfl
        | (split
           · exact absurd rfl (h _ _ _ _ rfl)
           · rfl)
  | ended => rfl

/-- The requests are those of the model without plots. -/
theorem answerP_fst (c : Cfg k m K) (mult : Fin k → Int) (s : St k m K) (req : Req k m K) (a : Ans K)
    (orc : Oracle k m K) :
    ((answerP c mult s req a orc).1, request (answerP c mult s req a orc).2) = answer c s req a orc := by
  unfold answerP answer
  cases validate c req a with
  | error e => rfl
  | ok _ => exact iterateP_fst c mult s req a orc

end Verif.Nimbus
