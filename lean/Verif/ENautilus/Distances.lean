import Verif.ENautilus.History

/-!
# E-NAUTILUS: the reported distances (C10) for any number of objectives, in every history
-/

set_option linter.unusedSectionVars false

namespace Verif.ENautilus

variable {K V : Type} [Field K] [LinearOrder K] [IsStrictOrderedRing K] {n k : Nat}

/-- What the distance `d` reported with the point `p` says, when `p` was computed from the preferred point `z` with
`left` iterations left. There is a row of the front, the representative point: the point `p` lies on the way from
`z` to it, such that `left` steps like the one from `z` to `p` lead there. The distance is how far `p` is from the nadir,
in per cent of how far the representative point is; a number unless the representative point is the nadir. It is
`100 / left` if `z` is the nadir, `100` with one iteration left, and between `0` and `100` if the representative point is at
least as good as `z`, and `z` at least as good as the nadir. -/
def Percentage (c : Cfg n k K V) (left : Int) (z p : Vec k K) (d : Fl K) : Prop :=
  ∃ row : Fin n, (∀ j, (left : K) * (p j - z j) = c.front row j - z j) ∧
    (c.front row ≠ c.nadir →
      ∃ x, d = .num x ∧ x * c.nrm (fun j => c.front row j - c.nadir j) = 100 * c.nrm (fun j => p j - c.nadir j) ∧
        0 ≤ x ∧ (z = c.nadir → x = 100 / (left : K)) ∧ (left = 1 → x = 100) ∧
        (AtLeastAsGood (c.front row) z → AtLeastAsGood z c.nadir → x ≤ 100)) ∧
    (c.front row = c.nadir → (z = c.nadir ∨ left = 1 ∨ (AtLeastAsGood (c.front row) z ∧ AtLeastAsGood z c.nadir)) →
      d = .nan)

theorem percentage_of {c : Cfg n k K V} (hn : NormSpec c.nrm) {left : Int} (hl : 1 ≤ left) (z : Vec k K) (row : Fin n) :
    Percentage c left z (intermediatePoint z (c.front row) left)
      ((fdiv (c.nrm fun j => intermediatePoint z (c.front row) left j - c.nadir j)
        (c.nrm fun j => c.front row j - c.nadir j)).scalePos 100) := by
  have hK : (0 : K) < (left : K) := by exact_mod_cast hl
  refine ⟨row, ?_, ?_, ?_⟩
  · intro j
    unfold intermediatePoint
    field_simp
    ring
  · intro hne
    have h0 : c.nrm (fun j => c.front row j - c.nadir j) ≠ 0 := fun h0 =>
      hne (funext fun j => sub_eq_zero.1 ((hn.eq_zero _).1 h0 j))
    have hp0 : 0 < c.nrm (fun j => c.front row j - c.nadir j) := lt_of_le_of_ne (hn.nonneg _) (Ne.symm h0)
    simp only [fdiv, h0, if_false, Fl.scalePos]
    refine ⟨_, rfl, by field_simp, mul_nonneg (div_nonneg (hn.nonneg _) hp0.le) (by norm_num), ?_, ?_, ?_⟩
    · intro hz
      have := dist_from_nadir hn (nadir := c.nadir) (zb := c.front row) hl
      rw [if_neg hne, ← hz] at this
      simp only [hz] at this ⊢
      simp only [fdiv, h0, if_false, Fl.scalePos, Fl.num.injEq] at this
      exact this
    · intro h1
      subst h1
      rw [intermediatePoint_one, div_self h0]
      norm_num
    · intro hle hzn
      obtain ⟨g1, g2⟩ := intermediatePoint_le hl hle
      have : c.nrm (fun j => intermediatePoint z (c.front row) left j - c.nadir j) ≤
          c.nrm (fun j => c.front row j - c.nadir j) := by
        apply hn.mono
        intro j
        have a1 := g1 j
        have a2 := g2 j
        have a3 := hzn j
        rw [abs_of_nonpos (by linarith), abs_of_nonpos (by linarith)]
        linarith
      have := (div_le_one hp0).2 this
      linarith
  · intro he hcase
    have h0 : c.nrm (fun j => c.front row j - c.nadir j) = 0 := (hn.eq_zero _).2 fun j => by rw [he]; ring
    have hip : intermediatePoint z (c.front row) left = c.nadir := by
      rcases hcase with hz | h1 | ⟨hle, hzn⟩
      · rw [he, hz]
        funext j
        unfold intermediatePoint
        field_simp
        ring
      · rw [h1, intermediatePoint_one, he]
      · obtain ⟨g1, g2⟩ := intermediatePoint_le hl hle
        funext j
        have a1 := g1 j
        have a2 := g2 j
        have a3 := hzn j
        rw [he] at a1 a2 ⊢
        linarith
    have h1 : c.nrm (fun j => intermediatePoint z (c.front row) left j - c.nadir j) = 0 :=
      (hn.eq_zero _).2 fun j => by rw [hip]; ring
    simp only [fdiv, h0, h1, if_true, Fl.scalePos]

theorem compute_percentages {c : Cfg n k K V} (hn : NormSpec c.nrm) {reach : List (Fin n)} {z : Vec k K}
    {nP left : Int} {km : KMeans k K} {ct : Content k K} (h : compute c reach z nP left km = .ok ct) (hl : 1 ≤ left) :
    ct.distances.length = ct.points.length ∧ ∀ (m : Nat) p d, ct.points[m]? = some p → ct.distances[m]? = some d →
      Percentage c ct.left z p d := by
  obtain ⟨_, hll, _, zbars, h6, h7, h8⟩ := compute_ok h
  refine ⟨by rw [h8]; simp [distances, h7], ?_⟩
  intro m p d hp hd
  rw [h8, distances, h7, List.getElem?_zipWith] at hd
  rw [h7] at hp
  cases hzb : zbars[m]? with
  | none => simp [hzb] at hp
  | some zb =>
    simp only [List.getElem?_map, hzb, Option.map_some, Option.some.injEq] at hd hp
    obtain ⟨row, _, rfl⟩ := representative_mem h6 zb (List.mem_of_getElem? hzb)
    subst hp hd
    rw [hll]
    exact percentage_of hn hl z row

/-- **C10** in a single call: after any choice, in any state and with any number of objectives, every distance
reported is the percentage described by `Percentage`, for the chosen point. -/
theorem C10_after_choice {c : Cfg n k K V} (hn : NormSpec c.nrm) {s s' : St n k K} {ct ct' : Content k K}
    {r : Resp k K} {km : KMeans k K} (hsb : r.stepBack = some false) (hpos : PositiveChange r)
    (ha : answer c s ct r km = (s', .ok (.points ct'))) :
    ∃ i z, r.preferredIndex = some i ∧ 0 ≤ i ∧ ct.points[i.toNat]? = some z ∧
      ct'.distances.length = ct'.points.length ∧
      ∀ (m : Nat) p d, ct'.points[m]? = some p → ct'.distances[m]? = some d → Percentage c ct'.left z p d := by
  obtain ⟨i, z, left, h1, hi0, hz, hl, h2 | h2⟩ := answer_choice_ok ha hsb
  · obtain ⟨_, sol, _, h3, _⟩ := h2
    simp at h3
  obtain ⟨hlt, lo, hi', ch, left', nP, ct'', hlo, hhi, hch, hl', hp, hc, ho, hm, hs⟩ := h2
  simp only [Out.points.injEq] at ho
  subst ho
  exact ⟨i, z, h1, hi0, hz, compute_percentages hn hc (choice_left_pos hpos hch hlt hl')⟩

/-- **C10** in every history (failed calls, older requests, restarts and steps back included) and for any number
of objectives: the distances of every issued request are percentages in the sense of `Percentage`, where the preferred
point is the nadir or a point of an issued request. -/
theorem C10_every_history {c : Cfg n k K V} (hn : NormSpec c.nrm) {s : St n k K} {iss : List (Content k K)}
    (h : Lived c s iss) {ct : Content k K} (hct : ct ∈ iss) :
    ct.distances.length = ct.points.length ∧
    ∃ z, (z = c.nadir ∨ ∃ ct0 ∈ iss, z ∈ ct0.points) ∧
      ∀ (m : Nat) p d, ct.points[m]? = some p → ct.distances[m]? = some d → Percentage c ct.left z p d := by
  induction h generalizing ct with
  | fresh => simp at hct
  | start h r km ih =>
    rename_i s iss
    rcases List.mem_append.1 hct with hct | hct
    · have hq := mem_issued hct
      obtain ⟨nIt, nP, ct', _, _, h1, _, h2, h3, h4, h5⟩ :=
        begin_ok (s' := (begin c s r km).1) (Prod.ext rfl hq)
      simp only [Out.points.injEq] at h2
      subst h2
      obtain ⟨g1, g2⟩ := compute_percentages hn h4 h1
      exact ⟨g1, c.nadir, .inl rfl, g2⟩
    · obtain ⟨g1, z, g2, g3⟩ := ih hct
      exact ⟨g1, z, g2.imp_right fun ⟨x, hx, hz⟩ => ⟨x, List.mem_append_right _ hx, hz⟩, g3⟩
  | respond h hm hr km ih =>
    rename_i s iss ct0 r
    have old : ∀ x ∈ iss, x.distances.length = x.points.length ∧
        ∃ z, (z = c.nadir ∨ ∃ ct1 ∈ issued (answer c s ct0 r km).2 ++ iss, z ∈ ct1.points) ∧
          ∀ (m : Nat) p d, x.points[m]? = some p → x.distances[m]? = some d → Percentage c x.left z p d := by
      intro x hx
      obtain ⟨g1, z, g2, g3⟩ := ih hx
      exact ⟨g1, z, g2.imp_right fun ⟨x, hx, hz⟩ => ⟨x, List.mem_append_right _ hx, hz⟩, g3⟩
    rcases List.mem_append.1 hct with hx | hx
    · have hq := mem_issued hx
      have ha : answer c s ct0 r km = ((answer c s ct0 r km).1, .ok (.points ct)) := Prod.ext rfl hq
      cases hsb : r.stepBack with
      | none =>
        exfalso
        unfold answer at ha
        cases hv : validate ct0 r with
        | error e => rw [hv] at ha; simp at ha
        | ok u => rw [hv] at ha; simp [handle, hsb] at ha
      | some b =>
        cases b with
        | true =>
          obtain ⟨x, hx, hb⟩ := hr.2 hsb
          obtain ⟨ct2, h1, h2, h3, h4, h5, h6, h7, h8⟩ := answer_back_ok ha hsb
          simp only [Out.points.injEq] at h7
          subst h7
          rw [hb.eq h1 h2 h3 h4 h5]
          have := old x hx
          rw [hq] at this ⊢
          exact this
        | false =>
          obtain ⟨i, z, _, _, hz, g1, g2⟩ := C10_after_choice hn hsb (hr.1 hsb) ha
          exact ⟨g1, z, .inr ⟨ct0, List.mem_append_right _ hm, List.mem_of_getElem? hz⟩, g2⟩
    · exact old ct hx

example := C10_after_choice (c := exCfg) supNorm_spec rfl (by simp [PositiveChange, chooseResp]) ex_choose
example := C10_every_history (c := exCfg) supNorm_spec ex_lived1 List.mem_cons_self

end Verif.ENautilus
