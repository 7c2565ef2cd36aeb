import Verif.Lemmas.Planned

/-!
# CC00-Dubins: summary
-/

noncomputable section

namespace Spec.CC00

open Real Props SF.CC00

section
variable {k s R A d len : ℝ} {cs : List SF.Control} {p q : Config} {t : ℕ}

theorem nTurns_le (t : ℕ) : nTurns t ≤ 3 := by unfold nTurns; split <;> norm_num

theorem empty_leads (h : Within SF.epsilon SF.epsilon p q) :
    Leads (SF.empty_controls.map seg) p q 0 SF.epsilon SF.epsilon 0 := by
  have e : arriveAll (SF.empty_controls.map seg) p = p := by
    have := drivesAll_zero (SF.empty_controls.map seg) p (by simp [SF.empty_controls, seg, totalLength])
    exact (drivesAll_iff.1 this).symm
  refine ⟨?_, by simp [SF.empty_controls, seg, totalLength]⟩
  rw [e]
  exact h.mono (by simp [pathTol, SF.empty_controls, seg, segTol]) le_rfl

/-- All types at once. -/
theorem PathOk.leads (h : PathOk k s R A SF.epsilon d cs p q len t) (hR : 0 ≤ R) :
    Leads (cs.map seg) p q len (SF.epsilon * (2 + 6 * R + 4 * totalLength (cs.map seg))) (3 * SF.epsilon)
      (SF.epsilon * (1 + 3 * R)) := by
  have he : (0:ℝ) < SF.epsilon := by norm_num [SF.epsilon]
  have hL := totalLength_nonneg (cs.map seg)
  have hRe := mul_nonneg he.le hR
  have hLe := mul_nonneg he.le hL
  unfold PathOk at h
  split at h
  · obtain ⟨rfl, h2, rfl⟩ := h
    refine (empty_leads h2).mono ?_ ?_ ?_ <;> linarith
  · refine h.2.1.mono ?_ ?_ ?_ <;> linarith
  · obtain ⟨h, _⟩ := h
    rcases t with _ | _ | _ | _ | _ | _ | t
    · contradiction
    · contradiction
    all_goals
      refine h.leads.mono ?_ ?_ ?_ <;> simp only [nTurns, cenErr] <;> push_cast <;> linarith

theorem PathOk.cont (h : PathOk k s R A SF.epsilon d cs p q len t) : CurvatureContinuous 0 (cs.map seg) 0 := by
  unfold PathOk at h
  split at h
  · obtain ⟨rfl, _⟩ := h
    simp [SF.empty_controls, seg, CurvatureContinuous]
  · obtain ⟨⟨x, rfl⟩, _⟩ := h
    simp [seg, CurvatureContinuous]
  · exact h.1.cont

theorem PathOk.flat (h : PathOk k s R A SF.epsilon d cs p q len t) :
    ∀ c ∈ cs, c.sigma = 0 → c.kappa = 0 ∨ |c.kappa| > SF.epsilon := by
  unfold PathOk at h
  split at h
  · obtain ⟨rfl, _⟩ := h
    intro c hc _
    rw [SF.empty_controls, List.mem_singleton] at hc
    rw [hc]; exact .inl rfl
  · obtain ⟨⟨x, rfl⟩, _⟩ := h
    intro c hc _
    rw [List.mem_singleton] at hc
    rw [hc]; exact .inl rfl
  · exact h.1.flat

theorem PathOk.limits (h : PathOk k s R A SF.epsilon d cs p q len t) (hk : 0 ≤ k) (hs : 0 ≤ s) (h2 : t ≠ 2)
    (h3 : t ≠ 3) : CurvatureAtMost (k * (1 + 1 / 10 ^ 8)) (cs.map seg) ∧
      SharpnessAtMost (s * (1 + 2 / 10 ^ 8)) (cs.map seg) := by
  have line : ∀ x, CurvatureAtMost (k * (1 + 1 / 10 ^ 8)) (([⟨x, 0, 0⟩] : List SF.Control).map seg) ∧
      SharpnessAtMost (s * (1 + 2 / 10 ^ 8)) (([⟨x, 0, 0⟩] : List SF.Control).map seg) := by
    intro x
    refine ⟨?_, ?_⟩
    · intro c hc t _ _
      simp only [List.map_cons, List.map_nil, List.mem_singleton, seg] at hc
      subst hc; simp only [zero_mul, add_zero, abs_zero]; positivity
    · intro c hc
      simp only [List.map_cons, List.map_nil, List.mem_singleton, seg] at hc
      subst hc; simp only [abs_zero]; positivity
  unfold PathOk at h
  split at h
  · obtain ⟨rfl, _⟩ := h
    exact line 0
  · obtain ⟨⟨x, rfl⟩, _⟩ := h
    exact line x
  · refine h.1.limits ?_
    unfold cenErr
    split
    · contradiction
    · contradiction
    · rfl

theorem PathOk.oneWay (h : PathOk k s R A SF.epsilon d cs p q len t) (hR : 0 ≤ R) (hA : SF.epsilon * (1 + R) ≤ A) :
    OneWay d cs := by
  have he : (0:ℝ) < SF.epsilon := by norm_num [SF.epsilon]
  have hRe := mul_nonneg he.le hR
  unfold PathOk at h
  split at h
  · obtain ⟨rfl, _⟩ := h
    intro c hc
    rw [SF.empty_controls, List.mem_singleton] at hc
    rw [hc, mul_zero]
  · exact h.2.2
  · refine h.2 (le_trans ?_ hA)
    unfold cenErr
    split <;> linarith

end

theorem cc_turn_ne_nil (c : SF.Circle) (q : SF.Configuration) (order : Bool) :
    SF.cc_turn_controls c q order ≠ [] := by
  have hdef : SF.cc_default_controls c (c.deflection q) order ≠ [] := by simp [SF.cc_default_controls]
  unfold SF.cc_turn_controls
  simp only
  split_ifs with h1 h2 h3
  · simp [SF.straight_controls]
  · simp [SF.straight_controls]
  · rcases hel : SF.cc_elementary_controls c q (c.deflection q) order with _ | el
    · exact hdef
    · dsimp only
      split_ifs
      · unfold SF.cc_elementary_controls at hel
        split at hel
        · cases hel; simp
        · cases hel
      · exact hdef
  · exact hdef

theorem controls_ne_nil {p : SF.CCPath} {cs : List SF.Control} (h : path_controls p = some cs)
    (ht : p.type ≤ 5) : cs ≠ [] := by
  have T := cc_turn_ne_nil
  unfold path_controls at h
  split at h
  · cases h; simp [SF.empty_controls]
  · cases h; simp [SF.straight_controls]
  · obtain ⟨c, _, rfl⟩ := Option.map_eq_some_iff.1 h
    exact T _ _ _
  · simp only [Option.bind_eq_some_iff, Option.map_eq_some_iff] at h
    obtain ⟨c, _, q, _, c', _, rfl⟩ := h
    simp [T]
  · simp only [Option.bind_eq_some_iff, Option.map_eq_some_iff] at h
    obtain ⟨c, _, q, _, q', _, c', _, rfl⟩ := h
    simp [T]
  · simp only [Option.bind_eq_some_iff, Option.map_eq_some_iff] at h
    obtain ⟨c, _, q, _, q', _, c', _, c'', _, rfl⟩ := h
    simp [T]
  · rename_i n0 n1 n2 n3 n4 n5
    interval_cases p.type <;> contradiction

theorem found_type {sp : SF.HCSpace} {m : SF.Scratch} {c1 c2 : SF.Circle} {t : ℕ} {r : SF.Row}
    (h : Found sp m c1 c2 t r) : t ≤ 5 := by cases h <;> norm_num

/-- Without turns replaced by lines the length is exact. -/
theorem found_length {sp : SF.HCSpace} {m : SF.Scratch} {c1 c2 : SF.Circle} {t : ℕ} {r : SF.Row}
    (h : Found sp m c1 c2 t r) {cs : List SF.Control}
    (hc : path_controls ⟨c1.start, c2.start, t, r⟩ = some cs)
    (hb : ∀ x ∈ turns t r c2.start, SF.epsilon ≤ SF.Circle.deflection x.1 x.2) :
    totalLength (cs.map seg) = r.length := by
  have hsym : SF.configuration_distance c2.start c1.start = SF.configuration_distance c1.start c2.start := by
    rw [configuration_distance_eq, configuration_distance_eq, norm_sub_rev]
  cases h with
  | E h => cases hc; simp [SF.empty_controls, totalLength, seg]
  | S h hfw => cases hc; exact straight_length _ _
  | Sb h hfw => cases hc; rw [straight_length]; exact hsym.symm
  | T h =>
    cases hc
    exact cc_turn_length_eq c1 c2.start true (hb (c1, c2.start) (by simp [turns]))
  | TT h =>
    cases hc
    rw [List.map_append, totalLength_append, cc_turn_length_eq c1 _ true (hb (c1, _) (by simp [turns])),
      cc_turn_length_eq c2 _ false (hb (c2, _) (by simp [turns]))]
    rfl
  | TiST h =>
    cases hc
    rw [List.map_append, List.map_append, totalLength_append, totalLength_append, straight_length,
      cc_turn_length_eq c1 _ true (hb (c1, _) (by simp [turns])),
      cc_turn_length_eq c2 _ false (hb (c2, _) (by simp [turns]))]
    rfl
  | TeST h =>
    cases hc
    rw [List.map_append, List.map_append, totalLength_append, totalLength_append, straight_length,
      cc_turn_length_eq c1 _ true (hb (c1, _) (by simp [turns])),
      cc_turn_length_eq c2 _ false (hb (c2, _) (by simp [turns]))]
    rfl
  | TTT h =>
    cases hc
    rw [List.map_append, List.map_append, totalLength_append, totalLength_append,
      cc_turn_length_eq c1 _ true (hb (c1, _) (by simp [turns])),
      cc_turn_length_eq _ _ true (hb (_, _) (by simp [turns])),
      cc_turn_length_eq c2 _ false (hb (c2, _) (by simp [turns]))]
    unfold TTT_path
    simp only
    split_ifs <;> rfl

/-- The planner. -/
theorem plan {sp : SF.HCSpace} (h : InRange sp.kappa sp.sigma) (s1 s2 : SF.State) (hfar : dist2 s1 s2 ≤ 10 ^ 100)
    {tau : ℝ} (htau : 0 ≤ tau)
    (ht : ∀ x ∈ turns (cc00_dubins sp s1 s2).type (cc00_dubins sp s1 s2).row (startOf s2), tiny x.1 x.2 ≤ tau) :
    ∃ cs, get_controls sp s1 s2 = some cs ∧
      PathOk sp.kappa sp.sigma sp.param.radius (ccA sp.kappa sp.sigma) tau (sg sp.forwards) cs
        (cfg (startOf s1)) (cfg (startOf s2)) (get_distance sp s1 s2) (cc00_dubins sp s1 s2).type ∧ cs ≠ [] ∧
      ((∀ x ∈ turns (cc00_dubins sp s1 s2).type (cc00_dubins sp s1 s2).row (startOf s2),
        SF.epsilon ≤ SF.Circle.deflection x.1 x.2) → totalLength (cs.map seg) = get_distance sp s1 s2) := by
  obtain ⟨i, j, t, r, hi, hj, he, hF⟩ := selected s1 s2 h.kappa h.sigma h.clothoid h.finite hfar
  rw [he] at ht
  obtain ⟨cs, hcs, hok⟩ := found_ok h.kappa h.sigma h.clothoid (start_circle_ok h.kappa h.sigma h.clothoid (startOf s1) i)
    (end_circle_ok h.kappa h.sigma h.clothoid (startOf s2) j) rfl rfl rfl rfl hF htau ht
  refine ⟨cs, ?_, ?_, ?_, fun hb => ?_⟩
  · rw [get_controls, he]; exact hcs
  · rw [get_distance, he]; exact hok
  · exact controls_ne_nil hcs (found_type hF)
  · rw [he] at hb
    rw [get_distance, he]
    exact found_length hF hcs hb

theorem radius_le' {sp : SF.HCSpace} (h : InRange sp.kappa sp.sigma) :
    sp.param.radius ≤ radiusBound sp.kappa sp.sigma := by
  have := radius_le h.kappa h.sigma h.clothoid
  rwa [← (hc_param_ok h.kappa h.sigma h.clothoid).radius] at this

theorem radius_nonneg {sp : SF.HCSpace} (h : InRange sp.kappa sp.sigma) : 0 ≤ sp.param.radius := by
  have : sp.param.radius = _ := (hc_param_ok h.kappa h.sigma h.clothoid).radius
  rw [this]; positivity

end Spec.CC00
