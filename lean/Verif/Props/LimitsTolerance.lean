import Verif.Spec.LimitsTolerance
import Verif.Lemmas.LimitsFactor
import Verif.Props.HcReedsSheppAll
import Verif.Props.CcDubinsAll

/-!
# C126: all paths respect the limits up to the resolution of the library

The limits are exceeded by paths of one or two turns (C51, C57, C74, C80, C87, C102), because the goal of such a path is accepted within
1e-4. Here is by how much: with `r` the error relative to the size of the clothoids, by the factor `1 + 2 r` for the curvature and
`(1 + 2 r) ^ 2` for the sharpness, whatever the states.
-/

noncomputable section

namespace Props

open Real SF Spec

variable {sp : HCSpace} {junk : ℝ}

theorem ratio_slack (h : InRange sp.kappa sp.sigma) (hc : CoarseEnough sp.kappa sp.sigma (toleranceRatio sp.kappa sp.sigma)) :
    Spec.Slack sp.kappa sp.sigma (SF.epsilon * (1 + radiusBound sp.kappa sp.sigma)) (1 + 2 * toleranceRatio sp.kappa sp.sigma) := by
  have H := h.rng
  have hA := Spec.clothoidBound_pos H
  have hR := H.radius_nonneg
  refine Spec.slack_of H hc.turn (by unfold toleranceRatio; positivity) hc.small ?_
  rw [toleranceRatio, div_mul_cancel₀ _ hA.ne']
  norm_num [SF.epsilon]

theorem cusp_slack (h : InRange sp.kappa sp.sigma) (hc : CoarseEnough sp.kappa sp.sigma (cuspRatio sp.kappa sp.sigma)) :
    Spec.Slack sp.kappa sp.sigma (SF.epsilon * missBound sp.kappa sp.sigma) (1 + 2 * cuspRatio sp.kappa sp.sigma) := by
  have H := h.rng
  have hA := Spec.clothoidBound_pos H
  have hR := H.radius_nonneg
  have hM : 0 ≤ missBound sp.kappa sp.sigma := by unfold missBound; positivity
  refine Spec.slack_of H hc.turn (by unfold cuspRatio; positivity) hc.small ?_
  rw [cuspRatio, div_mul_cancel₀ _ hA.ne']
  norm_num [SF.epsilon]

/-- **C126, CC00-Dubins.** -/
theorem C126_cc00_limits (h : InRange sp.kappa sp.sigma) (s1 s2 : State) (hfar : dist2 s1 s2 ≤ 10 ^ 100)
    (hc : CoarseEnough sp.kappa sp.sigma (toleranceRatio sp.kappa sp.sigma)) :
    ∃ cs, SF.CC00.get_controls sp s1 s2 = some cs ∧
      CurvatureAtMost ((1 + 2 * toleranceRatio sp.kappa sp.sigma) * (sp.kappa * (1 + 1 / 10 ^ 8))) (cs.map seg) ∧
      SharpnessAtMost ((1 + 2 * toleranceRatio sp.kappa sp.sigma) ^ 2 * (sp.sigma * (1 + 2 / 10 ^ 8))) (cs.map seg) :=
  Spec.CC00.limits_factor h s1 s2 hfar (ratio_slack h hc)

/-- **C126, CC0pm-Dubins.** -/
theorem C126_cc0pm_limits (h : InRange sp.kappa sp.sigma) (s1 s2 : State) (hfar : dist2 s1 s2 ≤ 10 ^ 100)
    (hc : CoarseEnough sp.kappa sp.sigma (toleranceRatio sp.kappa sp.sigma)) :
    ∃ cs, SF.CC0pm.get_controls sp s1 s2 = some cs ∧
      CurvatureAtMost ((1 + 2 * toleranceRatio sp.kappa sp.sigma) * (sp.kappa * (1 + 1 / 10 ^ 8))) (cs.map seg) ∧
      SharpnessAtMost ((1 + 2 * toleranceRatio sp.kappa sp.sigma) ^ 2 * (sp.sigma * (1 + 2 / 10 ^ 8))) (cs.map seg) :=
  Spec.CC0pm.limits_factor h s1 s2 hfar (Spec.slack_inv h.rng (ratio_slack h hc))

/-- **C126, CCpm0-Dubins.** -/
theorem C126_ccpm0_limits (h : InRange sp.kappa sp.sigma) (s1 s2 : State) (hfar : dist2 s1 s2 ≤ 10 ^ 100)
    (hc : CoarseEnough sp.kappa sp.sigma (toleranceRatio sp.kappa sp.sigma)) :
    ∃ cs, SF.CCpm0.get_controls sp s1 s2 = some cs ∧
      CurvatureAtMost ((1 + 2 * toleranceRatio sp.kappa sp.sigma) * (sp.kappa * (1 + 1 / 10 ^ 8))) (cs.map seg) ∧
      SharpnessAtMost ((1 + 2 * toleranceRatio sp.kappa sp.sigma) ^ 2 * (sp.sigma * (1 + 2 / 10 ^ 8))) (cs.map seg) :=
  Spec.CCpm0.limits_factor h s1 s2 hfar (Spec.slack_inv h.rng (ratio_slack h hc))

/-- **C126, CC-Dubins, states apart.** For states not so close that a start and an end of the predictions coincide. -/
theorem C126_cc_limits_apart (h : InRange sp.kappa sp.sigma) (s1 s2 : State) (hr : InReach sp s1 s2)
    (hf : 4 * (sp.kappa / sp.sigma) + 1 / 5000 ≤ dist2 s1 s2) (h1 : |s1.kappa| ≤ sp.kappa) (h2 : |s2.kappa| ≤ sp.kappa)
    (hc : CoarseEnough sp.kappa sp.sigma (toleranceRatio sp.kappa sp.sigma)) {cs : List Control}
    (hcs : SF.CC.IsControls sp junk s1 s2 cs) :
    CurvatureAtMost ((1 + 2 * toleranceRatio sp.kappa sp.sigma) * (sp.kappa * (1 + 1 / 10 ^ 8))) (cs.map seg) ∧
      SharpnessAtMost ((1 + 2 * toleranceRatio sp.kappa sp.sigma) ^ 2 * (sp.sigma * (1 + 2 / 10 ^ 8))) (cs.map seg) :=
  Spec.CC.factor h junk s1 s2 hr (by norm_num [SF.epsilon] at hf ⊢; linarith) h1 h2 (ratio_slack h hc) hcs

/-- **C126, CC-Dubins.** For states of curvature at most `kappa`, if the assertions hold (C41): predicted states that coincide up to 1e-4 may
cost another 1e-4 of curvature. -/
theorem C126_cc_limits (h : InRange sp.kappa sp.sigma) (s1 s2 : State) (hr : InReach sp s1 s2)
    (hA : SF.CC.Asserts sp junk s1 s2) (h1 : |s1.kappa| ≤ sp.kappa) (h2 : |s2.kappa| ≤ sp.kappa)
    (hc : CoarseEnough sp.kappa sp.sigma (toleranceRatio sp.kappa sp.sigma)) {cs : List Control}
    (hcs : SF.CC.IsControls sp junk s1 s2 cs) :
    CurvatureAtMost ((1 + 2 * toleranceRatio sp.kappa sp.sigma) * (sp.kappa * (1 + 1 / 10 ^ 8)) + 1 / 10000) (cs.map seg) ∧
      SharpnessAtMost ((1 + 2 * toleranceRatio sp.kappa sp.sigma) ^ 2 * (sp.sigma * (1 + 2 / 10 ^ 8))) (cs.map seg) := by
  have := Spec.CC.factor_near h junk s1 s2 hr hA h1 h2 (ratio_slack h hc) hcs
  rwa [SF.epsilon] at this

/-- **C126, HC00-, HC0pm-, HCpm0- and HCpmpm-Reeds-Shepp.** -/
theorem C126_hc_limits (pm1 pm2 : Bool) (h : InRange sp.kappa sp.sigma) (s1 s2 : State) (hfar : dist2 s1 s2 ≤ 10 ^ 100)
    (hc : CoarseEnough sp.kappa sp.sigma (toleranceRatio sp.kappa sp.sigma)) :
    ∃ cs, SF.HcRs.get_controls pm1 pm2 sp s1 s2 = some cs ∧
      CurvatureAtMost ((1 + 2 * toleranceRatio sp.kappa sp.sigma) * (sp.kappa * (1 + 1 / 10 ^ 8))) (cs.map seg) ∧
        SharpnessAtMost ((1 + 2 * toleranceRatio sp.kappa sp.sigma) ^ 2 * (sp.sigma * (1 + 2 / 10 ^ 8))) (cs.map seg) :=
  Spec.HC.one_factor h pm1 pm2 s1 s2 hfar (ratio_slack h hc)

/-- **C126, HC-Reeds-Shepp (partial).** For states not so close that a start and an end of the predictions coincide. -/
theorem C126_hcrs_limits_partial (h : InRange sp.kappa sp.sigma) (s1 s2 : State) (hr : InReach sp s1 s2)
    (hf : 4 * (sp.kappa / sp.sigma) + 1 / 5000 ≤ dist2 s1 s2) (h1 : |s1.kappa| ≤ sp.kappa) (h2 : |s2.kappa| ≤ sp.kappa)
    (hc : CoarseEnough sp.kappa sp.sigma (toleranceRatio sp.kappa sp.sigma)) {cs : List Control}
    (hcs : SF.HC.IsControls sp junk s1 s2 cs) :
    CurvatureAtMost ((1 + 2 * toleranceRatio sp.kappa sp.sigma) * (sp.kappa * (1 + 1 / 10 ^ 8))) (cs.map seg) ∧
      SharpnessAtMost ((1 + 2 * toleranceRatio sp.kappa sp.sigma) ^ 2 * (sp.sigma * (1 + 2 / 10 ^ 8))) (cs.map seg) :=
  Spec.HC.factor h junk s1 s2 hr (by norm_num [SF.epsilon] at hf ⊢; linarith) h1 h2 (ratio_slack h hc) hcs

/-- **C126, HC-Reeds-Shepp, near states (partial).** If coinciding predicted states can be joined (C82). -/
theorem C126_hcrs_limits_near_partial (h : InRange sp.kappa sp.sigma) (s1 s2 : State) (hr : InReach sp s1 s2)
    (hA : HC.AllJoinable sp junk s1 s2) (h1 : |s1.kappa| ≤ sp.kappa) (h2 : |s2.kappa| ≤ sp.kappa)
    (hc : CoarseEnough sp.kappa sp.sigma (toleranceRatio sp.kappa sp.sigma)) {cs : List Control}
    (hcs : SF.HC.IsControls sp junk s1 s2 cs) :
    CurvatureAtMost ((1 + 2 * toleranceRatio sp.kappa sp.sigma) * (sp.kappa * (1 + 1 / 10 ^ 8)) + 1 / 10000) (cs.map seg) ∧
      SharpnessAtMost ((1 + 2 * toleranceRatio sp.kappa sp.sigma) ^ 2 * (sp.sigma * (1 + 2 / 10 ^ 8))) (cs.map seg) := by
  have := Spec.HC.factor_near h junk s1 s2 hr hA h1 h2 (ratio_slack h hc) hcs
  rwa [SF.epsilon] at this

/-- **C126, CC00-Reeds-Shepp.** Whenever there are controls at all (see C83). -/
theorem C126_cc00_rs_limits (h : InRange sp.kappa sp.sigma) (s1 s2 : State) (hfar : dist2 s1 s2 ≤ 10 ^ 100)
    (hc : CoarseEnough sp.kappa sp.sigma (cuspRatio sp.kappa sp.sigma)) {cs : List Control}
    (hcs : SF.CcRs.get_controls sp s1 s2 = some cs) :
    CurvatureAtMost ((1 + 2 * cuspRatio sp.kappa sp.sigma) * (sp.kappa * (1 + 1 / 10 ^ 8))) (cs.map seg) ∧
      SharpnessAtMost ((1 + 2 * cuspRatio sp.kappa sp.sigma) ^ 2 * (sp.sigma * (1 + 2 / 10 ^ 8))) (cs.map seg) := by
  rcases Spec.CcRs.plan h s1 s2 hfar with ⟨hn, _⟩ | ⟨cs', hcs', hok⟩
  · rw [hn] at hcs; exact absurd hcs (by simp)
  · obtain rfl := Option.some.inj (hcs'.symm.trans hcs)
    exact hok.limitsUp h.rng.pos.le h.rng.sigma.le (cusp_slack h hc)

/-! ## The hypotheses hold for usual parameters -/

theorem ratio_one : toleranceRatio 1 1 = 3 / 250 ∧ cuspRatio 1 1 = 113 / 250 := by
  norm_num [toleranceRatio, cuspRatio, radiusBound, clothoidBound, missBound]

/-- `kappa = sigma = 1`: curvature up to 2.4 % and sharpness up to 5 % above the limits. -/
example : InRange 1 1 ∧ CoarseEnough 1 1 (toleranceRatio 1 1) ∧ CoarseEnough 1 1 (cuspRatio 1 1) := by
  refine ⟨?_, ⟨by norm_num, ?_⟩, ⟨by norm_num, ?_⟩⟩
  · exact ⟨by norm_num, by norm_num, by norm_num, by norm_num⟩
  · rw [ratio_one.1]; norm_num
  · rw [ratio_one.2]; norm_num

/-- States too close for C80 and C102, to which the theorems apply. -/
example : InReach ⟨1, 1, 1, true⟩ ⟨0, 0, 0, 1 / 2, 0⟩ ⟨15, 0, 0, -1 / 3, 0⟩ ∧
    4 * ((1:ℝ) / 1) + 1 / 5000 ≤ dist2 ⟨0, 0, 0, 1 / 2, 0⟩ ⟨15, 0, 0, -1 / 3, 0⟩ ∧
    ¬ HcFarApart ⟨1, 1, 1, true⟩ ⟨0, 0, 0, 1 / 2, 0⟩ ⟨15, 0, 0, -1 / 3, 0⟩ := by
  have hd : dist2 (⟨0, 0, 0, 1 / 2, 0⟩ : State) ⟨15, 0, 0, -1 / 3, 0⟩ = 15 := by
    rw [dist2, show ((15:ℝ) - 0) ^ 2 + (0 - 0) ^ 2 = 15 ^ 2 by norm_num, sqrt_sq (by norm_num)]
  exact ⟨by unfold InReach; rw [hd]; norm_num, by rw [hd]; norm_num, by unfold HcFarApart; rw [hd]; norm_num [radiusBound]⟩

/-- States near each other, to which the theorems for CC-Dubins and HC-Reeds-Shepp apply. -/
example : SF.CC.Asserts ⟨1, 1, 1, true⟩ junk ⟨0, 0, 0, 0, 0⟩ ⟨1, 0, 0, 1, 0⟩ ∧
    HC.AllJoinable ⟨1, 1, 1, true⟩ junk ⟨0, 0, 0, 0, 0⟩ ⟨1, 0, 0, 1, 0⟩ := by
  have hne : ¬ state_equal (⟨0, 0, 0, 0, 0⟩ : State) ⟨1, 0, 0, 1, 0⟩ := by
    intro he
    have := (Spec.state_equal_within he).2
    norm_num [SF.epsilon] at this
  constructor
  · intro a ha b hb he
    rw [SF.CC.start_states, SF.CC.predict_state, if_pos (by norm_num [SF.epsilon])] at ha
    rw [SF.CC.end_states, SF.CC.predict_state, if_pos (by norm_num [SF.epsilon])] at hb
    rw [List.mem_singleton.1 ha, List.mem_singleton.1 hb] at he
    exact absurd he hne
  · intro a ha b hb he
    rw [SF.HC.predict_state, if_pos (by norm_num [SF.epsilon])] at ha hb
    rw [List.mem_singleton.1 ha, List.mem_singleton.1 hb] at he
    exact absurd he hne

end Props
