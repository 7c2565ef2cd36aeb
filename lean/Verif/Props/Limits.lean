import Verif.Lemmas.LimitsWitnessRs
import Verif.Lemmas.HcWide
import Verif.Props.CcReedsShepp
import Verif.Props.HcReedsSheppAll
import Verif.Props.CcDubinsPm
import Verif.Props.CcDubinsAll
import Verif.Lemmas.PmLimits

/-!
# Limits of curvature and sharpness: paths of one and two turns

The planners accept a goal as lying on a turn circle if position and heading fit within 1e-4, and then fit an elementary path
(two clothoids) to the actual goal.  For wide circles (radius 1000, sharpness 1/125) and headings that differ by little more
than the tolerance, the fitted clothoids are far sharper than allowed.
-/

noncomputable section

namespace Props

open SF Spec Real

/-- Both limits are exceeded by an elementary path of sharpness `s0`. -/
theorem elementary_exceeds {k s s0 L : ℝ} (h1 : 2 * s < s0) (h2 : 3 / 2 * k < s0 * L) :
    ¬ CurvatureAtMost (3 / 2 * k) (([⟨L, 0, s0⟩, ⟨L, s0 * L, -s0⟩] : List Control).map seg) ∧
    ¬ SharpnessAtMost (2 * s) (([⟨L, 0, s0⟩, ⟨L, s0 * L, -s0⟩] : List Control).map seg) := by
  constructor
  · intro h
    have := h (seg ⟨L, s0 * L, -s0⟩) (by simp) 0 le_rfl (abs_nonneg _)
    simp only [seg, mul_zero, add_zero] at this
    linarith [le_abs_self (s0 * L)]
  · intro h
    have := h (seg ⟨L, 0, s0⟩) (by simp)
    simp only [seg] at this
    linarith [le_abs_self s0]

theorem wide_near : dist2 Spec.CC00.wideStart Spec.CC00.wideGoal ≤ 10 ^ 100 := by
  have := Spec.CC00.wide_dist.2
  refine le_trans (b := 15032 / 100000) ?_ (by norm_num)
  exact this

/-- **C51 fails.** CC00-Dubins returns controls with one and a half times the maximum curvature and twice the maximum sharpness
(`kappa = 1/1000`, `sigma = 1/125`, goal at distance 0.15 with heading 1.2e-4). -/
theorem C51_cc00_limits_false :
    ∃ (sp : HCSpace) (s1 s2 : State) (cs : List Control), InRange sp.kappa sp.sigma ∧ dist2 s1 s2 ≤ 10 ^ 100 ∧
      CC00.get_controls sp s1 s2 = some cs ∧
      ¬ CurvatureAtMost (3 / 2 * sp.kappa) (cs.map seg) ∧ ¬ SharpnessAtMost (2 * sp.sigma) (cs.map seg) := by
  obtain ⟨s0, L, hc, h1, h2⟩ := Spec.CC00.wide_found (sp := ⟨1 / 1000, 1 / 125, 1 / 10, true⟩) rfl rfl rfl
  exact ⟨_, _, _, _, Spec.wide_range, wide_near, hc, elementary_exceeds h1 h2⟩

/-- **C87 fails.** The same for CC00-Reeds-Shepp. -/
theorem C87_cc00_rs_limits_false :
    ∃ (sp : HCSpace) (s1 s2 : State) (cs : List Control), InRange sp.kappa sp.sigma ∧ dist2 s1 s2 ≤ 10 ^ 100 ∧
      CcRs.get_controls sp s1 s2 = some cs ∧
      ¬ CurvatureAtMost (3 / 2 * sp.kappa) (cs.map seg) ∧ ¬ SharpnessAtMost (2 * sp.sigma) (cs.map seg) := by
  obtain ⟨s0, L, hc, h1, h2⟩ := Spec.CcRs.wide_found (sp := ⟨1 / 1000, 1 / 125, 1 / 10, true⟩) rfl rfl
  exact ⟨_, _, _, _, Spec.wide_range, wide_near, hc, elementary_exceeds h1 h2⟩

/-- **C74 fails.** The same for HC00-Reeds-Shepp. -/
theorem C74_hc00_limits_false :
    ∃ (sp : HCSpace) (s1 s2 : State) (cs : List Control), InRange sp.kappa sp.sigma ∧ dist2 s1 s2 ≤ 10 ^ 100 ∧
      SF.HcRs.get_controls false false sp s1 s2 = some cs ∧
      ¬ CurvatureAtMost (3 / 2 * sp.kappa) (cs.map seg) ∧ ¬ SharpnessAtMost (2 * sp.sigma) (cs.map seg) := by
  obtain ⟨s0, L, hc, h1, h2⟩ := Spec.HcRs.wide_found (sp := ⟨1 / 1000, 1 / 125, 1 / 10, true⟩) rfl rfl
  exact ⟨_, _, _, _, Spec.wide_range, wide_near, hc, elementary_exceeds h1 h2⟩

theorem wide_apart : ¬ SF.state_equal Spec.CC00.wideStart Spec.CC00.wideGoal := by
  unfold SF.state_equal
  split_ifs with g1 g2 g3
  · exact id
  · exact id
  · exact id
  · have := Spec.CC00.wide_dist.1
    change 12 / 100 ≤ SF.point_distance Spec.CC00.wideStart.x Spec.CC00.wideStart.y Spec.CC00.wideGoal.x Spec.CC00.wideGoal.y at this
    norm_num [SF.epsilon] at g3
    linarith

theorem wide_reach : InReach ⟨1 / 1000, 1 / 125, 1 / 10, true⟩ Spec.CC00.wideStart Spec.CC00.wideGoal := by
  have := Spec.CC00.wide_dist.2
  change dist2 Spec.CC00.wideStart Spec.CC00.wideGoal ≤ _ at this
  unfold InReach
  refine le_trans (add_le_add_left this _) ?_
  norm_num

/-- **C80 fails.** The same for HC-Reeds-Shepp for arbitrary curvatures, which for states without curvature calls HC00-Reeds-Shepp: some
controls are a possible result, and all possible results exceed the limits. -/
theorem C80_hcrs_limits_false (junk : ℝ) :
    ∃ (sp : HCSpace) (s1 s2 : State), InRange sp.kappa sp.sigma ∧ InReach sp s1 s2 ∧ s1.kappa = 0 ∧ s2.kappa = 0 ∧
      (∃ cs, SF.HC.IsControls sp junk s1 s2 cs) ∧ ∀ cs, SF.HC.IsControls sp junk s1 s2 cs →
      ¬ CurvatureAtMost (3 / 2 * sp.kappa) (cs.map seg) ∧ ¬ SharpnessAtMost (2 * sp.sigma) (cs.map seg) := by
  obtain ⟨s0, L, hc, h1, h2⟩ := Spec.HcRs.wide_found (sp := ⟨1 / 1000, 1 / 125, 1 / 10, true⟩) rfl rfl
  have he : |(0:ℝ)| < SF.epsilon := by norm_num [SF.epsilon]
  have hl : ∃ len, (SF.HC.distance_planners ⟨1 / 1000, 1 / 125, 1 / 10, true⟩).call Spec.CC00.wideStart Spec.CC00.wideGoal = some len := by
    unfold SF.SubPlanners.call
    rw [if_pos (show |Spec.CC00.wideStart.kappa| < _ from he), if_pos (show |Spec.CC00.wideGoal.kappa| < _ from he)]
    unfold SF.HcRs.get_controls at hc
    change ∃ len, SF.HcRs.get_distance false false _ _ _ = some len
    unfold SF.HcRs.get_distance
    rcases hp : SF.HcRs.reeds_shepp false false ⟨1 / 1000, 1 / 125, 1 / 10, true⟩ Spec.CC00.wideStart Spec.CC00.wideGoal with _ | p
    · rw [hp] at hc; exact absurd hc (by simp)
    · exact ⟨_, rfl⟩
  obtain ⟨len, hl⟩ := hl
  obtain ⟨hcs, -⟩ := Spec.HC.single (sp := ⟨1 / 1000, 1 / 125, 1 / 10, true⟩) (junk := junk) (.inl he) (.inl he) wide_apart
    (cs := [⟨L, 0, s0⟩, ⟨L, s0 * L, -s0⟩]) (by unfold SF.SubPlanners.call; rw [if_pos (show |Spec.CC00.wideStart.kappa| < _ from he), if_pos (show |Spec.CC00.wideGoal.kappa| < _ from he)]; exact hc) hl
  refine ⟨_, _, _, Spec.wide_range, wide_reach, rfl, rfl, ⟨_, (hcs _).2 rfl⟩, fun cs h => ?_⟩
  rw [(hcs cs).1 h]
  exact elementary_exceeds h1 h2

/-! ## C57, limits -/

variable {sp : HCSpace} {junk : ℝ}

/-- **C57, limits of CCpmpm.** The controls never exceed the limits, up to the relative error of the Fresnel integrals. -/
theorem C57_ccpmpm_limits (h : InRange sp.kappa sp.sigma) (s1 s2 : State) (hfar : dist2 s1 s2 ≤ 10 ^ 100) :
    ∃ cs, SF.CCpmpm.get_controls sp s1 s2 = some cs ∧ CurvatureAtMost (sp.kappa * (1 + 1 / 10 ^ 8)) (cs.map seg) ∧
      SharpnessAtMost (sp.sigma * (1 + 2 / 10 ^ 8)) (cs.map seg) :=
  Spec.CCpmpm.limits h s1 s2 hfar

/-- **C57, limits of CC0pm (partial).** Unless the path consists of two turns. -/
theorem C57_cc0pm_limits_partial (h : InRange sp.kappa sp.sigma) (s1 s2 : State) (hfar : dist2 s1 s2 ≤ 10 ^ 100)
    {p : CCPath} (hp : SF.CC0pm.cc0pm_dubins sp s1 s2 = some p) (hTT : p.type ≠ cc_dubins.TT) :
    ∃ cs, SF.CC0pm.get_controls sp s1 s2 = some cs ∧ CurvatureAtMost (sp.kappa * (1 + 1 / 10 ^ 8)) (cs.map seg) ∧
      SharpnessAtMost (sp.sigma * (1 + 2 / 10 ^ 8)) (cs.map seg) :=
  Spec.CC0pm.limits h s1 s2 hfar hp hTT

/-- **C57, limits of CCpm0 (partial).** Unless the path consists of two turns. -/
theorem C57_ccpm0_limits_partial (h : InRange sp.kappa sp.sigma) (s1 s2 : State) (hfar : dist2 s1 s2 ≤ 10 ^ 100)
    {p : CCPath} (hp : SF.CCpm0.ccpm0_dubins sp s1 s2 = some p) (hTT : p.type ≠ cc_dubins.TT) :
    ∃ cs, SF.CCpm0.get_controls sp s1 s2 = some cs ∧ CurvatureAtMost (sp.kappa * (1 + 1 / 10 ^ 8)) (cs.map seg) ∧
      SharpnessAtMost (sp.sigma * (1 + 2 / 10 ^ 8)) (cs.map seg) :=
  Spec.CCpm0.limits h s1 s2 hfar hp hTT

/-- A single turn of CC0pm, to which the theorem applies. -/
example : InRange Spec.CC0pm.wsp.kappa Spec.CC0pm.wsp.sigma ∧ dist2 Spec.CC0pm.ws1 Spec.CC0pm.ws2 ≤ 10 ^ 100 ∧
    ∃ p, SF.CC0pm.cc0pm_dubins Spec.CC0pm.wsp Spec.CC0pm.ws1 Spec.CC0pm.ws2 = some p ∧ p.type ≠ cc_dubins.TT :=
  ⟨Spec.CC0pm.wrng, Spec.HcRs.w_far.2.1, _, Spec.CC0pm.w_plan, by decide⟩

/-! ## C102 -/

/-- **C102 (partial).** For states that are far apart and respect the limit `kappa`, curvature and sharpness of every possible result of
CC-Dubins respect the limits up to the relative error of the Fresnel integrals. -/
theorem C102_cc_limits_far_partial (h : InRange sp.kappa sp.sigma) (s1 s2 : State) (hr : InReach sp s1 s2)
    (hf : HcFarApart sp s1 s2) (h1 : |s1.kappa| ≤ sp.kappa) (h2 : |s2.kappa| ≤ sp.kappa) {cs : List Control}
    (hcs : SF.CC.IsControls sp junk s1 s2 cs) :
    CurvatureAtMost (sp.kappa * (1 + 1 / 10 ^ 8)) (cs.map seg) ∧ SharpnessAtMost (sp.sigma * (1 + 2 / 10 ^ 8)) (cs.map seg) :=
  Spec.CC.far_limits h junk s1 s2 hr hf.far h1 h2 hcs

/-- States far apart, inside the range of validity. -/
example : HcFarApart ⟨1, 1, 1, true⟩ ⟨0, 0, 0, 1 / 2, 0⟩ ⟨100, 0, 0, -1 / 3, 0⟩ ∧
    InReach ⟨1, 1, 1, true⟩ ⟨0, 0, 0, 1 / 2, 0⟩ ⟨100, 0, 0, -1 / 3, 0⟩ := by
  have : dist2 (⟨0, 0, 0, 1 / 2, 0⟩ : State) ⟨100, 0, 0, -1 / 3, 0⟩ = 100 := by
    rw [dist2, show ((100:ℝ) - 0) ^ 2 + (0 - 0) ^ 2 = 100 ^ 2 by norm_num, sqrt_sq (by norm_num)]
  unfold HcFarApart InReach
  rw [this]
  norm_num [radiusBound]

/-- **C102 fails** for states close to each other, as C51: CC-Dubins calls CC00-Dubins for states without curvature. -/
theorem C102_cc_limits_false (junk : ℝ) :
    ∃ (sp : HCSpace) (s1 s2 : State), InRange sp.kappa sp.sigma ∧ InReach sp s1 s2 ∧ s1.kappa = 0 ∧ s2.kappa = 0 ∧
      (∃ cs, SF.CC.IsControls sp junk s1 s2 cs) ∧ ∀ cs, SF.CC.IsControls sp junk s1 s2 cs →
      ¬ CurvatureAtMost (3 / 2 * sp.kappa) (cs.map seg) ∧ ¬ SharpnessAtMost (2 * sp.sigma) (cs.map seg) := by
  obtain ⟨s0, L, hc, h1, h2⟩ := Spec.CC00.wide_found (sp := ⟨1 / 1000, 1 / 125, 1 / 10, true⟩) rfl rfl rfl
  have he : |(0:ℝ)| < SF.epsilon := by norm_num [SF.epsilon]
  obtain ⟨hcs, -⟩ := Spec.CC.single (sp := ⟨1 / 1000, 1 / 125, 1 / 10, true⟩) (junk := junk) (.inl he) (.inl he) wide_apart
    (cs := [⟨L, 0, s0⟩, ⟨L, s0 * L, -s0⟩])
    (by unfold SF.SubPlanners.call; rw [if_pos (show |Spec.CC00.wideStart.kappa| < _ from he), if_pos (show |Spec.CC00.wideGoal.kappa| < _ from he)]; exact hc)
    (by unfold SF.SubPlanners.call; rw [if_pos (show |Spec.CC00.wideStart.kappa| < _ from he), if_pos (show |Spec.CC00.wideGoal.kappa| < _ from he)]; rfl)
  refine ⟨_, _, _, Spec.wide_range, wide_reach, rfl, rfl, ⟨_, (hcs _).2 rfl⟩, fun cs h => ?_⟩
  rw [(hcs cs).1 h]
  exact elementary_exceeds h1 h2

/-! ## C35 -/

/-- **C35 fails** for targets that lie on the circle only up to the tolerance of `configuration_on_hc_cc_circle`, the test by which the
planners choose a single turn: the CC turn exceeds the curvature by half and the sharpness by a factor of two. -/
theorem C35_cc_turn_false : ∃ (k s : ℝ) (start q : Configuration), InRange k s ∧
    SF.configuration_on_hc_cc_circle (SF.circleAt start true true true (SF.hc_cc_circle_param k s)) q ∧
    ¬ CurvatureAtMost (3 / 2 * k)
      ((SF.cc_turn_controls (SF.circleAt start true true true (SF.hc_cc_circle_param k s)) q true).map seg) ∧
    ¬ SharpnessAtMost (2 * s)
      ((SF.cc_turn_controls (SF.circleAt start true true true (SF.hc_cc_circle_param k s)) q true).map seg) := by
  have h : Spec.CC00.CircOk (SF.circleAt (Spec.CC00.startOf Spec.CC00.wideStart) true true true (SF.hc_cc_circle_param (1 / 1000) (1 / 125)))
      (1 / 1000) (1 / 125) :=
    Spec.CC00.circOk_at Spec.wide_range.kappa Spec.wide_range.sigma Spec.wide_range.clothoid _ _ _ _
  obtain ⟨-, s0, L, hc, h1, h2⟩ := Spec.CC00.wide_controls h rfl rfl rfl
  refine ⟨_, _, _, _, Spec.wide_range, Spec.CC00.wide_on h rfl rfl rfl, ?_⟩
  rw [hc]
  exact elementary_exceeds h1 h2

end Props
