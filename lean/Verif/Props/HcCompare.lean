import Verif.Lemmas.HcCompareAll
import Verif.Props.CcDubinsPm
import Verif.Props.CcOptimal

/-!
# Reversing never makes the path longer, with curvature at the ends
-/

noncomputable section

namespace Props

open SF Spec Real

variable {sp : HCSpace} {junk : ℝ} {s1 s2 : State}

/-! ## C124 -/

/-- **C124, HC0pm.** If CC0pm-Dubins finds a path, HC0pm-Reeds-Shepp finds one that is not longer, whatever the parameters. -/
theorem C124_hc0pm_le {d : ℝ} (hd : CC0pm.get_distance sp s1 s2 = some d) (hfin : d < dblMax) :
    ∃ y, HcRs.get_distance false true sp s1 s2 = some y ∧ y ≤ d := hc0pm_le hd hfin

/-- **C124, HCpm0.** The same for HCpm0-Reeds-Shepp and CCpm0-Dubins. -/
theorem C124_hcpm0_le {d : ℝ} (hd : CCpm0.get_distance sp s1 s2 = some d) (hfin : d < dblMax) :
    ∃ y, HcRs.get_distance true false sp s1 s2 = some y ∧ y ≤ d := hcpm0_le hd hfin

/-- **C124, HCpmpm (partial).** The same for HCpmpm-Reeds-Shepp and CCpmpm-Dubins, unless the path of the latter has four turns, a family
that HCpmpm-Reeds-Shepp does not have.  Missing: that case. -/
theorem C124_hcpmpm_le_partial {p : CCPath} (hp : CCpmpm.ccpmpm_dubins sp s1 s2 = some p) (h4 : p.type ≠ cc_dubins.TTTT)
    (hfin : p.length < dblMax) :
    CCpmpm.get_distance sp s1 s2 = some p.length ∧ ∃ y, HcRs.get_distance true true sp s1 s2 = some y ∧ y ≤ p.length :=
  ⟨by rw [CCpmpm.get_distance, hp]; rfl, hcpmpm_le hp hfin h4⟩

/-- **C124, HCpmpm, far states (partial).** States more than eight radii apart are never joined by four turns. -/
theorem C124_hcpmpm_le_far_partial (h : InRange sp.kappa sp.sigma) (hr : dist2 s1 s2 ≤ 10 ^ 100)
    (hfar : 8 * radiusBound sp.kappa sp.sigma < dist2 s1 s2) :
    ∃ x y, CCpmpm.get_distance sp s1 s2 = some x ∧ HcRs.get_distance true true sp s1 s2 = some y ∧ y ≤ x := by
  obtain ⟨x, _, hx, _, hfin, _⟩ := C56_ccpmpm_always h s1 s2 hr
  obtain ⟨p, hp, rfl⟩ := Option.map_eq_some_iff.1 hx
  obtain ⟨y, hy, hle⟩ := hcpmpm_le hp hfin fun h4 => absurd (four_near h.rng hp hfin h4) (not_le.2 hfar)
  exact ⟨_, y, hx, hy, hle⟩

/-- **C124, any curvature (partial).** HC-Reeds-Shepp returns a path that is not longer than that of CC-Dubins, for states of any curvature,
if after straightening the wheels the goal does not lie straight in the direction in which the Dubins space does not drive (see
C88), and if one curvature is zero or the states are more than eight radii and four clothoids apart.  Missing: the other
states, between which CCpmpm-Dubins may use four turns. -/
theorem C124_hc_le_cc_partial (h : InRange sp.kappa sp.sigma) (hr : InReach sp s1 s2)
    (hs : ∀ p1 p2, Straightened sp.kappa sp.sigma (drivingSign sp) s1 p1 →
      Straightened sp.kappa sp.sigma (-drivingSign sp) s2 p2 → ¬ StraightAgainst sp p1 p2)
    (h4 : |s1.kappa| < 1 / 10000 ∨ |s2.kappa| < 1 / 10000 ∨
      8 * radiusBound sp.kappa sp.sigma + 4 * (sp.kappa / sp.sigma) < dist2 s1 s2) :
    ∃ x y, CC.get_distance sp junk s1 s2 = some x ∧ HC.get_distance sp junk s1 s2 = some y ∧ y ≤ x := by
  refine hc_le_cc h hr (fun p1 p2 q1 q2 => hs p1 p2 q1 ?_) h4
  have : -drivingSign sp = if sp.forwards then -1 else 1 := by unfold drivingSign; cases sp.forwards <;> simp
  rw [this]; exact q2

/-! ### Cases to which C124 applies -/

theorem unit_range : InRange 1 1 := ⟨by norm_num, by norm_num, by norm_num, by norm_num⟩

theorem hundred_apart (k1 k2 t : ℝ) : dist2 ⟨0, 0, 0, k1, 0⟩ ⟨0, 100, t, k2, 0⟩ = 100 := by
  rw [dist2, show ((0:ℝ) - 0) ^ 2 + (100 - 0) ^ 2 = 100 ^ 2 by norm_num, sqrt_sq (by norm_num)]

/-- Goals beside the start, 100 m away: CC0pm, CCpm0 and CCpmpm find paths. -/
example : (∃ d, CC0pm.get_distance ⟨1, 1, 1, true⟩ ⟨0, 0, 0, 0, 0⟩ ⟨0, 100, 0, 1, 0⟩ = some d ∧ d < dblMax) ∧
    (∃ d, CCpm0.get_distance ⟨1, 1, 1, true⟩ ⟨0, 0, 0, 1, 0⟩ ⟨0, 100, 0, 0, 0⟩ = some d ∧ d < dblMax) ∧
    8 * radiusBound 1 1 + 4 * (1 / 1) < dist2 ⟨0, 0, 0, 1, 0⟩ ⟨0, 100, 0, -1, 0⟩ ∧
    ∃ p, CCpmpm.ccpmpm_dubins ⟨1, 1, 1, true⟩ ⟨0, 0, 0, 1, 0⟩ ⟨0, 100, 0, -1, 0⟩ = some p ∧ p.type ≠ cc_dubins.TTTT ∧
      p.length < dblMax := by
  have far : ∀ k1 k2 t, dist2 ⟨0, 0, 0, k1, 0⟩ ⟨0, 100, t, k2, 0⟩ ≤ 10 ^ 100 := fun k1 k2 t => by rw [hundred_apart]; norm_num
  refine ⟨?_, ?_, ?_, ?_⟩
  · obtain ⟨x, _, h1, _, h2, _⟩ := C56_cc0pm_always (sp := ⟨1, 1, 1, true⟩) unit_range _ _ (far 0 1 0)
    exact ⟨x, h1, h2⟩
  · obtain ⟨x, _, h1, _, h2, _⟩ := C56_ccpm0_always (sp := ⟨1, 1, 1, true⟩) unit_range _ _ (far 1 0 0)
    exact ⟨x, h1, h2⟩
  · rw [hundred_apart, radiusBound]; norm_num
  · obtain ⟨x, _, hx, _, h2, _⟩ := C56_ccpmpm_always (sp := ⟨1, 1, 1, true⟩) unit_range _ _ (far 1 (-1) 0)
    obtain ⟨p, hp, rfl⟩ := Option.map_eq_some_iff.1 hx
    refine ⟨p, hp, fun h4 => ?_, h2⟩
    have := four_near unit_range.rng hp h2 h4
    rw [hundred_apart, radiusBound] at this
    norm_num at this

theorem not_against_uturn {s1 s2 : State} (h1 : s1.theta = 0) (h2 : s2.theta = π) : ¬ StraightAgainst ⟨1, 1, 1, true⟩ s1 s2 := by
  intro h
  have h1' := h.1
  have e0 : wrapped 0 = 0 := by simp [wrapped]
  have e1 : wrapped π = π := by
    have : ⌊π / (2 * π)⌋ = 0 := by
      rw [Int.floor_eq_zero_iff]
      have := pi_pos
      constructor
      · positivity
      · rw [div_lt_one (by positivity)]; linarith
    simp [wrapped, this]
  simp only [h1, h2, e0, e1] at h1'
  rw [abs_le] at h1'
  have := pi_gt_three
  linarith [h1'.1]

/-- HC-Reeds-Shepp against CC-Dubins: a U-turn with straight wheels, and the same goal from a start with the largest curvature to a
goal with half of it. -/
example : (∀ p1 p2, Straightened 1 1 1 ⟨0, 0, 0, 0, 0⟩ p1 → Straightened 1 1 (-1) ⟨0, 100, π, 0, 0⟩ p2 →
      ¬ StraightAgainst ⟨1, 1, 1, true⟩ p1 p2) ∧
    (∀ p1 p2, Straightened 1 1 1 ⟨0, 0, 0, 1, 0⟩ p1 → Straightened 1 1 (-1) ⟨0, 100, π, 1 / 2, 0⟩ p2 →
      ¬ StraightAgainst ⟨1, 1, 1, true⟩ p1 p2) ∧
    (∃ p, Straightened 1 1 (-1) ⟨0, 100, π, 1 / 2, 0⟩ p) ∧
    InReach ⟨1, 1, 1, true⟩ ⟨0, 0, 0, 1, 0⟩ ⟨0, 100, π, 1 / 2, 0⟩ ∧
    8 * radiusBound 1 1 + 4 * (1 / 1) < dist2 ⟨0, 0, 0, 1, 0⟩ ⟨0, 100, π, 1 / 2, 0⟩ ∧ drivingSign ⟨1, 1, 1, true⟩ = 1 := by
  refine ⟨?_, ?_, ?_, ?_, ?_, rfl⟩
  · intro p1 p2 q1 q2
    cases q1 with
    | same => cases q2 with
      | same => exact not_against_uturn rfl rfl
      | drive _ h1 _ _ _ => norm_num at h1
    | drive _ h1 _ _ _ => norm_num at h1
  · intro p1 p2 q1 _
    cases q1 with
    | same h => norm_num at h
    | drive hl h1 h2 _ _ => simp only at h1 h2; rcases hl with rfl | rfl <;> linarith
  · exact ⟨⟨(libAll [⟨-1 * (1 * (1 / 2) / 1), 1 / 2, -(1 * 1)⟩] (pose ⟨0, 100, π, 1 / 2, 0⟩)).x,
      (libAll [⟨-1 * (1 * (1 / 2) / 1), 1 / 2, -(1 * 1)⟩] (pose ⟨0, 100, π, 1 / 2, 0⟩)).y,
      (libAll [⟨-1 * (1 * (1 / 2) / 1), 1 / 2, -(1 * 1)⟩] (pose ⟨0, 100, π, 1 / 2, 0⟩)).theta, 0, 0⟩,
      .drive (Or.inl rfl) (by norm_num) (by norm_num) rfl rfl⟩
  · rw [InReach, hundred_apart]; norm_num
  · rw [hundred_apart, radiusBound]; norm_num

end Props
