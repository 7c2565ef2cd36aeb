import Verif.Lemmas.HcRsOptimalPlan

/-!
# Hybrid-curvature Reeds-Shepp: a path with a long line ends far from the circles of its start

Used for the examples of C119.
-/

noncomputable section

namespace Spec

namespace HcOpt

open Real Props SF.HcRs
open CcRsOpt (idx idx_lt startOf Aligned)

variable {sp : SF.HCSpace} {s1 s2 : SF.State} {pm1 pm2 : Bool}

/-- The centres of the first and the last circle are as far apart as the line is long. -/
theorem far (H : Rng sp.kappa sp.sigma) {w1 w2 : List Segment} {x : ℝ} (hx : 0 ≤ x) {u1 u2 d l1 l2 : Bool}
    (w_1 : HcFirst sp.kappa sp.sigma (sg d) (sg l1) pm1 u1 w1)
    (w_2 : HcLast sp.kappa sp.sigma (sg (way u2 (way u1 d))) (sg l2) pm2 u2 w2)
    (he : SameConfig (libAll (w1 ++ [⟨sg (way u1 d) * x, 0, 0⟩] ++ w2) (pose s1)) (pose s2)) {c1 c2 : SF.Circle}
    (hc1 : c1 = end_circle pm1 sp s1 (idx d l1))
    (hc2 : c2 = end_circle pm2 sp s2 (idx (!way u2 (way u1 d)) l2)) : x ≤ ‖center c2 - center c1‖ := by
  have k1 : EndOk pm1 sp.kappa sp.sigma c1 := hc1 ▸ HcRs.end_ok H pm1 s1 _
  have k2 : EndOk pm2 sp.kappa sp.sigma c2 := hc2 ▸ HcRs.end_ok H pm2 s2 _
  have a1 : c1.left = l1 := hc1 ▸ end_left pm1 s1 d l1
  have a2 : c1.forward = d := hc1 ▸ end_forward pm1 s1 d l1
  have b1 : c2.left = l2 := hc2 ▸ end_left pm2 s2 _ l2
  have b2 : c2.forward = !way u2 (way u1 d) := hc2 ▸ end_forward pm2 s2 _ l2
  have g1 : SameConfig (pose s1) (cfg c1.start) := (hc1 ▸ HcRs.end_cfg pm1 s1 _ : SameConfig (cfg c1.start) (pose s1)).symm
  have g2 : SameConfig (pose s2) (cfg c2.start) := (hc2 ▸ HcRs.end_cfg pm2 s2 _ : SameConfig (cfg c2.start) (pose s2)).symm
  have he' := he.trans g2
  clear hc1 hc2
  subst a1 a2 b1
  rw [libAll_append, libAll_append] at he'
  obtain ⟨e1, e2⟩ := lib_line (len := sg (way u1 c1.forward) * x) (libAll w1 (pose s1))
  have F0 := hcFirst_first H w_1 (pose s1)
  have F : First pm1 u1 sp.kappa sp.sigma c1.left c1.forward (cfg c1.start) (libAll w1 (pose s1))
      (totalLength w1) := by
    refine ⟨?_, fun c r i1 i2 i3 i4 i5 => F0.le c r i1 i2 i3 (i4.trans g1.symm) i5⟩
    have := F0.at_
    unfold endCen at this ⊢
    rw [cen_congr g1, cen_congr g1] at this
    exact this
  have G := hcLast_last H w_2 (libArrive ⟨sg (way u1 c1.forward) * x, 0, 0⟩ (libAll w1 (pose s1))) _ he'
  rw [← b2] at G
  rw [line_dist k1 k2 b2 F G e1 (AngleEq.of_eq e2)]
  have n1 := nA_nonneg H u1
  have n2 := nA_nonneg H u2
  apply le_sqrt_of_sq_le
  nlinarith [sq_nonneg (jB sp.kappa sp.sigma u2 c2.left - jB sp.kappa sp.sigma u1 c1.left)]

/-- Radius of a circle at the start or the goal. -/
theorem end_radius {k s : ℝ} (H : Rng k s) {pm : Bool} {c : SF.Circle} (h : EndOk pm k s c) :
    c.radius ≤ 3 * (k / s) + 2 / k ∧ ‖center c - (cfg c.start).pos‖ ≤ 3 * (k / s) + 2 / k := by
  have hk := H.pos
  have hs := H.sigma
  have hR := radius_le H.kappa H.sigma H.clothoid
  have h1 : 1 / k ≤ 3 * (k / s) + 2 / k := by
    have : 2 / k = 1 / k + 1 / k := by ring
    have : 0 < 1 / k := by positivity
    have : 0 < k / s := by positivity
    linarith
  cases pm
  · have hc := h.cc
    have := Spec.CC00.center_start hc
    have hr := hc.ok.radius
    constructor
    · rw [hr]; exact hR
    · rw [this, hr]; exact hR
  · have hc := h.rs
    constructor
    · rw [hc.radius]; exact h1
    · rw [hc.cen, cen, add_sub_cancel_left, norm_cis_mul, ← sqrt_eq_norm]
      refine le_trans (le_of_eq ?_) h1
      have : (0 : ℝ) ^ 2 + (1 / (sg c.left * k)) ^ 2 = (1 / k) ^ 2 := by cases c.left <;> simp [sg]
      rw [this, sqrt_sq (by positivity)]

/-- A goal whose circle is far away is not on the circle of the start. -/
theorem not_on {k s : ℝ} (H : Rng k s) {c1 c2 : SF.Circle} (h1 : EndOk pm1 k s c1) (h2 : EndOk pm2 k s c2)
    {q : SF.Configuration} (hq : (cfg q).pos = (cfg c2.start).pos)
    (hfar : 2 * (3 * (k / s) + 2 / k) + 1 < ‖center c2 - center c1‖) : ¬ SF.configuration_on_hc_cc_circle c1 q := by
  obtain ⟨r1, _⟩ := end_radius H h1
  obtain ⟨_, r2⟩ := end_radius H h2
  intro hon
  unfold SF.configuration_on_hc_cc_circle at hon
  simp only at hon
  rw [if_pos] at hon
  · exact hon
  · have hd : SF.point_distance c1.xc c1.yc q.x q.y = ‖(cfg q).pos - center c1‖ := by
      unfold SF.point_distance; rw [sqrt_eq_norm]; rfl
    rw [hd, gt_iff_lt, lt_abs]
    left
    have := norm_add_le (center c2 - (cfg q).pos) ((cfg q).pos - center c1)
    rw [sub_add_sub_cancel, hq] at this
    rw [hq]
    norm_num [SF.epsilon]
    linarith

end HcOpt

end Spec
