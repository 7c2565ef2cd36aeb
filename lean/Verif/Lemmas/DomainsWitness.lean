import Verif.Lemmas.Domains
import Verif.Lemmas.HcWide
import Verif.Lemmas.CcRsMirror

/-!
# A negative radicand in HC00-Reeds-Shepp
-/

noncomputable section

namespace Spec.Dom

open Real SF
open Spec.CC00 (CircOk circOk_at startOf)

/-- Sharp enough: the circles are narrow. -/
theorem ccR_lt_two {k s : ℝ} (H : Rng k s) (h : k ^ 2 ≤ s) : ccR k s < 2 / k := by
  have hk0 := H.pos
  have hs := H.sigma
  have hp := pi_pos
  have ht := cArg_lower H.kappa hs H.clothoid
  have hA := ccA_eq hk0 hs
  have hph := phase_full (k := k) hs
  have hA0 := ccA_pos H.kappa hs H.clothoid
  have hB0 := ccB_pos H.kappa hs H.clothoid
  have hBu : ccB k s ≤ cScale s * (fresnel (cArg s (k / s))).1 + 1 / k := by
    unfold ccB
    have : cos (k ^ 2 / (2 * s)) / k ≤ 1 / k := div_le_div_of_nonneg_right (cos_le_one _) hk0.le
    linarith
  have hcA : cScale s * cArg s (k / s) = k / s := by
    unfold cScale cArg
    have h1 : √π ≠ 0 := (sqrt_pos.mpr pi_pos).ne'
    have h2 : √s ≠ 0 := (sqrt_pos.mpr hs).ne'
    have h3 : √s * √s = s := mul_self_sqrt hs.le
    field_simp
    rw [sq, h3]
  have hc := cScale_pos hs
  obtain ⟨t, ht'⟩ : ∃ t, t = cArg s (k / s) := ⟨_, rfl⟩
  rw [← ht'] at ht hA hph hBu hcA
  have ht0 : 0 < t := by linarith
  have a1 := cenX_upper ht0
  have a2 := (abs_le.1 (Poly.fresnel_accurate t).2).2
  have b1 := (abs_le.1 (fresnelS_small ht0.le)).2
  have b2 := (abs_le.1 (Poly.fresnel_accurate t).1).2
  have hL : k / s ≤ 1 / k := by rw [div_le_div_iff₀ hs hk0]; nlinarith
  have hph2 : π / 2 * t ^ 2 ≤ 1 / 2 := by
    rw [hph, div_le_div_iff₀ (by positivity) two_pos]; linarith
  have hce : cScale s * (8 / 10 ^ 17) ≤ 1 / 100 * (1 / k) := by
    have : cScale s * (8 / 10 ^ 17) ≤ cScale s * (t / 100) := by
      apply mul_le_mul_of_nonneg_left _ hc.le; norm_num at ht ⊢; linarith
    have e : cScale s * (t / 100) = k / s / 100 := by rw [← hcA]; ring
    rw [e] at this
    linarith
  have hAu : ccA k s ≤ 51 / 100 * (1 / k) := by
    have : ccA k s ≤ cScale s * (t / 2 + 8 / 10 ^ 17) := by
      rw [hA]; exact mul_le_mul_of_nonneg_left (by linarith) hc.le
    have e : cScale s * (t / 2 + 8 / 10 ^ 17) = k / s / 2 + cScale s * (8 / 10 ^ 17) := by rw [← hcA]; ring
    linarith
  have hBu2 : ccB k s ≤ 151 / 100 * (1 / k) := by
    have h1 : cScale s * (fresnel t).1 ≤ cScale s * (1 / 2 * t + 8 / 10 ^ 17) := by
      refine mul_le_mul_of_nonneg_left ?_ hc.le
      have : π / 2 * t ^ 2 * t ≤ 1 / 2 * t := by gcongr
      linarith
    have e : cScale s * (1 / 2 * t + 8 / 10 ^ 17) = k / s / 2 + cScale s * (8 / 10 ^ 17) := by rw [← hcA]; ring
    linarith
  have hi : 0 < 1 / k := by positivity
  rw [show 2 / k = 2 * (1 / k) by ring]
  generalize 1 / k = K at *
  unfold ccR
  rw [sqrt_lt' (by positivity)]
  have e1 : ccA k s ^ 2 ≤ (51 / 100 * K) ^ 2 := pow_le_pow_left₀ hA0.le hAu 2
  have e2 : ccB k s ^ 2 ≤ (151 / 100 * K) ^ 2 := pow_le_pow_left₀ hB0.le hBu2 2
  nlinarith

/-- The goal of the witness: behind the start and facing backwards. -/
def back (R : ℝ) : State := ⟨-R, 0, π, 0, 0⟩

def origin : State := ⟨0, 0, 0, 0, 0⟩

theorem wit_rng : Rng 1 (1 / 10000) := ⟨by norm_num [epsilon], by norm_num, by norm_num [epsilon]⟩

theorem wit_R : 5 ≤ ccR 1 (1 / 10000) := by
  have hA := ccA_lower' wit_rng.kappa wit_rng.sigma wit_rng.clothoid
  have e : (1:ℝ) / √(1 / 10000) / 2 = 50 := by
    rw [show (1 / 10000 : ℝ) = (1 / 100) ^ 2 by norm_num, sqrt_sq (by norm_num)]; norm_num
  rw [e, min_eq_right (by norm_num)] at hA
  refine le_sqrt_of_sq_le ?_
  nlinarith [sq_nonneg (ccB 1 (1 / 10000))]

/-- The space of the witness. -/
def flat : HCSpace := ⟨1, 1 / 10000, 1 / 10, true⟩

local notation "R" => ccR 1 (1 / 10000)
local notation "c1" => HcRs.end_circle false flat origin 0
local notation "c2" => HcRs.end_circle false flat (back (ccR 1 (1 / 10000))) 3

theorem theta_far : |(startOf (back R)).theta - (startOf origin).theta| > epsilon := by
  have hp := pi_gt_three
  show |twopify π - twopify 0| > epsilon
  rw [twopify_of_mem pi_pos.le (by linarith), twopify_of_mem le_rfl (by linarith), sub_zero, abs_of_pos pi_pos]
  norm_num [epsilon]; linarith

theorem wit_ok (s : State) (i : ℕ) : CircOk (HcRs.end_circle false flat s i) 1 (1 / 10000) :=
  circOk_at wit_rng.kappa wit_rng.sigma wit_rng.clothoid _ _ _ _

theorem wit_center1 : center c1 = ⟨ccA 1 (1 / 10000), ccB 1 (1 / 10000)⟩ := by
  rw [(wit_ok origin 0).cen]
  show (⟨0, 0⟩ : ℂ) + cis (twopify 0) * ⟨1 * _, 1 * _⟩ = _
  rw [cis_twopify, cis_zero]
  apply Complex.ext <;> simp

theorem wit_center2 : center c2 = ⟨ccA 1 (1 / 10000) - R, ccB 1 (1 / 10000)⟩ := by
  rw [(wit_ok (back R) 3).cen]
  show (⟨-R, 0⟩ : ℂ) + cis (twopify π) * ⟨-1 * _, -1 * _⟩ = _
  rw [cis_twopify, cis_pi]
  apply Complex.ext <;> simp
  ring

theorem wit_dist : (scratch c1 c2).distance = R := by
  rw [scratch_distance, wit_center1, wit_center2, show (⟨ccA 1 (1 / 10000) - R, ccB 1 (1 / 10000)⟩ : ℂ)
    - ⟨ccA 1 (1 / 10000), ccB 1 (1 / 10000)⟩ = ((-R : ℝ) : ℂ) by apply Complex.ext <;> simp]
  rw [Complex.norm_real, norm_neg, norm_of_nonneg (ccR_nonneg _ _)]

theorem wit_off : ¬ configuration_on_hc_cc_circle c1 (startOf (back R)) := by
  have hR := wit_R
  have hA := ccA_pos wit_rng.kappa wit_rng.sigma wit_rng.clothoid
  have hr : (HcRs.end_circle false flat origin 0).radius = R := (wit_ok origin 0).ok.radius
  have hd : 7 / 5 * R ≤ point_distance (HcRs.end_circle false flat origin 0).xc (HcRs.end_circle false flat origin 0).yc
      (startOf (back R)).x (startOf (back R)).y := by
    have e1 : (HcRs.end_circle false flat origin 0).xc = ccA 1 (1 / 10000) := congrArg Complex.re wit_center1
    have e2 : (HcRs.end_circle false flat origin 0).yc = ccB 1 (1 / 10000) := congrArg Complex.im wit_center1
    rw [e1, e2]
    show 7 / 5 * R ≤ √((-R - ccA 1 (1 / 10000)) ^ 2 + (0 - ccB 1 (1 / 10000)) ^ 2)
    refine le_sqrt_of_sq_le ?_
    have := ccR_sq 1 (1 / 10000)
    nlinarith
  intro h
  unfold configuration_on_hc_cc_circle at h
  dsimp only at h
  rw [if_pos] at h
  · exact h
  · rw [hr, gt_iff_lt, lt_abs]
    left
    norm_num [epsilon]
    linarith

theorem wit_none : HcRs.shortcut false false flat (scratch c1 c2) c1 c2 = none := by
  have h := theta_far
  have h' : |(startOf origin).theta - (startOf (back R)).theta| > epsilon := by rw [abs_sub_comm]; exact h
  refine (HcRs.shortcut_T ?_ ?_ ?_ _ 0 3).2 wit_off
  · unfold configuration_equal; rw [if_pos h]; exact id
  · unfold configuration_aligned; rw [if_pos h]; exact id
  · unfold configuration_aligned; rw [if_pos h']; exact id

open Classical in
/-- The radicand of `TcTTcT` is negative. -/
theorem wit_bad : ∃ x < 0, Op.sqrt x ∈ HcRs.distance_ops false false flat origin (back R) := by
  have hR := wit_R
  have hend := HcRs.end_ok (sp := flat) wit_rng false origin 0
  have ha : |(HcRs.end_circle false flat origin 0).kappa_inv| = 1 / 1 := hend.abs_inv one_pos
  have hr : flat.param.radius = R := radius_param wit_rng
  refine ⟨(2 * |(HcRs.end_circle false flat origin 0).kappa_inv|) ^ 2 - (((2 * |(HcRs.end_circle false flat origin 0).kappa_inv|) ^ 2
    + ((scratch c1 c2).distance / 2) ^ 2 - flat.param.radius ^ 2) / (scratch c1 c2).distance) ^ 2, ?_, ?_⟩
  · rw [ha, hr, wit_dist]
    have hle : ((2 * (1 / 1)) ^ 2 + (R / 2) ^ 2 - R ^ 2) / R < -2 := by
      rw [div_lt_iff₀ (by linarith)]; nlinarith
    nlinarith
  · refine List.mem_append_left _ (List.mem_flatMap.2 ⟨3, by simp, ?_⟩)
    rw [if_neg (by simp [HcRs.skip])]
    show _ ∈ HcRs.circles_ops false false flat c1 c2
    unfold HcRs.circles_ops
    dsimp only
    rw [wit_none]
    refine List.mem_flatMap.2 ⟨hc_cc_rs.TcTTcT, by simp [nb_hc_cc_rs_paths, hc_cc_rs.TcTTcT], ?_⟩
    show _ ∈ if HcRs.TcTTcT_exists flat.param (scratch c1 c2) c1 c2 then HcRs.TcTTcT_ops flat.param (scratch c1 c2) c1 else []
    rw [if_pos]
    · exact List.mem_cons_of_mem _ (List.mem_singleton.2 rfl)
    · unfold HcRs.TcTTcT_exists
      rw [if_neg (by simp [HcRs.end_circle, circleAt]), if_neg (by simp [HcRs.end_circle, circleAt]), ha, hr, wit_dist]
      constructor <;> linarith

end Spec.Dom
