import Verif.Lemmas.LimitsWitnessRs
import Verif.Lemmas.CcSymmetry

/-!
# A single turn that is found in one direction only
-/

noncomputable section

namespace Spec

open Real Props
open CC00 (CircOk circOk_at wideStart startOf wideStart_theta)

/-- A goal at the end of a turn by 1.02e-4 to the left, but with heading 1.01e-4. -/
def asymGoal : SF.State :=
  ⟨ccA (1 / 1000) (1 / 125) + (ccA (1 / 1000) (1 / 125) * cos (102 / 10 ^ 6) + ccB (1 / 1000) (1 / 125) * sin (102 / 10 ^ 6)),
    ccB (1 / 1000) (1 / 125) + (ccA (1 / 1000) (1 / 125) * sin (102 / 10 ^ 6) - ccB (1 / 1000) (1 / 125) * cos (102 / 10 ^ 6)),
    101 / 10 ^ 6, 0, 0⟩

theorem asymGoal_theta : (startOf asymGoal).theta = 101 / 10 ^ 6 :=
  SF.twopify_of_mem (show (0:ℝ) ≤ 101 / 10 ^ 6 by norm_num)
    (show (101 / 10 ^ 6 : ℝ) < 2 * π by linarith [pi_gt_three])

theorem asymGoal_pos : 145 / 1000 ≤ asymGoal.x ∧ asymGoal.x ≤ 2275 / 10000 ∧ 0 ≤ asymGoal.y ∧ asymGoal.y ≤ 2 / 100000 := by
  have hA := wide_A
  obtain ⟨hB, hB'⟩ := wide_B
  have c1 := one_sub_sq_div_two_le_cos (x := 102 / 10 ^ 6)
  have c2 := cos_le_one (102 / 10 ^ 6)
  have s1 := sin_le (show (0:ℝ) ≤ 102 / 10 ^ 6 by norm_num)
  have s0 := sin_gt_sub_cube (show (0:ℝ) < 102 / 10 ^ 6 by norm_num)
  simp only [asymGoal]
  generalize ccA (1 / 1000) (1 / 125) = A at *
  generalize ccB (1 / 1000) (1 / 125) = B at *
  generalize cos (102 / 10 ^ 6) = co at *
  generalize sin (102 / 10 ^ 6) = si at *
  norm_num at c1 s1 s0
  have p1 : A * (1 - co) ≥ 0 := mul_nonneg (by linarith) (by linarith)
  have p2 : A * (1 - co) ≤ 1 * (1 / 10 ^ 8) := mul_le_mul (by linarith) (by linarith) (by linarith) (by norm_num)
  have p3 : B * si ≤ 1001 * (102 / 10 ^ 6) := mul_le_mul hB (by linarith) (by linarith) (by norm_num)
  have p4 : 990 * (101 / 10 ^ 6) ≤ B * si := mul_le_mul hB' (by linarith) (by norm_num) (by linarith)
  have p5 : A * si ≤ 626 / 10000 * (102 / 10 ^ 6) := mul_le_mul hA.2 (by linarith) (by linarith) (by norm_num)
  have p6 : 0 ≤ A * si := mul_nonneg (by linarith) (by linarith)
  have p7 : B * (1 - co) ≤ 1001 * (6 / 10 ^ 9) := mul_le_mul hB (by linarith) (by linarith) (by norm_num)
  have p8 : 0 ≤ B * (1 - co) := mul_nonneg (by linarith) (by linarith)
  refine ⟨?_, ?_, ?_, ?_⟩ <;> linarith

theorem ahead_asym : AheadOf asymGoal (101 / 10 ^ 6) := by
  obtain ⟨g1, g2, g3, g4⟩ := asymGoal_pos
  exact ⟨asymGoal_theta, by norm_num, by norm_num, g1, by linarith, g3, by linarith⟩

theorem asym_not : ¬ SF.configuration_equal (startOf wideStart) (startOf asymGoal) ∧
    ¬ SF.configuration_aligned (startOf wideStart) (startOf asymGoal) ∧
    ¬ SF.configuration_aligned (startOf asymGoal) (startOf wideStart) ∧
    ¬ SF.configuration_equal (startOf asymGoal) (startOf wideStart) := by
  unfold SF.configuration_equal SF.configuration_aligned
  rw [wideStart_theta, asymGoal_theta, if_pos (by norm_num [SF.epsilon]), if_pos (by norm_num [SF.epsilon]),
    if_pos (by norm_num [SF.epsilon, abs_of_neg]), if_pos (by norm_num [SF.epsilon, abs_of_neg])]
  exact ⟨id, id, id, id⟩

theorem asym_on {c : SF.Circle} (h : CircOk c (1 / 1000) (1 / 125)) (hl : c.left = true) (hf : c.forward = true)
    (hst : c.start = startOf wideStart) : SF.configuration_on_hc_cc_circle c (startOf asymGoal) := by
  have := on_circle_near h.ok wide_range.kappa wide_range.sigma wide_range.clothoid
    (q := { startOf asymGoal with theta := 102 / 10 ^ 6 }) (by norm_num) (by simp only; linarith [pi_gt_three])
    (t := 101 / 10 ^ 6) ?_ (by norm_num [SF.epsilon, abs_lt])
  · have e : ({ ({ startOf asymGoal with theta := 102 / 10 ^ 6 } : SF.Configuration) with theta := 101 / 10 ^ 6 } : SF.Configuration)
        = startOf asymGoal := by
      have := asymGoal_theta
      cases h : startOf asymGoal
      rw [h] at this
      simp only at this
      rw [this]
    rw [e] at this
    exact this
  · rw [h.cen, hst, hl, hf]
    have e0 : cfg (startOf wideStart) = ⟨0, 0, 0⟩ := by
      have := wideStart_theta
      unfold cfg
      rw [this]; rfl
    have e1 : cfg ({ startOf asymGoal with theta := 102 / 10 ^ 6 } : SF.Configuration)
        = ⟨asymGoal.x, asymGoal.y, 102 / 10 ^ 6⟩ := rfl
    rw [e0, e1]
    unfold cen Config.pos
    apply Complex.ext
    · simp [cis, sg, asymGoal]; ring
    · simp [cis, sg, asymGoal]; ring

theorem asym_dist : 1 / 10 ≤ SF.point_distance (startOf wideStart).x (startOf wideStart).y (startOf asymGoal).x (startOf asymGoal).y ∧
    SF.point_distance (startOf wideStart).x (startOf wideStart).y (startOf asymGoal).x (startOf asymGoal).y ≤ 2276 / 10000 := by
  obtain ⟨h1, h2, h3, h4⟩ := asymGoal_pos
  change 1 / 10 ≤ √((asymGoal.x - 0) ^ 2 + (asymGoal.y - 0) ^ 2) ∧ √((asymGoal.x - 0) ^ 2 + (asymGoal.y - 0) ^ 2) ≤ _
  constructor
  · apply le_sqrt_of_sq_le; nlinarith
  · apply sqrt_le_iff.2; constructor
    · norm_num
    · nlinarith

/-- The single turn to the left. -/
theorem asym_turn {c : SF.Circle} (h : CircOk c (1 / 1000) (1 / 125)) (hl : c.left = true) (hf : c.forward = true)
    (hst : c.start = startOf wideStart) : c.cc_turn_length (startOf asymGoal) ≤ 235 / 1000 := by
  have hd : c.deflection (startOf asymGoal) = 101 / 10 ^ 6 := by
    unfold SF.Circle.deflection
    simp only [hl, hf, hst, wideStart_theta, asymGoal_theta, sub_zero]
    exact SF.twopify_of_mem (by norm_num) (by linarith [pi_gt_three])
  obtain ⟨hD0, hD1⟩ := asym_dist
  have hdm : 2 * c.delta_min = 1 / 8000 := by rw [h.ok.delta_min]; norm_num
  have hx := (D1_small (a := 0.5 * (101 / 10 ^ 6)) (by norm_num) (by norm_num)).1
  have hw : 0 < √(2 * (0.5 * (101 / 10 ^ 6)) / π) := sqrt_pos.2 (by have := pi_pos; positivity)
  have hlen := elementary_len (d := 101 / 10 ^ 6) (D := SF.point_distance (startOf wideStart).x (startOf wideStart).y (startOf asymGoal).x (startOf asymGoal).y)
    (by norm_num) (by linarith) (by linarith)
  unfold SF.Circle.cc_turn_length SF.Circle.cc_elementary_sharpness
  simp only [hd, hdm, hst]
  rw [if_neg (by norm_num [SF.epsilon]), if_pos (by norm_num), if_pos ⟨by norm_num, by norm_num [SF.epsilon]; linarith⟩, hl]
  simp only [if_true]
  generalize SF.point_distance (startOf wideStart).x (startOf wideStart).y (startOf asymGoal).x (startOf asymGoal).y = D at *
  have hs0 : |4 * π * SF.Circle.D1 (0.5 * (101 / 10 ^ 6)) ^ 2 / D ^ 2| = 4 * π * SF.Circle.D1 (0.5 * (101 / 10 ^ 6)) ^ 2 / D ^ 2 :=
    abs_of_nonneg (by have := pi_pos; positivity)
  rw [hs0]
  refine le_trans (?_ : _ ≤ 2 * √(101 / 10 ^ 6 / (4 * π * SF.Circle.D1 (0.5 * (101 / 10 ^ 6)) ^ 2 / D ^ 2))) ?_
  · split_ifs with h1
    · exact le_rfl
    · exact not_lt.1 h1
  · generalize 2 * √(101 / 10 ^ 6 / (4 * π * SF.Circle.D1 (0.5 * (101 / 10 ^ 6)) ^ 2 / D ^ 2)) = L at *
    generalize √(2 * (0.5 * (101 / 10 ^ 6)) / π) = w at *
    generalize SF.Circle.D1 (0.5 * (101 / 10 ^ 6)) = x at *
    by_contra hn
    push Not at hn
    have : 235 / 1000 * (98 / 100 * w) ≤ L * x := mul_le_mul hn.le hx (by positivity) (by linarith)
    nlinarith

/-! ### The way back -/

theorem asym_center {c : SF.Circle} (h : CircOk c (1 / 1000) (1 / 125)) (s : c.start = startOf asymGoal) :
    c.xc = asymGoal.x + (cos (101 / 10 ^ 6) * (sg c.forward * ccA (1 / 1000) (1 / 125))
      - sin (101 / 10 ^ 6) * (sg c.left * ccB (1 / 1000) (1 / 125))) ∧
    c.yc = asymGoal.y + (cos (101 / 10 ^ 6) * (sg c.left * ccB (1 / 1000) (1 / 125))
      + sin (101 / 10 ^ 6) * (sg c.forward * ccA (1 / 1000) (1 / 125))) :=
  (wide_centers asymGoal_theta (circOk_at wide_range.kappa wide_range.sigma wide_range.clothoid (startOf wideStart) true true true)
    h rfl s).2.2

/-- Numbers for the left backward circle. -/
theorem asym_num {A B cb sb cd sd x y : ℝ} (hA : 61 / 1000 ≤ A ∧ A ≤ 626 / 10000) (hB : B ≤ 1001) (hB' : 990 ≤ B)
    (c1 : 1 - 6 / 10 ^ 9 ≤ cb) (c2 : cb ≤ 1) (d1 : 1 - 6 / 10 ^ 9 ≤ cd) (d2 : cd ≤ 1)
    (e1 : 99 / 10 ^ 8 ≤ sb - sd) (e2 : sb - sd ≤ 101 / 10 ^ 8)
    (hx : x = -(A + (A * cb + B * sb) + (-(cd * A) - sd * B))) (hy : y = -(B + (A * sb - B * cb) + (cd * B - sd * A))) :
    x < 0 ∧ y < 0 ∧ x * B - y * A < 0 := by
  have ex : x = A * (cd - cb) - A - B * (sb - sd) := by rw [hx]; ring
  have ey : y = -B - A * (sb - sd) - B * (cd - cb) := by rw [hy]; ring
  have p1 : A * (cd - cb) ≤ 1 * (6 / 10 ^ 9) := by
    rcases le_total 0 (cd - cb) with h | h
    · exact mul_le_mul (by linarith) (by linarith) h (by norm_num)
    · linarith [mul_nonneg (show 0 ≤ A by linarith) (show 0 ≤ -(cd - cb) by linarith)]
  have p2 : 0 ≤ B * (sb - sd) := mul_nonneg (by linarith) (by linarith)
  have p3 : 0 ≤ A * (sb - sd) := mul_nonneg (by linarith) (by linarith)
  have p4 : 0 ≤ B * (cd - cb + 6 / 10 ^ 9) := mul_nonneg (by linarith) (by linarith)
  refine ⟨by linarith, by linarith, ?_⟩
  have e : x * B - y * A = 2 * (A * (cd - cb)) * B - B * (B * (sb - sd)) + A * (A * (sb - sd)) := by rw [ex, ey]; ring
  have q1 : A * (cd - cb) * B ≤ 1 * (6 / 10 ^ 9) * B := mul_le_mul_of_nonneg_right p1 (by linarith)
  have q2 : 990 * (99 / 10 ^ 8) ≤ B * (sb - sd) := mul_le_mul hB' e1 (by norm_num) (by linarith)
  have q3 : 990 * (990 * (99 / 10 ^ 8)) ≤ B * (B * (sb - sd)) := mul_le_mul hB' q2 (by norm_num) (by linarith)
  have q4 : A * (sb - sd) ≤ 1 * (101 / 10 ^ 8) := mul_le_mul (by linarith) e2 (by linarith) (by norm_num)
  have q5 : A * (A * (sb - sd)) ≤ 1 * (1 * (101 / 10 ^ 8)) := mul_le_mul (by linarith) q4 p3 (by norm_num)
  rw [e]
  norm_num at q1 q3 q5 ⊢
  linarith

/-- Numbers for the right forward circle. -/
theorem asym_num' {A B cd sd x y gx gy : ℝ} (hA : 61 / 1000 ≤ A ∧ A ≤ 626 / 10000) (hB : B ≤ 1001) (hB' : 990 ≤ B)
    (g1 : 145 / 1000 ≤ gx) (g2 : gx ≤ 2275 / 10000) (g3 : 0 ≤ gy) (g4 : gy ≤ 2 / 100000)
    (d1 : 1 - 6 / 10 ^ 9 ≤ cd) (d2 : cd ≤ 1) (u1 : 1 / 10 ^ 4 ≤ sd) (u2 : sd ≤ 1 / 1000)
    (hx : x = -(gx + (cd * A + sd * B))) (hy : y = -(gy + (sd * A - cd * B))) :
    x < 0 ∧ 0 < y ∧ cos (SF.atan2 y x) ≤ -(2 / 10000) := by
  norm_num at d1
  have p1 : 0 ≤ cd * A := mul_nonneg (by linarith) (by linarith)
  have p2 : (1 / 10 ^ 4) * 990 ≤ sd * B := mul_le_mul (by linarith) hB' (by norm_num) (by linarith)
  have p3 : (1 / 2) * 990 ≤ cd * B := mul_le_mul (by linarith) hB' (by norm_num) (by linarith)
  have p4 : sd * A ≤ 1 * 1 := mul_le_mul (by linarith) (by linarith) (by linarith) (by norm_num)
  have p5 : cd * A ≤ 1 * 1 := mul_le_mul (by linarith) (by linarith) (by linarith) (by norm_num)
  have p7 : cd * B ≤ 1 * 1001 := mul_le_mul (by linarith) hB (by linarith) (by norm_num)
  have p8 : 0 ≤ sd * A := mul_nonneg (by linarith) (by linarith)
  have p9 : sd * B ≤ (1 / 1000) * 1001 := mul_le_mul (by linarith) hB (by linarith) (by norm_num)
  have hxn : x ≤ -(24 / 100) := by rw [hx]; linarith
  have hxb : -3 ≤ x := by rw [hx]; linarith
  have hyp : 0 < y := by rw [hy]; linarith
  have hyb : y ≤ 1001 := by rw [hy]; linarith
  have hz : (⟨x, y⟩ : ℂ) ≠ 0 := by
    intro e; have := congrArg Complex.re e; simp at this; linarith
  have hr : ‖(⟨x, y⟩ : ℂ)‖ ≤ 1002 := by
    rw [Complex.norm_eq_sqrt_sq_add_sq]
    apply sqrt_le_iff.2; constructor
    · norm_num
    · have e1 : x ^ 2 ≤ 3 ^ 2 := sq_le_sq' (by linarith) (by linarith)
      have e2 : y ^ 2 ≤ 1001 ^ 2 := pow_le_pow_left₀ hyp.le hyb 2
      simp only; linarith
  have hca := Complex.cos_arg hz
  change cos (SF.atan2 y x) = _ at hca
  have hr0 : 0 < ‖(⟨x, y⟩ : ℂ)‖ := norm_pos_iff.2 hz
  refine ⟨by linarith, hyp, ?_⟩
  rw [hca, div_le_iff₀ hr0]; simp only; linarith

theorem asym_T {c : SF.Circle} (h : CircOk c (1 / 1000) (1 / 125)) (s : c.start = startOf asymGoal)
    (hon : SF.configuration_on_hc_cc_circle c (startOf wideStart)) : 24 / 100 ≤ c.cc_turn_length (startOf wideStart) := by
  have hp := pi_gt_three
  have hA := wide_A
  obtain ⟨hB, hB'⟩ := wide_B
  obtain ⟨a1, a2⟩ := asym_center h s
  obtain ⟨g1, g2, g3, g4⟩ := asymGoal_pos
  have hmu : 0 ≤ c.mu ∧ c.mu < π / 2 := by
    rw [h.ok.mu]
    exact ⟨arctan_nonneg.2 (div_nonneg (by linarith) (by linarith)), arctan_lt_pi_div_two _⟩
  have c1 := one_sub_sq_div_two_le_cos (x := 102 / 10 ^ 6)
  have c2 := cos_le_one (102 / 10 ^ 6)
  have s1 := sin_le (show (0:ℝ) ≤ 102 / 10 ^ 6 by norm_num)
  have s0 := sin_gt_sub_cube (show (0:ℝ) < 102 / 10 ^ 6 by norm_num)
  have d1 := one_sub_sq_div_two_le_cos (x := 101 / 10 ^ 6)
  have d2 := cos_le_one (101 / 10 ^ 6)
  have u1 := sin_le (show (0:ℝ) ≤ 101 / 10 ^ 6 by norm_num)
  have u0 := sin_gt_sub_cube (show (0:ℝ) < 101 / 10 ^ 6 by norm_num)
  have far : ∀ b, (b = -(101 / 10 ^ 6 : ℝ)) → 1 / 8000 ≤ SF.twopify b := by
    rintro b rfl
    rw [← SF.twopify_congr (a := 2 * π - 101 / 10 ^ 6) ⟨1, by push_cast; ring⟩, SF.twopify_of_mem (by linarith) (by linarith)]
    linarith
  rcases hl : c.left with _ | _ <;> rcases hf : c.forward with _ | _
  · refine le_trans (by norm_num) (wide_default h ?_)
    unfold SF.Circle.deflection
    simp only [hl, hf, s, wideStart_theta, asymGoal_theta, zero_sub]
    exact far _ rfl
  · exfalso
    rw [hl, hf] at a1 a2
    simp only [sg, Bool.false_eq_true, if_false, if_true, one_mul, neg_mul, mul_neg, sub_neg_eq_add] at a1 a2
    unfold SF.configuration_on_hc_cc_circle at hon
    simp only [hl, hf, Bool.and_false, Bool.false_and, Bool.not_false, Bool.and_self, Bool.false_eq_true, if_false,
      if_true, Bool.not_true] at hon
    split_ifs at hon with h0
    rw [wideStart_theta, zero_sub, abs_neg] at hon
    obtain ⟨x, hx⟩ : ∃ x, x = (startOf wideStart).x - c.xc := ⟨_, rfl⟩
    obtain ⟨y, hy⟩ : ∃ y, y = (startOf wideStart).y - c.yc := ⟨_, rfl⟩
    rw [← hx, ← hy] at hon
    change x = 0 - c.xc at hx
    change y = 0 - c.yc at hy
    rw [a1] at hx
    rw [a2] at hy
    obtain ⟨hxn, hyp, hcn⟩ := asym_num' (A := ccA (1 / 1000) (1 / 125)) (B := ccB (1 / 1000) (1 / 125)) (cd := cos (101 / 10 ^ 6))
      (sd := sin (101 / 10 ^ 6)) (x := x) (y := y) hA hB hB' g1 g2 g3 g4 (by norm_num at d1 ⊢; linarith) d2
      (by norm_num at u0 ⊢; linarith) (by norm_num at u1 ⊢; linarith) (by rw [hx]; ring) (by rw [hy]; ring)
    have ha0 : 0 ≤ SF.atan2 y x := SF.atan2_nonneg_iff.2 hyp.le
    have ha1 : SF.atan2 y x ≤ π := Complex.arg_le_pi _
    generalize SF.atan2 y x = a at *
    have ha2 : π / 2 ≤ a := by
      by_contra hn
      push Not at hn
      have := cos_nonneg_of_mem_Icc (x := a) ⟨by linarith, hn.le⟩
      linarith
    have h3 := sin_le (show 0 ≤ a - π / 2 by linarith)
    rw [sin_sub_pi_div_two] at h3
    rw [SF.twopify_of_mem (by linarith) (by linarith), abs_of_nonneg (by linarith)] at hon
    norm_num [SF.epsilon] at hon
    linarith
  · exfalso
    rw [hl, hf] at a1 a2
    simp only [sg, Bool.false_eq_true, if_false, if_true, one_mul, neg_mul, mul_neg] at a1 a2
    unfold SF.configuration_on_hc_cc_circle at hon
    simp only [hl, hf, Bool.and_false, Bool.false_and, Bool.not_false, Bool.and_self, Bool.false_eq_true, if_false,
      if_true, Bool.not_true] at hon
    split_ifs at hon with h0
    rw [wideStart_theta, zero_sub, abs_neg] at hon
    obtain ⟨x, hx⟩ : ∃ x, x = (startOf wideStart).x - c.xc := ⟨_, rfl⟩
    obtain ⟨y, hy⟩ : ∃ y, y = (startOf wideStart).y - c.yc := ⟨_, rfl⟩
    rw [← hx, ← hy] at hon
    change x = 0 - c.xc at hx
    change y = 0 - c.yc at hy
    obtain ⟨hxn, hyn, hcr⟩ := asym_num (A := ccA (1 / 1000) (1 / 125)) (B := ccB (1 / 1000) (1 / 125)) (cb := cos (102 / 10 ^ 6))
      (sb := sin (102 / 10 ^ 6)) (cd := cos (101 / 10 ^ 6)) (sd := sin (101 / 10 ^ 6)) (x := x) (y := y) hA hB hB'
      (by norm_num at c1 ⊢; linarith) c2 (by norm_num at d1 ⊢; linarith) d2 (by norm_num at s0 u1 ⊢; linarith)
      (by norm_num at s1 u0 ⊢; linarith) (by rw [hx, a1, asymGoal]; ring) (by rw [hy, a2, asymGoal]; ring)
    have hz : (⟨x, y⟩ : ℂ) ≠ 0 := by
      intro e; have := congrArg Complex.re e; simp at this; linarith
    have hr0 : 0 < ‖(⟨x, y⟩ : ℂ)‖ := norm_pos_iff.2 hz
    have hca := Complex.cos_arg hz
    have hsa := Complex.sin_arg (⟨x, y⟩ : ℂ)
    have ha0 : SF.atan2 y x < 0 := by rw [← not_le, SF.atan2_nonneg_iff]; linarith
    have ha1 : -π < SF.atan2 y x := Complex.neg_pi_lt_arg _
    change cos (SF.atan2 y x) = x / _ at hca
    change sin (SF.atan2 y x) = y / _ at hsa
    have hcn : cos (SF.atan2 y x) < 0 := by rw [hca]; exact div_neg_of_neg_of_pos hxn hr0
    have hB0 : 0 < ccB (1 / 1000) (1 / 125) := by linarith
    have hcm : 0 < cos c.mu := cos_pos_of_mem_Ioo ⟨by linarith [hmu.1], hmu.2⟩
    have hsm : sin c.mu = ccA (1 / 1000) (1 / 125) / ccB (1 / 1000) (1 / 125) * cos c.mu := by
      rw [← tan_mul_cos hcm.ne']
      congr 1
      rw [h.ok.mu, tan_arctan]
    have hneg : cos (SF.atan2 y x + c.mu) < 0 := by
      rw [cos_add, hsm, hca, hsa]
      have e : x / ‖(⟨x, y⟩ : ℂ)‖ * cos c.mu - y / ‖(⟨x, y⟩ : ℂ)‖ * (ccA (1 / 1000) (1 / 125) / ccB (1 / 1000) (1 / 125) * cos c.mu)
          = (x * ccB (1 / 1000) (1 / 125) - y * ccA (1 / 1000) (1 / 125)) * (cos c.mu / (‖(⟨x, y⟩ : ℂ)‖ * ccB (1 / 1000) (1 / 125))) := by
        field_simp
      rw [e]
      exact mul_neg_of_neg_of_pos hcr (by positivity)
    generalize SF.atan2 y x = a at *
    have ha2 : a < -(π / 2) := by
      by_contra hn
      push Not at hn
      have := cos_nonneg_of_mem_Icc (x := a) ⟨hn, by linarith⟩
      linarith
    have ha3 : a + π / 2 + c.mu < 0 := by
      by_contra hn
      push Not at hn
      have := sin_nonneg_of_nonneg_of_le_pi hn (by linarith [hmu.2])
      rw [show a + π / 2 + c.mu = a + c.mu + π / 2 by ring, sin_add_pi_div_two] at this
      linarith
    rw [← SF.twopify_congr (a := 2 * π + (a + π / 2 + c.mu)) ⟨1, by push_cast; ring⟩,
      SF.twopify_of_mem (by linarith [hmu.1]) (by linarith), abs_of_nonneg (by linarith [hmu.1])] at hon
    norm_num [SF.epsilon] at hon
    linarith [hmu.1]
  · refine le_trans (by norm_num) (wide_default h ?_)
    unfold SF.Circle.deflection
    simp only [hl, hf, s, wideStart_theta, asymGoal_theta, zero_sub]
    exact far _ rfl

/-- The cusp on the way back. -/
theorem asym_TcT {sp : SF.HCSpace} (hsk : sp.kappa = 1 / 1000) (hss : sp.sigma = 1 / 125) {l f l' f' r : Bool}
    (h : SF.CcRs.TcT_exists (SF.scratch (SF.circleAt (startOf asymGoal) l f r sp.param) (SF.circleAt (startOf wideStart) l' f' r sp.param))
      (SF.circleAt (startOf asymGoal) l f r sp.param) (SF.circleAt (startOf wideStart) l' f' r sp.param)) :
    24 / 100 ≤ (SF.CcRs.TcT_path (SF.circleAt (startOf asymGoal) l f r sp.param) (SF.circleAt (startOf wideStart) l' f' r sp.param)).length := by
  have hr : InRange sp.kappa sp.sigma := by rw [hsk, hss]; exact wide_range
  have H := hr.rng
  have hok : ∀ q l f, CircOk (SF.circleAt q l f r sp.param) (1 / 1000) (1 / 125) := by
    intro q l f
    have := circOk_at H.kappa H.sigma H.clothoid q l f r
    rw [hsk, hss] at this
    rwa [show sp.param = SF.hc_cc_circle_param sp.kappa sp.sigma from rfl, hsk, hss]
  by_cases hd : Spec.Diff (SF.circleAt (startOf wideStart) l' f' r sp.param) (SF.circleAt (startOf asymGoal) l f r sp.param)
  · have P := Spec.Rev.ccPair H hd
    rw [P.TcT_exists] at h
    rw [P.TcT_path h]
    exact wide_TcT ahead_asym (hok _ _ _) (hok _ _ _) rfl rfl h
  · exfalso
    unfold Spec.Diff at hd
    push Not at hd
    unfold SF.CcRs.TcT_exists at h
    split_ifs at h with hl hf
    have h1 := (hok (startOf asymGoal) l f).ok
    have e0 : (SF.scratch (SF.circleAt (startOf asymGoal) l f r sp.param) (SF.circleAt (startOf wideStart) l' f' r sp.param)).distance = 0 := by
      change √(_ + _) = 0
      rw [hd.1, hd.2]; simp
    rw [e0, mul_assoc, h1.cos_mu] at h
    have := wide_B.2
    have := (abs_lt.1 h).1
    norm_num [SF.epsilon] at this
    linarith

/-! ### The planners -/

theorem CcRs.asym_there {sp : SF.HCSpace} (hsk : sp.kappa = 1 / 1000) (hss : sp.sigma = 1 / 125) :
    SF.CcRs.get_distance sp wideStart asymGoal ≤ 235 / 1000 := by
  have hr : InRange sp.kappa sp.sigma := by rw [hsk, hss]; exact wide_range
  have hok := CcRs.end_ok hr.rng wideStart 0
  rw [hsk, hss] at hok
  obtain ⟨n, _, hn, hmin⟩ := CcRs.best_spec sp wideStart asymGoal
  rw [SF.CcRs.get_distance, hn]
  refine (hmin 0 (by norm_num)).trans ((CcRs.entry_le sp _ _ (i := 2) (by norm_num)).trans
    (le_trans (le_of_eq ?_) (asym_turn hok rfl rfl rfl)))
  unfold SF.CcRs.table SF.CcRs.shortcut
  have e1 : (SF.CcRs.end_circle sp wideStart (0 / 4)).start = startOf wideStart := rfl
  have e2 : (SF.CcRs.end_circle sp asymGoal (0 % 4)).start = startOf asymGoal := rfl
  rw [e1, e2, if_neg asym_not.1, if_neg asym_not.2.1, if_neg asym_not.2.2.1, if_pos (asym_on hok rfl rfl rfl)]
  rfl

theorem CcRs.asym_back {sp : SF.HCSpace} (hsk : sp.kappa = 1 / 1000) (hss : sp.sigma = 1 / 125) :
    24 / 100 ≤ SF.CcRs.get_distance sp asymGoal wideStart := by
  have hr : InRange sp.kappa sp.sigma := by rw [hsk, hss]; exact wide_range
  have hok : ∀ s i, CircOk (SF.CcRs.end_circle sp s i) (1 / 1000) (1 / 125) := by
    intro s i
    have := CcRs.end_ok hr.rng s i
    rw [hsk, hss] at this
    exact this
  obtain ⟨n, _, hn, -⟩ := CcRs.best_spec sp asymGoal wideStart
  rw [SF.CcRs.get_distance, hn]
  by_cases hlt : (SF.CcRs.path sp asymGoal wideStart n).length < SF.dblMax
  swap
  · push Not at hlt
    exact le_trans (le_trans (by norm_num) SF.dblMax_large.le) hlt
  unfold SF.CcRs.path at hlt ⊢
  rcases CcRs.chosen hlt with ⟨t, r, hs, -, hp⟩ | ⟨-, i, -, hp⟩
  · unfold SF.CcRs.shortcut at hs
    have e1 : (SF.CcRs.end_circle sp asymGoal (n / 4)).start = startOf asymGoal := rfl
    have e2 : (SF.CcRs.end_circle sp wideStart (n % 4)).start = startOf wideStart := rfl
    rw [e1, e2, if_neg asym_not.2.2.2, if_neg asym_not.2.2.1, if_neg asym_not.2.1] at hs
    by_cases hon : SF.configuration_on_hc_cc_circle (SF.CcRs.end_circle sp asymGoal (n / 4)) (startOf wideStart)
    · rw [if_pos hon] at hs
      simp only [Option.some.injEq, Prod.mk.injEq] at hs
      obtain ⟨rfl, rfl⟩ := hs
      rw [hp]
      exact asym_T (hok _ _) rfl hon
    · rw [if_neg hon] at hs
      exact absurd hs (by simp)
  · rw [hp] at hlt ⊢
    change (SF.CcRs.family sp (SF.scratch _ _) _ _ i).length < _ at hlt
    change _ ≤ (SF.CcRs.family sp (SF.scratch _ _) _ _ i).length
    by_cases h4 : i = SF.hc_cc_rs.TcT
    · subst h4
      by_cases he : SF.CcRs.TcT_exists (SF.scratch (SF.CcRs.end_circle sp asymGoal (n / 4)) (SF.CcRs.end_circle sp wideStart (n % 4)))
          (SF.CcRs.end_circle sp asymGoal (n / 4)) (SF.CcRs.end_circle sp wideStart (n % 4))
      · simp only [SF.CcRs.family, if_pos he]
        exact asym_TcT hsk hss he
      · simp only [SF.CcRs.family, if_neg he] at hlt
        exact absurd hlt (lt_irrefl _)
    · exact wide_family hsk hss (hok _ _) (hok _ _) h4 hlt

theorem asym_far : dist2 wideStart asymGoal ≤ 10 ^ 100 ∧ dist2 asymGoal wideStart ≤ 10 ^ 100 := by
  have h : dist2 wideStart asymGoal ≤ 10 ^ 100 := by
    have := asym_dist.2
    change √((asymGoal.x - 0) ^ 2 + (asymGoal.y - 0) ^ 2) ≤ _ at this
    unfold dist2
    refine le_trans (le_trans (le_of_eq ?_) this) (by norm_num)
    rfl
  have e : dist2 asymGoal wideStart = dist2 wideStart asymGoal := by unfold dist2; congr 1; ring
  exact ⟨h, e ▸ h⟩

namespace CC00

open SF.CC00

theorem asym_there {sp : SF.HCSpace} (hsk : sp.kappa = 1 / 1000) (hss : sp.sigma = 1 / 125) (hsf : sp.forwards = true) :
    get_distance sp wideStart asymGoal ≤ 235 / 1000 := by
  have hP : sp.param = SF.hc_cc_circle_param (1 / 1000) (1 / 125) := by
    rw [show sp.param = SF.hc_cc_circle_param sp.kappa sp.sigma from rfl, hsk, hss]
  have hs : CircOk (start_circle sp (startOf wideStart) 0) (1 / 1000) (1 / 125) := by
    unfold start_circle; rw [hP]
    exact circOk_at wide_range.kappa wide_range.sigma wide_range.clothoid _ _ _ _
  have hf : (start_circle sp (startOf wideStart) 0).forward = true := by unfold start_circle SF.circleAt; exact hsf
  refine (dist_le_path 0 0 (by norm_num) (by norm_num)).trans ?_
  refine (body_le sp _ _ _ (i := 2) (by norm_num)).trans (le_trans (le_of_eq (table_T asym_not.1 ?_ ?_)) (asym_turn hs rfl hf rfl))
  · rintro (⟨_, h⟩ | ⟨_, h⟩)
    · exact asym_not.2.1 h
    · exact asym_not.2.2.1 h
  · exact asym_on hs rfl hf rfl

theorem asym_back {sp : SF.HCSpace} (hsk : sp.kappa = 1 / 1000) (hss : sp.sigma = 1 / 125) :
    24 / 100 ≤ get_distance sp asymGoal wideStart := by
  have hr : InRange sp.kappa sp.sigma := by rw [hsk, hss]; exact wide_range
  have hP : sp.param = SF.hc_cc_circle_param (1 / 1000) (1 / 125) := by
    rw [show sp.param = SF.hc_cc_circle_param sp.kappa sp.sigma from rfl, hsk, hss]
  have hs : ∀ i, CircOk (start_circle sp (startOf asymGoal) i) (1 / 1000) (1 / 125) := by
    intro i; unfold start_circle; rw [hP]
    exact circOk_at wide_range.kappa wide_range.sigma wide_range.clothoid _ _ _ _
  have he : ∀ j, CircOk (end_circle sp (startOf wideStart) j) (1 / 1000) (1 / 125) := by
    intro j; unfold end_circle; rw [hP]
    exact circOk_at wide_range.kappa wide_range.sigma wide_range.clothoid _ _ _ _
  obtain ⟨i, j, t, r, hi, hj, e, hfd⟩ := selected asymGoal wideStart hr.kappa hr.sigma hr.clothoid hr.finite asym_far.2
  have hg : get_distance sp asymGoal wideStart = r.length := by unfold get_distance; rw [e]; rfl
  rw [hg]
  rcases found_long hsk hss (hs i) (he j) rfl hfd with ht | ⟨rfl, rfl⟩ | hlong
  · exfalso
    cases hfd with
    | E h => exact asym_not.2.2.2 h
    | S h _ => exact asym_not.2.2.1 h
    | Sb h _ => exact asym_not.2.1 h
    | _ => norm_num at ht
  · cases hfd with
    | T h => exact asym_T (hs i) rfl h
  · exact hlong

end CC00

end Spec
