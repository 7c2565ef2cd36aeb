import Verif.Lemmas.Within
import Verif.Lemmas.D1
import Verif.Model.Paths

/-!
# The circle parameters of the HC/CC state spaces
-/

noncomputable section

namespace Spec

open Real

/-- `x_c` of the constructor: forward offset of the centre of a CC circle. -/
def ccA (k s : ℝ) : ℝ :=
  cScale s * (SF.fresnel (cArg s (k / s))).2 - sin (k ^ 2 / (2 * s)) / k

/-- `y_c` of the constructor: lateral offset of the centre of a CC circle. -/
def ccB (k s : ℝ) : ℝ :=
  cScale s * (SF.fresnel (cArg s (k / s))).1 + cos (k ^ 2 / (2 * s)) / k

/-- Fresnel argument of the full clothoid. -/
theorem cArg_full {k s : ℝ} (hs : 0 < s) : cArg s (k / s) = k / √(π * s) := by
  unfold cArg
  have h1 : 0 < √s := sqrt_pos.2 hs
  have h2 : 0 < √π := sqrt_pos.2 pi_pos
  rw [sqrt_mul pi_pos.le]
  field_simp

theorem cScale_pos {s : ℝ} (hs : 0 < s) : 0 < cScale s := by
  unfold cScale
  have h1 : 0 < √s := sqrt_pos.2 hs
  have h2 : 0 < √π := sqrt_pos.2 pi_pos
  positivity

theorem cScale_sq {s : ℝ} (hs : 0 < s) : cScale s ^ 2 = π / s := by
  unfold cScale
  rw [mul_pow, div_pow, one_pow, sq_sqrt pi_pos.le, sq_sqrt hs.le]; ring

theorem phase_full {k s : ℝ} (hs : 0 < s) : π / 2 * cArg s (k / s) ^ 2 = k ^ 2 / (2 * s) := by
  rw [cArg_full hs, div_pow, sq_sqrt (by have := pi_pos; positivity)]
  have := pi_pos
  field_simp

theorem inv_full {k s : ℝ} (hk : 0 < k) (hs : 0 < s) : 1 / k = cScale s * (1 / (π * cArg s (k / s))) := by
  rw [cArg_full hs, sqrt_mul pi_pos.le]
  unfold cScale
  have h1 : 0 < √s := sqrt_pos.2 hs
  have h2 : 0 < √π := sqrt_pos.2 pi_pos
  have h3 : √π * √π = π := mul_self_sqrt pi_pos.le
  field_simp
  linear_combination -h3

theorem ccA_eq {k s : ℝ} (hk : 0 < k) (hs : 0 < s) : ccA k s = cScale s *
    (cenX (cArg s (k / s)) + ((SF.fresnel (cArg s (k / s))).2 - fresnelC (cArg s (k / s)))) := by
  unfold ccA cenX
  rw [phase_full hs, div_eq_mul_one_div _ k, inv_full hk hs]; ring

theorem ccB_eq {k s : ℝ} (hk : 0 < k) (hs : 0 < s) : ccB k s = cScale s *
    (cenY (cArg s (k / s)) + ((SF.fresnel (cArg s (k / s))).1 - fresnelS (cArg s (k / s)))) := by
  unfold ccB cenY
  rw [phase_full hs, div_eq_mul_one_div _ k, inv_full hk hs]; ring

/-- Full clothoids are neither too flat nor too short. -/
theorem cArg_full_lower {k s : ℝ} (hk : k > SF.epsilon) (hs : 0 < s) (hl : k / s > SF.epsilon) :
    1 / 10 ^ 5 ≤ cArg s (k / s) := by
  unfold SF.epsilon at hk hl
  have hk0 : 0 < k := by linarith
  have hp := pi_pos
  have hp4 := pi_le_four
  rw [cArg_full hs, le_div_iff₀ (by positivity)]
  rw [gt_iff_lt, lt_div_iff₀ hs] at hl
  have : 1 / 10 ^ 5 * √(π * s) = √((1 / 10 ^ 5) ^ 2 * (π * s)) := by
    rw [sqrt_mul (x := (1 / 10 ^ 5) ^ 2) (by positivity), sqrt_sq (by positivity)]
  rw [this]
  apply sqrt_le_iff.2
  refine ⟨hk0.le, ?_⟩
  have h1 : π * s ≤ 4 * s := by nlinarith
  nlinarith

theorem ccA_lower {k s : ℝ} (hk0 : 0 < k) (hs : 0 < s) (ht : 1 / 10 ^ 5 ≤ cArg s (k / s)) :
    cScale s * (1 / 10 ^ 6) ≤ ccA k s := by
  rw [ccA_eq hk0 hs]
  obtain ⟨t, ht'⟩ : ∃ t, t = cArg s (k / s) := ⟨_, rfl⟩
  rw [← ht'] at ht ⊢
  have h1 := cenX_lower (t := t) (by linarith)
  have h2 := (abs_le.1 (Poly.fresnel_accurate t).2).1
  have h3 : 1 / 10 ^ 5 ≤ min t (1 / 2) := le_min ht (by norm_num)
  have := cScale_pos hs
  have h4 : 1 / 10 ^ 5 / 8 ≤ cenX t := by linarith
  apply mul_le_mul_of_nonneg_left _ this.le
  norm_num at h2 h4 ⊢
  linarith

/-- A lower bound in terms of the parameters. -/
theorem ccA_lower' {k s : ℝ} (hk : k > SF.epsilon) (hs : 0 < s) (hl : k / s > SF.epsilon) :
    min (k / s) (1 / √s / 2) / 10 ≤ ccA k s := by
  have hk0 : 0 < k := by unfold SF.epsilon at hk; linarith
  have ht := cArg_full_lower hk hs hl
  have hcA : cScale s * cArg s (k / s) = k / s := by
    unfold cScale cArg
    have h1 : √π ≠ 0 := (sqrt_pos.mpr pi_pos).ne'
    have h2 : √s ≠ 0 := (sqrt_pos.mpr hs).ne'
    have h3 : √s * √s = s := mul_self_sqrt hs.le
    field_simp
    rw [sq, h3]
  have hc1 : 1 / √s ≤ cScale s := by
    unfold cScale
    have h1 : 1 ≤ √π := by rw [one_le_sqrt]; linarith [pi_gt_three]
    have h2 : 0 < 1 / √s := one_div_pos.2 (sqrt_pos.2 hs)
    nlinarith
  rw [ccA_eq hk0 hs]
  obtain ⟨t, ht'⟩ : ∃ t, t = cArg s (k / s) := ⟨_, rfl⟩
  rw [← ht'] at ht hcA ⊢
  have h1 := cenX_lower (t := t) (by linarith)
  have h2 := (abs_le.1 (Poly.fresnel_accurate t).2).1
  have h3 : 1 / 10 ^ 5 ≤ min t (1 / 2) := le_min ht (by norm_num)
  have hc := cScale_pos hs
  have h4 : min t (1 / 2) / 10 ≤ cenX t + ((SF.fresnel t).2 - fresnelC t) := by linarith
  refine le_trans ?_ (mul_le_mul_of_nonneg_left h4 hc.le)
  rw [← hcA, ← mul_div_assoc]
  refine div_le_div_of_nonneg_right ?_ (by norm_num)
  rcases le_total t (1 / 2) with h | h
  · rw [min_eq_left h]; exact min_le_left _ _
  · rw [min_eq_right h]; exact (min_le_right _ _).trans (by linarith)

theorem ccA_pos {k s : ℝ} (hk : k > SF.epsilon) (hs : 0 < s) (hl : k / s > SF.epsilon) :
    0 < ccA k s := by
  have hk0 : 0 < k := by unfold SF.epsilon at hk; linarith
  have := ccA_lower hk0 hs (cArg_full_lower hk hs hl)
  have h2 := cScale_pos hs
  nlinarith

theorem ccB_pos {k s : ℝ} (hk : k > SF.epsilon) (hs : 0 < s) (hl : k / s > SF.epsilon) :
    0 < ccB k s := by
  have hk0 : 0 < k := by unfold SF.epsilon at hk; linarith
  have ht := cArg_full_lower hk hs hl
  rw [ccB_eq hk0 hs]
  obtain ⟨t, ht'⟩ : ∃ t, t = cArg s (k / s) := ⟨_, rfl⟩
  rw [← ht'] at ht ⊢
  have h1 := cenY_lower (t := t) (by linarith)
  have h2 := (abs_le.1 (Poly.fresnel_accurate t).1).1
  have := cScale_pos hs
  apply mul_pos this
  norm_num at h1 h2 ⊢
  linarith

/-- The constructor's circle parameters. -/
structure ParamOk (P : SF.CircleParam) (k s A B : ℝ) : Prop where
  kappa : P.kappa = k
  kappa_inv : P.kappa_inv = 1 / k
  sigma : P.sigma = s
  radius : P.radius = √(A ^ 2 + B ^ 2)
  mu : P.mu = arctan (A / B)
  sin_mu : P.radius * P.sin_mu = A
  cos_mu : P.radius * P.cos_mu = B
  sin_mu_eq : P.sin_mu = sin P.mu
  cos_mu_eq : P.cos_mu = cos P.mu
  delta_min : P.delta_min = k ^ 2 / (2 * s)

theorem polar_arctan {A B : ℝ} (hB : 0 < B) :
    √(A ^ 2 + B ^ 2) * sin (arctan (A / B)) = A ∧ √(A ^ 2 + B ^ 2) * cos (arctan (A / B)) = B := by
  have h : √(1 + (A / B) ^ 2) = √(A ^ 2 + B ^ 2) / B := by
    rw [eq_div_iff hB.ne', ← sqrt_sq hB.le, ← sqrt_mul (by positivity), sqrt_sq hB.le]
    congr 1; field_simp; ring
  have hp : 0 < √(A ^ 2 + B ^ 2) := sqrt_pos.2 (by positivity)
  rw [sin_arctan, cos_arctan, h]
  constructor <;> field_simp

theorem hc_param_ok {k s : ℝ} (hk : k > SF.epsilon) (hs : 0 < s) (hl : k / s > SF.epsilon) :
    ParamOk (SF.hc_cc_circle_param k s) k s (ccA k s) (ccB k s) := by
  have hk0 : 0 < k := by unfold SF.epsilon at hk; linarith
  have hA := ccA_pos hk hs hl
  have hB := ccB_pos hk hs hl
  have hf : (SF.first_clothoid k s).x - sin (SF.first_clothoid k s).theta / k = ccA k s ∧
      (SF.first_clothoid k s).y + cos (SF.first_clothoid k s).theta / k = ccB k s := by
    have hsg : SF.sgn s = 1 := by unfold SF.sgn; rw [if_neg (not_lt.2 hs.le)]
    unfold SF.first_clothoid
    simp only [if_pos hl]
    unfold SF.end_of_clothoid ccA ccB cScale cArg
    simp only [SF.sin_pify, SF.cos_pify, hsg, abs_of_pos hs, mul_zero, zero_div, sub_zero, add_zero,
      SF.fresnel_zero, cos_zero, sin_zero, zero_mul]
    have e : 0 + 0.5 * s * 1 * (k / s) * (k / s) = k ^ 2 / (2 * s) := by field_simp; norm_num; ring
    rw [e]
    constructor <;> ring
  have hrad : (SF.hc_cc_circle_param k s).radius = √(ccA k s ^ 2 + ccB k s ^ 2) := by
    unfold SF.hc_cc_circle_param SF.set_param SF.point_distance
    simp only [hf.1, hf.2, zero_sub, neg_sq]
  have hmu : (SF.hc_cc_circle_param k s).mu = arctan (ccA k s / ccB k s) := by
    unfold SF.hc_cc_circle_param SF.set_param
    simp only [hf.1, hf.2]
    rw [abs_of_pos (div_pos hA hB)]
  have hp := polar_arctan (A := ccA k s) hB
  refine ⟨rfl, rfl, rfl, hrad, hmu, ?_, ?_, rfl, rfl, ?_⟩
  · rw [hrad, show (SF.hc_cc_circle_param k s).sin_mu = sin (SF.hc_cc_circle_param k s).mu from rfl, hmu]
    exact hp.1
  · rw [hrad, show (SF.hc_cc_circle_param k s).cos_mu = cos (SF.hc_cc_circle_param k s).mu from rfl, hmu]
    exact hp.2
  · change 0.5 * k ^ 2 / s = _
    field_simp; norm_num

/-- Clothoids below the resolution are neglected by the constructor. -/
theorem hc_param_ok_short {k s : ℝ} (hk : 0 < k) (hs : 0 < s) (hl : k / s ≤ SF.epsilon) :
    ParamOk (SF.hc_cc_circle_param k s) k s 0 (1 / k) := by
  have hf : SF.first_clothoid k s = ⟨0, 0, 0⟩ := by
    unfold SF.first_clothoid
    simp only [if_neg (not_lt.2 hl)]
  have hrad : (SF.hc_cc_circle_param k s).radius = √(0 ^ 2 + (1 / k) ^ 2) := by
    unfold SF.hc_cc_circle_param SF.set_param SF.point_distance
    simp [hf]
  have hmu : (SF.hc_cc_circle_param k s).mu = arctan (0 / (1 / k)) := by
    unfold SF.hc_cc_circle_param SF.set_param
    simp [hf]
  have hp := polar_arctan (A := 0) (B := 1 / k) (by positivity)
  refine ⟨rfl, rfl, rfl, hrad, hmu, ?_, ?_, rfl, rfl, ?_⟩
  · rw [hrad, show (SF.hc_cc_circle_param k s).sin_mu = sin (SF.hc_cc_circle_param k s).mu from rfl, hmu]
    exact hp.1
  · rw [hrad, show (SF.hc_cc_circle_param k s).cos_mu = cos (SF.hc_cc_circle_param k s).mu from rfl, hmu]
    exact hp.2
  · change 0.5 * k ^ 2 / s = _
    field_simp; norm_num

/-- `rs_circle_param`. -/
theorem rs_param_ok (k : ℝ) :
    (SF.rs_circle_param k).kappa = k ∧ (SF.rs_circle_param k).kappa_inv = 1 / k ∧
    (SF.rs_circle_param k).radius = 1 / k ∧ (SF.rs_circle_param k).sin_mu = 0 ∧
    (SF.rs_circle_param k).cos_mu = 1 ∧ (SF.rs_circle_param k).mu = 0 :=
  ⟨rfl, rfl, rfl, rfl, rfl, rfl⟩

/-- Chord of an elementary path is positive. -/
theorem chord_pos {k s a : ℝ} (hk : k > SF.epsilon) (hs : 0 < s)
    (ha0 : SF.epsilon / 2 ≤ a) (ha : a < 2.2974) (ham : a ≤ k ^ 2 / (2 * s)) :
    0 < SF.Circle.D1 a ∧
    SF.Circle.D1 a * cScale s * (1 - 5 / 10 ^ 9) ≤ ccA k s * cos a + ccB k s * sin a := by
  have hp := pi_pos
  have hk0 : 0 < k := by unfold SF.epsilon at hk; linarith
  unfold SF.epsilon at ha0
  have haa : 0 < a := by linarith
  obtain ⟨u, hu⟩ : ∃ u, u = √(2 * a / π) := ⟨_, rfl⟩
  have hu2 : u ^ 2 = 2 * a / π := by rw [hu, sq_sqrt (by positivity)]
  have hu0 : 0 < u := by rw [hu]; exact sqrt_pos.2 (by positivity)
  have hph : π / 2 * u ^ 2 = a := by rw [hu2]; field_simp
  have hul : 5 / 1000 ≤ u := by
    rw [hu]; apply le_sqrt_of_sq_le
    rw [le_div_iff₀ hp]; have := pi_le_four; nlinarith
  have hd := d1_lower hu0.le (by rw [hph]; exact ha.le)
  have hut : u ≤ cArg s (k / s) := by
    have h1 := phase_full (k := k) hs
    have h0 : 0 ≤ cArg s (k / s) := by rw [cArg_full hs]; positivity
    rw [← h1, ← hph] at ham
    have h2 : u ^ 2 ≤ cArg s (k / s) ^ 2 := by
      have := (mul_le_mul_iff_right₀ (show 0 < π / 2 by positivity)).1 ham
      exact this
    exact (pow_le_pow_iff_left₀ hu0.le h0 two_ne_zero).1 h2
  have hc := chord_ge hu0 hut
  rw [hph] at hc
  rw [ccA_eq hk0 hs, ccB_eq hk0 hs]
  have hD : SF.Circle.D1 a = cos a * (SF.fresnel u).2 + sin a * (SF.fresnel u).1 := by
    unfold SF.Circle.D1; simp only [← hu]
  have hd1 : d1 u = cos a * fresnelC u + sin a * fresnelS u := by unfold d1; rw [hph]
  obtain ⟨t, ht'⟩ : ∃ t, t = cArg s (k / s) := ⟨_, rfl⟩
  rw [← ht'] at hc ⊢
  have key : ∀ x e, |e| ≤ 8 / 10 ^ 17 → |x| ≤ 1 → |x * e| ≤ 8 / (10:ℝ) ^ 17 := by
    intro x e he hx
    rw [abs_mul]
    calc |x| * |e| ≤ 1 * |e| := by gcongr
      _ ≤ _ := by rw [one_mul]; exact he
  have f1 := key (sin a) _ (Poly.fresnel_accurate u).1 (abs_sin_le_one a)
  have f2 := key (cos a) _ (Poly.fresnel_accurate u).2 (abs_cos_le_one a)
  have f3 := key (sin a) _ (Poly.fresnel_accurate t).1 (abs_sin_le_one a)
  have f4 := key (cos a) _ (Poly.fresnel_accurate t).2 (abs_cos_le_one a)
  rw [abs_le] at f1 f2 f3 f4
  have hDd : SF.Circle.D1 a = d1 u + cos a * ((SF.fresnel u).2 - fresnelC u)
      + sin a * ((SF.fresnel u).1 - fresnelS u) := by rw [hD, hd1]; ring
  generalize SF.Circle.D1 a = D at *
  generalize d1 u = d at *
  have hD7 : 9 / 10 ^ 8 ≤ D := by
    rw [hDd]
    norm_num at f1 f2 hd ⊢
    linarith
  refine ⟨by norm_num at hD7; linarith, ?_⟩
  have hcs := cScale_pos hs
  have : D * (1 - 5 / 10 ^ 9) ≤ (cenX t + ((SF.fresnel t).2 - fresnelC t)) * cos a
      + (cenY t + ((SF.fresnel t).1 - fresnelS t)) * sin a := by
    norm_num at f1 f2 f3 f4 hD7 ⊢
    nlinarith
  calc D * cScale s * (1 - 5 / 10 ^ 9) = cScale s * (D * (1 - 5 / 10 ^ 9)) := by ring
    _ ≤ cScale s * ((cenX t + ((SF.fresnel t).2 - fresnelC t)) * cos a
      + (cenY t + ((SF.fresnel t).1 - fresnelS t)) * sin a) := by gcongr
    _ = _ := by ring

end Spec
