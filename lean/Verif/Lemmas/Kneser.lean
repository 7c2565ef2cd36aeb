import Verif.Lemmas.Leg
import Mathlib.Analysis.Calculus.MeanValue

/-!
# The outer radius of a CC circle is not smaller than the inner one
-/

noncomputable section

namespace Spec

open Real Props

/-- Centre of a CC circle. -/
def cenC (t : ℝ) : ℂ := ⟨cenX t, cenY t⟩

theorem hasDerivAt_pair {f g : ℝ → ℝ} {a b t : ℝ} (hf : HasDerivAt f a t) (hg : HasDerivAt g b t) :
    HasDerivAt (fun x => (⟨f x, g x⟩ : ℂ)) ⟨a, b⟩ t := by
  have e : ∀ x y : ℝ, (⟨x, y⟩ : ℂ) = (x : ℂ) + (y : ℂ) * Complex.I := fun x y => by apply Complex.ext <;> simp
  simp only [e]
  exact hf.ofReal_comp.add (hg.ofReal_comp.mul_const Complex.I)

/-- Centres of nested osculating circles. -/
theorem cenC_dist {s t : ℝ} (hs : 0 < s) (hst : s ≤ t) : ‖cenC t - cenC s‖ ≤ 1 / (π * s) - 1 / (π * t) := by
  have hpi := pi_pos
  have hd : ∀ x, 0 < x → HasDerivAt (fun x => 1 / (π * s) - 1 / (π * x)) (1 / (π * x ^ 2)) x := by
    intro x hx
    have h := ((hasDerivAt_id' x).const_mul π).inv (by positivity)
    simp only [one_div]
    refine (h.const_sub _).congr_deriv ?_
    field_simp
  have hc : ∀ x, 0 < x → HasDerivAt (fun x => cenC x - cenC s)
      ⟨sin (π / 2 * x ^ 2) / (π * x ^ 2), -(cos (π / 2 * x ^ 2) / (π * x ^ 2))⟩ x := fun x hx =>
    (hasDerivAt_pair (hasDerivAt_cenX hx) (hasDerivAt_cenY hx)).sub_const _
  refine image_norm_le_of_norm_deriv_right_le_deriv_boundary' (a := s) (b := t) (f := fun x => cenC x - cenC s)
    (B := fun x => 1 / (π * s) - 1 / (π * x)) (f' := fun x => ⟨sin (π / 2 * x ^ 2) / (π * x ^ 2), -(cos (π / 2 * x ^ 2) / (π * x ^ 2))⟩)
    (B' := fun x => 1 / (π * x ^ 2)) ?_ ?_ ?_ ?_ ?_ ?_ ⟨hst, le_rfl⟩
  · exact fun x hx => (hc x (hs.trans_le hx.1)).continuousAt.continuousWithinAt
  · exact fun x hx => (hc x (hs.trans_le hx.1)).hasDerivWithinAt
  · simp
  · exact fun x hx => (hd x (hs.trans_le hx.1)).continuousAt.continuousWithinAt
  · exact fun x hx => (hd x (hs.trans_le hx.1)).hasDerivWithinAt
  · intro x hx
    have hx0 := hs.trans_le hx.1
    have e : (sin (π / 2 * x ^ 2) / (π * x ^ 2)) ^ 2 + (-(cos (π / 2 * x ^ 2) / (π * x ^ 2))) ^ 2 = (1 / (π * x ^ 2)) ^ 2 := by
      have := sin_sq_add_cos_sq (π / 2 * x ^ 2)
      rw [neg_sq, div_pow, div_pow, ← add_div, this, div_pow, one_pow]
    rw [← sqrt_eq_norm, e, sqrt_sq (by positivity)]

/-- Near the start of the clothoid. -/
theorem cenC_start {s : ℝ} (hs : 0 < s) : 1 / (π * s) - 2 * s ≤ ‖cenC s‖ := by
  have hpi := pi_pos
  have e : cenC s = ⟨-(sin (π / 2 * s ^ 2) / (π * s)), cos (π / 2 * s ^ 2) / (π * s)⟩ - ⟨-fresnelC s, -fresnelS s⟩ := by
    apply Complex.ext <;> simp [cenC, cenX, cenY] <;> ring
  have h1 : ‖(⟨-(sin (π / 2 * s ^ 2) / (π * s)), cos (π / 2 * s ^ 2) / (π * s)⟩ : ℂ)‖ = 1 / (π * s) := by
    have := sin_sq_add_cos_sq (π / 2 * s ^ 2)
    rw [← sqrt_eq_norm, neg_sq, div_pow, div_pow, ← add_div, this, ← one_div_pow, sqrt_sq (by positivity)]
  have h2 : ‖(⟨-fresnelC s, -fresnelS s⟩ : ℂ)‖ ≤ 2 * s := by
    refine (Complex.norm_le_abs_re_add_abs_im _).trans ?_
    simp only [abs_neg]
    linarith [abs_fresnelC_le hs.le, abs_fresnelS_le hs.le]
  rw [e]
  have := norm_sub_norm_le (⟨-(sin (π / 2 * s ^ 2) / (π * s)), cos (π / 2 * s ^ 2) / (π * s)⟩ : ℂ) ⟨-fresnelC s, -fresnelS s⟩
  linarith

/-- The start of a clothoid is outside its osculating circles. -/
theorem cenC_lower {t : ℝ} (ht : 0 < t) : 1 / (π * t) ≤ ‖cenC t‖ := by
  refine le_of_forall_pos_le_add fun e he => ?_
  have h0 : 0 < min t (e / 2) := lt_min ht (by linarith)
  have h1 := cenC_dist h0 (min_le_left t (e / 2))
  have h2 := cenC_start h0
  have h3 := norm_sub_norm_le (cenC (min t (e / 2))) (cenC t)
  rw [norm_sub_rev] at h3
  have := min_le_right t (e / 2)
  linarith

/-- The outer radius is at least half the inner radius; without the error of the Fresnel integrals it would not be smaller
than the inner radius. -/
theorem Rng.inv_ccR {k s : ℝ} (H : Rng k s) : 1 / k ≤ 2 * ccR k s := by
  have hpi := pi_pos
  have hk := H.pos
  have hs := H.sigma
  have ht := cArg_full_lower H.kappa H.sigma H.clothoid
  have hsc := cScale_pos hs
  rw [inv_full hk hs, ccR, ccA_eq hk hs, ccB_eq hk hs]
  obtain ⟨f1, f2⟩ := Poly.fresnel_accurate (cArg s (k / s))
  obtain ⟨t, ht'⟩ : ∃ t, t = cArg s (k / s) := ⟨_, rfl⟩
  rw [← ht'] at ht f1 f2 ⊢
  have ht0 : 0 < t := lt_of_lt_of_le (by norm_num) ht
  generalize (SF.fresnel t).1 - fresnelS t = e1 at *
  generalize (SF.fresnel t).2 - fresnelC t = e2 at *
  rw [mul_pow, mul_pow, ← mul_add, sqrt_mul (sq_nonneg _), sqrt_sq hsc.le, mul_left_comm]
  refine mul_le_mul_of_nonneg_left ?_ hsc.le
  rcases le_total t 5 with h5 | h5
  · have h1 := cenC_lower ht0
    rw [sqrt_eq_norm]
    have e : (⟨cenX t + e2, cenY t + e1⟩ : ℂ) = cenC t - ⟨-e2, -e1⟩ := by apply Complex.ext <;> simp [cenC]
    have h2 : ‖(⟨-e2, -e1⟩ : ℂ)‖ ≤ 16 / 10 ^ 17 := by
      refine (Complex.norm_le_abs_re_add_abs_im _).trans ?_
      simp only [abs_neg]
      linarith
    have h3 := norm_sub_norm_le (cenC t) ⟨-e2, -e1⟩
    rw [e]
    have h4 : 1 / 20 ≤ 1 / (π * t) := by
      apply one_div_le_one_div_of_le (by positivity)
      nlinarith [pi_lt_four]
    norm_num at h2
    linarith
  · have h1 := cenY_lower ht0
    have h2 : 9 / 100 ≤ cenY t + e1 := by
      have := (abs_le.1 f1).1
      norm_num at this
      linarith
    have h3 : 9 / 100 ≤ √((cenX t + e2) ^ 2 + (cenY t + e1) ^ 2) := by
      apply le_sqrt_of_sq_le
      nlinarith [sq_nonneg (cenX t + e2)]
    have h4 : 1 / (π * t) ≤ 1 / 15 := by
      apply one_div_le_one_div_of_le (by norm_num)
      nlinarith [pi_gt_three]
    linarith

end Spec
