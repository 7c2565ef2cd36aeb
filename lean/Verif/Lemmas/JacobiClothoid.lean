import Verif.Lemmas.Jacobi
import Verif.Lemmas.Clothoid

/-!
# Derivatives of clothoids with respect to the curvature
-/

noncomputable section

namespace Spec

open Real

theorem integral_clothoid_s_sin {d sigma : ℝ} (hs : sigma ≠ 0) (kappa theta L : ℝ) :
    -(∫ s in (0:ℝ)..L, d * (d * s * sin (heading d kappa sigma theta s)))
      = d * (cos (heading d kappa sigma theta L) - cos theta) / sigma
        + d * kappa / sigma * ∫ s in (0:ℝ)..L, d * sin (heading d kappa sigma theta s) := by
  have hc := heading_continuous d kappa sigma theta
  have h0 : heading d kappa sigma theta 0 = theta := by unfold heading; ring
  have key : ∀ s, HasDerivAt (fun s => d * cos (heading d kappa sigma theta s) / sigma)
      (-(d * (d * s * sin (heading d kappa sigma theta s)))
        - d * kappa / sigma * (d * sin (heading d kappa sigma theta s))) s := by
    intro s
    refine (((heading_hasDerivAt d kappa sigma theta s).cos.const_mul d).div_const sigma).congr_deriv ?_
    field_simp
    ring
  have h := intervalIntegral.integral_eq_sub_of_hasDerivAt (a := 0) (b := L) (fun x _ => key x)
    (Continuous.intervalIntegrable (by fun_prop) _ _)
  rw [intervalIntegral.integral_sub (Continuous.intervalIntegrable (by fun_prop) _ _)
    (Continuous.intervalIntegrable (by fun_prop) _ _), intervalIntegral.integral_neg,
    intervalIntegral.integral_const_mul (d * kappa / sigma)
      (fun s => d * sin (heading d kappa sigma theta s)), h0] at h
  linear_combination h

theorem integral_clothoid_s_cos {d sigma : ℝ} (hs : sigma ≠ 0) (kappa theta L : ℝ) :
    (∫ s in (0:ℝ)..L, d * (d * s * cos (heading d kappa sigma theta s)))
      = d * (sin (heading d kappa sigma theta L) - sin theta) / sigma
        - d * kappa / sigma * ∫ s in (0:ℝ)..L, d * cos (heading d kappa sigma theta s) := by
  have hc := heading_continuous d kappa sigma theta
  have h0 : heading d kappa sigma theta 0 = theta := by unfold heading; ring
  have key : ∀ s, HasDerivAt (fun s => d * sin (heading d kappa sigma theta s) / sigma)
      ((d * (d * s * cos (heading d kappa sigma theta s)))
        + d * kappa / sigma * (d * cos (heading d kappa sigma theta s))) s := by
    intro s
    refine (((heading_hasDerivAt d kappa sigma theta s).sin.const_mul d).div_const sigma).congr_deriv ?_
    field_simp
    ring
  have h := intervalIntegral.integral_eq_sub_of_hasDerivAt (a := 0) (b := L) (fun x _ => key x)
    (Continuous.intervalIntegrable (by fun_prop) _ _)
  rw [intervalIntegral.integral_add (Continuous.intervalIntegrable (by fun_prop) _ _)
    (Continuous.intervalIntegrable (by fun_prop) _ _),
    intervalIntegral.integral_const_mul (d * kappa / sigma)
      (fun s => d * cos (heading d kappa sigma theta s)), h0] at h
  linear_combination h

end Spec
