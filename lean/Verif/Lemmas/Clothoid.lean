import Verif.Lemmas.FresnelLarge
import Verif.Lemmas.Drive

/-!
# Clothoids with the exact Fresnel integrals
-/

noncomputable section

namespace Spec

open Real

/-- `SF.sgn` of a non-zero number. -/
theorem sgn_mul_abs (sigma : ℝ) : SF.sgn sigma * |sigma| = sigma := by
  unfold SF.sgn
  split_ifs with h
  · rw [abs_of_neg h]; ring
  · rw [abs_of_nonneg (not_lt.1 h)]; ring

theorem sgn_sq (a : ℝ) : SF.sgn a * SF.sgn a = 1 := by
  unfold SF.sgn
  split_ifs <;> norm_num

/-- The Fresnel argument after arc length `L`. -/
def fArg (kappa sigma L : ℝ) : ℝ :=
  1 / √π * (1 / √|sigma|) * (|sigma| * L + SF.sgn sigma * kappa)

theorem fArg_sq {sigma : ℝ} (hs : sigma ≠ 0) (kappa L : ℝ) :
    π / 2 * fArg kappa sigma L ^ 2
      = SF.sgn sigma * (kappa * L + sigma * L ^ 2 / 2 + kappa ^ 2 / (2 * sigma)) := by
  have ha : 0 < |sigma| := abs_pos.2 hs
  have h1 : √π * √π = π := mul_self_sqrt pi_pos.le
  have h2 : √|sigma| * √|sigma| = |sigma| := mul_self_sqrt ha.le
  have hp : √π ≠ 0 := (sqrt_pos.2 pi_pos).ne'
  have hq : √|sigma| ≠ 0 := (sqrt_pos.2 ha).ne'
  have hg := sgn_sq sigma
  have hsg := sgn_mul_abs sigma
  have hab : |sigma| = SF.sgn sigma * sigma := by
    calc |sigma| = SF.sgn sigma * (SF.sgn sigma * |sigma|) := by rw [← mul_assoc, hg, one_mul]
      _ = _ := by rw [hsg]
  have e : fArg kappa sigma L ^ 2
      = 1 / π * (1 / |sigma|) * (|sigma| * L + SF.sgn sigma * kappa) ^ 2 := by
    unfold fArg
    rw [mul_pow, mul_pow, div_pow, div_pow, one_pow, sq (√π), sq (√|sigma|), h1, h2]
  rw [e]
  have hg0 : SF.sgn sigma ≠ 0 := by
    intro h; rw [h] at hg; norm_num at hg
  rw [hab]
  have hpi := pi_pos.ne'
  field_simp
  ring

/-- The angle `k1` of `end_of_clothoid`. -/
def baseAngle (theta kappa sigma d : ℝ) : ℝ := theta - 0.5 * d * kappa * kappa / sigma

theorem heading_split {sigma d : ℝ} (hs : sigma ≠ 0) (theta kappa L : ℝ) :
    heading d kappa sigma theta L
      = baseAngle theta kappa sigma d + d * SF.sgn sigma * (π / 2 * fArg kappa sigma L ^ 2) := by
  have hg := sgn_sq sigma
  rw [fArg_sq hs]
  unfold heading baseAngle
  rw [show d * SF.sgn sigma * (SF.sgn sigma * (kappa * L + sigma * L ^ 2 / 2
      + kappa ^ 2 / (2 * sigma))) = (SF.sgn sigma * SF.sgn sigma) * (d * (kappa * L
      + sigma * L ^ 2 / 2 + kappa ^ 2 / (2 * sigma))) by ring, hg]
  field_simp
  ring

theorem cos_pm {a b e : ℝ} (he : e = 1 ∨ e = -1) : cos (a + e * b) = cos a * cos b - e * (sin a * sin b) := by
  rcases he with rfl | rfl
  · rw [one_mul, one_mul, cos_add]
  · rw [show a + -1 * b = a - b by ring, cos_sub]; ring

theorem sin_pm {a b e : ℝ} (he : e = 1 ∨ e = -1) : sin (a + e * b) = sin a * cos b + e * (cos a * sin b) := by
  rcases he with rfl | rfl
  · rw [one_mul, one_mul, sin_add]
  · rw [show a + -1 * b = a - b by ring, sin_sub]; ring

theorem pm_mul {d g : ℝ} (hd : d = 1 ∨ d = -1) (hg : g = 1 ∨ g = -1) : d * g = 1 ∨ d * g = -1 := by
  rcases hd with rfl | rfl <;> rcases hg with rfl | rfl <;> norm_num

theorem sgn_pm (a : ℝ) : SF.sgn a = 1 ∨ SF.sgn a = -1 := by
  unfold SF.sgn; split_ifs <;> simp

theorem hasDerivAt_fArg {sigma : ℝ} (hs : sigma ≠ 0) (kappa L : ℝ) :
    HasDerivAt (fArg kappa sigma) (√|sigma| / √π) L := by
  have h := ((((hasDerivAt_id' L).const_mul |sigma|).add_const (SF.sgn sigma * kappa)).const_mul
    (1 / √π * (1 / √|sigma|)))
  refine h.congr_deriv ?_
  have ha : 0 < |sigma| := abs_pos.2 hs
  have h2 : √|sigma| * √|sigma| = |sigma| := mul_self_sqrt ha.le
  have hq : √|sigma| ≠ 0 := (sqrt_pos.2 ha).ne'
  have hp : √π ≠ 0 := (sqrt_pos.2 pi_pos).ne'
  rw [mul_one]
  field_simp
  rw [sq, h2]

/-- With the exact Fresnel integrals the formulas of `end_of_clothoid` are exact. -/
theorem clothoid_exact {sigma d : ℝ} (hs : sigma ≠ 0) (hd : d = 1 ∨ d = -1) (theta kappa L : ℝ) :
    (∫ s in (0:ℝ)..L, d * cos (heading d kappa sigma theta s))
      = √π * (1 / √|sigma|) *
        (d * cos (baseAngle theta kappa sigma d)
            * (fresnelC (fArg kappa sigma L) - fresnelC (fArg kappa sigma 0))
          - SF.sgn sigma * sin (baseAngle theta kappa sigma d)
            * (fresnelS (fArg kappa sigma L) - fresnelS (fArg kappa sigma 0))) ∧
    (∫ s in (0:ℝ)..L, d * sin (heading d kappa sigma theta s))
      = √π * (1 / √|sigma|) *
        (d * sin (baseAngle theta kappa sigma d)
            * (fresnelC (fArg kappa sigma L) - fresnelC (fArg kappa sigma 0))
          + SF.sgn sigma * cos (baseAngle theta kappa sigma d)
            * (fresnelS (fArg kappa sigma L) - fresnelS (fArg kappa sigma 0))) := by
  have ha : 0 < |sigma| := abs_pos.2 hs
  have hq : √|sigma| ≠ 0 := (sqrt_pos.2 ha).ne'
  have hp : √π ≠ 0 := (sqrt_pos.2 pi_pos).ne'
  have hdd : d * d = 1 := by rcases hd with rfl | rfl <;> norm_num
  have hpm := pm_mul hd (sgn_pm sigma)
  have hC : ∀ x, HasDerivAt (fun x => fresnelC (fArg kappa sigma x))
      (cos (π / 2 * fArg kappa sigma x ^ 2) * (√|sigma| / √π)) x :=
    fun x => (Poly.hasDerivAt_fresnelC _).comp x (hasDerivAt_fArg hs kappa x)
  have hS : ∀ x, HasDerivAt (fun x => fresnelS (fArg kappa sigma x))
      (sin (π / 2 * fArg kappa sigma x ^ 2) * (√|sigma| / √π)) x :=
    fun x => (Poly.hasDerivAt_fresnelS _).comp x (hasDerivAt_fArg hs kappa x)
  have hcont : Continuous (heading d kappa sigma theta) := heading_continuous d kappa sigma theta
  generalize hk1 : baseAngle theta kappa sigma d = k1
  constructor
  · have key : ∀ x, HasDerivAt (fun x => √π * (1 / √|sigma|) *
        (d * cos k1 * fresnelC (fArg kappa sigma x)
          - SF.sgn sigma * sin k1 * fresnelS (fArg kappa sigma x)))
        (d * cos (heading d kappa sigma theta x)) x := by
      intro x
      refine ((((hC x).const_mul (d * cos k1)).sub ((hS x).const_mul (SF.sgn sigma * sin k1))).const_mul
        (√π * (1 / √|sigma|))).congr_deriv ?_
      rw [heading_split hs, hk1, cos_pm hpm]
      field_simp
      linear_combination (-(sin k1 * sin (π * fArg kappa sigma x ^ 2 / 2)) * SF.sgn sigma) * (-hdd)
    rw [intervalIntegral.integral_eq_sub_of_hasDerivAt (fun x _ => key x)
      (Continuous.intervalIntegrable (by fun_prop) _ _)]
    ring
  · have key : ∀ x, HasDerivAt (fun x => √π * (1 / √|sigma|) *
        (d * sin k1 * fresnelC (fArg kappa sigma x)
          + SF.sgn sigma * cos k1 * fresnelS (fArg kappa sigma x)))
        (d * sin (heading d kappa sigma theta x)) x := by
      intro x
      refine ((((hC x).const_mul (d * sin k1)).add ((hS x).const_mul (SF.sgn sigma * cos k1))).const_mul
        (√π * (1 / √|sigma|))).congr_deriv ?_
      rw [heading_split hs, hk1, sin_pm hpm]
      field_simp
      linear_combination ((cos k1 * sin (π * fArg kappa sigma x ^ 2 / 2)) * SF.sgn sigma) * (-hdd)
    rw [intervalIntegral.integral_eq_sub_of_hasDerivAt (fun x _ => key x)
      (Continuous.intervalIntegrable (by fun_prop) _ _)]
    ring

/-! ### The error -/

/-- Displacement of the code as a function of the two Fresnel differences. -/
theorem rot_bound {a b c s d g r eps : ℝ} (hcs : s ^ 2 + c ^ 2 = 1) (hd : d = 1 ∨ d = -1)
    (hg : g = 1 ∨ g = -1) (hr : 0 ≤ r) (ha : |a| ≤ eps) (hb : |b| ≤ eps) :
    √((r * (d * c * a - g * s * b)) ^ 2 + (r * (d * s * a + g * c * b)) ^ 2) ≤ 3 / 2 * eps * r := by
  have he : 0 ≤ eps := (abs_nonneg a).trans ha
  have hdd : d * d = 1 := by rcases hd with rfl | rfl <;> norm_num
  have hgg : g * g = 1 := by rcases hg with rfl | rfl <;> norm_num
  rw [sqrt_le_iff]
  refine ⟨by positivity, ?_⟩
  have e : (r * (d * c * a - g * s * b)) ^ 2 + (r * (d * s * a + g * c * b)) ^ 2
      = r ^ 2 * ((d * d) * a ^ 2 + (g * g) * b ^ 2) * (s ^ 2 + c ^ 2) := by ring
  rw [e, hcs, hdd, hgg]
  have h1 : a ^ 2 ≤ eps ^ 2 := sq_le_sq' (by linarith [(abs_le.1 ha).1]) (abs_le.1 ha).2
  have h2 : b ^ 2 ≤ eps ^ 2 := sq_le_sq' (by linarith [(abs_le.1 hb).1]) (abs_le.1 hb).2
  have h3 : 0 ≤ r ^ 2 := sq_nonneg r
  nlinarith [mul_le_mul_of_nonneg_left h1 h3, mul_le_mul_of_nonneg_left h2 h3,
    mul_nonneg h3 (sq_nonneg eps)]

theorem sqrt_pi_le : √π ≤ 1.7725 := by
  have := Poly.sqrtpi_bound.2
  linarith

/-- Fresnel differences of the code versus the exact ones. -/
theorem fresnel_diff (u v : ℝ) :
    |((SF.fresnel u).2 - (SF.fresnel v).2) - (fresnelC u - fresnelC v)| ≤ 16 / 10 ^ 17 ∧
    |((SF.fresnel u).1 - (SF.fresnel v).1) - (fresnelS u - fresnelS v)| ≤ 16 / 10 ^ 17 := by
  obtain ⟨u1, u2⟩ := Poly.fresnel_accurate u
  obtain ⟨v1, v2⟩ := Poly.fresnel_accurate v
  rw [abs_le] at u1 u2 v1 v2
  constructor <;> rw [abs_le] <;> constructor <;> linarith [u1.1, u1.2, u2.1, u2.2, v1.1, v1.2, v2.1, v2.2]

/-- The end of a clothoid as computed is within `5e-16 / √|sigma|` of the exact one. -/
theorem clothoid_accurate {sigma d : ℝ} (hs : sigma ≠ 0) (hd : d = 1 ∨ d = -1)
    (x y theta kappa L : ℝ) :
    √(((SF.end_of_clothoid x y theta kappa sigma d L).x - (arrive d kappa sigma L ⟨x, y, theta⟩).x) ^ 2
      + ((SF.end_of_clothoid x y theta kappa sigma d L).y - (arrive d kappa sigma L ⟨x, y, theta⟩).y) ^ 2)
      ≤ 5 / 10 ^ 16 / √|sigma| := by
  have ha : 0 < |sigma| := abs_pos.2 hs
  have hq : 0 < √|sigma| := sqrt_pos.2 ha
  obtain ⟨hx, hy⟩ := clothoid_exact hs hd theta kappa L
  have e0 : fArg kappa sigma 0 = 1 / √π * (1 / √|sigma|) * SF.sgn sigma * kappa := by
    unfold fArg; ring
  obtain ⟨h1, h2⟩ := fresnel_diff (fArg kappa sigma L) (fArg kappa sigma 0)
  have hr : 0 ≤ √π * (1 / √|sigma|) := by positivity
  have hb := rot_bound (sin_sq_add_cos_sq (baseAngle theta kappa sigma d)) hd (sgn_pm sigma) hr h1 h2
  have k1 : (SF.end_of_clothoid x y theta kappa sigma d L).x
      - (arrive d kappa sigma L ⟨x, y, theta⟩).x = √π * (1 / √|sigma|) *
        (d * cos (baseAngle theta kappa sigma d) * (((SF.fresnel (fArg kappa sigma L)).2
          - (SF.fresnel (fArg kappa sigma 0)).2)
          - (fresnelC (fArg kappa sigma L) - fresnelC (fArg kappa sigma 0)))
        - SF.sgn sigma * sin (baseAngle theta kappa sigma d) * (((SF.fresnel (fArg kappa sigma L)).1
          - (SF.fresnel (fArg kappa sigma 0)).1)
          - (fresnelS (fArg kappa sigma L) - fresnelS (fArg kappa sigma 0)))) := by
    simp only [arrive, hx, e0]
    simp only [SF.end_of_clothoid, fArg, baseAngle]
    ring
  have k2 : (SF.end_of_clothoid x y theta kappa sigma d L).y
      - (arrive d kappa sigma L ⟨x, y, theta⟩).y = √π * (1 / √|sigma|) *
        (d * sin (baseAngle theta kappa sigma d) * (((SF.fresnel (fArg kappa sigma L)).2
          - (SF.fresnel (fArg kappa sigma 0)).2)
          - (fresnelC (fArg kappa sigma L) - fresnelC (fArg kappa sigma 0)))
        + SF.sgn sigma * cos (baseAngle theta kappa sigma d) * (((SF.fresnel (fArg kappa sigma L)).1
          - (SF.fresnel (fArg kappa sigma 0)).1)
          - (fresnelS (fArg kappa sigma L) - fresnelS (fArg kappa sigma 0)))) := by
    simp only [arrive, hy, e0]
    simp only [SF.end_of_clothoid, fArg, baseAngle]
    ring
  rw [k1, k2]
  refine hb.trans ?_
  rw [show 3 / 2 * (16 / 10 ^ 17) * (√π * (1 / √|sigma|)) = (3 / 2 * (16 / 10 ^ 17) * √π) / √|sigma| by
    ring]
  apply div_le_div_of_nonneg_right _ hq.le
  linarith [sqrt_pi_le]

end Spec
