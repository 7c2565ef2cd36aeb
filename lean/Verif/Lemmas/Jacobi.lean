import Mathlib.Analysis.Calculus.ParametricIntervalIntegral
import Mathlib.MeasureTheory.Integral.IntervalIntegral.Basic
import Verif.Lemmas.Drive
import Verif.Spec.Covariance

/-!
# The true Jacobian of the motion of a car
-/

noncomputable section

namespace Spec

open Real MeasureTheory

/-- Differentiation under the integral sign, for `cos`. -/
theorem hasDerivAt_integral_cos {a b : ℝ → ℝ} (ha : Continuous a) (hb : Continuous b)
    (L t : ℝ) :
    HasDerivAt (fun t => ∫ s in (0:ℝ)..L, cos (a s + b s * t))
      (∫ s in (0:ℝ)..L, -(b s * sin (a s + b s * t))) t := by
  have h := intervalIntegral.hasDerivAt_integral_of_dominated_loc_of_deriv_le
    (μ := volume) (a := 0) (b := L) (F := fun t s => cos (a s + b s * t))
    (F' := fun t s => -(b s * sin (a s + b s * t))) (x₀ := t) (s := Set.univ)
    (bound := fun s => |b s|) Filter.univ_mem ?_ ?_ ?_ ?_ ?_ ?_
  · exact h.2
  · exact Filter.Eventually.of_forall fun x =>
      (Continuous.aestronglyMeasurable (by fun_prop))
  · exact Continuous.intervalIntegrable (by fun_prop) _ _
  · exact Continuous.aestronglyMeasurable (by fun_prop)
  · refine Filter.Eventually.of_forall fun s _ x _ => ?_
    rw [norm_neg, norm_eq_abs, abs_mul]
    exact mul_le_of_le_one_right (abs_nonneg _) (abs_sin_le_one _)
  · exact Continuous.intervalIntegrable (by fun_prop) _ _
  · refine Filter.Eventually.of_forall fun s _ x _ => ?_
    have h1 : HasDerivAt (fun x => a s + b s * x) (b s) x := by
      simpa using ((hasDerivAt_id x).const_mul (b s)).const_add (a s)
    exact h1.cos.congr_deriv (by ring)

/-- Differentiation under the integral sign, for `sin`. -/
theorem hasDerivAt_integral_sin {a b : ℝ → ℝ} (ha : Continuous a) (hb : Continuous b)
    (L t : ℝ) :
    HasDerivAt (fun t => ∫ s in (0:ℝ)..L, sin (a s + b s * t))
      (∫ s in (0:ℝ)..L, b s * cos (a s + b s * t)) t := by
  have h := hasDerivAt_integral_cos (a := fun s => a s - π / 2) (by fun_prop) hb L t
  have e1 : ∀ s t : ℝ, cos (a s - π / 2 + b s * t) = sin (a s + b s * t) := by
    intro s t; rw [show a s - π / 2 + b s * t = (a s + b s * t) - π / 2 by ring, cos_sub_pi_div_two]
  have e2 : ∀ s t : ℝ, -(b s * sin (a s - π / 2 + b s * t)) = b s * cos (a s + b s * t) := by
    intro s t
    rw [show a s - π / 2 + b s * t = (a s + b s * t) - π / 2 by ring, sin_sub_pi_div_two]; ring
  simp only [e1, e2] at h
  exact h

variable (d kappa sigma L : ℝ) (p : Config)

theorem isMotion_unique {d sigma : ℝ} {f : Config → ℝ → ℝ → Config} (hf : IsMotion d sigma f) :
    f = fun p kappa L => arrive d kappa sigma L p := by
  funext p kappa L
  exact drives_iff.1 (hf p kappa L)

/-- Derivative of the end pose with respect to the start heading. -/
theorem arrive_deriv_theta :
    HasPoseDeriv (fun t => arrive d kappa sigma L { p with theta := t })
      ![-∫ s in (0:ℝ)..L, d * sin (heading d kappa sigma p.theta s),
        ∫ s in (0:ℝ)..L, d * cos (heading d kappa sigma p.theta s), 1] p.theta := by
  have e : ∀ t s : ℝ, heading d kappa sigma t s
      = d * (kappa * s + sigma * s ^ 2 / 2) + 1 * t := by
    intro t s; unfold heading; ring
  refine ⟨?_, ?_, ?_⟩
  · have h := ((hasDerivAt_integral_cos (a := fun s => d * (kappa * s + sigma * s ^ 2 / 2))
      (b := fun _ => 1) (by fun_prop) (by fun_prop) L p.theta).const_mul d).const_add p.x
    simp only [arrive, e, intervalIntegral.integral_const_mul]
    refine h.congr_deriv ?_
    simp [intervalIntegral.integral_neg]
  · have h := ((hasDerivAt_integral_sin (a := fun s => d * (kappa * s + sigma * s ^ 2 / 2))
      (b := fun _ => 1) (by fun_prop) (by fun_prop) L p.theta).const_mul d).const_add p.y
    simp only [arrive, e, intervalIntegral.integral_const_mul]
    refine h.congr_deriv ?_
    simp
  · simp only [arrive, heading]
    exact ((hasDerivAt_id p.theta).add_const _)

/-- Derivative of the end pose with respect to the start curvature. -/
theorem arrive_deriv_kappa :
    HasPoseDeriv (fun k => arrive d k sigma L p)
      ![-∫ s in (0:ℝ)..L, d * (d * s * sin (heading d kappa sigma p.theta s)),
        ∫ s in (0:ℝ)..L, d * (d * s * cos (heading d kappa sigma p.theta s)), d * L] kappa := by
  have e : ∀ k s : ℝ, heading d k sigma p.theta s
      = (p.theta + d * (sigma * s ^ 2 / 2)) + (d * s) * k := by
    intro t s; unfold heading; ring
  refine ⟨?_, ?_, ?_⟩
  · have h := ((hasDerivAt_integral_cos (a := fun s => p.theta + d * (sigma * s ^ 2 / 2))
      (b := fun s => d * s) (by fun_prop) (by fun_prop) L kappa).const_mul d).const_add p.x
    simp only [arrive, e, intervalIntegral.integral_const_mul]
    refine h.congr_deriv ?_
    simp [intervalIntegral.integral_neg]
  · have h := ((hasDerivAt_integral_sin (a := fun s => p.theta + d * (sigma * s ^ 2 / 2))
      (b := fun s => d * s) (by fun_prop) (by fun_prop) L kappa).const_mul d).const_add p.y
    simp only [arrive, e, intervalIntegral.integral_const_mul]
    refine h.congr_deriv ?_
    simp
  · simp only [arrive, e]
    have := ((hasDerivAt_id kappa).const_mul (d * L)).const_add (p.theta + d * (sigma * L ^ 2 / 2))
    exact this.congr_deriv (by simp)

/-- Derivative of the end pose with respect to the arc length. -/
theorem arrive_deriv_length :
    HasPoseDeriv (fun l => arrive d kappa sigma l p)
      ![d * cos (heading d kappa sigma p.theta L), d * sin (heading d kappa sigma p.theta L),
        d * (kappa + sigma * L)] L := by
  have hc := heading_continuous d kappa sigma p.theta
  refine ⟨?_, ?_, ?_⟩
  · exact (intervalIntegral.integral_hasDerivAt_right (Continuous.intervalIntegrable (by fun_prop) _ _)
      (Continuous.stronglyMeasurableAtFilter (by fun_prop) _ _)
      (Continuous.continuousAt (by fun_prop))).const_add _
  · exact (intervalIntegral.integral_hasDerivAt_right (Continuous.intervalIntegrable (by fun_prop) _ _)
      (Continuous.stronglyMeasurableAtFilter (by fun_prop) _ _)
      (Continuous.continuousAt (by fun_prop))).const_add _
  · exact heading_hasDerivAt _ _ _ _ _

/-- Derivative of the end pose with respect to the signed arc length. -/
theorem arrive_deriv_signed {d : ℝ} (hd : d = 1 ∨ d = -1) :
    HasPoseDeriv (fun l => arrive d kappa sigma (d * l) p)
      ![cos (heading d kappa sigma p.theta L), sin (heading d kappa sigma p.theta L),
        kappa + sigma * L] (d * L) := by
  have hdd : d * d = 1 := by rcases hd with rfl | rfl <;> norm_num
  have hL : d * (d * L) = L := by rw [← mul_assoc, hdd, one_mul]
  have hl : HasDerivAt (fun l => d * l) d (d * L) := by
    simpa using (hasDerivAt_id (d * L)).const_mul d
  obtain ⟨h1, h2, h3⟩ := arrive_deriv_length d kappa sigma L p
  refine ⟨?_, ?_, ?_⟩
  · rw [← hL] at h1
    refine (h1.comp (d * L) hl).congr_deriv ?_
    simp only [Matrix.cons_val_zero, hL]; linear_combination cos (heading d kappa sigma p.theta L) * hdd
  · rw [← hL] at h2
    refine (h2.comp (d * L) hl).congr_deriv ?_
    simp only [Matrix.cons_val_one, Matrix.cons_val_zero, hL]
    linear_combination sin (heading d kappa sigma p.theta L) * hdd
  · rw [← hL] at h3
    refine (h3.comp (d * L) hl).congr_deriv ?_
    simp only [hL]
    simp
    linear_combination (kappa + sigma * L) * hdd

theorem arrive_deriv_x :
    HasPoseDeriv (fun t => arrive d kappa sigma L { p with x := t }) ![1, 0, 0] p.x := by
  refine ⟨?_, ?_, ?_⟩ <;> simp only [arrive]
  · exact (hasDerivAt_id' p.x).add_const _
  · exact hasDerivAt_const p.x _
  · exact hasDerivAt_const p.x _

theorem arrive_deriv_y :
    HasPoseDeriv (fun t => arrive d kappa sigma L { p with y := t }) ![0, 1, 0] p.y := by
  refine ⟨?_, ?_, ?_⟩ <;> simp only [arrive]
  · exact hasDerivAt_const p.y _
  · exact (hasDerivAt_id' p.y).add_const _
  · exact hasDerivAt_const p.y _

theorem HasPoseDeriv.congr {g : ℝ → Config} {v w : Fin 3 → ℝ} {t : ℝ} (h : HasPoseDeriv g v t)
    (e : v = w) : HasPoseDeriv g w t := e ▸ h

theorem HasPoseDeriv.unique {g : ℝ → Config} {v w : Fin 3 → ℝ} {t : ℝ} (h : HasPoseDeriv g v t)
    (h' : HasPoseDeriv g w t) : v = w := by
  funext i
  fin_cases i
  · exact h.1.unique h'.1
  · exact h.2.1.unique h'.2.1
  · exact h.2.2.unique h'.2.2

/-! ### The integrals for arcs and lines -/

theorem integral_line_cos (theta : ℝ) :
    ∫ s in (0:ℝ)..L, d * cos (heading d 0 0 theta s) = d * L * cos theta := by
  simp [heading]; ring

theorem integral_line_sin (theta : ℝ) :
    ∫ s in (0:ℝ)..L, d * sin (heading d 0 0 theta s) = d * L * sin theta := by
  simp [heading]; ring

theorem integral_arc_cos {kappa : ℝ} (hk : kappa ≠ 0) (theta : ℝ) :
    ∫ s in (0:ℝ)..L, d * cos (heading d kappa 0 theta s)
      = (sin (theta + d * L * kappa) - sin theta) / kappa := by
  have := congrArg Config.x (arrive_arc (d := d) (L := L) hk ⟨0, 0, theta⟩)
  simp only [arrive] at this
  rw [zero_add] at this
  rw [this]; ring

theorem integral_arc_sin {kappa : ℝ} (hk : kappa ≠ 0) (theta : ℝ) :
    ∫ s in (0:ℝ)..L, d * sin (heading d kappa 0 theta s)
      = (cos theta - cos (theta + d * L * kappa)) / kappa := by
  have := congrArg Config.y (arrive_arc (d := d) (L := L) hk ⟨0, 0, theta⟩)
  simp only [arrive] at this
  rw [zero_add] at this
  rw [this]; ring

theorem integral_arc_s_sin {d kappa : ℝ} (hk : kappa ≠ 0) (hd : d * d = 1) (theta : ℝ) :
    ∫ s in (0:ℝ)..L, d * (d * s * sin (heading d kappa 0 theta s))
      = (sin (theta + d * L * kappa) - sin theta) / (kappa * kappa)
        - d * L * cos (theta + d * L * kappa) / kappa := by
  have hd0 : d ≠ 0 := by rintro rfl; simp at hd
  have hh : ∀ s, HasDerivAt (fun s => theta + d * s * kappa) (d * kappa) s := by
    intro s
    have := (((hasDerivAt_id s).const_mul d).mul_const kappa).const_add theta
    simpa using this
  have hF : ∀ s ∈ Set.uIcc 0 L, HasDerivAt
      (fun s => sin (theta + d * s * kappa) / (kappa * kappa)
        - d * s * cos (theta + d * s * kappa) / kappa)
      (d * (d * s * sin (heading d kappa 0 theta s))) s := by
    intro s _
    have h1 := ((hh s).sin).div_const (kappa * kappa)
    have h2 := ((((hasDerivAt_id s).const_mul d).mul ((hh s).cos)).div_const kappa)
    refine (h1.sub h2).congr_deriv ?_
    have : heading d kappa 0 theta s = theta + d * s * kappa := by unfold heading; ring
    rw [this]; simp only [id]; field_simp; ring
  rw [intervalIntegral.integral_eq_sub_of_hasDerivAt hF
    (Continuous.intervalIntegrable
      (by have := heading_continuous d kappa 0 theta; fun_prop) _ _)]
  simp; ring

theorem integral_arc_s_cos {d kappa : ℝ} (hk : kappa ≠ 0) (hd : d * d = 1) (theta : ℝ) :
    ∫ s in (0:ℝ)..L, d * (d * s * cos (heading d kappa 0 theta s))
      = (cos (theta + d * L * kappa) - cos theta) / (kappa * kappa)
        + d * L * sin (theta + d * L * kappa) / kappa := by
  have h := integral_arc_s_sin L hk hd (theta + π / 2)
  have e : ∀ s, heading d kappa 0 (theta + π / 2) s = heading d kappa 0 theta s + π / 2 := by
    intro s; unfold heading; ring
  simp only [e, sin_add_pi_div_two, cos_add_pi_div_two,
    show theta + π / 2 + d * L * kappa = theta + d * L * kappa + π / 2 by ring] at h
  rw [h]; ring

theorem integral_line_s_sin {d : ℝ} (hd : d * d = 1) (theta : ℝ) :
    ∫ s in (0:ℝ)..L, d * (d * s * sin (heading d 0 0 theta s)) = L ^ 2 / 2 * sin theta := by
  have : ∀ s, d * (d * s * sin (heading d 0 0 theta s)) = s * sin theta := by
    intro s; unfold heading
    rw [show theta + d * (0 * s + 0 * s ^ 2 / 2) = theta by ring]
    linear_combination s * sin theta * hd
  simp only [this]
  rw [intervalIntegral.integral_mul_const, integral_id]; ring

theorem integral_line_s_cos {d : ℝ} (hd : d * d = 1) (theta : ℝ) :
    ∫ s in (0:ℝ)..L, d * (d * s * cos (heading d 0 0 theta s)) = L ^ 2 / 2 * cos theta := by
  have h := integral_line_s_sin L hd (theta + π / 2)
  have e : ∀ s, heading d 0 0 (theta + π / 2) s = heading d 0 0 theta s + π / 2 := by
    intro s; unfold heading; ring
  simp only [e, sin_add_pi_div_two] at h
  exact h

end Spec
