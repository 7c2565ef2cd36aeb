import Mathlib.LinearAlgebra.Matrix.PosDef
import Verif.Model.Ekf
import Verif.Spec.Covariance

/-!
# Reading the filter's data types in the terms of the specification
-/

noncomputable section

namespace Props

open SF Spec Real Matrix

/-- Non-negative motion noise. -/
def MotionNoiseOk (e : EKF) : Prop :=
  0 ≤ e.motion_noise.alpha1 ∧ 0 ≤ e.motion_noise.alpha2 ∧
  0 ≤ e.motion_noise.alpha3 ∧ 0 ≤ e.motion_noise.alpha4

/-- Non-zero standard deviations of the localisation. -/
def MeasurementNoiseOk (e : EKF) : Prop :=
  e.measurement_noise.std_x ≠ 0 ∧ e.measurement_noise.std_y ≠ 0 ∧
  e.measurement_noise.std_theta ≠ 0

/-- The covariance of a localisation measurement. -/
def noiseR (e : EKF) : Matrix (Fin 3) (Fin 3) ℝ :=
  diagonal ![e.measurement_noise.std_x ^ 2, e.measurement_noise.std_y ^ 2,
    e.measurement_noise.std_theta ^ 2]

/-- All three covariances of a state are symmetric positive semidefinite. -/
def CovOk (s : StateCov) : Prop :=
  (mat4 s.Sigma).PosSemidef ∧ (mat4 s.Lambda).PosSemidef ∧ (mat4 s.covariance).PosSemidef

end Props
