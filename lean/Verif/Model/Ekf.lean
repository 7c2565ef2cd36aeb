import Mathlib.LinearAlgebra.Matrix.NonsingularInverse
import Mathlib.LinearAlgebra.Matrix.Notation
import Verif.Model.Integrate

/-!
# Model of the extended Kalman filter and of `integrate_with_covariance`

* src/filter/ekf.cpp:26-275
* src/dubins_state_space/dubins_state_space.cpp:353-419,
  src/reeds_shepp_state_space/reeds_shepp_state_space.cpp:642-708 (textually identical
  apart from the reserved capacity)
* src/hc_cc_state_space/hc_cc_state_space.cpp:137-210

The Eigen types `Matrix3d`, `Matrix2d`, `Matrix32d`, `Matrix23d` are modelled by
Mathlib matrices over `ℝ`; `Sigma_z.inverse()` by `Matrix⁻¹`, which is the true inverse
when the determinant is not zero (Eigen divides by the determinant; with determinant
zero the code produces inf/nan, so every theorem that uses the inverse states that the
determinant is not zero).
-/

noncomputable section

namespace SF

open Real Matrix

/-- `double[16]`. -/
abbrev Arr16 := Fin 16 → ℝ

/-- `struct State_With_Covariance`, steering_functions.hpp:46-62. -/
structure StateCov where
  state : State
  Sigma : Arr16
  Lambda : Arr16
  covariance : Arr16

/-- `struct Motion_Noise`, steering_functions.hpp:79-88. -/
structure Motion_Noise where
  alpha1 : ℝ
  alpha2 : ℝ
  alpha3 : ℝ
  alpha4 : ℝ

/-- `struct Measurement_Noise`, steering_functions.hpp:91-101. -/
structure Measurement_Noise where
  std_x : ℝ
  std_y : ℝ
  std_theta : ℝ

/-- `struct Controller`, steering_functions.hpp:104-114. -/
structure Controller where
  k1 : ℝ
  k2 : ℝ
  k3 : ℝ

/-- Members of class `EKF` as set by `set_parameters`, ekf.cpp:31-37 (the member `I_`
is the identity matrix, ekf.cpp:26-29). -/
structure EKF where
  motion_noise : Motion_Noise
  measurement_noise : Measurement_Noise
  controller : Controller

/-- `EKF::covariance_to_eigen`, ekf.cpp:39-50: entry `(i, j)` is `covariance[(i << 2) + j]`. -/
def covariance_to_eigen (covariance : Arr16) : Matrix (Fin 3) (Fin 3) ℝ :=
  Matrix.of fun i j => covariance ⟨4 * i.1 + j.1, by omega⟩

/-- `EKF::eigen_to_covariance`, ekf.cpp:52-61: the cells `(i << 2) + j` with
`i, j < 3` of the array are written, the others keep their value. -/
def eigen_to_covariance (M : Matrix (Fin 3) (Fin 3) ℝ) (covariance : Arr16) : Arr16 := fun k =>
  if h : k.1 / 4 < 3 ∧ k.1 % 4 < 3 then M ⟨k.1 / 4, h.1⟩ ⟨k.1 % 4, h.2⟩ else covariance k

/-- `EKF::get_motion_jacobi`, ekf.cpp:63-164, called with zero matrices `F_x`, `F_u`
(ekf.cpp:219-221); the entries not assigned by the code are the zeros below. -/
def get_motion_jacobi (state : State) (control : Control) (integration_step : ℝ) :
    Matrix (Fin 3) (Fin 3) ℝ × Matrix (Fin 3) (Fin 2) ℝ :=
  let d := sgn control.delta_s
  if |control.sigma| > epsilon then
    let sgn_sigma := sgn control.sigma
    let abs_sigma := |control.sigma|
    let sqrt_sigma_inv := 1 / √abs_sigma
    let k1 := state.theta - 0.5 * d * state.kappa * state.kappa / control.sigma
    let k2 := 1 / √π * sqrt_sigma_inv * (abs_sigma * integration_step + sgn_sigma * state.kappa)
    let k3 := 1 / √π * sqrt_sigma_inv * sgn_sigma * state.kappa
    let k4 := k1 + d * sgn_sigma * (π / 2) * k2 * k2
    let k5 := k1 + d * sgn_sigma * (π / 2) * k3 * k3
    let cos_k1 := cos k1
    let sin_k1 := sin k1
    let cos_k4 := cos k4
    let sin_k4 := sin k4
    let cos_k5 := cos k5
    let sin_k5 := sin k5
    let f2 := fresnel k2
    let f3 := fresnel k3
    (!![1, 0, √π * sqrt_sigma_inv *
              (-d * sin_k1 * (f2.2 - f3.2) - sgn_sigma * cos_k1 * (f2.1 - f3.1));
        0, 1, √π * sqrt_sigma_inv *
              (d * cos_k1 * (f2.2 - f3.2) - sgn_sigma * sin_k1 * (f2.1 - f3.1));
        0, 0, 1],
     !![cos_k4, √π * sqrt_sigma_inv * state.kappa *
                  (sgn_sigma * sin_k1 * (f2.2 - f3.2) + d * cos_k1 * (f2.1 - f3.1)) / abs_sigma
                + d * (cos_k4 - cos_k5) / control.sigma;
        sin_k4, √π * sqrt_sigma_inv * state.kappa *
                  (-sgn_sigma * cos_k1 * (f2.2 - f3.2) + d * sin_k1 * (f2.1 - f3.1)) / abs_sigma
                + d * (sin_k4 - sin_k5) / control.sigma;
        state.kappa + control.sigma * integration_step, d * integration_step])
  else if |state.kappa| > epsilon then
    let sin_th := sin state.theta
    let cos_th := cos state.theta
    let k9 := state.theta + d * integration_step * state.kappa
    let cos_k9 := cos k9
    let sin_k9 := sin k9
    (!![1, 0, (-cos_th + cos_k9) / state.kappa;
        0, 1, (-sin_th + sin_k9) / state.kappa;
        0, 0, 1],
     !![cos_k9, (sin_th - sin_k9) / (state.kappa * state.kappa)
                  + d * integration_step * cos_k9 / state.kappa;
        sin_k9, (-cos_th + cos_k9) / (state.kappa * state.kappa)
                  + d * integration_step * sin_k9 / state.kappa;
        state.kappa, d * integration_step])
  else
    let cos_th := cos state.theta
    let sin_th := sin state.theta
    (!![1, 0, -d * integration_step * sin_th;
        0, 1, d * integration_step * cos_th;
        0, 0, 1],
     !![cos_th, 0;
        sin_th, 0;
        state.kappa, d * integration_step])

/-- `EKF::get_observation_jacobi`, ekf.cpp:166-169. -/
def get_observation_jacobi : Matrix (Fin 3) (Fin 3) ℝ := 1

/-- `EKF::get_motion_covariance`, ekf.cpp:171-179. -/
def get_motion_covariance (e : EKF) (state : State) (integration_step : ℝ) :
    Matrix (Fin 2) (Fin 2) ℝ :=
  !![e.motion_noise.alpha1 * integration_step * integration_step
        + e.motion_noise.alpha2 * state.kappa * state.kappa, 0;
     0, e.motion_noise.alpha3 * integration_step * integration_step
        + e.motion_noise.alpha4 * state.kappa * state.kappa]

/-- `EKF::get_observation_covariance`, ekf.cpp:181-188. -/
def get_observation_covariance (e : EKF) : Matrix (Fin 3) (Fin 3) ℝ :=
  !![e.measurement_noise.std_x * e.measurement_noise.std_x, 0, 0;
     0, e.measurement_noise.std_y * e.measurement_noise.std_y, 0;
     0, 0, e.measurement_noise.std_theta * e.measurement_noise.std_theta]

/-- `EKF::get_controller_gain`, ekf.cpp:190-197. -/
def get_controller_gain (e : EKF) (control : Control) : Matrix (Fin 2) (Fin 3) ℝ :=
  !![e.controller.k1, 0, 0;
     0, e.controller.k2, sgn control.delta_s * e.controller.k3]

/-- `EKF::get_rotation_matrix`, ekf.cpp:199-210. -/
def get_rotation_matrix (angle : ℝ) : Matrix (Fin 3) (Fin 3) ℝ :=
  !![cos angle, sin angle, 0;
     -sin angle, cos angle, 0;
     0, 0, 1]

/-- `EKF::predict`, ekf.cpp:212-234; the out-parameter `state_pred` comes in and goes out. -/
def predict (e : EKF) (state : StateCov) (control : Control) (integration_step : ℝ)
    (state_pred : StateCov) : StateCov :=
  let Sigma := covariance_to_eigen state.Sigma
  let Lambda := covariance_to_eigen state.Lambda
  let F := get_motion_jacobi state.state control integration_step
  let F_x := F.1
  let F_u := F.2
  let Q := get_motion_covariance e state.state integration_step
  let Sigma_pred := F_x * Sigma * F_xᵀ + F_u * Q * F_uᵀ
  let K := get_controller_gain e control
  let R_1I := get_rotation_matrix state.state.theta
  let F_K := F_x - F_u * K * R_1I
  let Lambda_pred := F_K * Lambda * F_Kᵀ
  { state_pred with
    Sigma := eigen_to_covariance Sigma_pred state_pred.Sigma
    Lambda := eigen_to_covariance Lambda_pred state_pred.Lambda
    covariance := eigen_to_covariance (Sigma_pred + Lambda_pred) state_pred.covariance }

/-- The innovation covariance `Sigma_z` that `update` inverts, ekf.cpp:241-245. -/
def innovation (e : EKF) (state_pred : StateCov) : Matrix (Fin 3) (Fin 3) ℝ :=
  let H_x := get_observation_jacobi
  H_x * (covariance_to_eigen state_pred.Sigma * H_xᵀ) + get_observation_covariance e

/-- `EKF::update`, ekf.cpp:236-260; the out-parameter `state_corr` comes in and goes out.
Guard: `(innovation e state_pred).det ≠ 0`. -/
def update (e : EKF) (state_pred : StateCov) (state_corr : StateCov) : StateCov :=
  let Sigma_pred := covariance_to_eigen state_pred.Sigma
  let Lambda_pred := covariance_to_eigen state_pred.Lambda
  let H_x := get_observation_jacobi
  let R := get_observation_covariance e
  let Sigma_xz := Sigma_pred * H_xᵀ
  let Sigma_z := innovation e state_pred
  let L := Sigma_xz * Sigma_z⁻¹
  let I_LH_x := 1 - L * H_x
  let Sigma_corr := I_LH_x * Sigma_pred * I_LH_xᵀ + L * R * Lᵀ
  let Lambda_corr := Lambda_pred + L * Sigma_xzᵀ
  { state_corr with
    Sigma := eigen_to_covariance Sigma_corr state_corr.Sigma
    Lambda := eigen_to_covariance Lambda_corr state_corr.Lambda
    covariance := eigen_to_covariance (Sigma_corr + Lambda_corr) state_corr.covariance }

/-- The three local variables of `integrate_with_covariance`. -/
structure CovVars where
  curr : StateCov
  pred : StateCov
  next : StateCov

/-- Body of the inner loop after the integration step is known,
dubins_state_space.cpp:399-415, hc_cc_state_space.cpp:190-206. -/
def covBody (e : EKF) (ode : State → Control → ℝ → State) (control : Control)
    (integration_step : ℝ) (v : CovVars) : CovVars :=
  let pred := { v.pred with state := ode v.curr.state control integration_step }
  let pred := predict e v.curr control integration_step pred
  let next := { v.next with state := pred.state }
  let next := update e pred next
  { curr := { state := next.state, Sigma := next.Sigma, Lambda := next.Lambda,
              covariance := next.covariance }
    pred := pred, next := next }

/-- The inner `for` loop: `n` iterations; returns the pushed states and the variables. -/
def covSegLoop (e : EKF) (ode : State → Control → ℝ → State) (control : Control)
    (discretization abs_delta_s : ℝ) : ℕ → ℝ → CovVars → List StateCov × CovVars
  | 0, _, v => ([], v)
  | n + 1, s_seg, v =>
    let ns := nextStep discretization abs_delta_s s_seg
    let v' := covBody e ode control ns.1 v
    let r := covSegLoop e ode control discretization abs_delta_s n ns.2 v'
    (v'.next :: r.1, r.2)

/-- Loop over the controls, dubins_state_space.cpp:376-417. -/
def covLoop (e : EKF) (discretization : ℝ) : List Control → CovVars → List StateCov
  | [], _ => []
  | c :: cs, v =>
    let abs_delta_s := |c.delta_s|
    let curr := { v.curr with
      state := { v.curr.state with kappa := c.kappa, d := sgn c.delta_s } }
    let r := covSegLoop e integrate_ODE c discretization abs_delta_s
      (nSteps discretization abs_delta_s) 0 { v with curr := curr }
    curr :: r.1 ++ covLoop e discretization cs r.2

/-- A default-initialised `State_With_Covariance`: `state` is indeterminate (`junk`),
the arrays are zero. -/
def freshCov (junk : State) : StateCov :=
  { state := junk, Sigma := fun _ => 0, Lambda := fun _ => 0, covariance := fun _ => 0 }

/-- `integrate_with_covariance` of Dubins (dubins_state_space.cpp:353-419) and
Reeds-Shepp (reeds_shepp_state_space.cpp:642-708).  `junk` are the indeterminate values
of the `state` members of the three local variables. -/
def integrate_with_covariance (e : EKF) (discretization : ℝ) (junk : State) (state : StateCov)
    (controls : List Control) : List StateCov :=
  covLoop e discretization controls
    { curr := { state := { junk with x := state.state.x, y := state.state.y,
                                     theta := state.state.theta }
                Sigma := state.Sigma, Lambda := state.Lambda, covariance := state.covariance }
      pred := freshCov junk, next := freshCov junk }

/-- Loop over the controls, hc_cc_state_space.cpp:165-208. -/
def hcCovLoop (e : EKF) (discretization : ℝ) : List Control → CovVars → List StateCov
  | [], _ => []
  | c :: cs, v =>
    let abs_delta_s := |c.delta_s|
    let disc := |c.kappa - v.curr.state.kappa| > epsilon
    let curr := if disc then { v.curr with
      state := { v.curr.state with kappa := c.kappa, d := sgn c.delta_s } } else v.curr
    let pushed := if disc then [curr] else []
    let r := covSegLoop e hc_integrate_ODE c discretization abs_delta_s
      (nSteps discretization abs_delta_s) 0 { v with curr := curr }
    pushed ++ r.1 ++ hcCovLoop e discretization cs r.2

/-- `HC_CC_State_Space::integrate_with_covariance`, hc_cc_state_space.cpp:137-210.
`controls.front()` of an empty vector is undefined behaviour: `none`. -/
def hcIntegrateWithCovariance (e : EKF) (discretization : ℝ) (junk : State) (state : StateCov)
    (controls : List Control) : Option (List StateCov) :=
  (hcFirst state.state controls).map fun st =>
    let first : StateCov := { state := st, Sigma := state.Sigma, Lambda := state.Lambda,
                              covariance := state.covariance }
    first :: hcCovLoop e discretization controls
      { curr := first, pred := freshCov junk, next := freshCov junk }

end SF
