import Verif.Props.Ekf
import Verif.Spec.Ekf

/-!
# Properties of the EKF: feedback and change of the world frame
-/

noncomputable section

namespace Props

open SF Spec Real Matrix

/-! ## C66 -/

/-- **C66.** `predict` propagates the covariance of the tracking error through the linearised closed loop: the motion
(`F_x`, `F_u`, see C30) under the feedback law of the documentation. -/
theorem C66_feedback (e : EKF) (s p : StateCov) (c : Control) (h : ℝ) :
    ∃ M : Matrix (Fin 3) (Fin 3) ℝ,
      (∀ v, M *ᵥ v = (get_motion_jacobi s.state c h).1 *ᵥ v - (get_motion_jacobi s.state c h).2 *ᵥ
        feedback e.controller.k1 e.controller.k2 e.controller.k3 (seg c).dir s.state.theta v) ∧
      covariance_to_eigen (predict e s c h p).Lambda = M * covariance_to_eigen s.Lambda * Mᵀ := by
  refine ⟨(get_motion_jacobi s.state c h).1 - (get_motion_jacobi s.state c h).2 * get_controller_gain e c *
    get_rotation_matrix s.state.theta, fun v => ?_, ?_⟩
  · rw [Matrix.sub_mulVec, Matrix.mul_assoc, ← Matrix.mulVec_mulVec, ← Matrix.mulVec_mulVec]
    congr 2
    funext i
    fin_cases i
    · simp [get_controller_gain, get_rotation_matrix, feedback, along, Matrix.mulVec, dotProduct, Fin.sum_univ_three]
    · simp [get_controller_gain, get_rotation_matrix, feedback, lateral, Matrix.mulVec, dotProduct, Fin.sum_univ_three]
      rw [← dir_seg]; ring
  · exact C31_round_trip _ _

/-- **C66, straight lines.** On a straight line the longitudinal error shrinks by `1 - k1`, and the lateral and heading
error obey the same equations forwards and backwards up to the sign of the lateral error: the heading error is damped by `h k3` and
driven back by the lateral error in both directions. -/
theorem C66_straight (e : EKF) (s p : StateCov) (c : Control) (h : ℝ) (hs : c.sigma = 0) (hk : s.state.kappa = 0) :
    ∃ M : Matrix (Fin 3) (Fin 3) ℝ, covariance_to_eigen (predict e s c h p).Lambda = M * covariance_to_eigen s.Lambda * Mᵀ ∧
      ∀ v, along s.state.theta (M *ᵥ v) = (1 - e.controller.k1) * along s.state.theta v ∧
        (seg c).dir * lateral s.state.theta (M *ᵥ v) = (seg c).dir * lateral s.state.theta v + h * v 2 ∧
        (M *ᵥ v) 2 = (1 - h * e.controller.k3) * v 2 - h * e.controller.k2 * ((seg c).dir * lateral s.state.theta v) := by
  obtain ⟨M, h1, h2⟩ := C66_feedback e s p c h
  refine ⟨M, h2, fun v => ?_⟩
  have n1 : ¬ |c.sigma| > SF.epsilon := by rw [hs, abs_zero]; exact not_lt.2 epsilon_pos.le
  have n2 : ¬ |(0:ℝ)| > SF.epsilon := by rw [abs_zero]; exact not_lt.2 epsilon_pos.le
  rw [h1 v]
  simp only [get_motion_jacobi, if_neg n1, hk, if_neg n2, dir_seg]
  have hdd : sgn c.delta_s * sgn c.delta_s = 1 := sgn_mul_self c.delta_s
  have hcs := sin_sq_add_cos_sq s.state.theta
  simp only [along, lateral, feedback, Matrix.mulVec, dotProduct, Fin.sum_univ_three, Fin.sum_univ_two, Pi.sub_apply,
    Matrix.of_apply, Matrix.cons_val', Matrix.cons_val_zero, Matrix.cons_val_one, Matrix.cons_val]
  generalize sgn c.delta_s = d at *
  generalize cos s.state.theta = C at *
  generalize sin s.state.theta = S at *
  refine ⟨?_, ?_, ?_⟩
  · linear_combination (-e.controller.k1 * (C * v 0 + S * v 1)) * hcs
  · linear_combination (h * v 2) * hcs + (h * v 2 * (C ^ 2 + S ^ 2)) * hdd
  · linear_combination (-h * e.controller.k3 * v 2) * hdd

/-- Gains of the tests: the closed loop is not the identity. -/
example : feedback 1 2 1 1 0 (fun _ => 1) = ![1, 3] := by
  funext i; fin_cases i <;> norm_num [feedback, along, lateral]

/-! ## C67 -/

theorem turnFrame_mul_transpose (phi : ℝ) : turnFrame phi * (turnFrame phi)ᵀ = 1 := by
  have := sin_sq_add_cos_sq phi
  ext i j
  fin_cases i <;> fin_cases j <;> simp [turnFrame, Matrix.mul_apply, Fin.sum_univ_three] <;> nlinarith

theorem turnFrame_transpose_mul (phi : ℝ) : (turnFrame phi)ᵀ * turnFrame phi = 1 :=
  mul_eq_one_comm.1 (turnFrame_mul_transpose phi)

/-- The state in the turned frame; the position does not enter. -/
def rotatedState (phi : ℝ) (s : State) : State := { s with theta := s.theta + phi }

theorem jacobi_turned (phi : ℝ) (s : State) (c : Control) (h : ℝ) :
    (get_motion_jacobi (rotatedState phi s) c h).1 = turnFrame phi * (get_motion_jacobi s c h).1 * (turnFrame phi)ᵀ ∧
    (get_motion_jacobi (rotatedState phi s) c h).2 = turnFrame phi * (get_motion_jacobi s c h).2 := by
  have hcs := sin_sq_add_cos_sq phi
  have t1 : (rotatedState phi s).theta = s.theta + phi := rfl
  have t2 : (rotatedState phi s).kappa = s.kappa := rfl
  unfold get_motion_jacobi
  rw [t1, t2]
  by_cases n1 : |c.sigma| > SF.epsilon
  · simp only [if_pos n1]
    generalize fresnel _ = f2
    generalize fresnel _ = f3
    obtain ⟨k1, hk1⟩ : ∃ k1, k1 = s.theta - 0.5 * sgn c.delta_s * s.kappa * s.kappa / c.sigma := ⟨_, rfl⟩
    have e1 : s.theta + phi - 0.5 * sgn c.delta_s * s.kappa * s.kappa / c.sigma = k1 + phi := by rw [hk1]; ring
    rw [← hk1, e1]
    generalize 1 / √π * (1 / √|c.sigma|) * (|c.sigma| * h + sgn c.sigma * s.kappa) = k2
    generalize 1 / √π * (1 / √|c.sigma|) * sgn c.sigma * s.kappa = k3
    have e4 : k1 + phi + sgn c.delta_s * sgn c.sigma * (π / 2) * k2 * k2 = (k1 + sgn c.delta_s * sgn c.sigma * (π / 2) * k2 * k2) + phi := by ring
    have e5 : k1 + phi + sgn c.delta_s * sgn c.sigma * (π / 2) * k3 * k3 = (k1 + sgn c.delta_s * sgn c.sigma * (π / 2) * k3 * k3) + phi := by ring
    rw [e4, e5]
    generalize k1 + sgn c.delta_s * sgn c.sigma * (π / 2) * k2 * k2 = k4
    generalize k1 + sgn c.delta_s * sgn c.sigma * (π / 2) * k3 * k3 = k5
    simp only [cos_add, sin_add]
    constructor
    · ext i j
      fin_cases i <;> fin_cases j <;> simp [turnFrame, Matrix.mul_apply, Fin.sum_univ_three] <;> first | ring1 | nlinarith
    · ext i j
      fin_cases i <;> fin_cases j <;> simp [turnFrame, Matrix.mul_apply, Fin.sum_univ_three] <;> ring1
  · by_cases n2 : |s.kappa| > SF.epsilon
    · simp only [if_neg n1, if_pos n2]
      have e4 : s.theta + phi + sgn c.delta_s * h * s.kappa = (s.theta + sgn c.delta_s * h * s.kappa) + phi := by ring
      rw [e4]
      generalize s.theta + sgn c.delta_s * h * s.kappa = k9
      simp only [cos_add, sin_add]
      constructor
      · ext i j
        fin_cases i <;> fin_cases j <;> simp [turnFrame, Matrix.mul_apply, Fin.sum_univ_three] <;> first | ring1 | nlinarith
      · ext i j
        fin_cases i <;> fin_cases j <;> simp [turnFrame, Matrix.mul_apply, Fin.sum_univ_three] <;> ring1
    · simp only [if_neg n1, if_neg n2]
      simp only [cos_add, sin_add]
      constructor
      · ext i j
        fin_cases i <;> fin_cases j <;> simp [turnFrame, Matrix.mul_apply, Fin.sum_univ_three] <;> first | ring1 | nlinarith
      · ext i j
        fin_cases i <;> fin_cases j <;> simp [turnFrame, Matrix.mul_apply, Fin.sum_univ_three] <;> ring1

theorem rotation_turned (phi theta : ℝ) : get_rotation_matrix (theta + phi) = get_rotation_matrix theta * (turnFrame phi)ᵀ := by
  ext i j
  fin_cases i <;> fin_cases j <;>
    simp [get_rotation_matrix, turnFrame, Matrix.mul_apply, Fin.sum_univ_three, cos_add, sin_add] <;> ring1

/-- **C67, prediction.** Turning the world frame turns the predicted covariances in the same way: the prediction does not depend on the
choice of the frame. -/
theorem C67_predict_frame (e : EKF) (phi : ℝ) (s s' p p' : StateCov) (c : Control) (h : ℝ) (hs : s'.state = rotatedState phi s.state)
    (hS : covariance_to_eigen s'.Sigma = turnFrame phi * covariance_to_eigen s.Sigma * (turnFrame phi)ᵀ)
    (hL : covariance_to_eigen s'.Lambda = turnFrame phi * covariance_to_eigen s.Lambda * (turnFrame phi)ᵀ) :
    covariance_to_eigen (predict e s' c h p').Sigma
      = turnFrame phi * covariance_to_eigen (predict e s c h p).Sigma * (turnFrame phi)ᵀ ∧
    covariance_to_eigen (predict e s' c h p').Lambda
      = turnFrame phi * covariance_to_eigen (predict e s c h p).Lambda * (turnFrame phi)ᵀ := by
  obtain ⟨j1, j2⟩ := jacobi_turned phi s.state c h
  have ho := turnFrame_transpose_mul phi
  have hQ : get_motion_covariance e (rotatedState phi s.state) h = get_motion_covariance e s.state h := rfl
  have hth : (rotatedState phi s.state).theta = s.state.theta + phi := rfl
  simp only [predict, C31_round_trip]
  rw [hs, hS, hL, j1, j2, hQ, hth, rotation_turned]
  generalize turnFrame phi = T at *
  generalize (get_motion_jacobi s.state c h).1 = F
  generalize (get_motion_jacobi s.state c h).2 = G
  generalize get_controller_gain e c = K
  generalize get_rotation_matrix s.state.theta = R
  generalize covariance_to_eigen s.Sigma = A
  generalize covariance_to_eigen s.Lambda = B
  generalize get_motion_covariance e s.state h = Q
  have hF : T * F * Tᵀ - T * G * K * (R * Tᵀ) = T * (F - G * K * R) * Tᵀ := by
    simp only [Matrix.mul_sub, Matrix.sub_mul, Matrix.mul_assoc]
  have key : ∀ X Y : Matrix (Fin 3) (Fin 3) ℝ, T * X * Tᵀ * (T * Y * Tᵀ) * (T * X * Tᵀ)ᵀ = T * (X * Y * Xᵀ) * Tᵀ := by
    intro X Y
    simp only [Matrix.transpose_mul, Matrix.transpose_transpose]
    calc T * X * Tᵀ * (T * Y * Tᵀ) * (T * (Xᵀ * Tᵀ))
        = T * X * (Tᵀ * T) * Y * (Tᵀ * T) * Xᵀ * Tᵀ := by simp only [Matrix.mul_assoc]
      _ = T * (X * Y * Xᵀ) * Tᵀ := by rw [ho]; simp only [Matrix.mul_one, Matrix.mul_assoc]
  constructor
  · rw [key]
    simp only [Matrix.transpose_mul, Matrix.mul_add, Matrix.add_mul, Matrix.mul_assoc]
  · rw [hF, key]

/-- **C67, correction.** With the same standard deviation in x and y, the correction does not depend on the frame either.  The first
and the third hypothesis make the innovation covariance invertible (C48). -/
theorem C67_update_frame {e : EKF} (_he : MeasurementNoiseOk e) (hxy : e.measurement_noise.std_x = e.measurement_noise.std_y)
    (phi : ℝ) (p p' q q' : StateCov) (_hp : (covariance_to_eigen p.Sigma).PosSemidef)
    (hS : covariance_to_eigen p'.Sigma = turnFrame phi * covariance_to_eigen p.Sigma * (turnFrame phi)ᵀ)
    (hL : covariance_to_eigen p'.Lambda = turnFrame phi * covariance_to_eigen p.Lambda * (turnFrame phi)ᵀ) :
    covariance_to_eigen (update e p' q').Sigma
      = turnFrame phi * covariance_to_eigen (update e p q).Sigma * (turnFrame phi)ᵀ ∧
    covariance_to_eigen (update e p' q').Lambda
      = turnFrame phi * covariance_to_eigen (update e p q).Lambda * (turnFrame phi)ᵀ := by
  have ho := turnFrame_transpose_mul phi
  have ho' := turnFrame_mul_transpose phi
  have hR : get_observation_covariance e = turnFrame phi * get_observation_covariance e * (turnFrame phi)ᵀ := by
    have hcs := sin_sq_add_cos_sq phi
    ext i j
    fin_cases i <;> fin_cases j <;>
      simp [get_observation_covariance, turnFrame, Matrix.mul_apply, Fin.sum_univ_three, hxy] <;>
      first | ring1 | linear_combination (-(e.measurement_noise.std_y * e.measurement_noise.std_y)) * hcs
  simp only [update, innovation, C31_round_trip, get_observation_jacobi, Matrix.transpose_one, Matrix.mul_one, Matrix.one_mul]
  rw [hS, hL]
  generalize turnFrame phi = T at *
  generalize covariance_to_eigen p.Sigma = A at *
  generalize covariance_to_eigen p.Lambda = B at *
  generalize get_observation_covariance e = R at *
  have hinv : (T * A * Tᵀ + R)⁻¹ = T * (A + R)⁻¹ * Tᵀ := by
    rw [show T * A * Tᵀ + R = T * (A + R) * Tᵀ by rw [Matrix.mul_add, Matrix.add_mul, ← hR]]
    rw [Matrix.mul_inv_rev, Matrix.mul_inv_rev, Matrix.inv_eq_right_inv ho', Matrix.inv_eq_right_inv ho, Matrix.mul_assoc]
  have hLg : T * A * Tᵀ * (T * A * Tᵀ + R)⁻¹ = T * (A * (A + R)⁻¹) * Tᵀ := by
    rw [hinv]
    calc T * A * Tᵀ * (T * (A + R)⁻¹ * Tᵀ) = T * A * (Tᵀ * T) * (A + R)⁻¹ * Tᵀ := by simp only [Matrix.mul_assoc]
      _ = T * (A * (A + R)⁻¹) * Tᵀ := by rw [ho]; simp only [Matrix.mul_one, Matrix.mul_assoc]
  have key : ∀ X Y : Matrix (Fin 3) (Fin 3) ℝ, T * X * Tᵀ * (T * Y * Tᵀ) * (T * X * Tᵀ)ᵀ = T * (X * Y * Xᵀ) * Tᵀ := by
    intro X Y
    simp only [Matrix.transpose_mul, Matrix.transpose_transpose]
    calc T * X * Tᵀ * (T * Y * Tᵀ) * (T * (Xᵀ * Tᵀ))
        = T * X * (Tᵀ * T) * Y * (Tᵀ * T) * Xᵀ * Tᵀ := by simp only [Matrix.mul_assoc]
      _ = T * (X * Y * Xᵀ) * Tᵀ := by rw [ho]; simp only [Matrix.mul_one, Matrix.mul_assoc]
  have h1 : (1:Matrix (Fin 3) (Fin 3) ℝ) - T * (A * (A + R)⁻¹) * Tᵀ = T * (1 - A * (A + R)⁻¹) * Tᵀ := by
    rw [Matrix.mul_sub, Matrix.sub_mul, Matrix.mul_one, ho']
  have key2 : ∀ X Y : Matrix (Fin 3) (Fin 3) ℝ, T * X * Tᵀ * (T * Y * Tᵀ)ᵀ = T * (X * Yᵀ) * Tᵀ := by
    intro X Y
    simp only [Matrix.transpose_mul, Matrix.transpose_transpose]
    calc T * X * Tᵀ * (T * (Yᵀ * Tᵀ)) = T * X * (Tᵀ * T) * Yᵀ * Tᵀ := by simp only [Matrix.mul_assoc]
      _ = T * (X * Yᵀ) * Tᵀ := by rw [ho]; simp only [Matrix.mul_one, Matrix.mul_assoc]
  rw [hLg, h1]
  constructor
  · rw [key]
    have := key (A * (A + R)⁻¹) R
    rw [← hR] at this
    rw [this, ← Matrix.add_mul, ← Matrix.mul_add]
  · rw [key2, ← Matrix.add_mul, ← Matrix.mul_add]

/-- A frame change that is not trivial. -/
example : turnFrame (π / 2) = !![0, -1, 0; 1, 0, 0; 0, 0, 1] := by
  simp [turnFrame]

end Props
