import Mathlib.Analysis.SpecialFunctions.Trigonometric.Basic
import Mathlib.LinearAlgebra.Matrix.Notation

/-!
# Specification of the feedback and of changes of the world frame for the EKF
-/

noncomputable section

namespace Spec

open Real

/-- Component of a position error along the heading `theta`. -/
def along (theta : ℝ) (e : Fin 3 → ℝ) : ℝ := cos theta * e 0 + sin theta * e 1

/-- Component of a position error to the left of the heading `theta`. -/
def lateral (theta : ℝ) (e : Fin 3 → ℝ) : ℝ := cos theta * e 1 - sin theta * e 0

/-- The feedback of steering_functions.hpp: gain `k1` on the longitudinal error corrects the distance, gains `k2` and `k3` on the
lateral error and the heading error correct the curvature; `d` is the driving direction. -/
def feedback (k1 k2 k3 d theta : ℝ) (e : Fin 3 → ℝ) : Fin 2 → ℝ :=
  ![k1 * along theta e, k2 * lateral theta e + d * k3 * e 2]

/-- Change of the world frame by the angle `phi`, acting on pose errors. -/
def turnFrame (phi : ℝ) : Matrix (Fin 3) (Fin 3) ℝ :=
  !![cos phi, -sin phi, 0;
     sin phi, cos phi, 0;
     0, 0, 1]

end Spec
