import Mathlib.LinearAlgebra.Matrix.PosDef
import Mathlib.Analysis.Calculus.Deriv.Basic
import Verif.Spec.Kinematics

/-!
# Specification: covariances and Jacobians

Independent of the model of the filter.
-/

noncomputable section

namespace Spec

open Matrix

/-- The 4×4 matrix stored row by row in a `double[16]`, in the order x, y, theta, kappa
(documented in steering_functions.hpp:57-61). -/
def mat4 (a : Fin 16 → ℝ) : Matrix (Fin 4) (Fin 4) ℝ :=
  Matrix.of fun i j => a ⟨4 * i.1 + j.1, by omega⟩

/-- The part for x, y, theta. -/
def block (a : Fin 16 → ℝ) : Matrix (Fin 3) (Fin 3) ℝ :=
  (mat4 a).submatrix Fin.castSucc Fin.castSucc

/-- Loewner order: `B - A` is symmetric positive semidefinite. -/
def Below {n : Type*} [Fintype n] (A B : Matrix n n ℝ) : Prop := (B - A).PosSemidef

/-- `f p kappa L` is the pose after driving arc length `L` from `p` with start curvature
`kappa`, for direction `d` and sharpness `sigma`. -/
def IsMotion (d sigma : ℝ) (f : Config → ℝ → ℝ → Config) : Prop :=
  ∀ p kappa L, Drives d kappa sigma L p (f p kappa L)

/-- `v` is the derivative of the pose-valued function `g` at `t`. -/
def HasPoseDeriv (g : ℝ → Config) (v : Fin 3 → ℝ) (t : ℝ) : Prop :=
  HasDerivAt (fun s => (g s).x) (v 0) t ∧ HasDerivAt (fun s => (g s).y) (v 1) t ∧
    HasDerivAt (fun s => (g s).theta) (v 2) t

/-- `Fx` is the Jacobian of the motion with respect to the start pose. -/
def PoseJacobian (f : Config → ℝ → ℝ → Config) (p : Config) (kappa L : ℝ)
    (Fx : Matrix (Fin 3) (Fin 3) ℝ) : Prop :=
  HasPoseDeriv (fun t => f { p with x := t } kappa L) (fun i => Fx i 0) p.x ∧
  HasPoseDeriv (fun t => f { p with y := t } kappa L) (fun i => Fx i 1) p.y ∧
  HasPoseDeriv (fun t => f { p with theta := t } kappa L) (fun i => Fx i 2) p.theta

/-- `v` is the derivative of the motion with respect to the signed arc length `d * L`. -/
def LengthDeriv (d : ℝ) (f : Config → ℝ → ℝ → Config) (p : Config) (kappa L : ℝ)
    (v : Fin 3 → ℝ) : Prop :=
  HasPoseDeriv (fun l => f p kappa (d * l)) v (d * L)

/-- `v` is the derivative of the motion with respect to the start curvature. -/
def CurvatureDeriv (f : Config → ℝ → ℝ → Config) (p : Config) (kappa L : ℝ)
    (v : Fin 3 → ℝ) : Prop :=
  HasPoseDeriv (fun k => f p k L) v kappa

end Spec
