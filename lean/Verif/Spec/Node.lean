import Mathlib.Algebra.Quaternion
import Mathlib.Analysis.Calculus.Deriv.Basic
import Mathlib.Analysis.SpecialFunctions.Trigonometric.Basic
import Mathlib.LinearAlgebra.Matrix.Determinant.Basic

/-!
# Specification: rolling wheels, outlines and ellipsoids

Independent of the model of the node.
-/

noncomputable section

namespace Spec

open Real Matrix

/-- A car without slip at its rear axle: at time `t` the pose moves with speed `v` along the heading, and the heading turns by
`kappa` per length driven. -/
structure Rolls (x y theta : ℝ → ℝ) (t v kappa : ℝ) : Prop where
  x : HasDerivAt x (v * cos (theta t)) t
  y : HasDerivAt y (v * sin (theta t)) t
  theta : HasDerivAt theta (v * kappa) t

/-- World coordinates of the point `p` that is fixed to a body at `(x, y)` with heading `theta`. -/
def worldPoint (x y theta : ℝ) (p : ℝ × ℝ) : ℝ × ℝ :=
  (x + p.1 * cos theta - p.2 * sin theta, y + p.1 * sin theta + p.2 * cos theta)

/-- `u` is the velocity of the moving point `f` at time `t`. -/
def Velocity (f : ℝ → ℝ × ℝ) (u : ℝ × ℝ) (t : ℝ) : Prop :=
  HasDerivAt (fun s => (f s).1) u.1 t ∧ HasDerivAt (fun s => (f s).2) u.2 t

/-- Inner product in the plane. -/
def dot (a b : ℝ × ℝ) : ℝ := a.1 * b.1 + a.2 * b.2

/-- Outer product in the plane: zero iff the vectors are parallel. -/
def outer (a b : ℝ × ℝ) : ℝ := a.1 * b.2 - a.2 * b.1

/-- The rectangle `p1 p2 p3 p4` (in this order around it) has the centre `c`; its sides parallel to `p1 - p2` have length `2 r`,
the other ones `w`. -/
structure IsRectangle (p1 p2 p3 p4 c : ℝ × ℝ) (r w : ℝ) : Prop where
  centre13 : p1 + p3 = c + c
  centre24 : p2 + p4 = c + c
  right_angle : dot (p1 - p2) (p1 - p4) = 0
  long : dot (p1 - p2) (p1 - p2) = (2 * r) ^ 2
  wide : dot (p1 - p4) (p1 - p4) = w ^ 2

/-- `points` is a list of line segments (two points each): the closed outline of `polygon`.  Segment `i` joins the corner before
corner `i` to corner `i`; the corner before the first one is the last one. -/
def IsOutline (polygon points : List (ℝ × ℝ)) : Prop :=
  points.length = 2 * polygon.length ∧ ∀ i < polygon.length,
    points[2 * i]? = polygon[(i + (polygon.length - 1)) % polygon.length]? ∧ points[2 * i + 1]? = polygon[i]?

/-- The ellipsoid with centre zero, principal directions the columns of `R` and diameters `diameter`. -/
def ellipsoid (R : Matrix (Fin 3) (Fin 3) ℝ) (diameter : Fin 3 → ℝ) : Set (Fin 3 → ℝ) :=
  {x | ∃ u : Fin 3 → ℝ, ∑ i, u i ^ 2 ≤ 1 ∧ x = R *ᵥ fun i => diameter i / 2 * u i}

/-- Rotations of space. -/
def IsRotation (R : Matrix (Fin 3) (Fin 3) ℝ) : Prop := Rᵀ * R = 1 ∧ R.det = 1

/-- Standard deviation of the component in direction `n` of a random vector with covariance `C`. -/
def deviation (C : Matrix (Fin 3) (Fin 3) ℝ) (n : Fin 3 → ℝ) : ℝ := √(n ⬝ᵥ C *ᵥ n)

/-- `p` is the point of space with coordinates `x`, `y`, `z`, as a quaternion. -/
def spacePoint (x y z : ℝ) : Quaternion ℝ := ⟨0, x, y, z⟩

/-- The unit quaternion `q` turns space by `theta` about the z-axis. -/
def TurnsBy (q : Quaternion ℝ) (theta : ℝ) : Prop :=
  ∀ x y z, q * spacePoint x y z * star q =
    spacePoint (x * cos theta - y * sin theta) (x * sin theta + y * cos theta) z

end Spec
