import Mathlib.LinearAlgebra.Matrix.Determinant.Basic
import Verif.Model.Ekf
import Verif.Model.GetPath
import Verif.Model.PredictHc
import Verif.Model.CcReedsShepp

/-!
# Model of the demo node

* src/steering_functions_node.cpp

Modelled are the values that the node computes: the sampled states, the paths, and the numbers written into the markers.
Not modelled: publishers, parameter server, timing, colours, texts and the animation (`ANIMATE` is `false`, line 49).
Functions of other packages are modelled by their documented results:
* `rand()` returns any number from 0 to `RAND_MAX`;
* `costmap_2d::transformFootprint` rotates and translates the points of a polygon;
* `Eigen::SelfAdjointEigenSolver` either fails or returns eigenvalues and an orthogonal matrix of eigenvectors (`SolverOk`);
* `tf::Matrix3x3` and its conversion to a quaternion are left out: the marker carries the matrix.
-/

noncomputable section

namespace SF.Node

open Real Matrix

/-! ### Samples -/

/-- Macro `random`, steering_functions_node.cpp:53; `draw` is the value of `rand()`, `rand_max` is `RAND_MAX`.  The arguments
of the macro are not enclosed in parentheses; all its uses (lines 536-558) have arguments for which this makes no difference. -/
def random (rand_max draw : ℕ) (lower upper : ℝ) : ℝ := draw * (upper - lower) / rand_max + lower

/-- The eight values of `rand()` used for one start and one goal, steering_functions_node.cpp:536-539 and 555-558. -/
structure Draws where
  x1 : ℕ
  y1 : ℕ
  theta1 : ℕ
  kappa1 : ℕ
  x2 : ℕ
  y2 : ℕ
  theta2 : ℕ
  kappa2 : ℕ

/-- `OPERATING_REGION_X`, steering_functions_node.cpp:50. -/
def operating_region_x : ℝ := 20

/-- `OPERATING_REGION_Y`, steering_functions_node.cpp:51. -/
def operating_region_y : ℝ := 20

/-- `OPERATING_REGION_THETA`, steering_functions_node.cpp:52. -/
def operating_region_theta : ℝ := 2 * π

/-- `DISCRETIZATION`, steering_functions_node.cpp:47. -/
def discretization : ℝ := 0.1

/-- A `double[16]` whose entries for the variances of x, y and theta are set, the others being zero as
initialised in steering_functions.hpp:52-61. -/
def diagonalArr (n : Measurement_Noise) : Arr16 := fun i =>
  if i.1 = 0 then n.std_x ^ 2 else if i.1 = 5 then n.std_y ^ 2 else if i.1 = 10 then n.std_theta ^ 2 else 0

/-- `start`, steering_functions_node.cpp:535-543. -/
def start (rand_max : ℕ) (r : Draws) (kappa_max : ℝ) (n : Measurement_Noise) : StateCov :=
  { state :=
      ⟨random rand_max r.x1 (-operating_region_x / 2) (operating_region_x / 2),
       random rand_max r.y1 (-operating_region_y / 2) (operating_region_y / 2),
       random rand_max r.theta1 (-operating_region_theta / 2) (operating_region_theta / 2),
       random rand_max r.kappa1 (-kappa_max) kappa_max, 0⟩
    Sigma := diagonalArr n
    Lambda := fun _ => 0
    covariance := diagonalArr n }

/-- `std::copy(&a[0], &a[15], &b[0])` into an array of zeros: the last of the 16 entries is not copied,
steering_functions_node.cpp:551-552. -/
def copy15 (a : Arr16) : Arr16 := fun i => if i.1 < 15 then a i else 0

/-- `start_wout_curv`, steering_functions_node.cpp:545-552. -/
def start_wout_curv (s : StateCov) : StateCov :=
  { state := ⟨s.state.x, s.state.y, s.state.theta, 0, s.state.d⟩
    Sigma := copy15 s.Sigma
    Lambda := fun _ => 0
    covariance := copy15 s.covariance }

/-- `goal`, steering_functions_node.cpp:554-559. -/
def goal (rand_max : ℕ) (r : Draws) (kappa_max : ℝ) : State :=
  ⟨random rand_max r.x2 (-operating_region_x / 2) (operating_region_x / 2),
   random rand_max r.y2 (-operating_region_y / 2) (operating_region_y / 2),
   random rand_max r.theta2 (-operating_region_theta / 2) (operating_region_theta / 2),
   random rand_max r.kappa2 (-kappa_max) kappa_max, 0⟩

/-- `goal_wout_curv`, steering_functions_node.cpp:561-566. -/
def goal_wout_curv (g : State) : State := ⟨g.x, g.y, g.theta, 0, g.d⟩

/-! ### Paths -/

/-- `path_type_`, steering_functions_node.cpp:129-219. -/
inductive PathType
  | CC_Dubins | CC00_Dubins | CC0pm_Dubins | CCpm0_Dubins | CCpmpm_Dubins | Dubins
  | CC00_RS | HC_RS | HC00_RS | HC0pm_RS | HCpm0_RS | HCpmpm_RS | RS

/-- The states with curvature are used for `CC_Dubins` and `HC_RS`, steering_functions_node.cpp:568-580. -/
def PathType.curved : PathType → Bool
  | .CC_Dubins => true
  | .HC_RS => true
  | _ => false

/-- `cs` is a possible result of `get_controls` of the state space constructed in steering_functions_node.cpp:129-219. -/
def IsControls (kappa sigma junk : ℝ) (s1 s2 : State) (cs : List Control) : PathType → Prop
  | .CC_Dubins => CC.IsControls ⟨kappa, sigma, discretization, true⟩ junk s1 s2 cs
  | .CC00_Dubins => CC00.get_controls ⟨kappa, sigma, discretization, true⟩ s1 s2 = some cs
  | .CC0pm_Dubins => CC0pm.get_controls ⟨kappa, sigma, discretization, true⟩ s1 s2 = some cs
  | .CCpm0_Dubins => CCpm0.get_controls ⟨kappa, sigma, discretization, true⟩ s1 s2 = some cs
  | .CCpmpm_Dubins => CCpmpm.get_controls ⟨kappa, sigma, discretization, true⟩ s1 s2 = some cs
  | .Dubins => DubinsSpace.get_controls ⟨kappa, discretization, true⟩ s1 s2 = cs
  | .CC00_RS => CcRs.get_controls ⟨kappa, sigma, discretization, true⟩ s1 s2 = some cs
  | .HC_RS => HC.IsControls ⟨kappa, sigma, discretization, true⟩ junk s1 s2 cs
  | .HC00_RS => HcRs.get_controls false false ⟨kappa, sigma, discretization, true⟩ s1 s2 = some cs
  | .HC0pm_RS => HcRs.get_controls false true ⟨kappa, sigma, discretization, true⟩ s1 s2 = some cs
  | .HCpm0_RS => HcRs.get_controls true false ⟨kappa, sigma, discretization, true⟩ s1 s2 = some cs
  | .HCpmpm_RS => HcRs.get_controls true true ⟨kappa, sigma, discretization, true⟩ s1 s2 = some cs
  | .RS => RSSpace.get_controls ⟨kappa, discretization⟩ s1 s2 = cs

/-- `integrate_with_covariance` of that state space. -/
def integrated (e : EKF) (junk : State) (s : StateCov) (cs : List Control) : PathType → Option (List StateCov)
  | .Dubins => some (integrate_with_covariance e discretization junk s cs)
  | .RS => some (integrate_with_covariance e discretization junk s cs)
  | _ => hcIntegrateWithCovariance e discretization junk s cs

/-- `path_` is the result of `get_path_with_covariance`, steering_functions_node.cpp:129-219, hc_cc_state_space.cpp:74-79,
dubins_state_space.cpp:297-302, reeds_shepp_state_space.cpp:586-591. -/
def IsPath (e : EKF) (kappa sigma junk_d : ℝ) (junk : State) (s1 : StateCov) (s2 : State) (t : PathType) (path : List StateCov) : Prop :=
  ∃ cs, IsControls kappa sigma junk_d s1.state s2 cs t ∧ integrated e junk s1 cs t = some path

/-! ### Markers of the path -/

/-- Orientation of a pose: `orientation.z` and `orientation.w`; the other two are zero,
steering_functions_node.cpp:303-304, 318-319, 336-337. -/
def orientation (theta : ℝ) : ℝ × ℝ := (sin (theta / 2), cos (theta / 2))

/-- Result of `Eigen::SelfAdjointEigenSolver`. -/
structure Solver where
  success : Bool
  eigenvalues : Fin 3 → ℝ
  eigenvectors : Matrix (Fin 3) (Fin 3) ℝ

/-- What the solver guarantees for the symmetric matrix `C`: on success an orthogonal matrix of eigenvectors (columns) and the
eigenvalues. -/
def SolverOk (C : Matrix (Fin 3) (Fin 3) ℝ) (r : Solver) : Prop :=
  r.success = true → r.eigenvectorsᵀ * r.eigenvectors = 1 ∧
    C = r.eigenvectors * diagonal r.eigenvalues * r.eigenvectorsᵀ

/-- The marker of a covariance: position, rotation and scale. -/
structure Marker where
  x : ℝ
  y : ℝ
  rotation : Matrix (Fin 3) (Fin 3) ℝ
  scale : Fin 3 → ℝ

/-- The matrix given to the solver, steering_functions_node.cpp:257-260. -/
def marker_covariance (c : Arr16) : Matrix (Fin 3) (Fin 3) ℝ :=
  !![c 0, c 1, c 2; c 4, c 5, c 6; c 8, c 9, c 10]

/-- `eigenvectors.col(0) *= -1.0`, steering_functions_node.cpp:274. -/
def flip_first (V : Matrix (Fin 3) (Fin 3) ℝ) : Matrix (Fin 3) (Fin 3) ℝ :=
  Matrix.of fun i j => if j = 0 then V i j * -1 else V i j

open Classical in
/-- `covariance_to_marker`, steering_functions_node.cpp:248-288; `r` is the result of the solver. -/
def covariance_to_marker (state : StateCov) (r : Solver) : Marker :=
  let eigenvalues := if r.success then r.eigenvalues else ![1, 0, 0]
  let eigenvectors := if r.success then r.eigenvectors else 0
  let eigenvectors := if eigenvectors.det < 0 then flip_first eigenvectors else eigenvectors
  { x := state.state.x
    y := state.state.y
    rotation := eigenvectors
    scale := fun i => 2 * 3 * √(eigenvalues i) }

/-- The states that get a marker, steering_functions_node.cpp:342-347; `none` is an access out of bounds. -/
def marked (path : List StateCov) : Option (List StateCov) :=
  ((List.range path.length).filter fun i => i % 10 = 0).mapM fun i => path[i]?

/-! ### The car -/

/-- Members of `RobotClass` that describe the wheels, steering_functions_node.cpp:367-373. -/
structure Robot where
  wheel_base : ℝ
  track_width : ℝ
  wheel_radius : ℝ
  wheel_width : ℝ
  footprint : List (ℝ × ℝ)

/-- `wheel_fl_pos_`, steering_functions_node.cpp:405-406. -/
def Robot.wheel_fl_pos (r : Robot) : ℝ × ℝ := (r.wheel_base, r.track_width / 2)

/-- `wheel_fr_pos_`, steering_functions_node.cpp:407-408. -/
def Robot.wheel_fr_pos (r : Robot) : ℝ × ℝ := (r.wheel_base, -r.track_width / 2)

/-- `wheel_`, steering_functions_node.cpp:410-424. -/
def Robot.wheel (r : Robot) : List (ℝ × ℝ) :=
  [(r.wheel_radius, r.wheel_width / 2), (-r.wheel_radius, r.wheel_width / 2),
   (-r.wheel_radius, -r.wheel_width / 2), (r.wheel_radius, -r.wheel_width / 2)]

open Classical in
/-- `atan(a / b)` for `a > 0`: if `b` is zero the quotient is infinite (IEEE 754; a difference of equal numbers is `+0`) and the
arc tangent is `π / 2`. -/
def atan_quotient (a b : ℝ) : ℝ := if b = 0 then π / 2 else arctan (a / b)

open Classical in
/-- Steering angle of the front wheel at `pos`, steering_functions_node.cpp:478-488. -/
def steer_angle (pos : ℝ × ℝ) (kappa : ℝ) : ℝ :=
  if |kappa| > 1e-4 then atan_quotient pos.1 (1 / kappa - pos.2) else 0

/-- `costmap_2d::transformFootprint`. -/
def transformFootprint (x y theta : ℝ) (polygon : List (ℝ × ℝ)) : List (ℝ × ℝ) :=
  polygon.map fun p => (x + (p.1 * cos theta - p.2 * sin theta), y + (p.1 * sin theta + p.2 * cos theta))

/-- The wheel at `pos` as drawn for `state`, steering_functions_node.cpp:491-494. -/
def oriented_wheel (r : Robot) (pos : ℝ × ℝ) (state : State) : List (ℝ × ℝ) :=
  transformFootprint state.x state.y state.theta
    (transformFootprint pos.1 pos.2 (steer_angle pos state.kappa) r.wheel)

/-- The footprint as drawn for `state`, steering_functions_node.cpp:495. -/
def oriented_footprint (r : Robot) (state : State) : List (ℝ × ℝ) :=
  transformFootprint state.x state.y state.theta r.footprint

/-- The loop of `polygon_to_marker`, steering_functions_node.cpp:458-463. -/
def polygon_loop : ℝ × ℝ → List (ℝ × ℝ) → List (ℝ × ℝ)
  | _, [] => []
  | point1, point2 :: rest => point1 :: point2 :: polygon_loop point2 rest

/-- `polygon_to_marker`, steering_functions_node.cpp:455-464: `points` with the new points; `back()` of an empty polygon is
undefined behaviour (`none`). -/
def polygon_to_marker (polygon points : List (ℝ × ℝ)) : Option (List (ℝ × ℝ)) :=
  polygon.getLast?.map fun point1 => points ++ polygon_loop point1 polygon

/-- The loop of `RobotClass::visualize` without animation, steering_functions_node.cpp:468-511: the points of the markers of the
chassis and of the wheels. -/
def visualize (r : Robot) (path : List State) : Option (List (ℝ × ℝ) × List (ℝ × ℝ)) :=
  path.foldlM (fun m state => do
    let chassis ← polygon_to_marker (oriented_footprint r state) m.1
    let wheels ← polygon_to_marker (oriented_wheel r r.wheel_fl_pos state) m.2
    let wheels ← polygon_to_marker (oriented_wheel r r.wheel_fr_pos state) wheels
    pure (chassis, wheels)) ([], [])

end SF.Node
