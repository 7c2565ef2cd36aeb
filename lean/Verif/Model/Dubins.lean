import Verif.Model.Utilities

/-!
# Model of `src/dubins_state_space/dubins_state_space.cpp` (planner part)

The integration part of the same file is in `Verif/Model/Integrate.lean`.
Every `assert` is recorded in a separate predicate next to the function in which
it occurs (an `assert` has no effect on the returned value in a release build).
-/

noncomputable section

namespace SF

open Real

/-- `enum Dubins_Path_Segment_Type`, dubins_state_space.hpp:90-95. -/
inductive SegT
  | left
  | straight
  | right
deriving DecidableEq

/-- `class Dubins_Path`, dubins_state_space.hpp:101-130.  The pointer `type_` into the
static table is modelled by the row it points to. -/
@[ext] structure DPath where
  type : SegT × SegT × SegT
  t : ℝ
  p : ℝ
  q : ℝ

/-- `dubins_path_type`, dubins_state_space.cpp:222-226. -/
def dubins_path_type : ℕ → SegT × SegT × SegT
  | 0 => (.left, .straight, .left)
  | 1 => (.right, .straight, .right)
  | 2 => (.right, .straight, .left)
  | 3 => (.left, .straight, .right)
  | 4 => (.right, .left, .right)
  | _ => (.left, .right, .left)

/-- `Dubins_Path::length`, dubins_state_space.hpp:117-120. -/
def DPath.length (a : DPath) : ℝ := a.t + a.p + a.q

/-- The default constructed (`no path`) value, dubins_state_space.hpp:105-108. -/
def DPath.default : DPath := ⟨dubins_path_type 0, 0, dblMax, 0⟩

/-- The three assertions of the constructor, dubins_state_space.hpp:112-114. -/
def DPath.Asserts (a : DPath) : Prop := 0 ≤ a.t ∧ 0 ≤ a.p ∧ 0 ≤ a.q

/-- `DUBINS_EPS`, dubins_state_space.cpp:73. -/
def DUBINS_EPS : ℝ := 1 / 10 ^ 6

/-- `DUBINS_ZERO`, dubins_state_space.cpp:74. -/
def DUBINS_ZERO : ℝ := -(1 / 10 ^ 9)

/-- `tmp` of `dubinsLSL`, dubins_state_space.cpp:79. -/
def tmpLSL (d alpha beta : ℝ) : ℝ :=
  2 + d * d - 2 * (cos alpha * cos beta + sin alpha * sin beta - d * (sin alpha - sin beta))

/-- The path built by `dubinsLSL`, dubins_state_space.cpp:82-88. -/
def pathLSL (d alpha beta : ℝ) : DPath :=
  let theta := atan2 (cos beta - cos alpha) (d + sin alpha - sin beta)
  let t := twopify (-alpha + theta)
  let p := √(max (tmpLSL d alpha beta) 0)
  let q := twopify (beta - theta)
  ⟨dubins_path_type 0, t, p, q⟩

/-- `dubinsLSL`, dubins_state_space.cpp:76-92. -/
def dubinsLSL (d alpha beta : ℝ) : DPath :=
  if tmpLSL d alpha beta ≥ DUBINS_ZERO then pathLSL d alpha beta else DPath.default

/-- Assertions of `dubinsLSL`, dubins_state_space.cpp:85-87. -/
def assertsLSL (d alpha beta t p q : ℝ) : Prop :=
  |p * cos (alpha + t) - sin alpha + sin beta - d| < DUBINS_EPS ∧
  |p * sin (alpha + t) + cos alpha - cos beta| < DUBINS_EPS ∧
  twopify (alpha + t + q - beta + 0.5 * DUBINS_EPS) < DUBINS_EPS

/-- `tmp` of `dubinsRSR`, dubins_state_space.cpp:97. -/
def tmpRSR (d alpha beta : ℝ) : ℝ :=
  2 + d * d - 2 * (cos alpha * cos beta + sin alpha * sin beta - d * (sin beta - sin alpha))

/-- The path built by `dubinsRSR`, dubins_state_space.cpp:100-106. -/
def pathRSR (d alpha beta : ℝ) : DPath :=
  let theta := atan2 (cos alpha - cos beta) (d - sin alpha + sin beta)
  let t := twopify (alpha - theta)
  let p := √(max (tmpRSR d alpha beta) 0)
  let q := twopify (-beta + theta)
  ⟨dubins_path_type 1, t, p, q⟩

/-- `dubinsRSR`, dubins_state_space.cpp:94-110. -/
def dubinsRSR (d alpha beta : ℝ) : DPath :=
  if tmpRSR d alpha beta ≥ DUBINS_ZERO then pathRSR d alpha beta else DPath.default

/-- Assertions of `dubinsRSR`, dubins_state_space.cpp:103-105. -/
def assertsRSR (d alpha beta t p q : ℝ) : Prop :=
  |p * cos (alpha - t) + sin alpha - sin beta - d| < DUBINS_EPS ∧
  |p * sin (alpha - t) - cos alpha + cos beta| < DUBINS_EPS ∧
  twopify (alpha - t - q - beta + 0.5 * DUBINS_EPS) < DUBINS_EPS

/-- `tmp` of `dubinsRSL`, dubins_state_space.cpp:115. -/
def tmpRSL (d alpha beta : ℝ) : ℝ :=
  d * d - 2 + 2 * (cos alpha * cos beta + sin alpha * sin beta - d * (sin alpha + sin beta))

/-- The path built by `dubinsRSL`, dubins_state_space.cpp:118-124. -/
def pathRSL (d alpha beta : ℝ) : DPath :=
  let p := √(max (tmpRSL d alpha beta) 0)
  let theta := atan2 (cos alpha + cos beta) (d - sin alpha - sin beta) - atan2 2 p
  let t := twopify (alpha - theta)
  let q := twopify (beta - theta)
  ⟨dubins_path_type 2, t, p, q⟩

/-- `dubinsRSL`, dubins_state_space.cpp:112-128. -/
def dubinsRSL (d alpha beta : ℝ) : DPath :=
  if tmpRSL d alpha beta ≥ DUBINS_ZERO then pathRSL d alpha beta else DPath.default

/-- Assertions of `dubinsRSL`, dubins_state_space.cpp:121-123. -/
def assertsRSL (d alpha beta t p q : ℝ) : Prop :=
  |p * cos (alpha - t) - 2 * sin (alpha - t) + sin alpha + sin beta - d| < DUBINS_EPS ∧
  |p * sin (alpha - t) + 2 * cos (alpha - t) - cos alpha - cos beta| < DUBINS_EPS ∧
  twopify (alpha - t + q - beta + 0.5 * DUBINS_EPS) < DUBINS_EPS

/-- `tmp` of `dubinsLSR`, dubins_state_space.cpp:133. -/
def tmpLSR (d alpha beta : ℝ) : ℝ :=
  -2 + d * d + 2 * (cos alpha * cos beta + sin alpha * sin beta + d * (sin alpha + sin beta))

/-- The path built by `dubinsLSR`, dubins_state_space.cpp:136-142. -/
def pathLSR (d alpha beta : ℝ) : DPath :=
  let p := √(max (tmpLSR d alpha beta) 0)
  let theta := atan2 (-cos alpha - cos beta) (d + sin alpha + sin beta) - atan2 (-2) p
  let t := twopify (-alpha + theta)
  let q := twopify (-beta + theta)
  ⟨dubins_path_type 3, t, p, q⟩

/-- `dubinsLSR`, dubins_state_space.cpp:130-146. -/
def dubinsLSR (d alpha beta : ℝ) : DPath :=
  if tmpLSR d alpha beta ≥ DUBINS_ZERO then pathLSR d alpha beta else DPath.default

/-- Assertions of `dubinsLSR`, dubins_state_space.cpp:139-141. -/
def assertsLSR (d alpha beta t p q : ℝ) : Prop :=
  |p * cos (alpha + t) + 2 * sin (alpha + t) - sin alpha - sin beta - d| < DUBINS_EPS ∧
  |p * sin (alpha + t) - 2 * cos (alpha + t) + cos alpha + cos beta| < DUBINS_EPS ∧
  twopify (alpha + t - q - beta + 0.5 * DUBINS_EPS) < DUBINS_EPS

/-- `tmp` of `dubinsRLR`, dubins_state_space.cpp:151. -/
def tmpRLR (d alpha beta : ℝ) : ℝ :=
  0.125 * (6 - d * d + 2 * (cos alpha * cos beta + sin alpha * sin beta
    + d * (sin alpha - sin beta)))

/-- The path built by `dubinsRLR`, dubins_state_space.cpp:154-160. -/
def pathRLR (d alpha beta : ℝ) : DPath :=
  let p := 2 * π - arccos (tmpRLR d alpha beta)
  let theta := atan2 (cos alpha - cos beta) (d - sin alpha + sin beta)
  let t := twopify (alpha - theta + 0.5 * p)
  let q := twopify (alpha - beta - t + p)
  ⟨dubins_path_type 4, t, p, q⟩

/-- `dubinsRLR`, dubins_state_space.cpp:148-164. -/
def dubinsRLR (d alpha beta : ℝ) : DPath :=
  if |tmpRLR d alpha beta| < 1 then pathRLR d alpha beta else DPath.default

/-- Assertions of `dubinsRLR`, dubins_state_space.cpp:157-159. -/
def assertsRLR (d alpha beta t p q : ℝ) : Prop :=
  |2 * sin (alpha - t + p) - 2 * sin (alpha - t) - d + sin alpha - sin beta| < DUBINS_EPS ∧
  |-2 * cos (alpha - t + p) + 2 * cos (alpha - t) - cos alpha + cos beta| < DUBINS_EPS ∧
  twopify (alpha - t + p - q - beta + 0.5 * DUBINS_EPS) < DUBINS_EPS

/-- `tmp` of `dubinsLRL`, dubins_state_space.cpp:169. -/
def tmpLRL (d alpha beta : ℝ) : ℝ :=
  0.125 * (6 - d * d + 2 * (cos alpha * cos beta + sin alpha * sin beta
    - d * (sin alpha - sin beta)))

/-- The path built by `dubinsLRL`, dubins_state_space.cpp:172-178. -/
def pathLRL (d alpha beta : ℝ) : DPath :=
  let p := 2 * π - arccos (tmpLRL d alpha beta)
  let theta := atan2 (-cos alpha + cos beta) (d + sin alpha - sin beta)
  let t := twopify (-alpha + theta + 0.5 * p)
  let q := twopify (beta - alpha - t + p)
  ⟨dubins_path_type 5, t, p, q⟩

/-- `dubinsLRL`, dubins_state_space.cpp:166-182. -/
def dubinsLRL (d alpha beta : ℝ) : DPath :=
  if |tmpLRL d alpha beta| < 1 then pathLRL d alpha beta else DPath.default

/-- Assertions of `dubinsLRL`, dubins_state_space.cpp:175-177. -/
def assertsLRL (d alpha beta t p q : ℝ) : Prop :=
  |-2 * sin (alpha + t - p) + 2 * sin (alpha + t) - d - sin alpha + sin beta| < DUBINS_EPS ∧
  |2 * cos (alpha + t - p) - 2 * cos (alpha + t) + cos alpha - cos beta| < DUBINS_EPS ∧
  twopify (alpha + t - p + q - beta + 0.5 * DUBINS_EPS) < DUBINS_EPS

/-- One `if ((len = tmp.length()) < minLength) { … }` of `dubins`; the state is
`(minLength, path)`.  dubins_state_space.cpp:191-218 (the last `if` of the code does
not update `minLength`, which is dead there). -/
def dubinsPick (st : ℝ × DPath) (tmp : DPath) : ℝ × DPath :=
  if tmp.length < st.1 then (tmp.length, tmp) else st

/-- `dubins` (helper), dubins_state_space.cpp:184-219. -/
def dubins (d alpha beta : ℝ) : DPath :=
  if d < DUBINS_EPS ∧ |alpha - beta| < DUBINS_EPS then ⟨dubins_path_type 0, 0, d, 0⟩
  else
    let path := dubinsLSL d alpha beta
    let s0 := (path.length, path)
    let s1 := dubinsPick s0 (dubinsRSR d alpha beta)
    let s2 := dubinsPick s1 (dubinsRSL d alpha beta)
    let s3 := dubinsPick s2 (dubinsLSR d alpha beta)
    let s4 := dubinsPick s3 (dubinsRLR d alpha beta)
    let s5 := dubinsPick s4 (dubinsLRL d alpha beta)
    s5.2

/-- Members of `Dubins_State_Space` used by the planner, dubins_state_space.hpp:133-138;
`kappa_inv_ = 1 / kappa`. -/
structure DubinsSpace where
  kappa : ℝ
  discretization : ℝ
  forwards : Bool

/-- `kappa_inv_`, dubins_state_space.hpp:137. -/
def DubinsSpace.kappa_inv (sp : DubinsSpace) : ℝ := 1 / sp.kappa

/-- Assertion of the constructor, dubins_state_space.hpp:136. -/
def DubinsSpace.Valid (sp : DubinsSpace) : Prop := 0 < sp.kappa ∧ 0 < sp.discretization

/-- The numbers `(d, alpha, beta)` computed by `Dubins_State_Space::dubins`,
dubins_state_space.cpp:230-231. -/
def DubinsSpace.params (sp : DubinsSpace) (s1 s2 : State) : ℝ × ℝ × ℝ :=
  let dx := s2.x - s1.x
  let dy := s2.y - s1.y
  let th := atan2 dy dx
  (√(dx * dx + dy * dy) * sp.kappa, twopify (s1.theta - th), twopify (s2.theta - th))

/-- `Dubins_State_Space::dubins`, dubins_state_space.cpp:228-233. -/
def DubinsSpace.dubins (sp : DubinsSpace) (s1 s2 : State) : DPath :=
  SF.dubins (sp.params s1 s2).1 (sp.params s1 s2).2.1 (sp.params s1 s2).2.2

/-- `Dubins_State_Space::get_distance`, dubins_state_space.cpp:241-247. -/
def DubinsSpace.get_distance (sp : DubinsSpace) (s1 s2 : State) : ℝ :=
  if sp.forwards then sp.kappa_inv * (sp.dubins s1 s2).length
  else sp.kappa_inv * (sp.dubins s2 s1).length

/-- Body of the `switch` in `get_controls`, dubins_state_space.cpp:260-279. -/
def DubinsSpace.control (sp : DubinsSpace) (ty : SegT) (len : ℝ) : Control :=
  match ty with
  | .left => ⟨sp.kappa_inv * len, sp.kappa, 0⟩
  | .straight => ⟨sp.kappa_inv * len, 0, 0⟩
  | .right => ⟨sp.kappa_inv * len, -sp.kappa, 0⟩

/-- The loop of `get_controls`, dubins_state_space.cpp:257-281. -/
def DubinsSpace.pathControls (sp : DubinsSpace) (a : DPath) : List Control :=
  [sp.control a.type.1 a.t, sp.control a.type.2.1 a.p, sp.control a.type.2.2 a.q]

/-- `Dubins_State_Space::get_controls`, dubins_state_space.cpp:249-289. -/
def DubinsSpace.get_controls (sp : DubinsSpace) (s1 s2 : State) : List Control :=
  if sp.forwards then sp.pathControls (sp.dubins s1 s2)
  else (sp.pathControls (sp.dubins s2 s1)).reverse.map fun c => { c with delta_s := -c.delta_s }

end SF
