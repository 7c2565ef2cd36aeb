import Verif.Model.Utilities

/-!
# Model of `configuration.cpp`, `hc_cc_circle.cpp` and of the constructor of `HC_CC_State_Space`

* src/hc_cc_state_space/configuration.cpp
* src/hc_cc_state_space/hc_cc_circle.cpp
* src/hc_cc_state_space/hc_cc_state_space.cpp:28-60

The `assert`s of the code are not part of the functions; they are given as separate
predicates (`…_assert`), since they disappear in release builds.  Printing is not modelled.
-/

noncomputable section

namespace SF

open Real

/-- `class Configuration`, include/steering_functions/hc_cc_state_space/configuration.hpp. -/
@[ext] structure Configuration where
  x : ℝ
  y : ℝ
  theta : ℝ
  kappa : ℝ

/-- Constructor of `Configuration`, configuration.cpp:37-43. -/
def configuration (x y theta kappa : ℝ) : Configuration := ⟨x, y, twopify theta, kappa⟩

/-- `configuration_distance`, configuration.cpp:54-57. -/
def configuration_distance (q1 q2 : Configuration) : ℝ := point_distance q1.x q1.y q2.x q2.y

/-- `configuration_aligned`, configuration.cpp:59-67. -/
def configuration_aligned (q1 q2 : Configuration) : Prop :=
  if |q2.theta - q1.theta| > epsilon then False
  else
    let angle := twopify (atan2 (q2.y - q1.y) (q2.x - q1.x))
    |angle - q1.theta| ≤ epsilon

/-- `configuration_equal`, configuration.cpp:69-76. -/
def configuration_equal (q1 q2 : Configuration) : Prop :=
  if |q2.theta - q1.theta| > epsilon then False
  else if configuration_distance q1 q2 > epsilon then False
  else True

/-- `class HC_CC_Circle_Param`, include/steering_functions/hc_cc_state_space/hc_cc_circle.hpp:31-53. -/
@[ext] structure CircleParam where
  kappa : ℝ
  kappa_inv : ℝ
  sigma : ℝ
  radius : ℝ
  mu : ℝ
  sin_mu : ℝ
  cos_mu : ℝ
  delta_min : ℝ

/-- `HC_CC_Circle_Param::set_param`, hc_cc_circle.cpp:39-50. Guard: `kappa ≠ 0`. -/
def set_param (kappa sigma radius mu sin_mu cos_mu delta_min : ℝ) : CircleParam :=
  { kappa := kappa, kappa_inv := 1 / kappa, sigma := sigma, radius := radius, mu := mu,
    sin_mu := sin_mu, cos_mu := cos_mu, delta_min := delta_min }

/-- `(x_i, y_i, theta_i)` of the constructor of `HC_CC_State_Space`,
hc_cc_state_space.cpp:34-46. -/
def first_clothoid (kappa sigma : ℝ) : Pose :=
  let length_min := kappa / sigma
  if length_min > epsilon then
    let e := end_of_clothoid 0 0 0 0 sigma 1 length_min
    ⟨e.x, e.y, e.theta⟩
  else ⟨0, 0, 0⟩

/-- `hc_cc_circle_param_` as set by the constructor of `HC_CC_State_Space`,
hc_cc_state_space.cpp:28-60.  Guards (asserted by the code): `kappa > 0`, `sigma > 0`. -/
def hc_cc_circle_param (kappa sigma : ℝ) : CircleParam :=
  let e := first_clothoid kappa sigma
  let xc := e.x - sin e.theta / kappa
  let yc := e.y + cos e.theta / kappa
  let radius := point_distance xc yc 0 0
  let mu := arctan |xc / yc|
  let delta_min := 0.5 * kappa ^ 2 / sigma
  set_param kappa sigma radius mu (sin mu) (cos mu) delta_min

/-- `rs_circle_param_` as set by the constructors of the `pm` planners, e.g.
cc0pm_dubins_state_space.cpp:341. -/
def rs_circle_param (kappa : ℝ) : CircleParam := set_param kappa dblMax (1 / kappa) 0 0 1 0

/-- `class HC_CC_Circle`, include/steering_functions/hc_cc_state_space/hc_cc_circle.hpp:55-110. -/
@[ext] structure Circle extends CircleParam where
  start : Configuration
  left : Bool
  forward : Bool
  regular : Bool
  xc : ℝ
  yc : ℝ

/-- First constructor of `HC_CC_Circle`, hc_cc_circle.cpp:52-86. -/
def circleAt (start : Configuration) (left forward regular : Bool) (p : CircleParam) : Circle :=
  let delta_x := p.radius * p.sin_mu
  let delta_y := p.radius * p.cos_mu
  let c :=
    if left then
      if forward then global_frame_change start.x start.y start.theta delta_x delta_y
      else global_frame_change start.x start.y start.theta (-delta_x) delta_y
    else
      if forward then global_frame_change start.x start.y start.theta delta_x (-delta_y)
      else global_frame_change start.x start.y start.theta (-delta_x) (-delta_y)
  { kappa := if left then p.kappa else -p.kappa
    kappa_inv := if left then p.kappa_inv else -p.kappa_inv
    sigma := if left then p.sigma else -p.sigma
    radius := p.radius, mu := p.mu, sin_mu := p.sin_mu, cos_mu := p.cos_mu
    delta_min := p.delta_min, start := start, left := left, forward := forward
    regular := regular, xc := c.1, yc := c.2 }

/-- Second constructor of `HC_CC_Circle`, hc_cc_circle.cpp:88-114. -/
def circleCentered (xc yc : ℝ) (left forward regular : Bool) (p : CircleParam) : Circle :=
  { kappa := if left then p.kappa else -p.kappa
    kappa_inv := if left then p.kappa_inv else -p.kappa_inv
    sigma := if left then p.sigma else -p.sigma
    radius := p.radius, mu := p.mu, sin_mu := p.sin_mu, cos_mu := p.cos_mu
    delta_min := p.delta_min, start := configuration 0 0 0 0, left := left, forward := forward
    regular := regular, xc := xc, yc := yc }

namespace Circle

/-- `HC_CC_Circle::deflection`, hc_cc_circle.cpp:116-128. -/
def deflection (c : Circle) (q : Configuration) : ℝ :=
  let alpha_c := c.start.theta
  let alpha_q := q.theta
  if (c.left && c.forward) || (!c.left && !c.forward) then twopify (alpha_q - alpha_c)
  else twopify (alpha_c - alpha_q)

/-- `HC_CC_Circle::D1`, hc_cc_circle.cpp:130-136 (does not use the circle). Guard: `alpha ≥ 0`. -/
def D1 (alpha : ℝ) : ℝ :=
  let s := √(2 * alpha / π)
  let f := fresnel s
  cos alpha * f.2 + sin alpha * f.1

/-- `HC_CC_Circle::rs_circular_deflection`, hc_cc_circle.cpp:138-146. -/
def rs_circular_deflection (c : Circle) (delta : ℝ) : ℝ :=
  if c.regular then delta
  else if delta ≤ π then delta else delta - 2 * π

/-- Assertion in `rs_turn_length` and `rs_turn_controls`, hc_cc_circle.cpp:150-151,
paths.cpp:322-323. -/
def rs_turn_assert (c : Circle) (q : Configuration) : Prop :=
  |(|c.kappa| - |q.kappa|)| < epsilon ∧ |(|c.sigma| - dblMax)| < epsilon

/-- `HC_CC_Circle::rs_turn_length`, hc_cc_circle.cpp:148-154. -/
def rs_turn_length (c : Circle) (q : Configuration) : ℝ :=
  let delta := c.deflection q
  |c.kappa_inv * c.rs_circular_deflection delta|

/-- `HC_CC_Circle::hc_circular_deflection`, hc_cc_circle.cpp:156-183. -/
def hc_circular_deflection (c : Circle) (delta : ℝ) : ℝ :=
  let delta_min_twopified := twopify c.delta_min
  if c.regular then
    if delta < delta_min_twopified then 2 * π + delta - delta_min_twopified
    else delta - delta_min_twopified
  else
    let delta_arc1 := delta - delta_min_twopified
    let delta_arc2 :=
      if delta < delta_min_twopified then delta_arc1 + 2 * π else delta_arc1 - 2 * π
    if |delta_arc1| < |delta_arc2| then delta_arc1 else delta_arc2

/-- Assertion in `hc_turn_length` and `hc_turn_controls`, hc_cc_circle.cpp:187, paths.cpp:338. -/
def hc_turn_assert (c : Circle) (q : Configuration) : Prop := |(|c.kappa| - |q.kappa|)| < epsilon

/-- `HC_CC_Circle::hc_turn_length`, hc_cc_circle.cpp:185-190. -/
def hc_turn_length (c : Circle) (q : Configuration) : ℝ :=
  let delta := c.deflection q
  |c.kappa / c.sigma| + |c.kappa_inv * c.hc_circular_deflection delta|

/-- `HC_CC_Circle::cc_elementary_sharpness`, hc_cc_circle.cpp:192-207; `none` is the result
`false`, `some sigma0` the result `true`. -/
def cc_elementary_sharpness (c : Circle) (q : Configuration) (delta : ℝ) : Option ℝ :=
  let distance := point_distance c.start.x c.start.y q.x q.y
  if delta < 4.5948 ∧ distance > epsilon then
    let sigma0 := 4 * π * D1 (0.5 * delta) ^ 2 / distance ^ 2
    some (if c.left then sigma0 else -sigma0)
  else none

/-- `HC_CC_Circle::cc_circular_deflection`, hc_cc_circle.cpp:209-236. -/
def cc_circular_deflection (c : Circle) (delta : ℝ) : ℝ :=
  let two_delta_min_twopified := twopify (2 * c.delta_min)
  if c.regular then
    if delta < two_delta_min_twopified then 2 * π + delta - two_delta_min_twopified
    else delta - two_delta_min_twopified
  else
    let delta_arc1 := delta - two_delta_min_twopified
    let delta_arc2 :=
      if delta < two_delta_min_twopified then delta_arc1 + 2 * π else delta_arc1 - 2 * π
    if |delta_arc1| < |delta_arc2| then delta_arc1 else delta_arc2

/-- Assertion in `cc_turn_length` and `cc_turn_controls`, hc_cc_circle.cpp:240, paths.cpp:419. -/
def cc_turn_assert (q : Configuration) : Prop := |q.kappa| < epsilon

/-- `HC_CC_Circle::cc_turn_length`, hc_cc_circle.cpp:238-271. -/
def cc_turn_length (c : Circle) (q : Configuration) : ℝ :=
  let delta := c.deflection q
  if delta < epsilon then 2 * c.radius * c.sin_mu
  else
    let length_min := |c.kappa / c.sigma|
    let length_default := 2 * length_min + |c.kappa_inv * c.cc_circular_deflection delta|
    if delta < 2 * c.delta_min then
      match c.cc_elementary_sharpness q delta with
      | some sigma0 =>
        let length_elementary := 2 * √(delta / |sigma0|)
        if length_elementary < length_default then length_elementary else length_default
      | none => length_default
    else length_default

end Circle

/-- `center_distance`, hc_cc_circle.cpp:307-310. -/
def center_distance (c1 c2 : Circle) : ℝ := √((c2.xc - c1.xc) ^ 2 + (c2.yc - c1.yc) ^ 2)

/-- `configuration_on_hc_cc_circle`, hc_cc_circle.cpp:312-338. -/
def configuration_on_hc_cc_circle (c : Circle) (q : Configuration) : Prop :=
  let distance := point_distance c.xc c.yc q.x q.y
  if |distance - c.radius| > epsilon then False
  else
    let angle := atan2 (q.y - c.yc) (q.x - c.xc)
    let angle := if c.left && c.forward then angle + π / 2 - c.mu else angle
    let angle := if c.left && !c.forward then angle + π / 2 + c.mu else angle
    let angle := if !c.left && c.forward then angle - π / 2 + c.mu else angle
    let angle := if !c.left && !c.forward then angle - π / 2 - c.mu else angle
    let angle := twopify angle
    |q.theta - angle| < epsilon

end SF
