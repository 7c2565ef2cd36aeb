import Verif.Model.HcCcCircle

/-!
# Model of the functions of `src/hc_cc_state_space/paths.cpp`

The C++ functions append to a vector of controls that is passed by reference; the model
returns the list of appended controls.  The classes `Path`, `CC_Dubins_Path` and
`HC_CC_RS_Path` (plain records) are modelled with the planners.
-/

noncomputable section

namespace SF

open Real

/-- `state_equal`, paths.cpp:263-272. -/
def state_equal (state1 state2 : State) : Prop :=
  if |state2.kappa - state1.kappa| > epsilon then False
  else if |twopify state2.theta - twopify state1.theta| > epsilon then False
  else if point_distance state1.x state1.y state2.x state2.y > epsilon then False
  else True

/-- `reverse_control`, paths.cpp:274-279. -/
def reverse_control (control : Control) : Control :=
  let delta_s := -control.delta_s
  { delta_s := delta_s
    kappa := control.kappa + |delta_s| * control.sigma
    sigma := -control.sigma }

/-- Assertion in `subtract_control`, paths.cpp:283. -/
def subtract_control_assert (control1 control2 : Control) : Prop :=
  sgn control1.delta_s * control1.sigma = sgn control2.delta_s * control2.sigma

/-- `subtract_control`, paths.cpp:281-289. -/
def subtract_control (control1 control2 : Control) : Control :=
  { delta_s := control1.delta_s - control2.delta_s
    kappa := control1.kappa
    sigma := control1.sigma }

/-- `empty_controls`, paths.cpp:291-298. -/
def empty_controls : List Control := [⟨0, 0, 0⟩]

/-- `straight_controls`, paths.cpp:300-310. -/
def straight_controls (q1 q2 : Configuration) : List Control :=
  let length := point_distance q1.x q1.y q2.x q2.y
  let dot_product := cos q1.theta * (q2.x - q1.x) + sin q1.theta * (q2.y - q1.y)
  let d := sgn dot_product
  [⟨d * length, 0, 0⟩]

/-- `direction`, paths.cpp:312-318. -/
def direction (forward order : Bool) : ℝ :=
  if (forward && order) || (!forward && !order) then 1 else -1

/-- `rs_turn_controls`, paths.cpp:320-334. -/
def rs_turn_controls (c : Circle) (q : Configuration) (order : Bool) : List Control :=
  let delta := c.deflection q
  let length_arc := |c.kappa_inv| * c.rs_circular_deflection delta
  let d := direction c.forward order
  [⟨d * length_arc, c.kappa, 0⟩]

/-- `hc_turn_controls`, paths.cpp:336-366. -/
def hc_turn_controls (c : Circle) (q : Configuration) (order : Bool) : List Control :=
  let delta := c.deflection q
  let length_min := |c.kappa / c.sigma|
  let length_arc := |c.kappa_inv| * c.hc_circular_deflection delta
  let d := direction c.forward order
  let arc : Control := ⟨d * length_arc, c.kappa, 0⟩
  (if order then [⟨d * length_min, 0, c.sigma⟩] else []) ++ [arc] ++
  (if order then [] else [⟨d * length_min, c.kappa, -c.sigma⟩])

/-- `cc_elementary_controls`, paths.cpp:368-390; `none` is the result `false`. -/
def cc_elementary_controls (c : Circle) (q : Configuration) (delta : ℝ) (order : Bool) :
    Option (List Control) :=
  match c.cc_elementary_sharpness q delta with
  | some sigma0 =>
    let length := √(delta / |sigma0|)
    let d := direction c.forward order
    some [⟨d * length, 0, sigma0⟩, ⟨d * length, sigma0 * length, -sigma0⟩]
  | none => none

/-- `cc_default_controls`, paths.cpp:392-415. -/
def cc_default_controls (c : Circle) (delta : ℝ) (order : Bool) : List Control :=
  let length_min := |c.kappa / c.sigma|
  let length_arc := |c.kappa_inv| * c.cc_circular_deflection delta
  let d := direction c.forward order
  [⟨d * length_min, 0, c.sigma⟩, ⟨d * length_arc, c.kappa, 0⟩, ⟨d * length_min, c.kappa, -c.sigma⟩]

/-- `accumulate(…, 0.0, sum + fabs(delta_s))`, paths.cpp:437-442. -/
def accumulate_length (controls : List Control) : ℝ :=
  controls.foldl (fun sum control => sum + |control.delta_s|) 0

/-- `cc_turn_controls`, paths.cpp:417-460. -/
def cc_turn_controls (c : Circle) (q : Configuration) (order : Bool) : List Control :=
  let delta := c.deflection q
  if delta < epsilon then
    if order then straight_controls c.start q else straight_controls q c.start
  else if delta < 2 * c.delta_min then
    match cc_elementary_controls c q delta order with
    | some controls_elementary =>
      let controls_default := cc_default_controls c delta order
      if accumulate_length controls_elementary < accumulate_length controls_default then
        controls_elementary
      else controls_default
    | none => cc_default_controls c delta order
  else cc_default_controls c delta order

end SF
