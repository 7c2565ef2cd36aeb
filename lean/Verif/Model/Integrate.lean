import Verif.Model.Utilities

/-!
# Model of `integrate`, `interpolate` and `integrate_ODE`

* src/dubins_state_space/dubins_state_space.cpp:304-351, 421-504
* src/reeds_shepp_state_space/reeds_shepp_state_space.cpp:593-640, 710-793
  (textually identical to the Dubins version apart from the reserved capacity)
* src/hc_cc_state_space/hc_cc_state_space.cpp:81-135, 212-310

Simplifications: `vector::reserve` (capacity only) is not modelled here, and the `int`
step counter is an unbounded natural number; both are modelled in `Verif/Model/Counter.lean`.

Uninitialised fields: the local `State state_curr` of the Dubins/Reeds-Shepp
functions starts with indeterminate `kappa` and `d`.  The model takes these two
indeterminate values as an explicit parameter `junk`.
-/

noncomputable section

namespace SF

open Real

/-- `Dubins_State_Space::integrate_ODE`, dubins_state_space.cpp:484-504 and
`Reeds_Shepp_State_Space::integrate_ODE`, reeds_shepp_state_space.cpp:773-793. -/
def integrate_ODE (state : State) (control : Control) (integration_step : ℝ) : State :=
  let d := sgn control.delta_s
  if |state.kappa| > epsilon then
    let e := end_of_circular_arc state.x state.y state.theta state.kappa d integration_step
    { x := e.x, y := e.y, theta := e.theta, kappa := state.kappa, d := d }
  else
    let e := end_of_straight_line state.x state.y state.theta d integration_step
    { x := e.1, y := e.2, theta := state.theta, kappa := state.kappa, d := d }

/-- `HC_CC_State_Space::integrate_ODE`, hc_cc_state_space.cpp:281-310. -/
def hc_integrate_ODE (state : State) (control : Control) (integration_step : ℝ) : State :=
  let sigma := control.sigma
  let d := sgn control.delta_s
  if |sigma| > epsilon then
    let e := end_of_clothoid state.x state.y state.theta state.kappa sigma d integration_step
    { x := e.x, y := e.y, theta := e.theta, kappa := e.kappa, d := d }
  else if |state.kappa| > epsilon then
    let e := end_of_circular_arc state.x state.y state.theta state.kappa d integration_step
    { x := e.x, y := e.y, theta := e.theta, kappa := state.kappa, d := d }
  else
    let e := end_of_straight_line state.x state.y state.theta d integration_step
    { x := e.1, y := e.2, theta := state.theta, kappa := state.kappa, d := d }

/-- One evaluation of "get integration step": from `s_seg` to
`(integration_step, new s_seg)`, dubins_state_space.cpp:335-344 (same text in all
six loops). -/
def nextStep (discretization abs_delta_s s_seg : ℝ) : ℝ × ℝ :=
  let s_seg := s_seg + discretization
  if s_seg > abs_delta_s then (discretization - (s_seg - abs_delta_s), abs_delta_s)
  else (discretization, s_seg)

/-- The inner `for` loop: `n` iterations from `s_seg` and `state_curr`.  Returns
the list of integration steps with the states pushed, and the final `state_curr`.
dubins_state_space.cpp:332-348. -/
def segLoop (ode : State → ℝ → State) (discretization abs_delta_s : ℝ) :
    ℕ → ℝ → State → List (ℝ × State) × State
  | 0, _, st => ([], st)
  | n + 1, s_seg, st =>
    let ns := nextStep discretization abs_delta_s s_seg
    let nxt := ode st ns.1
    let r := segLoop ode discretization abs_delta_s n ns.2 nxt
    ((ns.1, nxt) :: r.1, r.2)

/-- Number of iterations `n = ceil(abs_delta_s / discretization_)`. -/
def nSteps (discretization abs_delta_s : ℝ) : ℕ := ⌈abs_delta_s / discretization⌉₊

/-- Loop over the controls in `integrate`, dubins_state_space.cpp:321-349. -/
def integrateLoop (discretization : ℝ) : List Control → State → List State
  | [], _ => []
  | c :: cs, st =>
    let abs_delta_s := |c.delta_s|
    let st0 : State := { st with kappa := c.kappa, d := sgn c.delta_s }
    let r := segLoop (fun s h => integrate_ODE s c h) discretization abs_delta_s
      (nSteps discretization abs_delta_s) 0 st0
    st0 :: r.1.map Prod.snd ++ integrateLoop discretization cs r.2

/-- `integrate` of Dubins (dubins_state_space.cpp:304-351) and Reeds-Shepp
(reeds_shepp_state_space.cpp:593-640).  `junk` are the indeterminate initial
values of `state_curr.kappa` and `state_curr.d`. -/
def integrate (discretization : ℝ) (junk : ℝ × ℝ) (state : State) (controls : List Control) :
    List State :=
  integrateLoop discretization controls
    { x := state.x, y := state.y, theta := state.theta, kappa := junk.1, d := junk.2 }

/-- Sum of the absolute segment lengths (`s_path`), dubins_state_space.cpp:429-434. -/
def s_path (controls : List Control) : ℝ := controls.foldl (fun s c => s + |c.delta_s|) 0

/-- Loop over the controls in `interpolate`, dubins_state_space.cpp:442-480; the
flag `interpolated` is modelled by stopping the recursion. -/
def interpolateLoop (discretization s_inter : ℝ) : List Control → ℝ → State → State
  | [], _, st => st
  | c :: cs, s, st =>
    let abs_delta_s := |c.delta_s|
    let st0 : State := { st with kappa := c.kappa, d := sgn c.delta_s }
    let s := s + abs_delta_s
    if s > s_inter then
      let abs_delta_s := abs_delta_s - (s - s_inter)
      (segLoop (fun s h => integrate_ODE s c h) discretization abs_delta_s
        (nSteps discretization abs_delta_s) 0 st0).2
    else
      interpolateLoop discretization s_inter cs s
        (segLoop (fun s h => integrate_ODE s c h) discretization abs_delta_s
          (nSteps discretization abs_delta_s) 0 st0).2

/-- `interpolate` of Dubins (dubins_state_space.cpp:421-482) and Reeds-Shepp
(reeds_shepp_state_space.cpp:710-771). -/
def interpolate (discretization : ℝ) (junk : ℝ × ℝ) (state : State) (controls : List Control)
    (t : ℝ) : State :=
  let state_curr : State :=
    { x := state.x, y := state.y, theta := state.theta, kappa := junk.1, d := junk.2 }
  if t ≤ 0 then state_curr
  else
    let s_inter := if t > 1 then s_path controls else t * s_path controls
    interpolateLoop discretization s_inter controls 0 state_curr

/-- Loop over the controls in `HC_CC_State_Space::integrate`, hc_cc_state_space.cpp:101-133. -/
def hcIntegrateLoop (discretization : ℝ) : List Control → State → List State
  | [], _ => []
  | c :: cs, st =>
    let abs_delta_s := |c.delta_s|
    let disc := |c.kappa - st.kappa| > epsilon
    let st0 : State := if disc then { st with kappa := c.kappa, d := sgn c.delta_s } else st
    let pushed := if disc then [st0] else []
    let r := segLoop (fun s h => hc_integrate_ODE s c h) discretization abs_delta_s
      (nSteps discretization abs_delta_s) 0 st0
    pushed ++ r.1.map Prod.snd ++ hcIntegrateLoop discretization cs r.2

/-- First state of `HC_CC_State_Space::integrate`/`interpolate`:
hc_cc_state_space.cpp:93-99, 215-220.  `controls.front()` of an empty vector is
undefined behaviour, modelled by `none`. -/
def hcFirst (state : State) (controls : List Control) : Option State :=
  match controls with
  | [] => none
  | c :: _ => some { x := state.x, y := state.y, theta := state.theta,
                     kappa := c.kappa, d := sgn c.delta_s }

/-- `HC_CC_State_Space::integrate`, hc_cc_state_space.cpp:81-135. -/
def hcIntegrate (discretization : ℝ) (state : State) (controls : List Control) :
    Option (List State) :=
  (hcFirst state controls).map fun st => st :: hcIntegrateLoop discretization controls st

/-- Loop over the controls in `HC_CC_State_Space::interpolate`, hc_cc_state_space.cpp:235-277. -/
def hcInterpolateLoop (discretization s_inter : ℝ) : List Control → ℝ → State → State
  | [], _, st => st
  | c :: cs, s, st =>
    let abs_delta_s := |c.delta_s|
    let st0 : State := if |c.kappa - st.kappa| > epsilon then
      { st with kappa := c.kappa, d := sgn c.delta_s } else st
    let s := s + abs_delta_s
    if s > s_inter then
      let abs_delta_s := abs_delta_s - (s - s_inter)
      (segLoop (fun s h => hc_integrate_ODE s c h) discretization abs_delta_s
        (nSteps discretization abs_delta_s) 0 st0).2
    else
      hcInterpolateLoop discretization s_inter cs s
        (segLoop (fun s h => hc_integrate_ODE s c h) discretization abs_delta_s
          (nSteps discretization abs_delta_s) 0 st0).2

/-- `HC_CC_State_Space::interpolate`, hc_cc_state_space.cpp:212-279. -/
def hcInterpolate (discretization : ℝ) (state : State) (controls : List Control) (t : ℝ) :
    Option State :=
  (hcFirst state controls).map fun state_curr =>
    if t ≤ 0 then state_curr
    else
      let s_inter := if t > 1 then s_path controls else t * s_path controls
      hcInterpolateLoop discretization s_inter controls 0 state_curr

end SF
