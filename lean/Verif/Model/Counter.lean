import Verif.Model.GetPath
import Verif.Model.Ekf

/-!
# The `int` counters of `integrate`, `integrate_with_covariance` and `interpolate`

* src/dubins_state_space/dubins_state_space.cpp:304-419, 442-480
* src/reeds_shepp_state_space/reeds_shepp_state_space.cpp:593-708, 731-769
* src/hc_cc_state_space/hc_cc_state_space.cpp:81-210, 235-277

The same functions as in `Verif/Model/Integrate.lean` and `Verif/Model/Ekf.lean`, here with the variables `n_states`, `i` and `n` of type
`int` (32 bits) and with the capacity requested from `vector::reserve`.  A conversion or an addition whose result does not fit an `int` is
undefined behaviour: `none`.  Simplifications: the values of type `double` are real numbers, and the memory available to
`vector::reserve` is not limited.
-/

noncomputable section

namespace SF.Count

open Real

/-- The smallest and largest `int` (32 bits). -/
def intMin : ℤ := -2 ^ 31
def intMax : ℤ := 2 ^ 31 - 1

/-- The values of type `int`; everything else is undefined. -/
def asInt (n : ℤ) : Option ℤ := if intMin ≤ n ∧ n ≤ intMax then some n else none

/-- Conversion from `double` to `int`: the fractional part is cut off. -/
def toInt (x : ℝ) : Option ℤ := asInt (if 0 ≤ x then ⌊x⌋ else ⌈x⌉)

/-- `ceil(abs_delta_s / discretization_)`, a `double`. -/
def ceilSteps (discretization abs_delta_s : ℝ) : ℝ := (⌈abs_delta_s / discretization⌉ : ℤ)

/-- `n_states += ceil(abs_delta_s / discretization_)` for all controls: the sum is a `double` which is converted back to `int`.
dubins_state_space.cpp:309-314, 359-364, reeds_shepp_state_space.cpp:598-603, 648-653, hc_cc_state_space.cpp:86-91, 143-148. -/
def tally (discretization : ℝ) : List Control → ℤ → Option ℤ
  | [], n_states => some n_states
  | c :: cs, n_states => (toInt (n_states + ceilSteps discretization |c.delta_s|)).bind (tally discretization cs)

/-- The argument of `path.reserve`: `n_states + 3`, dubins_state_space.cpp:315, 365 and hc_cc_state_space.cpp:92, 149, and
`n_states + 5`, reeds_shepp_state_space.cpp:604, 654. -/
def reserve (discretization : ℝ) (extra : ℤ) (controls : List Control) : Option ℤ :=
  (tally discretization controls 0).bind fun n_states => asInt (n_states + extra)

/-- The body of `for (int i = 0, n = ...; i < n; ++i)`, from `i` on: `step` maps the variables and the integration step to the new
variables and the state that is pushed back.  dubins_state_space.cpp:332-348 (same text in all nine loops). -/
def forLoop {α β : Type} (step : α → ℝ → α × β) (discretization abs_delta_s : ℝ) (n i : ℤ) (s_seg : ℝ) (a : α) : Option (List β × α) :=
  if _h : i < n then
    let ns := nextStep discretization abs_delta_s s_seg
    let r := step a ns.1
    if intMin ≤ i + 1 ∧ i + 1 ≤ intMax then
      (forLoop step discretization abs_delta_s n (i + 1) ns.2 r.1).map fun t => (r.2 :: t.1, t.2)
    else none
  else some ([], a)
termination_by (n - i).toNat
decreasing_by omega

/-- The whole `for` statement, with `n = ceil(abs_delta_s / discretization_)`. -/
def segment {α β : Type} (step : α → ℝ → α × β) (discretization abs_delta_s : ℝ) (a : α) : Option (List β × α) :=
  (toInt (ceilSteps discretization abs_delta_s)).bind fun n => forLoop step discretization abs_delta_s n 0 0 a

/-- The step of `integrate` and `interpolate`: `state_next = integrate_ODE(...)`, pushed back and made the current state. -/
def plainStep (ode : State → Control → ℝ → State) (c : Control) (st : State) (h : ℝ) : State × State := (ode st c h, ode st c h)

/-- The step of `integrate_with_covariance`. -/
def covStep (e : EKF) (ode : State → Control → ℝ → State) (c : Control) (v : CovVars) (h : ℝ) : CovVars × StateCov :=
  (covBody e ode c h v, (covBody e ode c h v).next)

/-- Loop over the controls of `integrate`, dubins_state_space.cpp:321-349, reeds_shepp_state_space.cpp:610-638. -/
def integrateLoop (discretization : ℝ) : List Control → State → Option (List State)
  | [], _ => some []
  | c :: cs, st =>
    let st0 : State := { st with kappa := c.kappa, d := sgn c.delta_s }
    (segment (plainStep integrate_ODE c) discretization |c.delta_s| st0).bind fun r =>
      (integrateLoop discretization cs r.2).map fun rest => st0 :: r.1 ++ rest

/-- `integrate` of Dubins (`extra = 3`), dubins_state_space.cpp:304-351, and Reeds-Shepp (`extra = 5`),
reeds_shepp_state_space.cpp:593-640; result: the reserved capacity and the path. -/
def integrate (extra : ℤ) (discretization : ℝ) (junk : ℝ × ℝ) (state : State) (controls : List Control) :
    Option (ℤ × List State) :=
  (reserve discretization extra controls).bind fun capacity =>
    (integrateLoop discretization controls
      { x := state.x, y := state.y, theta := state.theta, kappa := junk.1, d := junk.2 }).map fun path => (capacity, path)

/-- Loop over the controls of `interpolate`, dubins_state_space.cpp:442-480, reeds_shepp_state_space.cpp:731-769. -/
def interpolateLoop (discretization s_inter : ℝ) : List Control → ℝ → State → Option State
  | [], _, st => some st
  | c :: cs, s, st =>
    let abs_delta_s := |c.delta_s|
    let st0 : State := { st with kappa := c.kappa, d := sgn c.delta_s }
    let s := s + abs_delta_s
    if s > s_inter then
      let abs_delta_s := abs_delta_s - (s - s_inter)
      (segment (plainStep integrate_ODE c) discretization abs_delta_s st0).map Prod.snd
    else
      (segment (plainStep integrate_ODE c) discretization abs_delta_s st0).bind fun r =>
        interpolateLoop discretization s_inter cs s r.2

/-- `interpolate` of Dubins (dubins_state_space.cpp:421-482) and Reeds-Shepp (reeds_shepp_state_space.cpp:710-771). -/
def interpolate (discretization : ℝ) (junk : ℝ × ℝ) (state : State) (controls : List Control) (t : ℝ) : Option State :=
  let state_curr : State := { x := state.x, y := state.y, theta := state.theta, kappa := junk.1, d := junk.2 }
  if t ≤ 0 then some state_curr
  else
    let s_inter := if t > 1 then s_path controls else t * s_path controls
    interpolateLoop discretization s_inter controls 0 state_curr

/-- Loop over the controls, dubins_state_space.cpp:376-417, reeds_shepp_state_space.cpp:665-706. -/
def covLoop (e : EKF) (discretization : ℝ) : List Control → CovVars → Option (List StateCov)
  | [], _ => some []
  | c :: cs, v =>
    let curr := { v.curr with state := { v.curr.state with kappa := c.kappa, d := sgn c.delta_s } }
    (segment (covStep e integrate_ODE c) discretization |c.delta_s| { v with curr := curr }).bind fun r =>
      (covLoop e discretization cs r.2).map fun rest => curr :: r.1 ++ rest

/-- `integrate_with_covariance` of Dubins (dubins_state_space.cpp:353-419) and Reeds-Shepp (reeds_shepp_state_space.cpp:642-708). -/
def integrate_with_covariance (extra : ℤ) (e : EKF) (discretization : ℝ) (junk : State) (state : StateCov) (controls : List Control) :
    Option (ℤ × List StateCov) :=
  (reserve discretization extra controls).bind fun capacity =>
    (covLoop e discretization controls
      { curr := { state := { junk with x := state.state.x, y := state.state.y, theta := state.state.theta }
                  Sigma := state.Sigma, Lambda := state.Lambda, covariance := state.covariance }
        pred := freshCov junk, next := freshCov junk }).map fun path => (capacity, path)

/-- Loop over the controls of `HC_CC_State_Space::integrate`, hc_cc_state_space.cpp:101-133. -/
def hcIntegrateLoop (discretization : ℝ) : List Control → State → Option (List State)
  | [], _ => some []
  | c :: cs, st =>
    let disc := |c.kappa - st.kappa| > epsilon
    let st0 : State := if disc then { st with kappa := c.kappa, d := sgn c.delta_s } else st
    let pushed := if disc then [st0] else []
    (segment (plainStep hc_integrate_ODE c) discretization |c.delta_s| st0).bind fun r =>
      (hcIntegrateLoop discretization cs r.2).map fun rest => pushed ++ r.1 ++ rest

/-- `HC_CC_State_Space::integrate`, hc_cc_state_space.cpp:81-135. -/
def hcIntegrate (discretization : ℝ) (state : State) (controls : List Control) : Option (ℤ × List State) :=
  (reserve discretization 3 controls).bind fun capacity =>
    (hcFirst state controls).bind fun st =>
      (hcIntegrateLoop discretization controls st).map fun path => (capacity, st :: path)

/-- Loop over the controls of `HC_CC_State_Space::interpolate`, hc_cc_state_space.cpp:235-277. -/
def hcInterpolateLoop (discretization s_inter : ℝ) : List Control → ℝ → State → Option State
  | [], _, st => some st
  | c :: cs, s, st =>
    let abs_delta_s := |c.delta_s|
    let st0 : State := if |c.kappa - st.kappa| > epsilon then { st with kappa := c.kappa, d := sgn c.delta_s } else st
    let s := s + abs_delta_s
    if s > s_inter then
      let abs_delta_s := abs_delta_s - (s - s_inter)
      (segment (plainStep hc_integrate_ODE c) discretization abs_delta_s st0).map Prod.snd
    else
      (segment (plainStep hc_integrate_ODE c) discretization abs_delta_s st0).bind fun r =>
        hcInterpolateLoop discretization s_inter cs s r.2

/-- `HC_CC_State_Space::interpolate`, hc_cc_state_space.cpp:212-279. -/
def hcInterpolate (discretization : ℝ) (state : State) (controls : List Control) (t : ℝ) : Option State :=
  (hcFirst state controls).bind fun state_curr =>
    if t ≤ 0 then some state_curr
    else
      let s_inter := if t > 1 then s_path controls else t * s_path controls
      hcInterpolateLoop discretization s_inter controls 0 state_curr

/-- Loop over the controls of `HC_CC_State_Space::integrate_with_covariance`, hc_cc_state_space.cpp:165-208. -/
def hcCovLoop (e : EKF) (discretization : ℝ) : List Control → CovVars → Option (List StateCov)
  | [], _ => some []
  | c :: cs, v =>
    let disc := |c.kappa - v.curr.state.kappa| > epsilon
    let curr := if disc then { v.curr with state := { v.curr.state with kappa := c.kappa, d := sgn c.delta_s } } else v.curr
    let pushed := if disc then [curr] else []
    (segment (covStep e hc_integrate_ODE c) discretization |c.delta_s| { v with curr := curr }).bind fun r =>
      (hcCovLoop e discretization cs r.2).map fun rest => pushed ++ r.1 ++ rest

/-- `HC_CC_State_Space::integrate_with_covariance`, hc_cc_state_space.cpp:137-210. -/
def hcIntegrateWithCovariance (e : EKF) (discretization : ℝ) (junk : State) (state : StateCov) (controls : List Control) :
    Option (ℤ × List StateCov) :=
  (reserve discretization 3 controls).bind fun capacity =>
    (hcFirst state.state controls).bind fun st =>
      let first : StateCov := { state := st, Sigma := state.Sigma, Lambda := state.Lambda, covariance := state.covariance }
      (hcCovLoop e discretization controls { curr := first, pred := freshCov junk, next := freshCov junk }).map
        fun path => (capacity, first :: path)

/-- `Dubins_State_Space::get_path`, dubins_state_space.cpp:291-295. -/
def dubinsPath (sp : DubinsSpace) (junk : ℝ × ℝ) (s1 s2 : State) : Option (ℤ × List State) :=
  integrate 3 sp.discretization junk s1 (sp.get_controls s1 s2)

/-- `Reeds_Shepp_State_Space::get_path`, reeds_shepp_state_space.cpp:580-584. -/
def rsPath (sp : RSSpace) (junk : ℝ × ℝ) (s1 s2 : State) : Option (ℤ × List State) :=
  integrate 5 sp.discretization junk s1 (sp.get_controls s1 s2)

end SF.Count
