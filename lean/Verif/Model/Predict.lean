import Verif.Model.CcDubinsPm

/-!
# Model of the planners for arbitrary curvatures

* src/hc_cc_state_space/cc_dubins_state_space.cpp

These planners first drive a clothoid to zero or maximal curvature at both ends ("prediction") and call one
of four planners in between.  The functions `get_distance` and `get_controls` of
hc_reeds_shepp_state_space.cpp have the same text as those of cc_dubins_state_space.cpp, so both are modelled once, as
functions of the four planners and the predicted states.

`std::sort` is not stable: of several shortest paths it may return any, so `get_controls` is a relation
(`IsControls`).  A null pointer dereferenced in one of the planners makes the result `none`.  The assertion in
`subtract_control` is the predicate `PairAsserts`; builds of type `Release` (README.md:75) do not check it.
-/

noncomputable section

namespace SF

open Real

/-- A predicted state with the control that leads to it. -/
abbrev Predicted := State × Control

/-- The four planners called by the planners for arbitrary curvatures. -/
structure SubPlanners (α : Type) where
  p00 : State → State → Option α
  p0pm : State → State → Option α
  ppm0 : State → State → Option α
  ppmpm : State → State → Option α

open Classical in
/-- "call appropriate state space", cc_dubins_state_space.cpp:123-136 and 175-188. -/
def SubPlanners.call {α : Type} (f : SubPlanners α) (start_state end_state : State) : Option α :=
  if |start_state.kappa| < epsilon then
    if |end_state.kappa| < epsilon then f.p00 start_state end_state
    else f.p0pm start_state end_state
  else
    if |end_state.kappa| < epsilon then f.ppm0 start_state end_state
    else f.ppmpm start_state end_state

open Classical in
/-- One entry of `distances`, cc_dubins_state_space.cpp:113-143. -/
def pair_distance (f : SubPlanners ℝ) (start_ end_ : Predicted) : Option ℝ :=
  if state_equal start_.1 end_.1 then some |(subtract_control start_.2 end_.2).delta_s|
  else (f.call start_.1 end_.1).map fun distance =>
    let distance := if |start_.2.delta_s| > epsilon then distance + |start_.2.delta_s| else distance
    if |end_.2.delta_s| > epsilon then distance + |end_.2.delta_s| else distance

open Classical in
/-- One entry of `cc_dubins_controls_distance_pairs` (first component), cc_dubins_state_space.cpp:166-199. -/
def pair_controls (f : SubPlanners (List Control)) (start_ end_ : Predicted) : Option (List Control) :=
  if state_equal start_.1 end_.1 then some [subtract_control start_.2 end_.2]
  else (f.call start_.1 end_.1).map fun controls =>
    let controls := if |start_.2.delta_s| > epsilon then start_.2 :: controls else controls
    if |end_.2.delta_s| > epsilon then controls ++ [reverse_control end_.2] else controls

/-- "compute the path length", cc_dubins_state_space.cpp:201-204. -/
def controls_length (controls : List Control) : ℝ := controls.foldl (fun distance c => distance + |c.delta_s|) 0

/-- The pairs visited by the two nested loops, cc_dubins_state_space.cpp:105-112 and 157-164. -/
def pairs (start_ end_ : List Predicted) : List (Predicted × Predicted) :=
  start_.flatMap fun a => end_.map fun b => (a, b)

/-- `get_distance` from the predicted states on, cc_dubins_state_space.cpp:101-146. -/
def min_distance (f : SubPlanners ℝ) (start_ end_ : List Predicted) : Option ℝ :=
  ((pairs start_ end_).mapM fun p => pair_distance f p.1 p.2).bind List.min?

/-- `get_controls` from the predicted states on, cc_dubins_state_space.cpp:153-220: `controls` is the first component of
the first pair of a sorted vector. -/
def IsMinControls (f : SubPlanners (List Control)) (start_ end_ : List Predicted) (controls : List Control) : Prop :=
  ∃ l, (pairs start_ end_).mapM (fun p => pair_controls f p.1 p.2) = some l ∧ controls ∈ l ∧
    ∀ c ∈ l, controls_length controls ≤ controls_length c

/-- The assertion of `subtract_control` for one pair. -/
def PairAsserts (start_ end_ : Predicted) : Prop :=
  state_equal start_.1 end_.1 → subtract_control_assert start_.2 end_.2

/-- The state after driving `control`, cc_dubins_state_space.cpp:88-92.  The member `d` is not
assigned there; `junk` stands for its indeterminate value. -/
def predicted (junk : ℝ) (state : State) (control : Control) : Predicted :=
  let d := sgn control.delta_s
  let abs_delta_s := |control.delta_s|
  let e := end_of_clothoid state.x state.y state.theta state.kappa control.sigma d abs_delta_s
  (⟨e.x, e.y, e.theta, e.kappa, junk⟩, control)

/-! ### CC-Dubins -/

namespace CC

open Classical in
/-- `predict_state`, cc_dubins_state_space.cpp:39-95. -/
def predict_state (sp : HCSpace) (junk : ℝ) (state : State) (forwards : Bool) : List Predicted :=
  if |state.kappa| < epsilon ∨ sp.kappa - |state.kappa| < epsilon then [(state, ⟨0, state.kappa, 0⟩)]
  else
    let sgn_kappa := sgn state.kappa
    let controls : List Control :=
      if forwards then
        [⟨(sp.kappa - sgn_kappa * state.kappa) / sp.sigma, state.kappa, sgn_kappa * sp.sigma⟩,
         ⟨sgn_kappa * state.kappa / sp.sigma, state.kappa, -sgn_kappa * sp.sigma⟩]
      else
        [⟨-(sp.kappa - sgn_kappa * state.kappa) / sp.sigma, state.kappa, sgn_kappa * sp.sigma⟩,
         ⟨-sgn_kappa * state.kappa / sp.sigma, state.kappa, -sgn_kappa * sp.sigma⟩]
    controls.map (predicted junk state)

/-- The planners constructed in cc_dubins_state_space.cpp:32-35. -/
def distance_planners (sp : HCSpace) : SubPlanners ℝ :=
  ⟨fun a b => some (CC00.get_distance sp a b), CC0pm.get_distance sp, CCpm0.get_distance sp, CCpmpm.get_distance sp⟩

/-- The planners constructed in cc_dubins_state_space.cpp:32-35. -/
def controls_planners (sp : HCSpace) : SubPlanners (List Control) :=
  ⟨CC00.get_controls sp, CC0pm.get_controls sp, CCpm0.get_controls sp, CCpmpm.get_controls sp⟩

/-- The predicted start states, cc_dubins_state_space.cpp:99 and 151. -/
def start_states (sp : HCSpace) (junk : ℝ) (state1 : State) : List Predicted :=
  predict_state sp junk state1 sp.forwards

/-- The predicted end states, cc_dubins_state_space.cpp:100 and 152. -/
def end_states (sp : HCSpace) (junk : ℝ) (state2 : State) : List Predicted :=
  predict_state sp junk state2 (!sp.forwards)

/-- `get_distance`, cc_dubins_state_space.cpp:97-147. -/
def get_distance (sp : HCSpace) (junk : ℝ) (state1 state2 : State) : Option ℝ :=
  min_distance (distance_planners sp) (start_states sp junk state1) (end_states sp junk state2)

/-- `get_controls`, cc_dubins_state_space.cpp:149-221: `controls` is a possible result. -/
def IsControls (sp : HCSpace) (junk : ℝ) (state1 state2 : State) (controls : List Control) : Prop :=
  IsMinControls (controls_planners sp) (start_states sp junk state1) (end_states sp junk state2) controls

/-- All assertions of a call of `get_distance` or `get_controls` hold. -/
def Asserts (sp : HCSpace) (junk : ℝ) (state1 state2 : State) : Prop :=
  ∀ a ∈ start_states sp junk state1, ∀ b ∈ end_states sp junk state2, PairAsserts a b

end CC

end SF
