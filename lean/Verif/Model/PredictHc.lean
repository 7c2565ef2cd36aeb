import Verif.Model.Predict
import Verif.Model.HcReedsShepp

/-!
# Model of HC-Reeds-Shepp for arbitrary curvatures

* src/hc_cc_state_space/hc_reeds_shepp_state_space.cpp

The functions `get_distance` and `get_controls` are those of `Verif.Model.Predict` with other planners and up to four predicted
states at each end.
-/

noncomputable section

namespace SF.HC

open Classical in
/-- `predict_state`, hc_reeds_shepp_state_space.cpp:39-90. -/
def predict_state (sp : HCSpace) (junk : ℝ) (state : State) : List Predicted :=
  if |state.kappa| < epsilon ∨ sp.kappa - |state.kappa| < epsilon then [(state, ⟨0, state.kappa, 0⟩)]
  else
    let sgn_kappa := sgn state.kappa
    let control1 : Control := ⟨(sp.kappa - sgn_kappa * state.kappa) / sp.sigma, state.kappa, sgn_kappa * sp.sigma⟩
    let control2 : Control := ⟨-control1.delta_s, state.kappa, control1.sigma⟩
    let control3 : Control := ⟨sgn_kappa * state.kappa / sp.sigma, state.kappa, -sgn_kappa * sp.sigma⟩
    let control4 : Control := ⟨-control3.delta_s, state.kappa, control3.sigma⟩
    [control1, control2, control3, control4].map (predicted junk state)

/-- The planners constructed in hc_reeds_shepp_state_space.cpp:32-35. -/
def distance_planners (sp : HCSpace) : SubPlanners ℝ :=
  ⟨HcRs.get_distance false false sp, HcRs.get_distance false true sp, HcRs.get_distance true false sp,
    HcRs.get_distance true true sp⟩

/-- The planners constructed in hc_reeds_shepp_state_space.cpp:32-35. -/
def controls_planners (sp : HCSpace) : SubPlanners (List Control) :=
  ⟨HcRs.get_controls false false sp, HcRs.get_controls false true sp, HcRs.get_controls true false sp,
    HcRs.get_controls true true sp⟩

/-- `get_distance`, hc_reeds_shepp_state_space.cpp:92-142. -/
def get_distance (sp : HCSpace) (junk : ℝ) (state1 state2 : State) : Option ℝ :=
  min_distance (distance_planners sp) (predict_state sp junk state1) (predict_state sp junk state2)

/-- `get_controls`, hc_reeds_shepp_state_space.cpp:144-216: `controls` is a possible result. -/
def IsControls (sp : HCSpace) (junk : ℝ) (state1 state2 : State) (controls : List Control) : Prop :=
  IsMinControls (controls_planners sp) (predict_state sp junk state1) (predict_state sp junk state2) controls

/-- All assertions of a call of `get_distance` or `get_controls` hold. -/
def Asserts (sp : HCSpace) (junk : ℝ) (state1 state2 : State) : Prop :=
  ∀ a ∈ predict_state sp junk state1, ∀ b ∈ predict_state sp junk state2, PairAsserts a b

end SF.HC
