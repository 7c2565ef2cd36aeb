import Verif.Spec.Predict
import Verif.Spec.HcPlanner
import Verif.Model.PredictHc

/-!
# Specification of HC-Reeds-Shepp for arbitrary curvatures
-/

noncomputable section

namespace Props

open SF Spec Real

/-- One of the planners for zero curvature at one end is called for states with opposed circles, see
`HcRs.Opposed`. -/
def HC.OpposedPair (sp : HCSpace) (a b : State) : Prop :=
  |a.kappa| < 1 / 10000 ∧ ¬ |b.kappa| < 1 / 10000 ∧ HcRs.Opposed false true sp a b ∨
  ¬ |a.kappa| < 1 / 10000 ∧ |b.kappa| < 1 / 10000 ∧ HcRs.Opposed true false sp a b

/-- Some pair of predicted states has opposed circles. -/
def HC.Opposed (sp : HCSpace) (junk : ℝ) (s1 s2 : State) : Prop :=
  ∃ a ∈ HC.predict_state sp junk s1, ∃ b ∈ HC.predict_state sp junk s2, HC.OpposedPair sp a.1 b.1

/-- If the predicted states coincide, the assertion of `subtract_control` holds and the difference of the controls drives in the
direction of the first one. -/
def HC.Joinable (a b : Predicted) : Prop :=
  state_equal a.1 b.1 → subtract_control_assert a.2 b.2 ∧ 0 ≤ a.2.delta_s * (a.2.delta_s - b.2.delta_s)

/-- All coinciding predicted states can be joined. -/
def HC.AllJoinable (sp : HCSpace) (junk : ℝ) (s1 s2 : State) : Prop :=
  ∀ a ∈ HC.predict_state sp junk s1, ∀ b ∈ HC.predict_state sp junk s2, HC.Joinable a b

/-- A path of hybrid curvature, between curvatures `k0` and `k1`: a path whose curvature jumps only where the driving direction
changes, possibly preceded and followed by controls of continuous curvature. -/
def HybridPath (k0 : ℝ) (cs : List Segment) (k1 : ℝ) : Prop :=
  ∃ pre mid post m0 m1, cs = pre ++ mid ++ post ∧ CurvatureContinuous k0 pre m0 ∧ StartsWith m0 mid ∧ HybridCurvature mid ∧
    EndsWith m1 mid ∧ CurvatureContinuous m1 post k1

end Props
