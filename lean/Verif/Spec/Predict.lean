import Verif.Spec.Planner
import Verif.Model.Predict

/-!
# Specification of the planners for arbitrary curvatures
-/

noncomputable section

namespace Props

open SF Spec Real

open Classical in
/-- The curvature `kappa` of a state rounded to zero or to the maximal curvature `K`. -/
def rounded (K kappa : ℝ) : ℝ := if |kappa| < 1 / 10000 then 0 else if 0 ≤ kappa then K else -K

/-- One of the planners for zero curvature at one end is called for states with opposed circles, see
`CC0pm.Opposed`. -/
def CC.OpposedPair (sp : HCSpace) (a b : State) : Prop :=
  |a.kappa| < 1 / 10000 ∧ ¬ |b.kappa| < 1 / 10000 ∧ CC0pm.Opposed sp a b ∨
  ¬ |a.kappa| < 1 / 10000 ∧ |b.kappa| < 1 / 10000 ∧ CCpm0.Opposed sp a b

/-- Some pair of predicted states has opposed circles. -/
def CC.Opposed (sp : HCSpace) (junk : ℝ) (s1 s2 : State) : Prop :=
  ∃ a ∈ CC.start_states sp junk s1, ∃ b ∈ CC.end_states sp junk s2, CC.OpposedPair sp a.1 b.1

end Props
