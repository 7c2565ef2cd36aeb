import Verif.Spec.HcPlanner
import Verif.Model.CcReedsShepp

/-!
# Specification of the CC-Reeds-Shepp planner
-/

noncomputable section

namespace Spec

/-- The CC turns of a path. -/
def CcRs.ccTurns (p : SF.CcRs.Path) : List (SF.Circle × SF.Configuration) := p.row.moves.flatMap turns

/-- The angle modulo `2 π`, between 0 and `2 π`. -/
def wrapped (a : ℝ) : ℝ := a - 2 * Real.pi * ⌊a / (2 * Real.pi)⌋

/-- `s2` lies straight ahead of `s1`, up to 1e-4 in both headings. -/
def StraightAhead (s1 s2 : SF.State) : Prop :=
  |wrapped s2.theta - wrapped s1.theta| ≤ 1 / 10000 ∧
  |wrapped (Complex.arg ⟨s2.x - s1.x, s2.y - s1.y⟩) - wrapped s1.theta| ≤ 1 / 10000

/-- The goal can be reached straight in the direction in which the CC-Dubins space does not drive. -/
def StraightAgainst (sp : SF.HCSpace) (s1 s2 : SF.State) : Prop :=
  if sp.forwards then StraightAhead s2 s1 else StraightAhead s1 s2

end Spec

namespace Props

open SF

/-- A length below half the length of the straight motion that shares start and goal heading with a CC turn of zero
deflection, for curvature `kappa` and sharpness `sigma`. -/
def clothoidBound (kappa sigma : ℝ) : ℝ := min (kappa / sigma) (1 / √sigma / 2) / 10

/-- Factor of the resolution 1e-4 of the library in the error of paths of one or two turns: `1 + R` for a turn, 1 for `TT`,
`1 + (2 R + 1) / A` for a cusp between two turns (`TcT`). -/
def missBound (kappa sigma : ℝ) : ℝ :=
  1 + radiusBound kappa sigma + (2 * radiusBound kappa sigma + 1) / clothoidBound kappa sigma

/-- The cusp between two turns accepted as `TcT` is always a point. -/
def CuspClear (kappa sigma : ℝ) : Prop :=
  1 / 10000 * (1 + radiusBound kappa sigma) ≤ clothoidBound kappa sigma ^ 2

/-- Position tolerance of the planner for controls `cs`. -/
def ccPlanTol (sp : HCSpace) (cs : List Control) : ℝ :=
  1 / 10000 * (2 * missBound sp.kappa sp.sigma + 8 * radiusBound sp.kappa sp.sigma + 4 * lengthOf cs)

end Props
