import Verif.Model.Calls

/-!
# What the turn functions require of their arguments
-/

namespace Spec

open SF

/-- The arguments fit the turn: a CC-turn ends (or begins) with curvature 0, an HC-turn with the curvature of its circle, an RS-turn
with the curvature of its circle, which has no clothoids.  All this without tolerance. -/
def Suits : Move → Prop
  | .cc _ q _ => q.kappa = 0
  | .hc c q _ => |q.kappa| = |c.kappa|
  | .rs c q _ => |q.kappa| = |c.kappa| ∧ |c.sigma| = dblMax
  | .line _ _ => True

/-- All calls in the list have fitting arguments, and none trips its assertion. -/
def CallsOk (l : List Move) : Prop := ∀ mv ∈ l, Suits mv ∧ mv.assertion

end Spec
