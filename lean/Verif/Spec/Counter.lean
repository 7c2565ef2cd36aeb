import Verif.Model.Utilities

/-!
# Specification: the number of integration steps
-/

noncomputable section

namespace Spec

/-- The number of steps of length at most `discretization` that cover all segments, one segment after the other. -/
def stepsTotal (discretization : ℝ) (cs : List SF.Control) : ℤ := (cs.map fun c => ⌈|c.delta_s| / discretization⌉).sum

end Spec
