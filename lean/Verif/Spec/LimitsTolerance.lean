import Verif.Spec.CcRsPlanner

/-!
# Specification: limits up to the resolution of the library
-/

noncomputable section

namespace Props

/-- The error accepted by the planners for paths of one or two turns, relative to the size of the clothoids. -/
def toleranceRatio (kappa sigma : ℝ) : ℝ := 1 / 10000 * (1 + radiusBound kappa sigma) / clothoidBound kappa sigma

/-- The same for planners whose paths have cusps between CC turns (`missBound`). -/
def cuspRatio (kappa sigma : ℝ) : ℝ := 1 / 10000 * missBound kappa sigma / clothoidBound kappa sigma

/-- Clothoids turn by one radian at most and are not too short compared to the resolution. -/
structure CoarseEnough (kappa sigma r : ℝ) : Prop where
  turn : kappa ^ 2 ≤ 2 * sigma
  small : r ≤ 1 / 2

end Props
