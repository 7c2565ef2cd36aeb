import Verif.Spec.Kinematics

/-!
# Specification: hybrid curvature

The curvature of a hybrid-curvature path is continuous except at cusps, where the driving direction changes.
-/

noncomputable section

namespace Spec

/-- `b` may follow `a`: the curvature continues, or the driving direction changes. -/
def Joins (a b : Segment) : Prop := b.kappa = a.kappa + a.sigma * |a.len| ∨ a.len * b.len < 0

/-- The segments that are driven at all. -/
def driven (cs : List Segment) : List Segment := cs.filter (fun c => c.len ≠ 0)

/-- Between driven segments the curvature jumps only where the driving direction changes. -/
def HybridCurvature (cs : List Segment) : Prop := (driven cs).IsChain Joins

/-- The first segment starts with curvature `k`. -/
def StartsWith (k : ℝ) (cs : List Segment) : Prop := ∃ c, cs.head? = some c ∧ c.kappa = k

/-- The last segment ends with curvature `k`. -/
def EndsWith (k : ℝ) (cs : List Segment) : Prop := ∃ c, cs.getLast? = some c ∧ c.kappa + c.sigma * |c.len| = k

end Spec
