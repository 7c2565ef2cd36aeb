import Verif.Spec.Kinematics
import Mathlib.Analysis.Calculus.Deriv.Basic

/-!
# Specification: any path of a car with a bounded curvature
-/

namespace Spec

open Real Set

/-- A car can drive from `p` to `q` on a path of length `L`, without changing the driving direction `d` and with curvature at
most `kappa`: its place follows its heading, and the heading changes by at most `kappa` times the length driven.  Nothing else is
asked of the path: it need not be made of finitely many pieces, and its curvature may jump or oscillate. -/
def Curve (d kappa L : ℝ) (p q : Config) : Prop :=
  ∃ X Y T : ℝ → ℝ,
    (∀ s ∈ Icc 0 L, HasDerivWithinAt X (d * cos (T s)) (Icc 0 L) s) ∧
    (∀ s ∈ Icc 0 L, HasDerivWithinAt Y (d * sin (T s)) (Icc 0 L) s) ∧
    (∀ s ∈ Icc 0 L, ∀ s' ∈ Icc 0 L, |T s - T s'| ≤ kappa * |s - s'|) ∧
    X 0 = p.x ∧ Y 0 = p.y ∧ T 0 = p.theta ∧
    X L = q.x ∧ Y L = q.y ∧ T L = q.theta

/-- The same with the heading at the end modulo full turns. -/
def CanDrive (d kappa L : ℝ) (p q : Config) : Prop := ∃ q', Curve d kappa L p q' ∧ SameConfig q' q

end Spec
