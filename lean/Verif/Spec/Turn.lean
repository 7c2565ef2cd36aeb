import Verif.Model.HcCcCircle
import Verif.Spec.Bridge
import Verif.Spec.Near

/-!
# Specification: turns on HC/CC circles
-/

noncomputable section

namespace Spec

/-- Curvature at most `K` in absolute value along the whole path. -/
def CurvatureAtMost (K : ℝ) (cs : List Segment) : Prop :=
  ∀ c ∈ cs, ∀ t, 0 ≤ t → t ≤ |c.len| → |c.kappa + c.sigma * t| ≤ K

/-- Sharpness at most `S` in absolute value along the whole path. -/
def SharpnessAtMost (S : ℝ) (cs : List Segment) : Prop := ∀ c ∈ cs, |c.sigma| ≤ S

/-- The curvature is continuous along the path, `k` at its start and `k'` at its end. -/
def CurvatureContinuous : ℝ → List Segment → ℝ → Prop
  | k, [], k' => k = k'
  | k, c :: cs, k' => c.kappa = k ∧ CurvatureContinuous (c.kappa + c.sigma * |c.len|) cs k'

end Spec

namespace Props

open SF Spec Real

/-- Position and heading of a configuration. -/
def cfg (q : Configuration) : Config := ⟨q.x, q.y, q.theta⟩

/-- Same centre. -/
def SameCenter (c c' : Circle) : Prop := c.xc = c'.xc ∧ c.yc = c'.yc

/-- `q` is the end of a turn on `c` that ends with zero curvature: the circle of `q` in the opposite
driving direction is `c`. -/
def EndsCC (P : CircleParam) (c : Circle) (q : Configuration) : Prop :=
  SameCenter (circleAt q c.left (!c.forward) c.regular P) c

/-- `q` is on the inner circle of `c`, the circle of curvature `kappa` with the same centre. -/
def OnInner (kappa : ℝ) (c : Circle) (q : Configuration) : Prop :=
  SameCenter (circleAt q c.left c.forward c.regular (rs_circle_param kappa)) c

end Props
