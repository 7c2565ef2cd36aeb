import Mathlib.MeasureTheory.Integral.IntervalIntegral.FundThmCalculus
import Mathlib.Analysis.SpecialFunctions.Trigonometric.Deriv
import Verif.Spec.Angle

/-!
# Specification: motion of a kinematic car

Independent of the model of the code.  A car drives one segment of arc length
`L ≥ 0` in direction `d ∈ {-1, 1}` with start curvature `kappa` and sharpness
`sigma`.  With `s` the travelled arc length,

`x' = d cos θ`, `y' = d sin θ`, `θ' = d (kappa + sigma s)`.
-/

namespace Spec

open Real

/-- Position and heading of a car. -/
@[ext] structure Config where
  x : ℝ
  y : ℝ
  theta : ℝ

/-- Same position, and same heading up to full turns. -/
def SameConfig (p q : Config) : Prop := p.x = q.x ∧ p.y = q.y ∧ AngleEq p.theta q.theta

/-- `Drives d kappa sigma L p q`: there is a trajectory solving the equations of
motion that starts in `p` and is in `q` after arc length `L`. -/
def Drives (d kappa sigma L : ℝ) (p q : Config) : Prop :=
  ∃ X Y T : ℝ → ℝ,
    (∀ s, HasDerivAt X (d * cos (T s)) s) ∧
    (∀ s, HasDerivAt Y (d * sin (T s)) s) ∧
    (∀ s, HasDerivAt T (d * (kappa + sigma * s)) s) ∧
    X 0 = p.x ∧ Y 0 = p.y ∧ T 0 = p.theta ∧
    X L = q.x ∧ Y L = q.y ∧ T L = q.theta

/-- A segment of a path, seen by a user: signed length, start curvature, sharpness. -/
structure Segment where
  len : ℝ
  kappa : ℝ
  sigma : ℝ

/-- Driving direction of a segment. -/
noncomputable def Segment.dir (c : Segment) : ℝ := if c.len < 0 then -1 else 1

/-- Driving a list of segments one after the other. -/
inductive DrivesAll : List Segment → Config → Config → Prop
  | nil (p : Config) : DrivesAll [] p p
  | cons {c : Segment} {cs : List Segment} {p q r : Config} :
      Drives c.dir c.kappa c.sigma |c.len| p q → DrivesAll cs q r → DrivesAll (c :: cs) p r

/-- Total length of a list of segments. -/
def totalLength (cs : List Segment) : ℝ := (cs.map fun c => |c.len|).sum

end Spec
