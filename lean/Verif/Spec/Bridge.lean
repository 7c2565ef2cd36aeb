import Verif.Model.Utilities
import Verif.Spec.Sampling

/-!
# Reading the code's data types in the terms of the specification
-/

noncomputable section

namespace Props

open SF Spec Real

/-- A control as a segment of the specification. -/
def seg (c : Control) : Segment := ⟨c.delta_s, c.kappa, c.sigma⟩

/-- A state as a sample of the specification. -/
def smp (s : State) : Sample := ⟨⟨s.x, s.y, s.theta⟩, s.kappa, s.d⟩

/-- Position and heading of a state. -/
def pose (s : State) : Config := ⟨s.x, s.y, s.theta⟩

/-- Controls that Dubins/Reeds-Shepp integration can represent: no sharpness, and
curvature zero or above the resolution 1e-4 of `integrate_ODE`. -/
def Resolved (c : Control) : Prop := c.sigma = 0 ∧ (c.kappa = 0 ∨ |c.kappa| > 1 / 10000)

end Props
