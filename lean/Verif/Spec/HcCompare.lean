import Verif.Spec.CcRsPlanner
import Verif.Spec.Entry

/-!
# Specification: the car with its wheels straightened
-/

noncomputable section

namespace Spec

/-- The state with curvature zero that is reached from `s0` by straightening the wheels with sharpness `s`, driving in direction `d`:
`s0` itself if its curvature is below 1e-4, and the end of the clothoid if the curvature differs by 1e-4 or more from zero and from the
maximum `k`. -/
inductive Straightened (k s d : ℝ) (s0 : SF.State) : SF.State → Prop
  | same (h : |s0.kappa| < 1 / 10000) : Straightened k s d s0 s0
  | drive {l : ℝ} {p : SF.State} (hl : Sign l) (h1 : 1 / 10000 ≤ l * s0.kappa) (h2 : l * s0.kappa ≤ k - 1 / 10000)
      (hp : libAll [⟨d * (l * s0.kappa / s), s0.kappa, -(l * s)⟩] (Props.pose s0) = Props.pose p) (h0 : p.kappa = 0) :
      Straightened k s d s0 p

end Spec
