import Mathlib.MeasureTheory.Integral.IntervalIntegral.Basic
import Mathlib.Analysis.SpecialFunctions.Trigonometric.Basic

/-!
# Specification: the Fresnel integrals
-/

noncomputable section

namespace Spec

open Real

/-- `S(s) = ∫ sin(π/2 u²) du`. -/
def fresnelS (s : ℝ) : ℝ := ∫ u in (0:ℝ)..s, sin (π / 2 * u ^ 2)

/-- `C(s) = ∫ cos(π/2 u²) du`. -/
def fresnelC (s : ℝ) : ℝ := ∫ u in (0:ℝ)..s, cos (π / 2 * u ^ 2)

end Spec
