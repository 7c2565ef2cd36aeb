import Mathlib.Analysis.SpecialFunctions.Trigonometric.Basic

/-!
# Specification: angles modulo full turns
-/

namespace Spec

open Real

/-- Two angles describe the same heading: they differ by a whole number of turns. -/
def AngleEq (a b : ℝ) : Prop := ∃ n : ℤ, a = b + n * (2 * π)

end Spec
