import Verif.Model.Utilities

/-!
# Motions of the plane

Specification used to compare plans for congruent problems.
-/

noncomputable section

namespace Spec

open Real

/-- A motion of the plane: a reflection in the `x`-axis if `mirrored`, then a rotation by `angle`, then a translation. -/
structure Motion where
  mirrored : Bool
  angle : ℝ
  dx : ℝ
  dy : ℝ

namespace Motion

/-- `-1` for reflections, `1` otherwise. -/
def sign (T : Motion) : ℝ := if T.mirrored then -1 else 1

/-- Image of a state: the position is moved, the heading turns with it, the curvature changes sign under a reflection. -/
def move (T : Motion) (s : SF.State) : SF.State where
  x := T.dx + (cos T.angle * s.x - sin T.angle * (T.sign * s.y))
  y := T.dy + (sin T.angle * s.x + cos T.angle * (T.sign * s.y))
  theta := T.sign * s.theta + T.angle
  kappa := T.sign * s.kappa
  d := s.d

end Motion

/-- The reflection in the `x`-axis. -/
def mirror : Motion := ⟨true, 0, 0, 0⟩

/-- The angles agree up to 1e-4 and full turns. -/
def NearAngle (a b : ℝ) : Prop := ∃ n : ℤ, |a - b + n * (2 * π)| ≤ 1 / 10000

/-- Up to 1e-4 in the headings, one state lies straight ahead of the other. -/
def OnLine (s1 s2 : SF.State) : Prop :=
  NearAngle s1.theta s2.theta ∧
  (NearAngle (Complex.arg ⟨s2.x - s1.x, s2.y - s1.y⟩) s1.theta ∨ NearAngle (Complex.arg ⟨s1.x - s2.x, s1.y - s2.y⟩) s2.theta)

end Spec
