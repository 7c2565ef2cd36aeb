import Verif.Spec.Bridge

/-!
# Vocabulary of the Dubins properties: distances, tolerance zones, rigid motions of states
-/

noncomputable section

namespace Props

open SF Spec Real

/-- Euclidean distance of two states. -/
def dist2 (s1 s2 : State) : ℝ := √((s2.x - s1.x) ^ 2 + (s2.y - s1.y) ^ 2)

/-- The states coincide up to 1e-6 (relative to the minimum turning radius) and 1e-6 rad. -/
def NearlyEqual (kappa : ℝ) (s1 s2 : State) : Prop :=
  kappa * dist2 s1 s2 < 1 / 10 ^ 6 ∧ ∃ n : ℤ, |s1.theta - s2.theta + n * (2 * π)| < 1 / 10 ^ 6

/-- Squared distance, relative to the turning radius, between the centre of the circle on side
`e` (1 left, -1 right) of `s1` and the centre of the circle on the other side of `s2`. -/
def crossDist2 (kappa e : ℝ) (s1 s2 : State) : ℝ :=
  (kappa * (s2.x - s1.x) + e * sin s1.theta + e * sin s2.theta) ^ 2 +
  (kappa * (s2.y - s1.y) - e * cos s1.theta - e * cos s2.theta) ^ 2

/-- A left and a right turning circle of the two states touch or overlap by at most 1e-9
in squared centre distance. -/
def NearlyTangent (kappa : ℝ) (s1 s2 : State) : Prop :=
  ∃ e : ℝ, (e = 1 ∨ e = -1) ∧ 4 - 1 / 10 ^ 9 ≤ crossDist2 kappa e s1 s2 ∧
    crossDist2 kappa e s1 s2 < 4

/-- A rigid motion of the plane applied to a state. -/
def moved (phi a b : ℝ) (s : State) : State :=
  { x := a + s.x * cos phi - s.y * sin phi, y := b + s.x * sin phi + s.y * cos phi,
    theta := s.theta + phi, kappa := s.kappa, d := s.d }

/-- A state with full turns added to its heading. -/
def turned (n : ℤ) (s : State) : State := { s with theta := s.theta + n * (2 * π) }

end Props
