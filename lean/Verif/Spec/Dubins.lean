import Verif.Spec.Kinematics

/-!
# Specification: Dubins words

Forward paths of a car of curvature at most `kappa` made of three pieces of one of
the six Dubins words.
-/

namespace Spec

open Real

/-- Forward path of one of the words LSL, RSR, RSL, LSR (`csc`), or of RLR, LRL with
middle arc longer than half a turn (`ccc`). -/
inductive DubinsPath (kappa : ℝ) : List Segment → Prop
  | csc {e1 e3 a b c : ℝ} : (e1 = 1 ∨ e1 = -1) → (e3 = 1 ∨ e3 = -1) → 0 ≤ a → 0 ≤ b → 0 ≤ c →
      DubinsPath kappa [⟨a, e1 * kappa, 0⟩, ⟨b, 0, 0⟩, ⟨c, e3 * kappa, 0⟩]
  | ccc {e a b c : ℝ} : (e = 1 ∨ e = -1) → 0 ≤ a → π < kappa * b → kappa * b ≤ 2 * π → 0 ≤ c →
      DubinsPath kappa [⟨a, e * kappa, 0⟩, ⟨b, -e * kappa, 0⟩, ⟨c, e * kappa, 0⟩]

/-- `p` leads to `q` along the segments `cs` (heading modulo full turns). -/
def Reaches (cs : List Segment) (p q : Config) : Prop :=
  ∃ r, DrivesAll cs p r ∧ SameConfig r q

/-- `p` leads to within distance `eps` and heading error `eta` of `q`. -/
def ReachesWithin (eps eta : ℝ) (cs : List Segment) (p q : Config) : Prop :=
  ∃ r, DrivesAll cs p r ∧ √((r.x - q.x) ^ 2 + (r.y - q.y) ^ 2) ≤ eps ∧
    ∃ h, AngleEq h q.theta ∧ |r.theta - h| ≤ eta

end Spec
