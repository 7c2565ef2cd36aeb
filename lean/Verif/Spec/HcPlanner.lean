import Verif.Spec.Planner
import Verif.Spec.Hybrid
import Verif.Model.HcReedsShepp

/-!
# Specification of the hybrid-curvature Reeds-Shepp planners

The four planners differ in the curvatures at the ends: zero (`pm = false`) or `±kappa` with the sign of the curvature of the state
(`pm = true`).
-/

noncomputable section

namespace Spec

/-- The CC turn of a move, if any: circle and far configuration. -/
def turns : SF.Move → List (SF.Circle × SF.Configuration)
  | .cc c q _ => [(c, q)]
  | _ => []

/-- The CC turns of a path. -/
def HcRs.ccTurns (p : SF.HcRs.RSPath) : List (SF.Circle × SF.Configuration) := p.row.moves.flatMap turns

end Spec

namespace Props

open SF

/-- `x` is a curvature that a path of the planners may have at the end in state `s`. -/
def EndCurvature (pm : Bool) (kappa : ℝ) (s : State) (x : ℝ) : Prop :=
  if pm then ∃ l, Toward l s.kappa ∧ x = sideCurvature kappa l else x = 0

/-- Only one end has curvature, and a circle at the start and one of the other sense at the goal have the same centre, up to
1e-4. -/
def HcRs.Opposed (pm1 pm2 : Bool) (sp : HCSpace) (s1 s2 : State) : Prop :=
  pm1 ≠ pm2 ∧ ∃ i j : ℕ, i < 4 ∧ j < 4 ∧ i % 2 ≠ j % 2 ∧ (pm1 = true → Toward (i % 2 = 0) s1.kappa) ∧
    (pm2 = true → Toward (j % 2 = 0) s2.kappa) ∧
    center_distance (SF.HcRs.end_circle pm1 sp s1 i) (SF.HcRs.end_circle pm2 sp s2 j) < 1 / 10000

end Props
