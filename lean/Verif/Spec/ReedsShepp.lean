import Verif.Spec.Kinematics

/-!
# Specification: Reeds-Shepp words

Paths of a car that drives forwards and backwards, made of turns of minimum radius and
straight pieces, in the families of Reeds and Shepp: CSC, C|C|C, C|CC, CC|C, CCu|CuC,
C|CuCu|C, C|C(pi/2)SC, CSC(pi/2)|C and C|C(pi/2)SC(pi/2)|C.
-/

namespace Spec

open Real

/-- A piece of unsigned length `a` (in turning radii): `e` is 1 for a left turn, -1 for a right
turn, 0 for straight; `s` is the driving direction. -/
noncomputable def rsPiece (kappa e s a : ℝ) : Segment := ⟨s * a / kappa, e * kappa, 0⟩

/-- `a` is a sign. -/
def IsSign (a : ℝ) : Prop := a = 1 ∨ a = -1

/-- An angle of at most half a turn. -/
def IsHalfTurn (a : ℝ) : Prop := 0 ≤ a ∧ a ≤ π

/-- The Reeds-Shepp words.  Outer turns are at most half a turn; of C|C|C, C|CC and CC|C, one outer
turn is at most half a turn and the other of any length. -/
inductive ReedsSheppPath (kappa : ℝ) : List Segment → Prop
  | csc {e f s t u v : ℝ} : IsSign e → IsSign f → IsSign s → IsHalfTurn t → 0 ≤ u → IsHalfTurn v →
      ReedsSheppPath kappa [rsPiece kappa e s t, rsPiece kappa 0 s u, rsPiece kappa f s v]
  | ccc {e s s' t u v : ℝ} : IsSign e → IsSign s → IsSign s' → IsHalfTurn t → 0 ≤ u → u ≤ π → 0 ≤ v →
      ReedsSheppPath kappa [rsPiece kappa e s t, rsPiece kappa (-e) (-s) u, rsPiece kappa e s' v]
  | ccc_rev {e s s' t u v : ℝ} : IsSign e → IsSign s → IsSign s' → IsHalfTurn t → 0 ≤ u → u ≤ π → 0 ≤ v →
      ReedsSheppPath kappa [rsPiece kappa e s' v, rsPiece kappa (-e) (-s) u, rsPiece kappa e s t]
  | cccc_in {e s t u v : ℝ} : IsSign e → IsSign s → IsHalfTurn t → 0 ≤ u → u ≤ π / 3 → IsHalfTurn v →
      ReedsSheppPath kappa [rsPiece kappa e s t, rsPiece kappa (-e) s u, rsPiece kappa e (-s) u,
        rsPiece kappa (-e) (-s) v]
  | cccc_out {e s t u v : ℝ} : IsSign e → IsSign s → IsHalfTurn t → 0 ≤ u → u ≤ π / 2 → IsHalfTurn v →
      ReedsSheppPath kappa [rsPiece kappa e s t, rsPiece kappa (-e) (-s) u, rsPiece kappa e (-s) u,
        rsPiece kappa (-e) s v]
  | ccsc {e f s t u v : ℝ} : IsSign e → IsSign f → IsSign s → IsHalfTurn t → 0 ≤ u → IsHalfTurn v →
      ReedsSheppPath kappa [rsPiece kappa e s t, rsPiece kappa (-e) (-s) (π / 2),
        rsPiece kappa 0 (-s) u, rsPiece kappa f (-s) v]
  | ccsc_rev {e f s t u v : ℝ} : IsSign e → IsSign f → IsSign s → IsHalfTurn t → 0 ≤ u → IsHalfTurn v →
      ReedsSheppPath kappa [rsPiece kappa f (-s) v, rsPiece kappa 0 (-s) u,
        rsPiece kappa (-e) (-s) (π / 2), rsPiece kappa e s t]
  | ccscc {e s t u v : ℝ} : IsSign e → IsSign s → IsHalfTurn t → 0 ≤ u → IsHalfTurn v →
      ReedsSheppPath kappa [rsPiece kappa e s t, rsPiece kappa (-e) (-s) (π / 2),
        rsPiece kappa 0 (-s) u, rsPiece kappa e (-s) (π / 2), rsPiece kappa (-e) s v]

end Spec
