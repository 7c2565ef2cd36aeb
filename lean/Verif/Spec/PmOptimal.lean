import Verif.Spec.CcOptimal

/-!
# Specification: the words of CC-Dubins paths with curvature at the ends

The competitors of C118.  Nothing here depends on the planners.
-/

noncomputable section

namespace Spec

/-- A turn that starts at curvature zero and stays at the maximum curvature `k`: clothoid, circular arc of
length `a`.  `d` is the driving direction, `lr` the side. -/
def openTurn (k s d lr a : ℝ) : List Segment := [⟨d * (k / s), 0, lr * s⟩, ⟨d * a, lr * k, 0⟩]

/-- A turn that starts at the maximum curvature `k` and ends at curvature zero: circular arc of length `a`,
clothoid. -/
def closeTurn (k s d lr a : ℝ) : List Segment := [⟨d * a, lr * k, 0⟩, ⟨d * (k / s), lr * k, -(lr * s)⟩]

/-- The first turn of a path that starts with the maximum curvature (`curved = true`) or with curvature zero. -/
inductive StartTurn (k s d lr : ℝ) : Bool → List Segment → Prop
  | zero {w : List Segment} (h : CCTurn k s d lr w) : StartTurn k s d lr false w
  | curved (a : ℝ) (ha : 0 ≤ a) : StartTurn k s d lr true (closeTurn k s d lr a)

/-- The last turn of a path that ends with the maximum curvature (`curved = true`) or with curvature zero. -/
inductive EndTurn (k s d lr : ℝ) : Bool → List Segment → Prop
  | zero {w : List Segment} (h : CCTurn k s d lr w) : EndTurn k s d lr false w
  | curved (a : ℝ) (ha : 0 ≤ a) : EndTurn k s d lr true (openTurn k s d lr a)

/-- The words turn-line-turn, turn-turn and turn-turn-turn; `l1` and `l2` are the sides of the first and of the
last turn, `curved1` and `curved2` say which ends have the maximum curvature. -/
inductive PmWord (curved1 curved2 : Bool) (k s d : ℝ) : ℝ → ℝ → List Segment → Prop
  | tst {l1 l2 x : ℝ} {w1 w2 : List Segment} (h1 : StartTurn k s d l1 curved1 w1) (hx : 0 ≤ x)
      (h2 : EndTurn k s d l2 curved2 w2) : PmWord curved1 curved2 k s d l1 l2 (w1 ++ [⟨d * x, 0, 0⟩] ++ w2)
  | tt {l : ℝ} {w1 w2 : List Segment} (h1 : StartTurn k s d l curved1 w1) (h2 : EndTurn k s d (-l) curved2 w2) :
      PmWord curved1 curved2 k s d l (-l) (w1 ++ w2)
  | ttt {l : ℝ} {w1 w2 w3 : List Segment} (h1 : StartTurn k s d l curved1 w1) (h2 : CCTurn k s d (-l) w2)
      (h3 : EndTurn k s d l curved2 w3) : PmWord curved1 curved2 k s d l l (w1 ++ w2 ++ w3)

end Spec
