import Verif.Spec.CcRsOptimal
import Verif.Spec.PmOptimal

/-!
# Specification: the words of hybrid-curvature Reeds-Shepp paths with at most three parts

The competitors of C119.  Nothing here depends on the planners.  Between two parts the path either goes on in
the same driving direction, with curvature zero, or has a cusp; a turn next to a cusp has the maximum
curvature there.
-/

noncomputable section

namespace Spec

/-- The driving direction after a joint: it changes at a cusp. -/
def after (cusp : Bool) (d : ℝ) : ℝ := if cusp then -d else d

/-- The first turn; `curved` says whether it starts with the maximum curvature, `cusp` whether it ends at a cusp.
The arc of a turn that does not end at a cusp may be driven against the direction of the turn. -/
inductive HcFirst (k s d lr : ℝ) : Bool → Bool → List Segment → Prop
  | cc {w : List Segment} (h : RSTurn k s d lr w) : HcFirst k s d lr false false w
  | close (a : ℝ) : HcFirst k s d lr true false (closeTurn k s d lr a)
  | open (a : ℝ) (ha : 0 ≤ a) : HcFirst k s d lr false true (openTurn k s d lr a)
  | arc (a : ℝ) (ha : 0 ≤ a) : HcFirst k s d lr true true [⟨d * a, lr * k, 0⟩]

/-- The last turn; `curved` says whether it ends with the maximum curvature, `cusp` whether it starts at a cusp. -/
inductive HcLast (k s d lr : ℝ) : Bool → Bool → List Segment → Prop
  | cc {w : List Segment} (h : RSTurn k s d lr w) : HcLast k s d lr false false w
  | open (a : ℝ) : HcLast k s d lr true false (openTurn k s d lr a)
  | close (a : ℝ) (ha : 0 ≤ a) : HcLast k s d lr false true (closeTurn k s d lr a)
  | arc (a : ℝ) (ha : 0 ≤ a) : HcLast k s d lr true true [⟨d * a, lr * k, 0⟩]

/-- The middle turn; the flags say whether there is a cusp before and after it.  If `free`, the arc of a turn without
cusps may be driven against the direction of the turn. -/
inductive HcMiddle (free : Bool) (k s d lr : ℝ) : Bool → Bool → List Segment → Prop
  | cc {w : List Segment} (h : CCTurn k s d lr w) : HcMiddle free k s d lr false false w
  | back {w : List Segment} (hf : free = true) (h : RSTurn k s d lr w) : HcMiddle free k s d lr false false w
  | close (a : ℝ) (ha : 0 ≤ a) : HcMiddle free k s d lr true false (closeTurn k s d lr a)
  | open (a : ℝ) (ha : 0 ≤ a) : HcMiddle free k s d lr false true (openTurn k s d lr a)
  | arc (a : ℝ) (ha : 0 ≤ a) : HcMiddle free k s d lr true true [⟨d * a, lr * k, 0⟩]

/-- The words with at most three parts: `d1`, `l1` are direction and side of the first turn, `d2`, `l2` those of the
last turn.  A line between two cusps is not empty, and at least 1e-4 long if both turns are on the same side.  Only
paths with the maximum curvature at one of the ends have a free middle turn. -/
inductive HcWord (curved1 curved2 : Bool) (k s d1 l1 : ℝ) : ℝ → ℝ → List Segment → Prop
  | tst {l2 x : ℝ} {c1 c2 : Bool} {w1 w2 : List Segment} (h1 : HcFirst k s d1 l1 curved1 c1 w1) (hx : 0 ≤ x)
      (h2 : HcLast k s (after c2 (after c1 d1)) l2 curved2 c2 w2)
      (two : c1 = true → c2 = true → (l1 ≠ l2 ∧ 0 < x) ∨ 1 / 10000 ≤ x) :
      HcWord curved1 curved2 k s d1 l1 (after c2 (after c1 d1)) l2 (w1 ++ [⟨after c1 d1 * x, 0, 0⟩] ++ w2)
  | tt {c : Bool} {w1 w2 : List Segment} (h1 : HcFirst k s d1 l1 curved1 c w1)
      (h2 : HcLast k s (after c d1) (-l1) curved2 c w2) :
      HcWord curved1 curved2 k s d1 l1 (after c d1) (-l1) (w1 ++ w2)
  | ttt {c1 c2 : Bool} {w1 w2 w3 : List Segment} (h1 : HcFirst k s d1 l1 curved1 c1 w1)
      (h2 : HcMiddle (curved1 || curved2) k s (after c1 d1) (-l1) c1 c2 w2)
      (h3 : HcLast k s (after c2 (after c1 d1)) l1 curved2 c2 w3) :
      HcWord curved1 curved2 k s d1 l1 (after c2 (after c1 d1)) l1 (w1 ++ w2 ++ w3)

end Spec
