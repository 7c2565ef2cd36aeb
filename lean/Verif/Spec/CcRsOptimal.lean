import Verif.Spec.CcOptimal

/-!
# Specification: the words of CC-Reeds-Shepp paths with at most three parts

As in `Spec.CcOptimal`, a competitor is a list of segments.  Every part of a word has a driving direction
of its own; where it changes there is a cusp.
-/

noncomputable section

namespace Spec

/-- The turns of CC-Reeds-Shepp paths: as in `CCTurn`, but the arc of a full turn may be driven
against the direction of the turn (`a < 0`). -/
inductive RSTurn (k s d lr : ℝ) : List Segment → Prop
  | full (a : ℝ) : RSTurn k s d lr (fullTurn k s d lr a)
  | elementary (s0 L a : ℝ) (hs0 : 0 < s0) (hL : 0 < L) (h1 : 1 / 10000 ≤ s0 * L ^ 2)
      (h2 : s0 * L ^ 2 < 4.5948) (h3 : s0 * L ^ 2 < k ^ 2 / s)
      (ends : ∀ p, SameConfig (libAll (elementaryTurn s0 L d lr) p) (libAll (fullTurn k s d lr a) p))
      (chord : ∀ p, 1 / 10000 < (libAll (elementaryTurn s0 L d lr) p).dist p) :
      RSTurn k s d lr (elementaryTurn s0 L d lr)

/-- A driving direction or a side. -/
def Sign (x : ℝ) : Prop := x = 1 ∨ x = -1

/-- The words with a turn at both ends and at most three parts, with any driving directions: two turns,
two turns and a line, three turns.  A line with a cusp at both ends has at least the length of
two full clothoids and 1e-4 more, a line with one cusp between turns on the same side at least 1e-4. -/
inductive RSWord (k s : ℝ) : List Segment → Prop
  | tst {d1 d d2 l1 l2 x : ℝ} {w1 w2 : List Segment} (hd1 : Sign d1) (hd : Sign d) (hd2 : Sign d2)
      (hl1 : Sign l1) (hl2 : Sign l2) (h1 : RSTurn k s d1 l1 w1) (hx : 0 ≤ x) (h2 : RSTurn k s d2 l2 w2)
      (two : d1 = d ∨ d2 = d ∨ 2 * (k / s) + 1 / 10000 ≤ x)
      (one : (d1 = d ∧ d2 = d) ∨ l1 ≠ l2 ∨ 1 / 10000 ≤ x) :
      RSWord k s (w1 ++ [⟨d * x, 0, 0⟩] ++ w2)
  | tt {d1 d2 l : ℝ} {w1 w2 : List Segment} (hd1 : Sign d1) (hd2 : Sign d2) (hl : Sign l)
      (h1 : RSTurn k s d1 l w1) (h2 : RSTurn k s d2 (-l) w2) : RSWord k s (w1 ++ w2)
  | ttt {d1 d2 d3 l : ℝ} {w1 w2 w3 : List Segment} (hd1 : Sign d1) (hd2 : Sign d2) (hd3 : Sign d3)
      (hl : Sign l) (h1 : RSTurn k s d1 l w1) (h2 : RSTurn k s d2 (-l) w2) (h3 : RSTurn k s d3 l w3) :
      RSWord k s (w1 ++ w2 ++ w3)

end Spec
