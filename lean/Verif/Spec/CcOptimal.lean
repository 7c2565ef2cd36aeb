import Verif.Lemmas.Frame

/-!
# Specification: the words of CC-Dubins paths

A competitor of a planned path is a list of segments, driven with the closed formulas of the library
(`libAll`).  Nothing here depends on the planner.
-/

noncomputable section

namespace Spec

/-- A full CC turn: clothoid up to the maximum curvature `k`, circular arc of length `a`, clothoid
back to curvature zero.  `d` is the driving direction, `lr` the side. -/
def fullTurn (k s d lr a : ℝ) : List Segment :=
  [⟨d * (k / s), 0, lr * s⟩, ⟨d * a, lr * k, 0⟩, ⟨d * (k / s), lr * k, -(lr * s)⟩]

/-- An elementary turn: two clothoids of length `L` and sharpness `s0`. -/
def elementaryTurn (s0 L d lr : ℝ) : List Segment :=
  [⟨d * L, 0, lr * s0⟩, ⟨d * L, lr * s0 * L, -(lr * s0)⟩]

/-- The turns of CC-Dubins paths.  The elementary turn has to have the ends of a full turn (whose
arc may be driven backwards), a heading change of at least `1e-4`, less than `4.5948` and less than
that of the two full clothoids, and a chord of more than `1e-4`. -/
inductive CCTurn (k s d lr : ℝ) : List Segment → Prop
  | full (a : ℝ) (ha : 0 ≤ a) : CCTurn k s d lr (fullTurn k s d lr a)
  | elementary (s0 L a : ℝ) (hs0 : 0 < s0) (hL : 0 < L) (h1 : 1 / 10000 ≤ s0 * L ^ 2)
      (h2 : s0 * L ^ 2 < 4.5948) (h3 : s0 * L ^ 2 < k ^ 2 / s)
      (ends : ∀ p, SameConfig (libAll (elementaryTurn s0 L d lr) p) (libAll (fullTurn k s d lr a) p))
      (chord : ∀ p, 1 / 10000 < (libAll (elementaryTurn s0 L d lr) p).dist p) :
      CCTurn k s d lr (elementaryTurn s0 L d lr)

/-- The words of CC-Dubins paths with a turn at both ends, driven in direction `d`; a word of two
turns is one with a line of length zero. -/
inductive CCWord (k s d : ℝ) : List Segment → Prop
  | tst {l1 l2 x : ℝ} {w1 w2 : List Segment} (hl1 : l1 = 1 ∨ l1 = -1) (hl2 : l2 = 1 ∨ l2 = -1)
      (h1 : CCTurn k s d l1 w1) (hx : 0 ≤ x) (h2 : CCTurn k s d l2 w2) :
      CCWord k s d (w1 ++ [⟨d * x, 0, 0⟩] ++ w2)
  | tt {l : ℝ} {w1 w2 : List Segment} (hl : l = 1 ∨ l = -1)
      (h1 : CCTurn k s d l w1) (h2 : CCTurn k s d (-l) w2) : CCWord k s d (w1 ++ w2)
  | ttt {l : ℝ} {w1 w2 w3 : List Segment} (hl : l = 1 ∨ l = -1)
      (h1 : CCTurn k s d l w1) (h2 : CCTurn k s d (-l) w2) (h3 : CCTurn k s d l w3) :
      CCWord k s d (w1 ++ w2 ++ w3)

end Spec
