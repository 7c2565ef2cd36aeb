import Verif.Spec.Kinematics
import Mathlib.Algebra.Order.Floor.Semiring

/-!
# Specification: sampling a path

What a user expects from the list of states returned by `integrate` and from the
state returned by `interpolate`, phrased with the equations of motion only.
-/

namespace Spec

open Real

/-- A sample as reported to the user. -/
structure Sample where
  cfg : Config
  kappa : ℝ
  dir : ℝ

/-- `Sampled disc cs p l q`: the list `l` samples the path `cs` driven from `p` to
`q`.  Each segment contributes its start and then one sample per started multiple
of `disc`; sample number `k` lies on the trajectory at arc length
`min ((k+1) disc) |len|` from the start of the segment. -/
inductive Sampled (disc : ℝ) : List Segment → Config → List Sample → Config → Prop
  | nil (p : Config) : Sampled disc [] p [] p
  | cons {c : Segment} {cs : List Segment} {p q r : Config} {first : Sample}
      {rest tail : List Sample} :
      SameConfig first.cfg p → first.kappa = c.kappa → first.dir = c.dir →
      rest.length = ⌈|c.len| / disc⌉₊ →
      (∀ k s, rest[k]? = some s →
        ∃ m, Drives c.dir c.kappa c.sigma (min ((k + 1 : ℕ) * disc) |c.len|) p m ∧
          SameConfig s.cfg m ∧
          s.kappa = c.kappa + c.sigma * min ((k + 1 : ℕ) * disc) |c.len| ∧ s.dir = c.dir) →
      Drives c.dir c.kappa c.sigma |c.len| p q →
      Sampled disc cs q tail r →
      Sampled disc (c :: cs) p (first :: rest ++ tail) r

/-- `At cs p s a`: `a` is a sample of the path `cs` driven from `p`, at total arc
length `s`.  (At a junction of two segments curvature and direction may be those
of either side.) -/
inductive At : List Segment → Config → ℝ → Sample → Prop
  | here {c : Segment} {cs : List Segment} {p m : Config} {s : ℝ} {a : Sample} :
      0 ≤ s → s ≤ |c.len| → Drives c.dir c.kappa c.sigma s p m → SameConfig a.cfg m →
      a.kappa = c.kappa + c.sigma * s → a.dir = c.dir → At (c :: cs) p s a
  | later {c : Segment} {cs : List Segment} {p q : Config} {s : ℝ} {a : Sample} :
      Drives c.dir c.kappa c.sigma |c.len| p q → At cs q s a → At (c :: cs) p (|c.len| + s) a

end Spec
