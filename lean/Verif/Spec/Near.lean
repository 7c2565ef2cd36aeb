import Verif.Spec.Sampling

/-!
# Specification: sampling a path up to a tolerance

Used for the HC/CC state spaces, whose clothoids are computed with approximate
Fresnel integrals.  Headings, curvatures and directions are exact; only positions
carry an error.
-/

noncomputable section

namespace Spec

open Real

/-- Distance of two positions. -/
def Config.dist (p q : Config) : ℝ := √((p.x - q.x) ^ 2 + (p.y - q.y) ^ 2)

/-- Positions at distance at most `eta`, same heading up to full turns. -/
def Near (eta : ℝ) (p q : Config) : Prop := p.dist q ≤ eta ∧ AngleEq p.theta q.theta

/-- Positions at distance at most `ep`, headings at most `et` apart up to full turns. -/
def Within (ep et : ℝ) (p q : Config) : Prop :=
  p.dist q ≤ ep ∧ ∃ a, AngleEq a q.theta ∧ |p.theta - a| ≤ et

/-- Position error that one segment may add: none for lines and arcs. -/
def segTol (c : Segment) : ℝ := if c.sigma = 0 then 0 else 5 / 10 ^ 16 / √|c.sigma|

/-- Position error that a list of segments may add. -/
def pathTol (cs : List Segment) : ℝ := (cs.map segTol).sum

/-- `SampledNear disc err k cs p l q`: the list `l` samples the path `cs` driven from `p`
to `q`, where `k` is the curvature just before and `err` the position error so far.  A segment
whose start curvature differs from the current one contributes a sample of its start.
Every segment contributes one sample per started multiple of `disc`; sample number `j`
belongs to arc length `min ((j+1) disc) |len|`. -/
inductive SampledNear (disc : ℝ) : ℝ → ℝ → List Segment → Config → List Sample → Config → Prop
  | nil (err k : ℝ) (p : Config) : SampledNear disc err k [] p [] p
  | cons {err k : ℝ} {c : Segment} {cs : List Segment} {p q r : Config}
      {jump rest tail : List Sample} :
      (jump = [] ∧ c.kappa = k ∨
        ∃ a, jump = [a] ∧ c.kappa ≠ k ∧ Near err a.cfg p ∧ a.kappa = c.kappa ∧ a.dir = c.dir) →
      rest.length = ⌈|c.len| / disc⌉₊ →
      (∀ j s, rest[j]? = some s →
        ∃ m, Drives c.dir c.kappa c.sigma (min ((j + 1 : ℕ) * disc) |c.len|) p m ∧
          Near (err + segTol c) s.cfg m ∧
          s.kappa = c.kappa + c.sigma * min ((j + 1 : ℕ) * disc) |c.len| ∧ s.dir = c.dir) →
      Drives c.dir c.kappa c.sigma |c.len| p q →
      SampledNear disc (err + segTol c) (c.kappa + c.sigma * |c.len|) cs q tail r →
      SampledNear disc err k (c :: cs) p (jump ++ rest ++ tail) r

/-- `AtNear err cs p s a`: `a` is, up to position error, a sample of the path `cs` driven from
`p`, at total arc length `s`.  At the very start of a segment the reported direction
may still be that of the previous segment. -/
inductive AtNear : ℝ → List Segment → Config → ℝ → Sample → Prop
  | here {err : ℝ} {c : Segment} {cs : List Segment} {p m : Config} {s : ℝ} {a : Sample} :
      0 ≤ s → s ≤ |c.len| → Drives c.dir c.kappa c.sigma s p m → Near (err + segTol c) a.cfg m →
      a.kappa = c.kappa + c.sigma * s → (0 < s → a.dir = c.dir) → AtNear err (c :: cs) p s a
  | later {err : ℝ} {c : Segment} {cs : List Segment} {p q : Config} {s : ℝ} {a : Sample} :
      Drives c.dir c.kappa c.sigma |c.len| p q → AtNear (err + segTol c) cs q s a →
      AtNear err (c :: cs) p (|c.len| + s) a

/-- Segments that the HC/CC integration can represent when it arrives with curvature `k`:
sharpness, curvature and curvature jumps are zero or above the resolution 1e-4. -/
def Representable : ℝ → List Segment → Prop
  | _, [] => True
  | k, c :: cs =>
    (|c.sigma| > 1 / 10000 ∨ c.sigma = 0 ∧ (c.kappa = 0 ∨ |c.kappa| > 1 / 10000)) ∧
    (c.kappa = k ∨ |c.kappa - k| > 1 / 10000) ∧
    Representable (c.kappa + c.sigma * |c.len|) cs

end Spec
