import Verif.Spec.CcRsOptimal

/-!
# Specification: bringing the curvature to zero or to the maximum

The first and last part of the competitors of C120.  Nothing here depends on the planners.
-/

noncomputable section

namespace Spec

/-- `Entry k s d kappa full kappa' e`: the segments `e`, driven in direction `d`, change the curvature from `kappa` to `kappa'`, which
is zero or, if `full`, the maximum `k`; the sharpness is `s`.  Nothing is driven if the curvature has such a value already;
otherwise it differs from these values by at least 1e-4. -/
inductive Entry (k s d kappa : ℝ) : Bool → ℝ → List Segment → Prop
  | zero (h : kappa = 0) : Entry k s d kappa false 0 []
  | full (h : |kappa| = k) : Entry k s d kappa true kappa []
  | straighten {l : ℝ} (hl : Sign l) (h1 : 1 / 10000 ≤ l * kappa) (h2 : l * kappa ≤ k - 1 / 10000) :
      Entry k s d kappa false 0 [⟨d * (l * kappa / s), kappa, -(l * s)⟩]
  | tighten {l : ℝ} (hl : Sign l) (h1 : 1 / 10000 ≤ l * kappa) (h2 : l * kappa ≤ k - 1 / 10000) :
      Entry k s d kappa true (l * k) [⟨d * ((k - l * kappa) / s), kappa, l * s⟩]

end Spec
