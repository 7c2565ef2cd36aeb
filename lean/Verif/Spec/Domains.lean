import Verif.Model.Domains
import Verif.Spec.Planner

/-!
# Specification: operations inside their domain
-/

noncomputable section

namespace Spec

/-- The operation is defined: the divisor is not zero, the radicand not negative, the argument of `asin` and `acos` in `[-1, 1]`. -/
def Defined : SF.Op → Prop
  | .div d => d ≠ 0
  | .sqrt x => 0 ≤ x
  | .asin x => -1 ≤ x ∧ x ≤ 1
  | .acos x => -1 ≤ x ∧ x ≤ 1

/-- All operations are defined. -/
def NoDomainError (l : List SF.Op) : Prop := ∀ o ∈ l, Defined o

end Spec
