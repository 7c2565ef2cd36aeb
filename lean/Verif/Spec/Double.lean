import Mathlib.Algebra.Order.Archimedean.Real.Basic
import Mathlib.Data.Set.Finite.Lemmas
import Mathlib.Order.Interval.Finset.Basic
import Mathlib.Data.Int.Interval
import Mathlib.Tactic.Linarith
import Mathlib.Tactic.NormNum
import Mathlib.Tactic.Positivity
import Mathlib.Tactic.Ring
import Mathlib.Algebra.Order.Round
import Mathlib.Algebra.Order.Field.Power

/-!
# IEEE 754 double precision numbers

Specification of the number format `double` and of rounding to nearest, without reference to the library.  Ties may be broken
either way, so that what is proved for every `Rounds fl` holds in particular for ties to even.  Overflow to infinity is not described: numbers
beyond the largest double are rounded to it.
-/

namespace Spec

/-- A finite double: significand of 53 bits, exponent between -1074 and 971. -/
def IsDouble (x : ℝ) : Prop :=
  ∃ m e : ℤ, |m| < 2 ^ 53 ∧ -1074 ≤ e ∧ e ≤ 971 ∧ x = m * 2 ^ e

/-- `fl` rounds every real number to a nearest double. -/
structure Rounds (fl : ℝ → ℝ) : Prop where
  double : ∀ x, IsDouble (fl x)
  nearest : ∀ x y, IsDouble y → |fl x - x| ≤ |y - x|

theorem IsDouble.finite : {x : ℝ | IsDouble x}.Finite := by
  have h : ((Finset.Icc (-2 ^ 53 : ℤ) (2 ^ 53) ×ˢ Finset.Icc (-1074 : ℤ) 971 : Finset (ℤ × ℤ)) : Set (ℤ × ℤ)).Finite :=
    Finset.finite_toSet _
  refine (h.image fun p => (p.1 : ℝ) * 2 ^ p.2).subset ?_
  rintro x ⟨m, e, hm, h1, h2, rfl⟩
  refine ⟨(m, e), ?_, rfl⟩
  rw [abs_lt] at hm
  simp only [Finset.coe_product, Set.mem_prod, Finset.coe_Icc, Set.mem_Icc]
  exact ⟨⟨hm.1.le, hm.2.le⟩, h1, h2⟩

theorem IsDouble.zero : IsDouble 0 := ⟨0, 0, by norm_num, by norm_num, by norm_num, by norm_num⟩

/-- There is such a rounding. -/
theorem exists_rounds : ∃ fl, Rounds fl := by
  have : ∀ x : ℝ, ∃ z, IsDouble z ∧ ∀ y, IsDouble y → |z - x| ≤ |y - x| := by
    intro x
    obtain ⟨z, hz, h⟩ := Set.exists_min_image _ (fun y : ℝ => |y - x|) IsDouble.finite ⟨0, IsDouble.zero⟩
    exact ⟨z, hz, h⟩
  choose fl h1 h2 using this
  exact ⟨fl, h1, h2⟩

end Spec
