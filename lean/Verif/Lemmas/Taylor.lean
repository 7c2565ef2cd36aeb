import Mathlib.Analysis.Complex.Trigonometric
import Mathlib.Analysis.Complex.Exponential
import Mathlib.Algebra.BigOperators.Intervals

/-!
# Taylor polynomials of `sin` and `cos` with remainder
-/

noncomputable section

namespace Poly

open Real Finset

/-- Taylor polynomial of `cos` with `K` terms. -/
def cosT (K : ℕ) (z : ℝ) : ℝ := ∑ k ∈ range K, (-1) ^ k * z ^ (2 * k) / (2 * k).factorial

/-- Taylor polynomial of `sin` with `K` terms. -/
def sinT (K : ℕ) (z : ℝ) : ℝ :=
  ∑ k ∈ range K, (-1) ^ k * z ^ (2 * k + 1) / (2 * k + 1).factorial

theorem exp_partial (z : ℝ) (K : ℕ) :
    ∑ m ∈ range (2 * K), ((z : ℂ) * Complex.I) ^ m / (m.factorial : ℂ)
      = ((cosT K z : ℝ) : ℂ) + ((sinT K z : ℝ) : ℂ) * Complex.I := by
  induction K with
  | zero => simp [cosT, sinT]
  | succ K ih =>
    rw [show 2 * (K + 1) = 2 * K + 1 + 1 by ring, sum_range_succ, sum_range_succ, ih]
    unfold cosT sinT
    rw [sum_range_succ, sum_range_succ]
    have h1 : Complex.I ^ (2 * K) = (-1) ^ K := by rw [pow_mul, Complex.I_sq]
    have h2 : Complex.I ^ (2 * K + 1) = (-1) ^ K * Complex.I := by rw [pow_succ, h1]
    rw [mul_pow, mul_pow, h1, h2]
    push_cast
    ring

theorem taylor_bound {z : ℝ} {K : ℕ} (hz : |z| / (2 * K + 1) ≤ 1 / 2) :
    |cos z - cosT K z| ≤ |z| ^ (2 * K) / (2 * K).factorial * 2 ∧
    |sin z - sinT K z| ≤ |z| ^ (2 * K) / (2 * K).factorial * 2 := by
  have hn : ‖(z : ℂ) * Complex.I‖ = |z| := by simp
  have h := Complex.exp_bound' (x := (z : ℂ) * Complex.I) (n := 2 * K)
    (by rw [hn]; push_cast; exact hz)
  rw [exp_partial, hn] at h
  have e : Complex.exp ((z : ℂ) * Complex.I) - (((cosT K z : ℝ) : ℂ)
      + ((sinT K z : ℝ) : ℂ) * Complex.I)
      = ((cos z - cosT K z : ℝ) : ℂ) + ((sin z - sinT K z : ℝ) : ℂ) * Complex.I := by
    rw [Complex.exp_mul_I, ← Complex.ofReal_cos, ← Complex.ofReal_sin]; push_cast; ring
  rw [e] at h
  have gen : ∀ u v : ℝ, |u| ≤ ‖(u : ℂ) + (v : ℂ) * Complex.I‖ ∧
      |v| ≤ ‖(u : ℂ) + (v : ℂ) * Complex.I‖ := by
    intro u v
    have h1 := Complex.abs_re_le_norm ((u : ℂ) + (v : ℂ) * Complex.I)
    have h2 := Complex.abs_im_le_norm ((u : ℂ) + (v : ℂ) * Complex.I)
    simp at h1 h2
    exact ⟨h1, h2⟩
  exact ⟨(gen _ _).1.trans h, (gen _ _).2.trans h⟩

/-- For arguments up to 8, 26 terms give 20 digits. -/
theorem taylor_8 {z : ℝ} (hz : |z| ≤ 8) :
    |cos z - cosT 26 z| ≤ 1 / 10 ^ 20 ∧ |sin z - sinT 26 z| ≤ 1 / 10 ^ 20 := by
  have hK : |z| / (2 * (26 : ℕ) + 1) ≤ 1 / 2 := by
    rw [div_le_iff₀ (by norm_num)]; norm_num; linarith
  have h := taylor_bound (z := z) (K := 26) hK
  have hb : |z| ^ (2 * 26) / (2 * 26).factorial * 2 ≤ 1 / 10 ^ 20 := by
    have h1 : |z| ^ (2 * 26) ≤ 8 ^ (2 * 26) := pow_le_pow_left₀ (abs_nonneg _) hz _
    have h2 : (0:ℝ) < ((2 * 26).factorial : ℝ) := by positivity
    rw [div_mul_eq_mul_div, div_le_div_iff₀ h2 (by positivity)]
    have h3 : (8:ℝ) ^ (2 * 26) * 2 * 10 ^ 20 ≤ 1 * ((2 * 26).factorial : ℝ) := by
      norm_num [Nat.factorial]
    nlinarith
  exact ⟨h.1.trans hb, h.2.trans hb⟩

end Poly
