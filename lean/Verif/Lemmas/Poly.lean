import Mathlib.Analysis.SpecialFunctions.Trigonometric.Deriv
import Mathlib.Analysis.SpecialFunctions.Trigonometric.Inverse
import Mathlib.Analysis.Calculus.Deriv.Mul
import Mathlib.Tactic.Linarith
import Mathlib.Tactic.Ring

/-!
# Polynomials with integer coefficients as lists, and Chebyshev sums
-/

noncomputable section

namespace Poly

open Real

/-- Value of the polynomial with coefficients `l` (constant term first). -/
def ev : List ℤ → ℝ → ℝ
  | [], _ => 0
  | a :: l, w => a + w * ev l w

/-- Sum of two polynomials. -/
def padd : List ℤ → List ℤ → List ℤ
  | [], q => q
  | p, [] => p
  | a :: p, b :: q => (a + b) :: padd p q

/-- Integer multiple. -/
def psmul (c : ℤ) (p : List ℤ) : List ℤ := p.map (c * ·)

/-- Derivative. -/
def pder : List ℤ → List ℤ
  | [] => []
  | _ :: l => padd l (0 :: pder l)

/-- `(4 w - 2) p' - p`: the next Chebyshev polynomial in `2 w - 1`. -/
def pnext (p p' : List ℤ) : List ℤ :=
  padd (padd (psmul (-2) p') (0 :: psmul 4 p')) (psmul (-1) p)

/-- `∑ l_n P_n` where `P_0 = p`, `P_1 = p'` and `P_{n+2} = pnext P_n P_{n+1}`. -/
def psum : List ℤ → List ℤ → List ℤ → List ℤ
  | [], _, _ => []
  | a :: l, p, p' => padd (psmul a p) (psum l p' (pnext p p'))

/-- `∑ l_n t_n` where `t_0 = t`, `t_1 = t'` and `t_{n+2} = 2 arg t_{n+1} - t_n`. -/
def csum (arg : ℝ) : List ℝ → ℝ → ℝ → ℝ
  | [], _, _ => 0
  | a :: l, t, t' => a * t + csum arg l t' (2 * arg * t' - t)

/-- Sum of absolute values. -/
def l1 : List ℤ → ℕ
  | [] => 0
  | a :: l => a.natAbs + l1 l

theorem ev_padd (p q : List ℤ) (w : ℝ) : ev (padd p q) w = ev p w + ev q w := by
  induction p generalizing q with
  | nil => simp [padd, ev]
  | cons a p ih =>
    cases q with
    | nil => simp [padd, ev]
    | cons b q => simp only [padd, ev, ih]; push_cast; ring

theorem ev_psmul (c : ℤ) (p : List ℤ) (w : ℝ) : ev (psmul c p) w = c * ev p w := by
  induction p with
  | nil => simp [psmul, ev]
  | cons a p ih =>
    simp only [psmul, List.map_cons, ev] at ih ⊢
    rw [ih]; push_cast; ring

theorem ev_pnext (p p' : List ℤ) (w : ℝ) :
    ev (pnext p p') w = 2 * (2 * w - 1) * ev p' w - ev p w := by
  simp only [pnext, ev_padd, ev_psmul, ev]; push_cast; ring

theorem ev_psum (l p p' : List ℤ) (w : ℝ) :
    ev (psum l p p') w = csum (2 * w - 1) (l.map fun z : ℤ => (z : ℝ)) (ev p w) (ev p' w) := by
  induction l generalizing p p' with
  | nil => simp [psum, csum, ev]
  | cons a l ih => simp only [psum, List.map_cons, csum, ev_padd, ev_psmul, ih, ev_pnext]

theorem hasDerivAt_ev (l : List ℤ) (w : ℝ) : HasDerivAt (ev l) (ev (pder l) w) w := by
  induction l with
  | nil => simpa [ev, pder] using hasDerivAt_const w (0:ℝ)
  | cons a l ih =>
    have h := ((hasDerivAt_id' w).mul ih).const_add (a : ℝ)
    refine (h.congr_deriv ?_)
    simp only [pder, ev_padd, ev]; push_cast; ring

theorem csum_smul (arg c : ℝ) (l : List ℝ) (t t' : ℝ) :
    csum arg (l.map (c * ·)) t t' = c * csum arg l t t' := by
  induction l generalizing t t' with
  | nil => simp [csum]
  | cons a l ih => simp only [List.map_cons, csum, ih]; ring

theorem csum_append (arg : ℝ) (l : List ℝ) : ∀ t t' : ℝ, ∃ u u' : ℝ, ∀ m : List ℝ,
    csum arg (l ++ m) t t' = csum arg l t t' + csum arg m u u' := by
  induction l with
  | nil => intro t t'; exact ⟨t, t', fun m => by simp [csum]⟩
  | cons a l ih =>
    intro t t'
    obtain ⟨u, u', h⟩ := ih t' (2 * arg * t' - t)
    exact ⟨u, u', fun m => by simp only [List.cons_append, csum, h]; ring⟩

/-- Chebyshev sums are bounded by the sum of their coefficients. -/
theorem abs_csum_le (phi psi : ℝ) (l : List ℤ) :
    |csum (cos psi) (l.map fun z : ℤ => (z : ℝ)) (cos phi) (cos (phi + psi))| ≤ l1 l := by
  induction l generalizing phi with
  | nil => simp [csum, l1]
  | cons a l ih =>
    simp only [List.map_cons, csum, l1]
    have e : 2 * cos psi * cos (phi + psi) - cos phi = cos (phi + psi + psi) := by
      rw [cos_add (phi + psi) psi, cos_add phi psi, sin_add phi psi]
      have := sin_sq_add_cos_sq psi
      have h2 : sin psi ^ 2 = 1 - cos psi ^ 2 := by linarith
      have h3 : (sin phi * cos psi + cos phi * sin psi) * sin psi
          = sin phi * cos psi * sin psi + cos phi * (1 - cos psi ^ 2) := by rw [← h2]; ring
      rw [h3]; ring
    rw [e]
    have h1 := ih (phi + psi)
    have h2 : |(a:ℝ) * cos phi| ≤ (a.natAbs : ℝ) := by
      rw [abs_mul, Nat.cast_natAbs, Int.cast_abs]
      exact mul_le_of_le_one_right (abs_nonneg _) (abs_cos_le_one _)
    push_cast
    exact (abs_add_le _ _).trans (add_le_add h2 h1)

/-- A polynomial given by Chebyshev coefficients is bounded by their sum on `[0, 1]`. -/
theorem abs_ev_psum_le {w : ℝ} (h0 : 0 ≤ w) (h1 : w ≤ 1) (l : List ℤ) :
    |ev (psum l [1] [-1, 2]) w| ≤ l1 l := by
  rw [ev_psum]
  have hc : cos (arccos (2 * w - 1)) = 2 * w - 1 :=
    cos_arccos (by linarith) (by linarith)
  have := abs_csum_le 0 (arccos (2 * w - 1)) l
  rw [cos_zero, zero_add, hc] at this
  have e1 : ev [1] w = 1 := by simp [ev]
  have e2 : ev [-1, 2] w = 2 * w - 1 := by simp [ev]; ring
  rw [e1, e2]; exact this

/-- The odd Chebyshev polynomials `T_{2n+1}(z)`, `w = z ^ 2`. -/
theorem abs_ev_psum_odd_le {z : ℝ} (h0 : -1 ≤ z) (h1 : z ≤ 1) (l : List ℤ) :
    |z * ev (psum l [1] [-3, 4]) (z ^ 2)| ≤ l1 l := by
  rw [ev_psum]
  have hc : cos (arccos z) = z := cos_arccos h0 h1
  have := abs_csum_le (arccos z) (2 * arccos z) l
  rw [show arccos z + 2 * arccos z = 3 * arccos z by ring, cos_three_mul, cos_two_mul, hc] at this
  have e1 : ev [1] (z ^ 2) = 1 := by simp [ev]
  have e2 : ev [-3, 4] (z ^ 2) = 4 * z ^ 2 - 3 := by simp [ev]; ring
  rw [e1, e2]
  have lin : ∀ (l : List ℝ) (arg t t' c : ℝ), c * csum arg l t t' = csum arg l (c * t) (c * t') := by
    intro l arg
    induction l with
    | nil => intro t t' c; simp [csum]
    | cons a l ih =>
      intro t t' c
      simp only [csum]
      rw [mul_add, ih]
      rw [show c * (2 * arg * t' - t) = 2 * arg * (c * t') - c * t by ring]; ring
  rw [lin, mul_one, show z * (4 * z ^ 2 - 3) = 4 * z ^ 3 - 3 * z by ring]
  exact this

end Poly
