import Verif.Model.Ekf
import Verif.Spec.Covariance

/-!
# Lemmas about the filter's matrices
-/

noncomputable section

namespace Props

open SF Spec Real Matrix

theorem to_eigen_eq_block (a : Arr16) : covariance_to_eigen a = block a := by
  ext i j; simp [covariance_to_eigen, block, mat4]

theorem block_from_eigen (M : Matrix (Fin 3) (Fin 3) ℝ) (a : Arr16) :
    block (eigen_to_covariance M a) = M := by
  ext i j
  have h1 : (4 * i.1 + j.1) / 4 = i.1 := by omega
  have h2 : j.1 % 4 = j.1 := by omega
  simp [block, mat4, eigen_to_covariance, h1, h2]

/-- Cells of the array that belong to the curvature. -/
def KappaCell (k : Fin 16) : Prop := ¬ (k.1 / 4 < 3 ∧ k.1 % 4 < 3)

/-- All curvature entries are zero. -/
def NoKappa (a : Arr16) : Prop := ∀ k, KappaCell k → a k = 0

theorem from_eigen_kappa (M : Matrix (Fin 3) (Fin 3) ℝ) (a : Arr16) (k : Fin 16)
    (hk : KappaCell k) : eigen_to_covariance M a k = a k := by
  unfold KappaCell at hk
  simp only [eigen_to_covariance, dif_neg hk]

theorem from_eigen_noKappa (M : Matrix (Fin 3) (Fin 3) ℝ) {a : Arr16} (h : NoKappa a) :
    NoKappa (eigen_to_covariance M a) := by
  intro k hk; rw [from_eigen_kappa M a k hk]; exact h k hk

/-- With zero curvature entries, the 4×4 matrix is positive semidefinite as soon as its
3×3 block is. -/
theorem mat4_psd {a : Arr16} (h : NoKappa a) (hb : (block a).PosSemidef) :
    (mat4 a).PosSemidef := by
  have hz1 : ∀ i : Fin 4, mat4 a i 3 = 0 := by
    intro i; refine h _ ?_; simp only [KappaCell]; simp
  have hz2 : ∀ i : Fin 4, mat4 a 3 i = 0 := by
    intro i; refine h _ ?_; simp only [KappaCell]; omega
  rw [posSemidef_iff_dotProduct_mulVec] at hb ⊢
  obtain ⟨h1, h2⟩ := hb
  have hs : ∀ i j : Fin 3, mat4 a i.castSucc j.castSucc = mat4 a j.castSucc i.castSucc := by
    intro i j
    have := congrFun (congrFun h1 j) i
    simpa [block, conjTranspose_apply] using this
  constructor
  · ext i j
    rw [conjTranspose_apply, star_trivial]
    refine Fin.lastCases ?_ (fun j => ?_) j
    · rw [show Fin.last 3 = (3 : Fin 4) from rfl, hz1, hz2]
    · refine Fin.lastCases ?_ (fun i => ?_) i
      · rw [show Fin.last 3 = (3 : Fin 4) from rfl, hz1, hz2]
      · exact hs _ _
  · intro x
    have := h2 (fun i => x i.castSucc)
    have e : star x ⬝ᵥ (mat4 a *ᵥ x)
        = star (fun i : Fin 3 => x i.castSucc) ⬝ᵥ (block a *ᵥ fun i => x i.castSucc) := by
      simp only [dotProduct, mulVec, Fin.sum_univ_castSucc (n := 3), star_trivial, Pi.star_apply,
        show Fin.last 3 = (3 : Fin 4) from rfl, hz1, hz2, zero_mul, add_zero, mul_zero,
        Finset.sum_const_zero, block, submatrix_apply]
    rw [e]; exact this

theorem block_psd {a : Arr16} (h : (mat4 a).PosSemidef) : (block a).PosSemidef := h.submatrix _

/-! ### The Kalman update -/

section Kalman

variable {n : Type*} [Fintype n] [DecidableEq n]

theorem kalman_det {S R : Matrix n n ℝ} (hS : S.PosSemidef) (hR : R.PosDef) :
    (S + R).det ≠ 0 := by
  have h := (hR.posSemidef_add hS).isUnit
  exact (isUnit_iff_ne_zero).1 ((isUnit_iff_isUnit_det _).1 h)

theorem kalman_gain_mul {S R : Matrix n n ℝ} (hd : (S + R).det ≠ 0) :
    S * (S + R)⁻¹ * (S + R) = S := by
  rw [Matrix.mul_assoc, nonsing_inv_mul _ (isUnit_iff_ne_zero.2 hd), Matrix.mul_one]

/-- Joseph's form equals the short form. -/
theorem kalman_joseph {S R : Matrix n n ℝ} (hS : Sᵀ = S) (hR : Rᵀ = R)
    (hd : (S + R).det ≠ 0) :
    (1 - S * (S + R)⁻¹) * S * (1 - S * (S + R)⁻¹)ᵀ
      + S * (S + R)⁻¹ * R * (S * (S + R)⁻¹)ᵀ = S - S * (S + R)⁻¹ * S := by
  have h2 : (S * (S + R)⁻¹)ᵀ = (S + R)⁻¹ * S := by
    rw [transpose_mul, transpose_nonsing_inv, transpose_add, hS, hR]
  have h3 := kalman_gain_mul (S := S) (R := R) hd
  rw [transpose_sub, transpose_one, h2]
  generalize (S + R)⁻¹ = W at *
  have h4 : S * W * S + S * W * R = S := by rw [← Matrix.mul_add]; exact h3
  have h5 : S * W * R = S - S * W * S := by rw [← h4]; abel_nf; rw [h4]; abel
  calc _ = S - S * (W * S) - S * W * S + S * W * S * (W * S) + S * W * R * (W * S) := by
        simp only [Matrix.sub_mul, Matrix.mul_sub, Matrix.one_mul, Matrix.mul_one]; abel
    _ = S - S * (W * S) - S * W * S + (S * W * S + S * W * R) * (W * S) := by
        rw [Matrix.add_mul]; abel
    _ = S - S * W * S := by rw [h4]; abel

theorem kalman_psd {S R : Matrix n n ℝ} (hS : S.PosSemidef) (hR : R.PosDef) :
    (S * (S + R)⁻¹ * S).PosSemidef := by
  have h := (hR.posSemidef_add hS).inv.posSemidef.mul_mul_conjTranspose_same S
  rwa [hS.isHermitian.eq] at h

/-- Symmetry between prior and measurement: the corrected covariance is also
`R - R (S + R)⁻¹ R`. -/
theorem kalman_swap {S R : Matrix n n ℝ} (hd : (S + R).det ≠ 0) :
    S - S * (S + R)⁻¹ * S = R - R * (S + R)⁻¹ * R := by
  have h1 : (S + R) * (S + R)⁻¹ = 1 := mul_nonsing_inv _ (isUnit_iff_ne_zero.2 hd)
  have h2 : (S + R)⁻¹ * (S + R) = 1 := nonsing_inv_mul _ (isUnit_iff_ne_zero.2 hd)
  generalize (S + R)⁻¹ = W at *
  have a1 : S * W * S + R * W * S = S := by
    rw [← Matrix.add_mul, ← Matrix.add_mul, h1, Matrix.one_mul]
  have a2 : R * W * S + R * W * R = R := by
    rw [← Matrix.mul_add, Matrix.mul_assoc, h2, Matrix.mul_one]
  have b1 : S - S * W * S = R * W * S := by
    rw [sub_eq_iff_eq_add, add_comm]; exact a1.symm
  have b2 : R - R * W * R = R * W * S := by
    rw [sub_eq_iff_eq_add]; exact a2.symm
  rw [b1, b2]

end Kalman

end Props
