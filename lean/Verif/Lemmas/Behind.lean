import Verif.Lemmas.OptimalPath

/-!
# How far a car gets in a direction if its heading may only change slowly
-/

noncomputable section

namespace Spec

open Real Set

/-- A function that grows at least as fast as another one. -/
theorem grows {a b : ℝ} (hab : a ≤ b) {f g f' g' : ℝ → ℝ} (hf : ∀ s ∈ Icc a b, HasDerivWithinAt f (f' s) (Icc a b) s)
    (hg : ∀ s, HasDerivAt g (g' s) s) (h : ∀ s ∈ Icc a b, g' s ≤ f' s) : g b - g a ≤ f b - f a := by
  have hm : MonotoneOn (fun s => f s - g s) (Icc a b) := by
    refine monotoneOn_of_hasDerivWithinAt_nonneg (f' := fun s => f' s - g' s) (convex_Icc a b) ?_ ?_ ?_
    · intro s hs
      exact ((hf s hs).sub (hg s).hasDerivWithinAt).continuousWithinAt
    · intro s hs
      exact ((hf s (interior_subset hs)).mono interior_subset).sub (hg s).hasDerivWithinAt
    · intro s hs
      exact sub_nonneg.2 (h s (interior_subset hs))
  have := hm (left_mem_Icc.2 hab) (right_mem_Icc.2 hab) hab
  simp only at this
  linarith

/-- Progress of a car in a direction from which its heading differs by `v`, if `v` is at most `α` at the start and `β` at the end. -/
theorem progress {k L α β : ℝ} (hk : 0 < k) (h1 : α ≤ β + k * L) (h2 : β ≤ α + k * L)
    (hM : (k * L + α + β) / 2 ≤ π) {f v : ℝ → ℝ} (hf : ∀ s ∈ Icc 0 L, HasDerivWithinAt f (cos (v s)) (Icc 0 L) s)
    (va : ∀ s ∈ Icc 0 L, |v s| ≤ α + k * s) (vb : ∀ s ∈ Icc 0 L, |v s| ≤ β + k * (L - s)) :
    2 * sin ((k * L + α + β) / 2) - sin α - sin β ≤ k * (f L - f 0) := by
  obtain ⟨m, hm⟩ : ∃ m : ℝ, m = ((k * L + α + β) / 2 - α) / k := ⟨_, rfl⟩
  have hkm : k * m = (k * L + α + β) / 2 - α := by rw [hm]; field_simp
  have m0 : 0 ≤ m := by rw [hm]; exact div_nonneg (by linarith) hk.le
  have mL : m ≤ L := by
    have : k * m ≤ k * L := by rw [hkm]; linarith
    exact le_of_mul_le_mul_left this hk
  have g1 := grows m0 (f := f) (g := fun s => sin (α + k * s) / k) (g' := fun s => cos (α + k * s))
    (fun s hs => (hf s ⟨hs.1, hs.2.trans mL⟩).mono (Icc_subset_Icc_right mL))
    (fun s => by
      have := ((((hasDerivAt_id s).const_mul k).const_add α).sin).div_const k
      simp only [id, mul_one] at this
      rwa [mul_div_assoc, div_self hk.ne', mul_one] at this)
    (fun s hs => by
      rw [← cos_abs (v s)]
      have : k * s ≤ k * m := mul_le_mul_of_nonneg_left hs.2 hk.le
      exact cos_le_cos_of_nonneg_of_le_pi (abs_nonneg _) (by linarith) (va s ⟨hs.1, hs.2.trans mL⟩))
  have g2 := grows mL (f := f) (g := fun s => -(sin (β + k * (L - s)) / k)) (g' := fun s => cos (β + k * (L - s)))
    (fun s hs => (hf s ⟨m0.trans hs.1, hs.2⟩).mono (Icc_subset_Icc_left m0))
    (fun s => by
      have := (((((hasDerivAt_id s).const_sub L).const_mul k).const_add β).sin.div_const k).neg
      simp only [id, mul_neg, mul_one] at this
      rwa [neg_div, neg_neg, mul_div_assoc, div_self hk.ne', mul_one] at this)
    (fun s hs => by
      rw [← cos_abs (v s)]
      have : k * m ≤ k * s := mul_le_mul_of_nonneg_left hs.1 hk.le
      exact cos_le_cos_of_nonneg_of_le_pi (abs_nonneg _) (by linarith) (vb s ⟨m0.trans hs.1, hs.2⟩))
  have eM : β + k * (L - m) = (k * L + α + β) / 2 := by linarith
  have eM' : α + k * m = (k * L + α + β) / 2 := by linarith
  simp only [eM, eM', mul_zero, add_zero, sub_self] at g1 g2
  have g3 := mul_le_mul_of_nonneg_left (add_le_add g1 g2) hk.le
  have e : k * (sin ((k * L + α + β) / 2) / k - sin α / k + (-(sin β / k) - -(sin ((k * L + α + β) / 2) / k))) =
      2 * sin ((k * L + α + β) / 2) - sin α - sin β := by field_simp; ring
  rw [e] at g3
  linarith

/-- Progress of a car in its first and in its last direction, if the path is too short for a further full turn. -/
theorem CanDrive.progress {d k L φ : ℝ} {p q : Config} (hd : d = 1 ∨ d = -1) (hk : 0 < k) (hL : 0 ≤ L) (h : CanDrive d k L p q)
    (hφ : AngleEq q.theta (p.theta + φ)) (hs : k * L < 2 * π - |φ|) :
    2 * sin ((k * L + |φ|) / 2) - sin |φ| ≤ k * (d * ((q.x - p.x) * cos p.theta + (q.y - p.y) * sin p.theta)) ∧
    2 * sin ((k * L + |φ|) / 2) - sin |φ| ≤ k * (d * ((q.x - p.x) * cos q.theta + (q.y - p.y) * sin q.theta)) := by
  obtain ⟨q', ⟨X, Y, T, hX, hY, hT, x0, y0, t0, x1, y1, t1⟩, ex, ey, n, en⟩ := h
  obtain ⟨j, ej⟩ := hφ
  have z0 : (0:ℝ) ∈ Icc 0 L := left_mem_Icc.2 hL
  have z1 : L ∈ Icc 0 L := right_mem_Icc.2 hL
  have hpi := pi_pos
  have dd : d * d = 1 := by rcases hd with rfl | rfl <;> norm_num
  have turn : T L - T 0 = φ + ((j + n : ℤ) : ℝ) * (2 * π) := by rw [t1, t0, en, ej]; push_cast; ring
  have tot : |T L - T 0| ≤ k * L := by have := hT L z1 0 z0; rwa [sub_zero, abs_of_nonneg hL] at this
  have hz : j + n = 0 := by
    by_contra hne
    have h1 : (1:ℝ) ≤ |((j + n : ℤ) : ℝ)| := by exact_mod_cast Int.one_le_abs hne
    have h2 : |((j + n : ℤ) : ℝ) * (2 * π)| = |((j + n : ℤ) : ℝ)| * (2 * π) := by rw [abs_mul, abs_of_pos (by linarith : 0 < 2 * π)]
    have h3 : |((j + n : ℤ) : ℝ) * (2 * π)| ≤ |T L - T 0| + |φ| := by
      have := abs_sub (T L - T 0) φ
      rw [turn] at this ⊢
      rwa [add_sub_cancel_left] at this
    nlinarith
  rw [hz, Int.cast_zero, zero_mul, add_zero] at turn
  rw [turn] at tot
  have va : ∀ s ∈ Icc 0 L, |T s - T 0| ≤ k * s := fun s hs => by
    have := hT s hs 0 z0; rwa [sub_zero, abs_of_nonneg hs.1] at this
  have vb : ∀ s ∈ Icc 0 L, |T s - T L| ≤ k * (L - s) := fun s hs => by
    have := hT s hs L z1; rwa [abs_sub_comm s L, abs_of_nonneg (sub_nonneg.2 hs.2)] at this
  have key : ∀ τ : ℝ, ∀ s ∈ Icc 0 L, HasDerivWithinAt (fun s => d * (X s * cos τ + Y s * sin τ)) (cos (T s - τ)) (Icc 0 L) s := by
    intro τ s hs
    have := (((hX s hs).mul_const (cos τ)).add ((hY s hs).mul_const (sin τ))).const_mul d
    refine this.congr_deriv ?_
    rw [cos_sub]
    linear_combination (cos (T s) * cos τ + sin (T s) * sin τ) * dd
  have c1 : cos q.theta = cos (T L) ∧ sin q.theta = sin (T L) := by
    rw [t1, en, cos_add_int_mul_two_pi, sin_add_int_mul_two_pi]; exact ⟨rfl, rfl⟩
  have hn := abs_nonneg φ
  constructor
  · have := Spec.progress (α := 0) (β := |φ|) hk (by nlinarith) (by linarith) (by linarith) (key (T 0))
      (fun s hs => by rw [zero_add]; exact va s hs)
      (fun s hs => by
        have := abs_add_le (T s - T L) (T L - T 0)
        rw [sub_add_sub_cancel, turn] at this
        linarith [vb s hs])
    rw [sin_zero, sub_zero, add_zero] at this
    refine this.trans_eq ?_
    rw [x1, y1, x0, y0, t0, ex, ey]; ring
  · have := Spec.progress (α := |φ|) (β := 0) hk (by linarith) (by nlinarith) (by linarith) (key (T L))
      (fun s hs => by
        have := abs_add_le (T s - T 0) (T 0 - T L)
        rw [sub_add_sub_cancel, abs_sub_comm (T 0), turn] at this
        linarith [va s hs])
      (fun s hs => by rw [zero_add]; exact vb s hs)
    rw [sin_zero, sub_zero, add_zero] at this
    refine this.trans_eq ?_
    rw [c1.1, c1.2, x1, y1, x0, y0, ex, ey]; ring

end Spec
