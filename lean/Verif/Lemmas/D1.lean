import Verif.Lemmas.Clothoid
import Mathlib.Data.Nat.Choose.Sum

/-!
# Bounds on the function `D1` and on the centre of a CC circle, with exact Fresnel integrals
-/

noncomputable section

namespace Spec

open Real Finset

/-- Antiderivative of `(1 - w²)^m`. -/
def gInt (m : ℕ) (w : ℝ) : ℝ :=
  ∑ j ∈ range (m + 1), (m.choose j : ℝ) * (-1) ^ j * w ^ (2 * j + 1) / (2 * j + 1)

theorem hasDerivAt_gInt (m : ℕ) (w : ℝ) : HasDerivAt (gInt m) ((1 - w ^ 2) ^ m) w := by
  have h : ∀ j ∈ range (m + 1), HasDerivAt
      (fun w : ℝ => (m.choose j : ℝ) * (-1) ^ j * w ^ (2 * j + 1) / (2 * j + 1))
      ((m.choose j : ℝ) * (-1) ^ j * w ^ (2 * j)) w := by
    intro j _
    have := ((hasDerivAt_pow (2 * j + 1) w).const_mul ((m.choose j : ℝ) * (-1) ^ j)).div_const
      (2 * (j : ℝ) + 1)
    refine this.congr_deriv ?_
    have h1 : (2 * (j : ℝ) + 1) ≠ 0 := by positivity
    push_cast
    field_simp
  have h2 := HasDerivAt.fun_sum h
  refine h2.congr_deriv ?_
  rw [sub_eq_add_neg, add_comm (1:ℝ), add_pow]
  apply sum_congr rfl
  intro j _
  rw [one_pow, mul_one, neg_pow (w ^ 2), ← pow_mul]
  ring

/-- `D1` with exact Fresnel integrals: half the chord of a symmetric pair of clothoids. -/
def d1 (s : ℝ) : ℝ := cos (π / 2 * s ^ 2) * fresnelC s + sin (π / 2 * s ^ 2) * fresnelS s

theorem fresnelC_zero : fresnelC 0 = 0 := by simp [fresnelC]
theorem fresnelS_zero : fresnelS 0 = 0 := by simp [fresnelS]

theorem cosT_lower {z : ℝ} (hz : |z| ≤ 2.2974) : Poly.cosT 7 z - 3 / 10 ^ 6 ≤ cos z := by
  have h := (Poly.taylor_bound (z := z) (K := 7) (by
    rw [div_le_iff₀ (by norm_num)]; push_cast; linarith)).1
  have h2 : |z| ^ (2 * 7) ≤ 2.2974 ^ (2 * 7) := by gcongr
  have h3 : |z| ^ (2 * 7) / (2 * 7).factorial * 2 ≤ 3 / 10 ^ 6 := by
    calc |z| ^ (2 * 7) / (2 * 7).factorial * 2 ≤ 2.2974 ^ (2 * 7) / (2 * 7).factorial * 2 := by gcongr
      _ ≤ 3 / 10 ^ 6 := by norm_num [Nat.factorial]
  have := (abs_le.1 (h.trans h3)).1
  linarith

/-- `d1 s ≥ 1.9e-5 s` as long as the half deflection is at most 2.2974. -/
theorem d1_lower {s : ℝ} (hs : 0 ≤ s) (ha : π / 2 * s ^ 2 ≤ 2.2974) : 19 / 10 ^ 6 * s ≤ d1 s := by
  obtain ⟨a, hadef⟩ : ∃ a, a = π / 2 * s ^ 2 := ⟨_, rfl⟩
  have ha0 : 0 ≤ a := by rw [hadef]; positivity
  rw [← hadef] at ha
  -- h(w) = cos a C(s w) + sin a S(s w) - s G(w)
  have hmono := Poly.le_of_deriv_nonneg (a := 0) (b := 1)
    (f := fun w => cos a * fresnelC (s * w) + sin a * fresnelS (s * w)
      - s * ((∑ k ∈ range 7, (-1) ^ k * a ^ (2 * k) / (2 * k).factorial * gInt (2 * k) w)
        - 3 / 10 ^ 6 * w))
    (f' := fun w => cos a * (cos (π / 2 * (s * w) ^ 2) * s) + sin a * (sin (π / 2 * (s * w) ^ 2) * s)
      - s * ((∑ k ∈ range 7, (-1) ^ k * a ^ (2 * k) / (2 * k).factorial * (1 - w ^ 2) ^ (2 * k))
        - 3 / 10 ^ 6 * 1)) zero_le_one ?_ ?_
  · simp only [mul_zero, fresnelC_zero, fresnelS_zero, mul_one] at hmono
    have hg0 : ∀ m, gInt m 0 = 0 := by intro m; simp [gInt]
    simp only [hg0, mul_zero, sum_const_zero, sub_zero, add_zero] at hmono
    have hval : ∑ k ∈ range 7, (-1) ^ k * a ^ (2 * k) / (2 * k).factorial * gInt (2 * k) 1
        = 1 - 4 / 15 * a ^ 2 + 16 / 945 * (a ^ 2) ^ 2 - 64 / 135135 * (a ^ 2) ^ 3
          + 256 / 34459425 * (a ^ 2) ^ 4 - 1024 / 13749310575 * (a ^ 2) ^ 5
          + 4096 / 7905853580625 * (a ^ 2) ^ 6 := by
      have g0 : gInt 0 1 = 1 := by simp [gInt]
      have g2 : gInt 2 1 = 8 / 15 := by simp [gInt, sum_range_succ, Nat.choose]; norm_num
      have g4 : gInt 4 1 = 128 / 315 := by simp [gInt, sum_range_succ, Nat.choose]; norm_num
      have g6 : gInt 6 1 = 1024 / 3003 := by simp [gInt, sum_range_succ, Nat.choose]; norm_num
      have g8 : gInt 8 1 = 32768 / 109395 := by simp [gInt, sum_range_succ, Nat.choose]; norm_num
      have g10 : gInt 10 1 = 262144 / 969969 := by simp [gInt, sum_range_succ, Nat.choose]; norm_num
      have g12 : gInt 12 1 = 4194304 / 16900975 := by simp [gInt, sum_range_succ, Nat.choose]; norm_num
      simp only [sum_range_succ, range_zero, sum_empty]
      norm_num only [g0, g2, g4, g6, g8, g10, g12, Nat.factorial]
      ring
    rw [hval] at hmono
    have hy : a ^ 2 ≤ 2.2974 ^ 2 := by gcongr
    obtain ⟨y, hydef⟩ : ∃ y, y = a ^ 2 := ⟨_, rfl⟩
    have hy0 : 0 ≤ y := by rw [hydef]; positivity
    rw [← hydef] at hmono hy
    have hq : 22 / 10 ^ 6 ≤ 1 - 4 / 15 * y + 16 / 945 * y ^ 2 - 64 / 135135 * y ^ 3
          + 256 / 34459425 * y ^ 4 - 1024 / 13749310575 * y ^ 5
          + 4096 / 7905853580625 * y ^ 6 := by
      have hm := Poly.le_of_deriv_nonneg (a := y) (b := 2.2974 ^ 2)
        (f := fun y => -(1 - 4 / 15 * y + 16 / 945 * y ^ 2 - 64 / 135135 * y ^ 3
          + 256 / 34459425 * y ^ 4 - 1024 / 13749310575 * y ^ 5
          + 4096 / 7905853580625 * y ^ 6))
        (f' := fun y => -(0 - 4 / 15 * 1 + 16 / 945 * (2 * y ^ 1) - 64 / 135135 * (3 * y ^ 2)
          + 256 / 34459425 * (4 * y ^ 3) - 1024 / 13749310575 * (5 * y ^ 4)
          + 4096 / 7905853580625 * (6 * y ^ 5))) hy ?_ ?_
      · norm_num at hm ⊢
        linarith
      · intro x _ _
        refine HasDerivAt.neg ?_
        refine (((((HasDerivAt.sub (hasDerivAt_const x (1:ℝ)) ((hasDerivAt_id' x).const_mul _)).add
          ((hasDerivAt_pow 2 x).const_mul _)).sub ((hasDerivAt_pow 3 x).const_mul _)).add
          ((hasDerivAt_pow 4 x).const_mul _)).sub ((hasDerivAt_pow 5 x).const_mul _)).add
          ((hasDerivAt_pow 6 x).const_mul _)
      · intro x hx hx'
        have hx0 : 0 ≤ x := hy0.trans hx
        have hx6 : x ≤ 6 := hx'.trans (by norm_num)
        have h3 : x ^ 3 ≤ 6 ^ 3 := by gcongr
        have h5 : x ^ 5 ≤ 6 ^ 5 := by gcongr
        have h2 : 0 ≤ x ^ 2 := by positivity
        have h4 : 0 ≤ x ^ 4 := by positivity
        norm_num at hx' h3 h5 ⊢
        linarith
    have hd : d1 s = cos a * fresnelC s + sin a * fresnelS s := by rw [d1, hadef]
    rw [hd]
    have : s * (22 / 10 ^ 6) ≤ s * (1 - 4 / 15 * y + 16 / 945 * y ^ 2 - 64 / 135135 * y ^ 3
          + 256 / 34459425 * y ^ 4 - 1024 / 13749310575 * y ^ 5
          + 4096 / 7905853580625 * y ^ 6) := mul_le_mul_of_nonneg_left hq hs
    linarith
  · intro w _ _
    have hsw : HasDerivAt (fun w : ℝ => s * w) s w := by simpa using (hasDerivAt_id' w).const_mul s
    have hC := (Poly.hasDerivAt_fresnelC (s * w)).comp w hsw
    have hS := (Poly.hasDerivAt_fresnelS (s * w)).comp w hsw
    refine ((hC.const_mul _).add (hS.const_mul _)).sub (HasDerivAt.const_mul s (HasDerivAt.sub ?_ ?_))
    · exact HasDerivAt.fun_sum fun k _ => (hasDerivAt_gInt (2 * k) w).const_mul _
    · exact (hasDerivAt_id' w).const_mul _
  · intro w hw0 hw1
    have hz : |a * (1 - w ^ 2)| ≤ 2.2974 := by
      rw [abs_of_nonneg (mul_nonneg ha0 (by nlinarith))]
      nlinarith
    have hc := cosT_lower hz
    have hcos : cos (a * (1 - w ^ 2)) = cos a * cos (π / 2 * (s * w) ^ 2)
        + sin a * sin (π / 2 * (s * w) ^ 2) := by
      rw [← cos_sub]; congr 1; rw [hadef]; ring
    have hT : Poly.cosT 7 (a * (1 - w ^ 2))
        = ∑ k ∈ range 7, (-1) ^ k * a ^ (2 * k) / (2 * k).factorial * (1 - w ^ 2) ^ (2 * k) := by
      unfold Poly.cosT
      apply sum_congr rfl
      intro k _
      rw [mul_pow]; ring
    rw [hcos, hT] at hc
    have := mul_le_mul_of_nonneg_left hc hs
    linarith

/-- Abscissa of the centre of a CC circle, in units of `√(π/σ)`; `t` is the Fresnel argument of
the first clothoid. -/
def cenX (t : ℝ) : ℝ := fresnelC t - sin (π / 2 * t ^ 2) / (π * t)

/-- Ordinate of the centre of a CC circle, in units of `√(π/σ)`. -/
def cenY (t : ℝ) : ℝ := fresnelS t + cos (π / 2 * t ^ 2) / (π * t)

theorem hasDerivAt_phase (t : ℝ) : HasDerivAt (fun t : ℝ => π / 2 * t ^ 2) (π * t) t := by
  refine ((hasDerivAt_pow 2 t).const_mul (π / 2)).congr_deriv ?_
  push_cast; ring

theorem hasDerivAt_cenX {t : ℝ} (ht : 0 < t) :
    HasDerivAt cenX (sin (π / 2 * t ^ 2) / (π * t ^ 2)) t := by
  have h1 := (hasDerivAt_phase t).sin.div ((hasDerivAt_id' t).const_mul π) (by positivity)
  refine ((Poly.hasDerivAt_fresnelC t).sub h1).congr_deriv ?_
  have := pi_pos
  field_simp
  ring

theorem hasDerivAt_cenY {t : ℝ} (ht : 0 < t) :
    HasDerivAt cenY (-(cos (π / 2 * t ^ 2) / (π * t ^ 2))) t := by
  have h1 := (hasDerivAt_phase t).cos.div ((hasDerivAt_id' t).const_mul π) (by positivity)
  refine ((Poly.hasDerivAt_fresnelS t).add h1).congr_deriv ?_
  have := pi_pos
  field_simp
  ring

/-- The half chord of a CC turn is at least that of the elementary path of the same deflection. -/
theorem chord_ge {s t : ℝ} (hs : 0 < s) (hst : s ≤ t) :
    d1 s ≤ cos (π / 2 * s ^ 2) * cenX t + sin (π / 2 * s ^ 2) * cenY t := by
  obtain ⟨a, hadef⟩ : ∃ a, a = π / 2 * s ^ 2 := ⟨_, rfl⟩
  have hpi := pi_pos
  have hm := Poly.le_of_deriv_nonneg (a := s) (b := t)
    (f := fun x => cos a * cenX x + sin a * cenY x
      - (1 - cos (π / 2 * x ^ 2 - a)) * (1 / π ^ 2 * (x ^ 3)⁻¹))
    (f' := fun x => (1 - cos (π / 2 * x ^ 2 - a)) * (1 / π ^ 2 * (3 * x ^ 2 / (x ^ 3) ^ 2))) hst ?_ ?_
  · have h0 : cos a * cenX s + sin a * cenY s = d1 s := by
      unfold cenX cenY d1; rw [← hadef]; ring
    have h1 : 0 ≤ (1 - cos (π / 2 * t ^ 2 - a)) * (1 / π ^ 2 * (t ^ 3)⁻¹) := by
      have := cos_le_one (π / 2 * t ^ 2 - a)
      have ht : 0 < t := hs.trans_le hst
      apply mul_nonneg (by linarith); positivity
    simp only [h0] at hm
    rw [← hadef, sub_self, cos_zero, sub_self, zero_mul] at hm
    rw [← hadef]
    linarith
  · intro x hx _
    have hx0 : 0 < x := hs.trans_le hx
    have h1 := ((hasDerivAt_phase x).sub_const a).cos
    have h2 : HasDerivAt (fun x : ℝ => (x ^ 3)⁻¹) (-(3 * x ^ 2) / (x ^ 3) ^ 2) x := by
      refine ((hasDerivAt_pow 3 x).inv (by positivity)).congr_deriv ?_
      push_cast; rfl
    have h3 := (((hasDerivAt_cenX hx0).const_mul (cos a)).add
      ((hasDerivAt_cenY hx0).const_mul (sin a))).sub ((h1.const_sub 1).mul (h2.const_mul (1 / π ^ 2)))
    refine h3.congr_deriv ?_
    have : sin (π / 2 * x ^ 2 - a)
        = sin (π / 2 * x ^ 2) * cos a - cos (π / 2 * x ^ 2) * sin a := sin_sub _ _
    rw [this]
    field_simp
    ring
  · intro x hx _
    have hx0 : 0 < x := hs.trans_le hx
    have := cos_le_one (π / 2 * x ^ 2 - a)
    apply mul_nonneg (by linarith); positivity

/-- The centre lies ahead of the start: `cenX t` is positive, with a quantitative bound. -/
theorem cenX_lower {t : ℝ} (ht : 0 < t) : min t (1 / 2) / 8 ≤ cenX t := by
  have hpi := pi_pos
  -- on (0, 1/2]
  have small : ∀ t, 0 < t → t ≤ 1 / 2 → t / 4 ≤ cenX t := by
    intro t ht ht2
    have hC : t * (3 / 4) ≤ fresnelC t := by
      have := Poly.le_of_deriv_nonneg (a := 0) (b := t) (f := fun x => fresnelC x - x * (3 / 4))
        (f' := fun x => cos (π / 2 * x ^ 2) - 1 * (3 / 4)) ht.le
        (fun x _ _ => (Poly.hasDerivAt_fresnelC x).sub ((hasDerivAt_id' x).mul_const _)) ?_
      · simp only [fresnelC_zero] at this; linarith
      · intro x hx0 hx1
        have h1 := one_sub_sq_div_two_le_cos (x := π / 2 * x ^ 2)
        have h2 : x ^ 2 ≤ 1 / 4 := by nlinarith
        have h3 : π / 2 * x ^ 2 ≤ 1 / 2 := by nlinarith [pi_lt_four, sq_nonneg x]
        have h4 : 0 ≤ π / 2 * x ^ 2 := by positivity
        nlinarith
    have hS : sin (π / 2 * t ^ 2) / (π * t) ≤ t / 2 := by
      rw [div_le_iff₀ (by positivity)]
      have := sin_le (show 0 ≤ π / 2 * t ^ 2 by positivity)
      nlinarith
    unfold cenX; linarith
  rcases le_or_gt t (1 / 2) with h | h
  · rw [min_eq_left h]; have := small t ht h; linarith
  · rw [min_eq_right h.le]
    -- beyond 1/2 use the monotone combination with a = 0
    have hm := Poly.le_of_deriv_nonneg (a := 1 / 2) (b := t)
      (f := fun x => cenX x - (1 - cos (π / 2 * x ^ 2)) * (1 / π ^ 2 * (x ^ 3)⁻¹))
      (f' := fun x => (1 - cos (π / 2 * x ^ 2)) * (1 / π ^ 2 * (3 * x ^ 2 / (x ^ 3) ^ 2))) h.le ?_ ?_
    · have h1 : 0 ≤ (1 - cos (π / 2 * t ^ 2)) * (1 / π ^ 2 * (t ^ 3)⁻¹) := by
        have := cos_le_one (π / 2 * t ^ 2)
        apply mul_nonneg (by linarith); positivity
      have h2 := small (1 / 2) (by norm_num) le_rfl
      have h3 : (1 - cos (π / 2 * (1 / 2) ^ 2)) * (1 / π ^ 2 * ((1 / 2 : ℝ) ^ 3)⁻¹) ≤ 1 / 16 := by
        have h4 := one_sub_sq_div_two_le_cos (x := π / 2 * (1 / 2) ^ 2)
        have h5 : 1 - cos (π / 2 * (1 / 2) ^ 2) ≤ (π / 2 * (1 / 2) ^ 2) ^ 2 / 2 := by linarith
        calc _ ≤ (π / 2 * (1 / 2) ^ 2) ^ 2 / 2 * (1 / π ^ 2 * ((1 / 2 : ℝ) ^ 3)⁻¹) := by gcongr
          _ = 1 / 16 := by field_simp; norm_num
      linarith
    · intro x hx _
      have hx0 : 0 < x := lt_of_lt_of_le (by norm_num) hx
      have h1 := (hasDerivAt_phase x).cos
      have h2 : HasDerivAt (fun x : ℝ => (x ^ 3)⁻¹) (-(3 * x ^ 2) / (x ^ 3) ^ 2) x := by
        refine ((hasDerivAt_pow 3 x).inv (by positivity)).congr_deriv ?_
        push_cast; rfl
      have h3 := (hasDerivAt_cenX hx0).sub ((h1.const_sub 1).mul (h2.const_mul (1 / π ^ 2)))
      refine h3.congr_deriv ?_
      field_simp
      ring
    · intro x hx _
      have hx0 : 0 < x := lt_of_lt_of_le (by norm_num) hx
      have := cos_le_one (π / 2 * x ^ 2)
      apply mul_nonneg (by linarith); positivity

theorem fresnelS_lower {t : ℝ} (h0 : 0 ≤ t) (h1 : t ≤ 1) : t ^ 3 / 3 ≤ fresnelS t := by
  have hpi := pi_pos
  have := Poly.le_of_deriv_nonneg (a := 0) (b := t) (f := fun x => fresnelS x - x ^ 3 / 3)
    (f' := fun x => sin (π / 2 * x ^ 2) - x ^ 2) h0 ?_ ?_
  · simp only [fresnelS_zero] at this; norm_num at this; linarith
  · intro x _ _
    refine ((Poly.hasDerivAt_fresnelS x).sub ((hasDerivAt_pow 3 x).div_const 3)).congr_deriv ?_
    push_cast; ring
  · intro x hx0 hx1
    have hx2 : x ^ 2 ≤ 1 := by nlinarith
    have := mul_le_sin (x := π / 2 * x ^ 2) (by positivity) (by nlinarith)
    have e : 2 / π * (π / 2 * x ^ 2) = x ^ 2 := by field_simp
    linarith

/-- The centre lies on the turning side. -/
theorem cenY_lower {t : ℝ} (ht : 0 < t) : 1 / 10 ≤ cenY t := by
  have hpi := pi_pos
  rcases le_or_gt t 1 with h | h
  · have hS := fresnelS_lower ht.le h
    have hc : 1 - t ^ 2 ≤ cos (π / 2 * t ^ 2) := by
      have ht2 : t ^ 2 ≤ 1 := by nlinarith
      have := mul_le_sin (x := π / 2 - π / 2 * t ^ 2) (by nlinarith) (by nlinarith [sq_nonneg t])
      rw [sin_pi_div_two_sub] at this
      have e : 2 / π * (π / 2 - π / 2 * t ^ 2) = 1 - t ^ 2 := by field_simp
      linarith
    have hc0 : 0 ≤ 1 - t ^ 2 := by nlinarith
    have hq : (1 - t ^ 2) / (π * t) ≤ cos (π / 2 * t ^ 2) / (π * t) := by gcongr
    unfold cenY
    rcases le_or_gt t (4 / 5) with h5 | h5
    · have : 1 / 10 ≤ (1 - t ^ 2) / (π * t) := by
        rw [le_div_iff₀ (by positivity)]
        nlinarith [pi_lt_four]
      have : 0 ≤ t ^ 3 / 3 := by positivity
      linarith
    · have h6 : (4 / 5 : ℝ) ^ 3 ≤ t ^ 3 := by gcongr
      have : 0 ≤ (1 - t ^ 2) / (π * t) := by positivity
      norm_num at h6
      linarith
  · have h1 := chord_ge one_pos h.le
    have hS := fresnelS_lower zero_le_one le_rfl
    unfold d1 at h1
    simp only [one_pow, mul_one, cos_pi_div_two, sin_pi_div_two, zero_mul, one_mul, zero_add] at h1
    norm_num at hS
    linarith

end Spec
