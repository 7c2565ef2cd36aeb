import Verif.Lemmas.OptimalCsc

/-!
# Forward paths with any number of pieces: one more short piece after three turns
-/

noncomputable section

namespace Spec

open SF Real Filter Topology

/-- The middle turn grows by at most half of the shift of the last circle. -/
theorem middle_le {a x c : ℝ} (ha : π / 2 < a) (hx : 0 ≤ x) (hax : a + x < π) (hc : cos a ≤ c)
    (h1 : 4 / 3 * x ≤ sin a ^ 2) (h2 : x ≤ 1) : sin (a + x) ^ 2 ≤ sin a ^ 2 + 2 * x * sin a * c + x ^ 2 := by
  have s0 : 0 < sin a := sin_pos_of_pos_of_lt_pi (by linarith [pi_pos]) (by linarith)
  have c0 : cos a < 0 := cos_neg_of_pi_div_two_lt_of_lt ha (by linarith [pi_pos])
  have e1 := sin_sq_add_cos_sq a
  have e2 := sin_sq_add_cos_sq x
  have b1 : x / 2 ≤ sin x := by
    rcases eq_or_lt_of_le hx with h | h
    · rw [← h]; simp
    · have := sin_gt_sub_cube h
      nlinarith [mul_pos h h]
  have b2 : sin x ≤ x := sin_le hx
  have b3 : x - 2 / 3 * x ^ 3 ≤ sin x * cos x := by
    rcases eq_or_lt_of_le hx with h | h
    · rw [← h]; simp
    · have := sin_gt_sub_cube (x := 2 * x) (by linarith)
      rw [sin_two_mul] at this
      nlinarith
  have b4 : x ^ 2 / 4 ≤ sin x ^ 2 := by nlinarith
  have b5 : sin x ^ 2 ≤ x ^ 2 := by nlinarith
  have k1 : 2 * x * sin a * cos a ≤ 2 * x * sin a * c := mul_le_mul_of_nonneg_left hc (by positivity)
  have e : sin (a + x) ^ 2 = sin a ^ 2 + 2 * (sin a * cos a) * (sin x * cos x) + (1 - 2 * sin a ^ 2) * sin x ^ 2 := by
    rw [sin_add]; linear_combination (sin x ^ 2) * e1 + sin a ^ 2 * e2
  rw [e]
  have k2 : -(1 / 2) ≤ sin a * cos a := by nlinarith [sq_nonneg (sin a + cos a)]
  have k3 : 0 ≤ x - sin x * cos x := by
    have h := sin_le (x := 2 * x) (by linarith)
    rw [sin_two_mul] at h
    linarith
  have k4 := mul_le_mul_of_nonneg_right k2 k3
  have k5 := mul_le_mul_of_nonneg_left b4 (sq_nonneg (sin a))
  have k6 : 4 / 3 * x * x ^ 2 ≤ sin a ^ 2 * x ^ 2 := mul_le_mul_of_nonneg_right h1 (sq_nonneg x)
  nlinarith

section

variable {t a q u : ℝ} {rho g : ℝ → ℝ}

theorem ext_LRL {r X Y b n : ℝ} (hs : Shift (q - 2 * a) u rho g) (ha : π / 2 < a) (ha2 : a < π)
    (h0 : 0 ≤ rho r) (h1 : rho r ≤ r + g r)
    (hX : X = 4 * sin a + rho r * cos (q - a - g r / 2)) (hY : Y = rho r * sin (q - a - g r / 2)) (X0 : 0 < X)
    (hM : √(X ^ 2 + Y ^ 2) ≤ 4) (hb : b = π - arcsin (√(X ^ 2 + Y ^ 2) / 4)) (hn : n = arctan (Y / X))
    (ht : 0 ≤ t + n + b - a) (hq : 0 ≤ q - g r + b - a - n) (hc : cos a ≤ cos (q - a - g r / 2))
    (hsm : a + rho r / 4 < π) (hsm2 : rho r / 3 ≤ sin a ^ 2) (hsm3 : rho r ≤ 4) :
    Fwd ([(1, t), (-1, 2 * a), (1, q)] ++ [(u, r)]) (t + 2 * a + q + r) := by
  have hpi := pi_pos
  obtain ⟨e1, e2⟩ := polar_t (Y := Y) X0
  rw [← hn] at e1 e2
  obtain ⟨M, hMd⟩ : ∃ M, M = √(X ^ 2 + Y ^ 2) := ⟨_, rfl⟩
  rw [← hMd] at e1 e2 hM hb
  have hM0 : 0 ≤ M := by rw [hMd]; positivity
  have hM2 : M ^ 2 = X ^ 2 + Y ^ 2 := by rw [hMd]; exact sq_sqrt (by positivity)
  have hsb : 4 * sin b = M := by
    rw [hb, sin_pi_sub, sin_arcsin (by linarith) (by linarith)]; ring
  have b1 := arcsin_le_pi_div_two (M / 4)
  have b2 : 0 ≤ arcsin (M / 4) := arcsin_nonneg.2 (by linarith)
  have hba : b ≤ a + rho r / 4 := by
    have : π - a - rho r / 4 ≤ arcsin (M / 4) := by
      rw [le_arcsin_iff_sin_le ⟨by linarith, by linarith⟩ ⟨by linarith, by linarith⟩]
      rw [show π - a - rho r / 4 = π - (a + rho r / 4) by ring, sin_pi_sub]
      apply le_of_sq_le' (by linarith)
      have k := middle_le ha (show 0 ≤ rho r / 4 by linarith) hsm hc (by linarith) (by linarith)
      have : (M / 4) ^ 2 = sin a ^ 2 + 2 * (rho r / 4) * sin a * cos (q - a - g r / 2) + (rho r / 4) ^ 2 := by
        have c1 := sin_sq_add_cos_sq (q - a - g r / 2)
        rw [div_pow, hM2, hX, hY]
        linear_combination rho r ^ 2 / 16 * c1
      rw [this]; exact k
    linarith
  have s2 : sin (2 * a) = 2 * sin a * cos a := sin_two_mul a
  have c2 : cos (2 * a) = 1 - 2 * sin a ^ 2 := by rw [cos_two_mul]; linarith [sin_sq_add_cos_sq a]
  have ec : cos (q - 2 * a - g r / 2) = cos (q - a - g r / 2) * cos a + sin (q - a - g r / 2) * sin a := by
    rw [← cos_sub]; congr 1; ring
  have es : sin (q - 2 * a - g r / 2) = sin (q - a - g r / 2) * cos a - cos (q - a - g r / 2) * sin a := by
    rw [← sin_sub]; congr 1; ring
  have f1 : cos (n - a) = cos n * cos a + sin n * sin a := cos_sub n a
  have f2 : sin (n - a) = sin n * cos a - cos n * sin a := sin_sub n a
  have f3 : sin (n + b - a) - sin (n - b - a) = 2 * cos (n - a) * sin b := by
    rw [show n + b - a = (n - a) + b by ring, show n - b - a = (n - a) - b by ring, sin_add (n - a) b, sin_sub (n - a) b]; ring
  have f4 : cos (n - b - a) - cos (n + b - a) = 2 * sin (n - a) * sin b := by
    rw [show n + b - a = (n - a) + b by ring, show n - b - a = (n - a) - b by ring, cos_add (n - a) b, cos_sub (n - a) b]; ring
  refine Fwd.ccc (e := 1) (t := t + n + b - a) (p := 2 * b) (q := q - g r + b - a - n) one_sign ht (by linarith) (by linarith)
    hq ?_ (by linarith)
  refine SameEnd.left
    (hs.ends r _ _ _ _ (end_LRL (x := 0) (y := 0) (h0 := -t) (h1 := 0) (h2 := -(2 * a)) (h3 := q - 2 * a) (by ring) (by ring)
      (by ring)))
    (end_LRL (h1 := n + b - a) (h2 := n - b - a) (h3 := q - 2 * a - g r) (by ring) (by ring) (by ring)) ?_ ?_ (AngleEq.refl _)
  · have : 0 + 2 * sin (n + b - a) - 2 * sin (n - b - a) = M * cos (n - a) := by linear_combination 2 * f3 + cos (n - a) * hsb
    rw [this, f1, sin_neg, sin_zero, s2, ec]
    linear_combination cos a * e1 + sin a * e2 - cos a * hX - sin a * hY
  · have : 0 - 2 * cos (n + b - a) + 2 * cos (n - b - a) = M * sin (n - a) := by linear_combination 2 * f4 + sin (n - a) * hsb
    rw [this, f2, cos_neg, cos_zero, c2, es]
    linear_combination cos a * e2 - sin a * e1 - cos a * hY + sin a * hX

/-- After three turns. -/
theorem ok_LRL (hs : Shift (q - 2 * a) u rho g) (ht : 0 < t) (ha : π / 2 < a) (ha2 : a < π) (hq : 0 ≤ q) (hqa : q ≤ 2 * a)
    (h : 0 < q ∨ q = 0 ∧ ∀ r, g r = 0) : Ok [(1, t), (-1, 2 * a), (1, q)] u := by
  have hpi := pi_pos
  have cr := hs.crho
  have cg := hs.cg
  have s0 : 0 < sin a := sin_pos_of_pos_of_lt_pi (by linarith) ha2
  have c0 : cos a < 0 := cos_neg_of_pi_div_two_lt_of_lt ha (by linarith)
  have e1 := sin_sq_add_cos_sq a
  have s1 : sin a < 1 := by nlinarith
  obtain ⟨X, hX⟩ : ∃ X : ℝ → ℝ, X = fun r => 4 * sin a + rho r * cos (q - a - g r / 2) := ⟨_, rfl⟩
  obtain ⟨Y, hY⟩ : ∃ Y : ℝ → ℝ, Y = fun r => rho r * sin (q - a - g r / 2) := ⟨_, rfl⟩
  obtain ⟨b, hb⟩ : ∃ b : ℝ → ℝ, b = fun r => π - arcsin (√(X r ^ 2 + Y r ^ 2) / 4) := ⟨_, rfl⟩
  obtain ⟨n, hn⟩ : ∃ n : ℝ → ℝ, n = fun r => arctan (Y r / X r) := ⟨_, rfl⟩
  have cX : Continuous X := by rw [hX]; fun_prop
  have cY : Continuous Y := by rw [hY]; fun_prop
  have cb : Continuous b := by rw [hb]; exact continuous_const.sub (continuous_arcsin.comp (by fun_prop))
  have X0 : X 0 = 4 * sin a := by rw [hX]; simp [hs.rho0]
  have Y0 : Y 0 = 0 := by rw [hY]; simp [hs.rho0]
  have M0 : √(X 0 ^ 2 + Y 0 ^ 2) = 4 * sin a := by
    rw [X0, Y0, show (4 * sin a) ^ 2 + 0 ^ 2 = (4 * sin a) ^ 2 by ring]; exact sqrt_sq (by positivity)
  have b0 : b 0 = a := by
    rw [hb]; simp only; rw [M0, mul_div_cancel_left₀ _ (by norm_num : (4:ℝ) ≠ 0), ← sin_pi_sub, arcsin_sin (by linarith) (by linarith)]
    ring
  have cn : ContinuousAt n 0 := by
    rw [hn]
    apply continuous_arctan.continuousAt.comp
    exact ContinuousAt.div (by fun_prop) (by fun_prop) (by rw [X0]; positivity)
  have n0 : n 0 = 0 := by
    rw [hn]; simp only; rw [Y0]; simp
  have evq : ∀ᶠ r in 𝓝[>] (0:ℝ), 0 ≤ q - g r + b r - a - n r ∧ 0 ≤ q - g r / 2 := by
    rcases h with h | ⟨h, h'⟩
    · filter_upwards [ev (f := fun r => q - g r + b r - a - n r) (a := 0) (by fun_prop) (by rw [n0, b0, hs.g0]; linarith),
        ev (f := fun r => q - g r / 2) (a := 0) (by fun_prop) (by rw [hs.g0]; linarith)] with r k1 k2
      exact ⟨k1.le, k2.le⟩
    · filter_upwards [hs.nonneg, ev' (f := rho) (a := -8 * sin a * cos a) (by fun_prop) (by rw [hs.rho0]; nlinarith [mul_pos s0 (neg_pos.2 c0)]),
        ev cX.continuousAt (a := 0) (by rw [X0]; positivity)] with r k1 k2 k3
      have hYr : Y r = -(rho r * sin a) := by rw [hY]; simp [h, h']
      have hXr : X r = 4 * sin a + rho r * cos a := by rw [hX]; simp [h, h']
      have hYn : Y r ≤ 0 := by rw [hYr]; linarith [mul_nonneg k1 s0.le]
      have hnr : n r ≤ 0 := by
        rw [hn, ← arctan_zero]
        exact arctan_strictMono.monotone (div_nonpos_of_nonpos_of_nonneg hYn k3.le)
      have hbr : a ≤ b r := by
        have : arcsin (√(X r ^ 2 + Y r ^ 2) / 4) ≤ π - a := by
          rw [arcsin_le_iff_le_sin' ⟨by linarith, by linarith⟩, sin_pi_sub]
          have : √(X r ^ 2 + Y r ^ 2) ≤ 4 * sin a := by
            apply Real.sqrt_le_iff.2
            refine ⟨by positivity, ?_⟩
            have : X r ^ 2 + Y r ^ 2 = (4 * sin a) ^ 2 - rho r * (-8 * sin a * cos a - rho r) := by
              rw [hXr, hYr]; linear_combination rho r ^ 2 * e1
            rw [this]
            linarith [mul_nonneg k1 (sub_nonneg.2 k2.le)]
          linarith
        rw [hb]; simp only; linarith
      rw [h, h' r]
      constructor <;> linarith
  filter_upwards [hs.nonneg, hs.gnonneg, hs.le, evq, ev cX.continuousAt (a := 0) (by rw [X0]; positivity),
    ev' (f := fun r => √(X r ^ 2 + Y r ^ 2)) (a := 4) (by fun_prop) (by rw [M0]; linarith),
    ev (f := fun r => t + n r + b r - a) (a := 0) (by fun_prop) (by rw [n0, b0]; linarith),
    ev' (f := fun r => a + rho r / 4) (a := π) (by fun_prop) (by rw [hs.rho0]; linarith),
    ev' (f := fun r => rho r / 3) (a := sin a ^ 2) (by fun_prop) (by rw [hs.rho0]; simpa using by positivity),
    ev' (f := rho) (a := 4) (by fun_prop) (by rw [hs.rho0]; norm_num)] with r k0 kg k1 k2 k3 k4 k5 k6 k7 k8
  rw [wordLen3 ht.le (by linarith) hq]
  refine ext_LRL hs ha ha2 k0 k1 (X := X r) (Y := Y r) (b := b r) (n := n r) (by rw [hX]) (by rw [hY]) k3 k4.le (by rw [hb])
    (by rw [hn]) k5.le k2.1 ?_ k6 k7.le k8.le
  rw [← cos_abs (q - a - g r / 2)]
  exact cos_le_cos_of_nonneg_of_le_pi (abs_nonneg _) ha2.le (abs_le.2 ⟨by linarith [k2.2], by linarith⟩)

end

end Spec
