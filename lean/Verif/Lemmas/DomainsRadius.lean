import Verif.Lemmas.HcTangent

/-!
# The radius of a CC circle exceeds the radius of its arc
-/

noncomputable section

namespace Spec.Dom

open Real

theorem cenY_ge_small {t : ℝ} (ht : 0 < t) (h1 : t ≤ 1) : 1 / (π * t) ≤ cenY t := by
  have hp := pi_pos
  have := Poly.le_of_deriv_nonneg (a := 0) (b := t) (f := fun x => π * x * fresnelS x + cos (π / 2 * x ^ 2))
    (f' := fun x => π * fresnelS x) ht.le (fun x _ _ => by
      refine ((((hasDerivAt_id x).const_mul π).mul (Poly.hasDerivAt_fresnelS x)).add (hasDerivAt_phase x).cos).congr_deriv ?_
      simp only [id]; ring) (fun x h0 h => by
      have := fresnelS_lower h0 (h.trans h1)
      have : 0 ≤ x ^ 3 / 3 := by positivity
      have : 0 ≤ fresnelS x := by linarith
      positivity)
  simp at this
  unfold cenY
  rw [div_le_iff₀ (by positivity), add_mul, div_mul_cancel₀ _ (by positivity)]
  linarith

theorem cenY_ge {t : ℝ} (ht : 0 < t) : 1 / (π * t) ≤ cenY t := by
  have hp := pi_pos
  rcases le_total t 1 with h | h
  · exact cenY_ge_small ht h
  · have := Poly.le_of_deriv_nonneg (a := 1) (b := t) (f := fun x => fresnelS x + (cos (π / 2 * x ^ 2) - 1) / (π * x))
      (f' := fun x => (1 - cos (π / 2 * x ^ 2)) / (π * x ^ 2)) h (fun x h0 _ => by
        have hx : π * x ≠ 0 := by positivity
        refine ((Poly.hasDerivAt_fresnelS x).add (((hasDerivAt_phase x).cos.sub_const 1).div ((hasDerivAt_id x).const_mul π)
          hx)).congr_deriv ?_
        simp only [id]
        field_simp
        ring) (fun x h0 _ => div_nonneg (by linarith [cos_le_one (π / 2 * x ^ 2)]) (by positivity))
    have h1 := cenY_ge_small one_pos le_rfl
    unfold cenY at h1 ⊢
    simp only [sub_div] at this
    linarith

/-- Lower bound for the argument of the Fresnel integrals. -/
theorem cArg_lower {k s : ℝ} (hk : k > SF.epsilon) (hs : 0 < s) (hl : k / s > SF.epsilon) : 5 / 10 ^ 5 ≤ cArg s (k / s) := by
  unfold SF.epsilon at hk hl
  have hk0 : 0 < k := by linarith
  have hp := pi_pos
  have hp4 := pi_le_four
  rw [cArg_full hs, le_div_iff₀ (by positivity)]
  rw [gt_iff_lt, lt_div_iff₀ hs] at hl
  have : 5 / 10 ^ 5 * √(π * s) = √((5 / 10 ^ 5) ^ 2 * (π * s)) := by
    rw [sqrt_mul (x := (5 / 10 ^ 5) ^ 2) (by positivity), sqrt_sq (by positivity)]
  rw [this]
  apply sqrt_le_iff.2
  refine ⟨hk0.le, ?_⟩
  have h1 : π * s ≤ 4 * s := by nlinarith
  nlinarith

theorem radius_num {t c A B ε : ℝ} (ht : 5 / 10 ^ 5 ≤ t) (hc : 0 < c) (hε : ε = 8 / 10 ^ 17)
    (hA : c * (min t (1 / 2) / 10) ≤ A) (hB : c * (1 / (π * t) - ε) ≤ B) (hB0 : 0 < B) :
    (c * (1 / (π * t))) ^ 2 < A ^ 2 + B ^ 2 := by
  have hp := pi_gt_three
  have hm : 0 < min t (1 / 2) := lt_min (by linarith) (by norm_num)
  have hA2 : (c * (min t (1 / 2) / 10)) ^ 2 ≤ A ^ 2 := pow_le_pow_left₀ (by positivity) hA 2
  obtain ⟨u, hu⟩ : ∃ u, u = 1 / (π * t) := ⟨_, rfl⟩
  have hu0 : 0 < u := by rw [hu]; exact one_div_pos.2 (by nlinarith)
  have hut : u * t ≤ 1 / 3 := by
    rw [hu, show 1 / (π * t) * t = 1 / π by field_simp]
    exact one_div_le_one_div_of_le (by norm_num) hp.le
  rw [← hu] at hB ⊢
  have key : 2 * ε * u < (min t (1 / 2) / 10) ^ 2 := by
    have h2 : 2 * ε * (u * t) < (min t (1 / 2) / 10) ^ 2 * t := by
      have : 2 * ε * (u * t) ≤ 2 * ε * (1 / 3) := by gcongr
      refine lt_of_le_of_lt this ?_
      rcases le_total t (1 / 2) with h | h
      · rw [min_eq_left h]
        have : (5 / 10 ^ 5 : ℝ) ^ 3 ≤ t ^ 3 := by gcongr
        rw [hε, show (t / 10) ^ 2 * t = t ^ 3 / 100 by ring]
        norm_num at this ⊢; linarith
      · rw [min_eq_right h, hε]; norm_num; linarith
    rw [← mul_assoc] at h2
    exact lt_of_mul_lt_mul_right h2 (by linarith)
  have k2 : c ^ 2 * (2 * ε * u) < c ^ 2 * (min t (1 / 2) / 10) ^ 2 := by gcongr
  rcases le_or_gt (c * u) B with h | h
  · have : (c * u) ^ 2 ≤ B ^ 2 := pow_le_pow_left₀ (by positivity) h 2
    have : 0 < (c * (min t (1 / 2) / 10)) ^ 2 := by positivity
    linarith
  · have h1 : (c * u - B) * (c * u + B) ≤ c * ε * (2 * (c * u)) := by
      have e1 : c * u - B ≤ c * ε := by nlinarith
      have e2 : c * u + B ≤ 2 * (c * u) := by linarith
      have : 0 ≤ c * ε := by rw [hε]; positivity
      exact mul_le_mul e1 e2 (by nlinarith) this
    nlinarith

/-- The radius of a CC circle exceeds `1 / kappa`. -/
theorem inv_lt_ccR {k s : ℝ} (H : Rng k s) : 1 / k < ccR k s := by
  have hk0 := H.pos
  have hs := H.sigma
  have ht := cArg_lower H.kappa hs H.clothoid
  have hA := ccA_eq hk0 hs
  have hB := ccB_eq hk0 hs
  have hB0 := ccB_pos H.kappa hs H.clothoid
  have hi := inv_full hk0 hs
  obtain ⟨t, ht'⟩ : ∃ t, t = cArg s (k / s) := ⟨_, rfl⟩
  rw [← ht'] at ht hA hB hi
  have hc := cScale_pos hs
  have a1 := cenX_lower (t := t) (by linarith)
  have a2 := (abs_le.1 (Poly.fresnel_accurate t).2).1
  have b1 := cenY_ge (t := t) (by linarith)
  have b2 := (abs_le.1 (Poly.fresnel_accurate t).1).1
  have h3 : 5 / 10 ^ 5 ≤ min t (1 / 2) := le_min ht (by norm_num)
  obtain ⟨n, hn⟩ : ∃ n, n = min t (1 / 2) := ⟨_, rfl⟩
  rw [← hn] at a1 h3
  have := radius_num (A := ccA k s) (B := ccB k s) ht hc rfl
    (by rw [hA, ← hn]; refine mul_le_mul_of_nonneg_left ?_ hc.le; norm_num at a1 a2 h3 ⊢; linarith)
    (by rw [hB]; refine mul_le_mul_of_nonneg_left ?_ hc.le; norm_num at b1 b2 ⊢; linarith) hB0
  rw [← hi] at this
  unfold ccR
  exact lt_sqrt_of_sq_lt this

end Spec.Dom
