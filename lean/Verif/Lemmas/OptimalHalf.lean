import Verif.Lemmas.OptimalNormal

/-!
# Forward paths with any number of pieces: three turns with a middle turn of exactly half a turn
-/

noncomputable section

namespace Spec

open SF Real Filter Topology

/-- Right, straight, right in place of left, right by half a turn, left. -/
theorem half_RSR {t q : ℝ} (ht : 0 < t) (ht2 : t < π / 2) (hq : 0 < q) (hq2 : q < π / 2)
    (h1 : 2 ≤ 4 * cos t - 2 * cos (t + q)) (h2 : 2 ≤ 4 * cos q - 2 * cos (t + q)) :
    Csc [(1, t), (-1, π), (1, q)] (t + π + q) := by
  have hpi := pi_pos
  have et := sin_sq_add_cos_sq t
  have eq' := sin_sq_add_cos_sq q
  have ct : cos t < 1 := by
    rw [← cos_zero]; exact cos_lt_cos_of_nonneg_of_le_pi le_rfl (by linarith) ht
  have cq := cos_le_one q
  have hY : 0 < 4 - 2 * cos t - 2 * cos q := by linarith
  obtain ⟨k, k0, k1, g1, g2⟩ := polar_up (X := 2 * sin t - 2 * sin q) hY.le
  obtain ⟨N, hN⟩ : ∃ N, N = √((2 * sin t - 2 * sin q) ^ 2 + (4 - 2 * cos t - 2 * cos q) ^ 2) := ⟨_, rfl⟩
  rw [← hN] at g1 g2
  have hN0 : 0 ≤ N := by rw [hN]; positivity
  have hNp : 0 < N := by
    rcases eq_or_lt_of_le hN0 with h | h
    · rw [← h] at g2; linarith
    · exact h
  have x0 : t ≤ k := by
    by_contra h
    push Not at h
    have e : N * sin (t - k) = 2 + 2 * cos (t + q) - 4 * cos t := by
      rw [sin_sub, cos_add]; linear_combination -sin t * g1 + cos t * g2 + 2 * et
    have := mul_pos hNp (sin_pos_of_pos_of_lt_pi (x := t - k) (by linarith) (by linarith))
    linarith
  have y0 : k + q ≤ π := by
    by_contra h
    push Not at h
    have e : N * sin (k + q - π) = 2 + 2 * cos (t + q) - 4 * cos q := by
      rw [sin_sub_pi, sin_add, cos_add]; linear_combination sin q * g1 + cos q * g2 + 2 * eq'
    have := mul_pos hNp (sin_pos_of_pos_of_lt_pi (x := k + q - π) (by linarith) (by linarith))
    linarith
  have hNl : N ≤ 2 * (t + q) := by
    have s1 := sin_le (x := t / 2) (by linarith)
    have s2 := sin_le (x := q / 2) (by linarith)
    have s3 : 0 ≤ sin (t / 2) := sin_nonneg_of_nonneg_of_le_pi (by linarith) (by linarith)
    have s4 : 0 ≤ sin (q / 2) := sin_nonneg_of_nonneg_of_le_pi (by linarith) (by linarith)
    have : N ≤ 4 * (sin (t / 2) + sin (q / 2)) := by
      rw [hN]; apply Real.sqrt_le_iff.2
      refine ⟨by positivity, ?_⟩
      have a1 : sin t = 2 * sin (t / 2) * cos (t / 2) := by rw [← sin_two_mul]; congr 1; ring
      have a2 : sin q = 2 * sin (q / 2) * cos (q / 2) := by rw [← sin_two_mul]; congr 1; ring
      have a3 : cos t = 1 - 2 * sin (t / 2) ^ 2 := by rw [← cos_two_mul_eq_one_sub]; congr 1; ring
      have a4 : cos q = 1 - 2 * sin (q / 2) ^ 2 := by rw [← cos_two_mul_eq_one_sub]; congr 1; ring
      have b1 := sin_sq_add_cos_sq (t / 2)
      have b2 := sin_sq_add_cos_sq (q / 2)
      have b3 : (2 * sin t - 2 * sin q) ^ 2 + (4 - 2 * cos t - 2 * cos q) ^ 2 = 16 * (sin (t / 2) ^ 2 + sin (q / 2) ^ 2 -
          2 * (sin (t / 2) * sin (q / 2)) * cos (t / 2 + q / 2)) := by
        rw [a1, a2, a3, a4, cos_add]
        linear_combination 16 * sin (t / 2) ^ 2 * b1 + 16 * sin (q / 2) ^ 2 * b2
      rw [b3]
      have := mul_le_mul_of_nonneg_left (neg_one_le_cos (t / 2 + q / 2)) (mul_nonneg s3 s4)
      nlinarith
    linarith
  refine Csc.of neg_one_sign neg_one_sign (t := k - t) (p := N) (q := π - q - k) (by linarith) hN0 (by linarith) ?_ (by linarith)
  refine SameEnd.right ((end_LRL0 t π q).trans (onL_onR _ _ _)) (end_RSR (h1 := -k) (h3 := q - π) (by ring) (by ring)) ?_ ?_
    (AngleEq.refl _)
  · rw [sin_neg, cos_neg, sin_pi, sin_sub_pi]; linear_combination g1
  · rw [cos_neg, sin_neg, cos_pi, cos_sub_pi]; linear_combination -g2

/-- Either right, straight, left is shorter, or the goal is so close that two right turns may be. -/
theorem half_RSL {t q : ℝ} (ht : 0 < t) (ht2 : t < π / 2) (hq : 0 < q) :
    Csc [(1, t), (-1, π), (1, q)] (t + π + q) ∨ (q < π / 2 ∧ 2 ≤ 4 * cos q - 2 * cos (t + q)) := by
  have hpi := pi_pos
  obtain ⟨x, P, x0, P0, hL, g1, g2⟩ := RSL_alt (a := π / 2) ht.le ht2.le le_rfl (by linarith) (by linarith)
  by_cases h : 0 ≤ q - (2 * (π / 2) - t) + x
  · left
    have := LRL_RSL x0 P0 hL g1 g2 h
    rwa [show 2 * (π / 2) = π by ring] at this
  · right
    push Not at h
    rw [show 2 * (π / 2) = π by ring, sin_pi_sub, cos_pi_sub] at *
    obtain ⟨n, hn⟩ : ∃ n, n = π - t - x := ⟨_, rfl⟩
    have hx : x = π - (t + n) := by rw [hn]; ring
    rw [hx, sin_pi_sub, cos_pi_sub] at g1 g2
    have hqn : q < n := by linarith
    have hnpi : n < π := by linarith
    -- the direction of the line in the frame of the first change
    have f1 : P * cos n - 2 * sin n = -2 * sin t := by
      have e1 : cos n = cos (t + n) * cos t + sin (t + n) * sin t := by rw [← cos_sub]; congr 1; ring
      have e2 : sin n = sin (t + n) * cos t - cos (t + n) * sin t := by rw [← sin_sub]; congr 1; ring
      rw [e1, e2]; linear_combination -cos t * g1 - sin t * g2
    have f2 : P * sin n + 2 * cos n = 4 - 2 * cos t := by
      have e1 : cos n = cos (t + n) * cos t + sin (t + n) * sin t := by rw [← cos_sub]; congr 1; ring
      have e2 : sin n = sin (t + n) * cos t - cos (t + n) * sin t := by rw [← sin_sub]; congr 1; ring
      have := sin_sq_add_cos_sq t
      rw [e1, e2]; linear_combination sin t * g1 - cos t * g2 + 4 * this
    obtain ⟨m, hm⟩ : ∃ m, n = 2 * m := ⟨n / 2, by ring⟩
    obtain ⟨d, hd⟩ : ∃ d, n - q = 2 * d := ⟨(n - q) / 2, by ring⟩
    have d0 : 0 < d := by linarith
    have dm : d ≤ m := by linarith
    have sm : 0 < sin m := sin_pos_of_pos_of_lt_pi (by linarith) (by linarith)
    have sd : 0 < sin d := sin_pos_of_pos_of_lt_pi d0 (by linarith)
    have k1 : 2 * sin m ≤ P * cos m := by
      have : 0 ≤ sin m * (P * cos m - 2 * sin m) := by
        have h5 : P * sin n + 2 * cos n - 2 = 2 * (sin m * (P * cos m - 2 * sin m)) := by
          rw [hm, sin_two_mul, cos_two_mul]; linear_combination 4 * sin_sq_add_cos_sq m
        linarith [cos_le_one t]
      have := nonneg_of_mul_nonneg_right this sm
      linarith
    have k2 : sin d ≤ sin m := sin_le_sin_of_le_of_le_pi_div_two (by linarith) (by linarith) dm
    have k3 : cos m ≤ cos d := cos_le_cos_of_nonneg_of_le_pi d0.le (by linarith) dm
    have k4 : 2 * sin d ≤ P * cos d := by linarith [mul_le_mul_of_nonneg_left k3 P0]
    have k5 : 2 ≤ P * sin (n - q) + 2 * cos (n - q) := by
      rw [hd, sin_two_mul, cos_two_mul]
      have := mul_nonneg sd.le (sub_nonneg.2 k4)
      nlinarith [sin_sq_add_cos_sq d]
    have k6 : P * sin (n - q) + 2 * cos (n - q) = 4 * cos q - 2 * cos (t + q) := by
      rw [sin_sub, cos_sub, cos_add]; linear_combination cos q * f2 - sin q * f1
    rw [k6] at k5
    refine ⟨?_, k5⟩
    by_contra hc
    push Not at hc
    have c1 : cos q ≤ 0 := cos_nonpos_of_pi_div_two_le_of_le hc (by linarith)
    have c2 := neg_one_le_cos (t + q)
    have c3 : cos q = 0 := by linarith
    have c4 : cos (t + q) = -1 := by linarith
    have e := sin_sq_add_cos_sq q
    have sq : 0 ≤ sin q := sin_nonneg_of_nonneg_of_le_pi hq.le (by linarith)
    have sq1 : sin q = 1 := by rw [c3] at e; nlinarith
    rw [cos_add, c3, sq1] at c4
    have st : sin t < 1 := by
      rw [← sin_pi_div_two]; exact sin_lt_sin_of_lt_of_le_pi_div_two (by linarith) le_rfl ht2
    linarith

/-- Three turns with half a turn in the middle can be replaced by two turns and a line. -/
theorem half_csc {t q : ℝ} (ht : 0 < t) (hq : 0 < q) : Csc [(1, t), (-1, π), (1, q)] (t + π + q) := by
  have hpi := pi_pos
  have rev : Csc [(1, q), (-1, π), (1, t)] (q + π + t) → Csc [(1, t), (-1, π), (1, q)] (t + π + q) := by
    intro h
    have := h.reverse (unitW3 one_sign (Or.inr neg_one_sign) one_sign)
    simp only [List.reverse_cons, List.reverse_nil, List.nil_append, List.cons_append] at this
    exact this.via (SameEnd.refl _) (by linarith)
  by_cases c1 : t < π / 2
  · rcases half_RSL ht c1 hq with h | ⟨h1, h2⟩
    · exact h
    · rcases half_RSL hq h1 ht with h | ⟨-, h4⟩
      · exact rev h
      · exact half_RSR ht c1 hq h1 (by rw [add_comm t q]; exact h4) h2
  · by_cases c2 : q < π / 2
    · rcases half_RSL hq c2 ht with h | ⟨h1, -⟩
      · exact rev h
      · exact absurd h1 c1
    · have := LRL_LSL (a := π / 2) (t := t) (q := q) (by linarith) (by linarith) (by linarith) (by linarith)
      rwa [show 2 * (π / 2) = π by ring] at this

end Spec
