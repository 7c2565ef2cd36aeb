import Verif.Lemmas.CompareLSL

/-!
# Reeds-Shepp words that replace Dubins words: a left and a right turn
-/

noncomputable section

namespace Spec

open SF Real

/-- Back on the left circle, right by a quarter turn, straight and right. -/
theorem LSR_turn1 {t p q d D L : ℝ} (hD : 2 ≤ D) (h1 : D * cos d = p) (h2 : D * sin d = 2)
    (ht : π / 2 + d ≤ t) (ht2 : t ≤ 3 * π / 2 + d) (hq : d ≤ q) (hq2 : q ≤ π + d)
    (hL : 2 * π - t + D - 2 + q ≤ L) : Beaten [(1, t), (0, p), (-1, q)] L := by
  apply Beaten.ccsc (e := 1) (f := -1) (s := -1) (t := 3 * π / 2 + d - t) (u := D - 2) (v := q - d) one_sign neg_one_sign
    neg_one_sign ⟨by linarith, by linarith⟩ (by linarith) ⟨by linarith, by linarith⟩ _ (by linarith)
  refine SameEnd.right (end_LSR0 t p q) (end_LRSR (h1 := -d - 3 * π / 2) (h2 := -d - 2 * π) (h3 := -q - 2 * π) (by ring)
    (by ring) (by ring)) ?_ ?_ (full_turn (-q))
  · rw [sin_three_half, cos_sub_two_pi, cos_neg]
    linear_combination -h1
  · rw [cos_three_half, sin_sub_two_pi, sin_neg]
    linear_combination h2

/-- Left, back right by a quarter turn, straight back and back right. -/
theorem LSR_turn2 {t p q d D L : ℝ} (hD : 2 ≤ D) (h1 : D * cos d = p) (h2 : D * sin d = 2) (hd : 0 ≤ d)
    (ht : 3 * π / 2 + d ≤ t) (ht2 : t ≤ 2 * π) (hq : d ≤ q) (hq2 : q ≤ π + d)
    (hL : t + D - 2 - q ≤ L) : Beaten [(1, t), (0, p), (-1, q)] L := by
  have hpi := pi_pos
  apply Beaten.ccsc (e := 1) (f := -1) (s := 1) (t := t - 3 * π / 2 - d) (u := D - 2) (v := π + d - q) one_sign neg_one_sign
    one_sign ⟨by linarith, by linarith⟩ (by linarith) ⟨by linarith, by linarith⟩ _ (by linarith)
  refine SameEnd.right (end_LSR0 t p q) (end_LRSR (h1 := -d - 3 * π / 2) (h2 := -d - π) (h3 := -q) (by ring)
    (by ring) (by ring)) ?_ ?_ (AngleEq.refl _)
  · rw [sin_three_half, cos_sub_pi, cos_neg]
    linear_combination -h1
  · rw [cos_three_half, sin_sub_pi, sin_neg]
    linear_combination h2

/-- The left circle at the end instead of the right one. -/
theorem LSR_LSL {t p q n D : ℝ} (h1 : D * cos n = p + 2 * sin q) (h2 : D * sin n = 2 - 2 * cos q) :
    SameEnd [(1, t), (0, p), (-1, q)] [(1, t - n), (0, D), (1, n - q)] := by
  refine SameEnd.left ((end_LSR0 t p q).trans (onR_onL _ _ _)) (end_LSL (h1 := -n) (h3 := -q) (by ring) (by ring)) ?_ ?_ (AngleEq.refl _)
  · rw [sin_neg, cos_neg]; linear_combination -h1
  · rw [sin_neg, cos_neg]; linear_combination h2

theorem LSR_RSR {t p q n D : ℝ} (h1 : D * cos n = p + 2 * sin t) (h2 : D * sin n = 2 - 2 * cos t) :
    SameEnd [(1, t), (0, p), (-1, q)] [(-1, 2 * π - t + n), (0, D), (-1, q - n)] := by
  refine SameEnd.right (end_LSR0 t p q) (end_RSR (h1 := -n - 2 * π) (h3 := -q - 2 * π) (by ring) (by ring)) ?_ ?_ (full_turn _)
  · rw [sin_neg, cos_sub_two_pi, cos_neg]; linear_combination -h1
  · rw [cos_neg, sin_sub_two_pi, sin_neg]; linear_combination h2

/-- The line between the circles of the left turns. -/
theorem left_line {p q : ℝ} (hp : 0 ≤ p) (hq : 0 ≤ q) (hq2 : q ≤ π / 2) : ∃ n D, 0 ≤ D ∧ 0 ≤ n ∧ 2 * n ≤ q ∧
    D * cos n = p + 2 * sin q ∧ D * sin n = 2 - 2 * cos q ∧ (D = 0 → n = 0) := by
  have hpi := pi_pos
  have hs0 : 0 ≤ sin q := sin_nonneg_of_nonneg_of_le_pi hq (by linarith)
  have hc1 := cos_le_one q
  obtain ⟨n, n0, n1, e1, e2⟩ := polar_c (show 0 ≤ p + 2 * sin q by positivity) (show 0 ≤ 2 - 2 * cos q by linarith)
  obtain ⟨D, hD⟩ : ∃ D, D = √((p + 2 * sin q) ^ 2 + (2 - 2 * cos q) ^ 2) := ⟨_, rfl⟩
  rw [← hD] at e1 e2
  have hD0 : 0 ≤ D := by rw [hD]; positivity
  rcases hD0.eq_or_lt with h | h
  · exact ⟨0, D, hD0, le_rfl, by linarith, by rw [← h] at e1 ⊢; linarith, by rw [← h] at e2 ⊢; linarith, fun _ => rfl⟩
  · refine ⟨n, D, hD0, n0, ?_, e1.symm, e2.symm, fun h' => absurd h' h.ne'⟩
    have hq' : q = 2 * (q / 2) := by ring
    have key : D * sin (q / 2 - n) = p * sin (q / 2) := by
      rw [sin_sub]
      have a1 : sin q = 2 * sin (q / 2) * cos (q / 2) := by rw [← sin_two_mul, ← hq']
      have a2 : cos q = 1 - 2 * sin (q / 2) ^ 2 := by
        rw [show cos q = cos (2 * (q / 2)) by rw [← hq'], cos_two_mul]; linear_combination 2 * sin_sq_add_cos_sq (q / 2)
      rw [a1] at e1; rw [a2] at e2
      linear_combination -sin (q / 2) * e1 + cos (q / 2) * e2
    have h1 : 0 ≤ sin (q / 2 - n) := by
      have h2 : 0 ≤ sin (q / 2) := sin_nonneg_of_nonneg_of_le_pi (by linarith) (by linarith)
      by_contra hc
      nlinarith [mul_nonneg hp h2]
    by_contra hc
    have := sin_neg_of_neg_of_neg_pi_lt (show q / 2 - n < 0 by linarith) (by linarith)
    linarith

theorem le_of_sin_le {a b : ℝ} (ha : a ≤ π / 2) (hb : 0 ≤ b) (h : sin a ≤ sin b) : a ≤ b := by
  by_contra hc
  push Not at hc
  have := sin_lt_sin_of_lt_of_le_pi_div_two (by linarith [pi_pos]) ha hc
  linarith

theorem arc_excess {p D g k : ℝ} (hp : 0 ≤ p) (hg : g ≤ π / 2) (hD : D = 4 * sin g) (hk : 0 ≤ k) (hkg : k ≤ g)
    (h : p ^ 2 = D ^ 2 - 4 * (D * sin k)) : 2 * (g - k) ≤ p := by
  have hpi := pi_pos
  obtain ⟨x, hx⟩ : ∃ x, x = (g - k) / 2 := ⟨_, rfl⟩
  have x0 : 0 ≤ x := by rw [hx]; linarith
  have x1 : x ≤ 4 / 5 := by rw [hx]; linarith [Real.pi_lt_d2]
  have hk' : k = g - 2 * x := by rw [hx]; ring
  have h1 : p ^ 2 = 16 * (2 * sin x ^ 2 + 2 * sin x * sin (g - x) * cos g) := by
    rw [h, hD, hk', sin_sub g x, sin_sub g, sin_two_mul, cos_two_mul]
    linear_combination (32 * sin x ^ 2) * sin_sq_add_cos_sq g - 32 * sin g ^ 2 * sin_sq_add_cos_sq x
  have hg0 : 0 ≤ cos g := cos_nonneg_of_neg_pi_div_two_le_of_le (by linarith) hg
  have hs0 : 0 ≤ sin x := sin_nonneg_of_nonneg_of_le_pi x0 (by linarith [pi_gt_three])
  have hs1 : 0 ≤ sin (g - x) := sin_nonneg_of_nonneg_of_le_pi (by linarith) (by linarith)
  have h2 : 32 * sin x ^ 2 ≤ p ^ 2 := by
    have : 0 ≤ sin x * sin (g - x) * cos g := by positivity
    linarith
  have h3 : 21 / 25 * x ≤ sin x := by
    rcases x0.eq_or_lt with h | h
    · rw [← h]; simp
    · have h4 := sin_gt_sub_cube h
      have h5 : x ^ 2 ≤ 16 / 25 := by nlinarith
      have h6 : x * x ^ 2 ≤ x * (16 / 25) := mul_le_mul_of_nonneg_left h5 x0
      linarith [show x ^ 3 = x * x ^ 2 by ring]
  rw [show 2 * (g - k) = 4 * x by rw [hx]; ring]
  refine (sq_le_sq₀ (by positivity) hp).1 ?_
  nlinarith

theorem two_sin_le {q : ℝ} (hq : 0 ≤ q) : 2 * sin q ≤ q + 19 / 20 := by
  by_cases h : q ≤ 19 / 20
  · linarith [sin_le hq]
  by_cases h' : 21 / 20 ≤ q
  · linarith [sin_le_one q]
  have hpi := Real.pi_gt_d2
  have hpi2 := Real.pi_lt_d2
  have h1 := Real.cos_le_one_sub_mul_cos_sq (x := π / 2 - q) (by rw [abs_le]; constructor <;> linarith)
  rw [cos_pi_div_two_sub] at h1
  have h2 : (1:ℝ) / 5 ≤ 2 / π ^ 2 := by
    rw [div_le_div_iff₀ (by norm_num) (by positivity)]; nlinarith
  have h3 : (27:ℝ) / 100 ≤ (π / 2 - q) ^ 2 := by nlinarith
  have h4 : (1:ℝ) / 5 * (27 / 100) ≤ 2 / π ^ 2 * (π / 2 - q) ^ 2 := mul_le_mul h2 h3 (by norm_num) (by positivity)
  linarith

/-- Right, straight, right, for a short right turn at the end. -/
theorem LSR_by_RSR {t p q : ℝ} (hp : 2 ≤ p) (ht : 3 * π / 2 ≤ t) (ht2 : t ≤ 2 * π) (hq : 0 ≤ q) (hq2 : q ≤ π / 2)
    (h : 2 * cos q - 2 * cos (t - q) ≤ p * sin q) : Beaten [(1, t), (0, p), (-1, q)] (t + p + q) := by
  have hpi := pi_gt_three
  have hst := neg_one_le_sin t
  have hst0 : sin t ≤ 0 := by
    have := sin_nonneg_of_nonneg_of_le_pi (show 0 ≤ 2 * π - t by linarith) (by linarith)
    rw [sin_two_pi_sub] at this; linarith
  have hct0 : 0 ≤ cos t := by
    have := cos_nonneg_of_neg_pi_div_two_le_of_le (show -(π / 2) ≤ 2 * π - t by linarith) (by linarith)
    rwa [cos_two_pi_sub] at this
  have hct := cos_le_one t
  have hX : 0 ≤ p + 2 * sin t := by linarith
  have hY : 0 ≤ 2 - 2 * cos t := by linarith
  obtain ⟨m, m0, m1, g1, g2⟩ := polar_c hX hY
  obtain ⟨E, hE⟩ : ∃ E, E = √((p + 2 * sin t) ^ 2 + (2 - 2 * cos t) ^ 2) := ⟨_, rfl⟩
  rw [← hE] at g1 g2
  have hE0 : 0 ≤ E := by rw [hE]; positivity
  have hEsq : E ^ 2 = (p + 2 * sin t) ^ 2 + (2 - 2 * cos t) ^ 2 := by rw [hE, sq_sqrt (by positivity)]
  have hE1 : E ≤ p + 2 := by
    refine (sq_le_sq₀ hE0 (by positivity)).1 ?_
    rw [hEsq]
    have b1 : (p + 2 * sin t) ^ 2 ≤ p ^ 2 := by apply pow_le_pow_left₀ hX; linarith
    have b2 : (2 - 2 * cos t) ^ 2 ≤ 2 ^ 2 := by apply pow_le_pow_left₀ hY; linarith
    nlinarith
  have hE2 : 0 < E := by
    rcases hE0.eq_or_lt with h0 | h0
    · exfalso
      rw [← h0, zero_mul] at g1 g2
      have := sin_sq_add_cos_sq t
      nlinarith
    · exact h0
  have hm : m ≤ q := by
    have h1 : 0 ≤ E * sin (q - m) := by
      have e : E * sin (q - m) = p * sin q - 2 * cos q + 2 * cos (t - q) := by
        rw [sin_sub, cos_sub]; linear_combination -sin q * g1 + cos q * g2
      rw [e]; linarith
    have h0 : 0 ≤ sin (q - m) := by
      by_contra hc
      push Not at hc
      linarith [mul_neg_of_pos_of_neg hE2 hc]
    by_contra hc
    have := sin_neg_of_neg_of_neg_pi_lt (show q - m < 0 by linarith) (by linarith)
    linarith
  apply Beaten.csc (e := -1) (f := -1) (s := 1) (t := 2 * π - t + m) (u := E) (v := q - m) neg_one_sign neg_one_sign one_sign
    ⟨by linarith, by linarith⟩ hE0 ⟨by linarith, by linarith⟩ _ (by linarith)
  simpa only [one_mul] using LSR_RSR g1.symm g2.symm

/-- Right, straight, left, for a short turn back at the end. -/
theorem LSL_by_RSL {t D k d L : ℝ} (hD : 4 ≤ D) (ht : 3 * π / 2 ≤ t) (ht2 : t ≤ 2 * π) (hk : 0 ≤ k) (hk2 : k ≤ π / 6)
    (h : D * sin k < 2 - 2 * cos (t - k)) (hL : 2 * π - t + π - k + D ≤ L) (hd : d = -k) :
    Beaten [(1, t), (0, D), (1, d)] L := by
  subst hd
  have hpi := pi_gt_three
  obtain ⟨j, r, r0, r1, j0, j1, g1, g2⟩ := cross_angle hD (show 0 ≤ 2 * π - t by linarith) (by linarith)
  rw [sin_two_pi_sub] at g1
  rw [cos_two_pi_sub] at g2
  have hkj : k ≤ j := by
    by_contra hc
    push Not at hc
    have a1 : r * sin (k - j) + 2 * cos (k - j) < 2 := by
      have e : r * sin (k - j) + 2 * cos (k - j) = D * sin k + 2 * cos (t - k) := by
        rw [sin_sub, cos_sub, cos_sub]
        linear_combination sin k * g1 + cos k * g2
      rw [e]; linarith
    have a2 : 0 < r * cos (k - j) - 2 * sin (k - j) := by
      have e : r * cos (k - j) - 2 * sin (k - j) = (D + 2 * sin t) * cos k - 2 * (cos t * sin k) := by
        rw [sin_sub, cos_sub]
        linear_combination cos k * g1 - sin k * g2
      rw [e]
      have c1 : 4 / 5 ≤ cos k := by
        have h1 := cos_le_cos_of_nonneg_of_le_pi hk (by linarith) hk2
        rw [cos_pi_div_six] at h1
        have : (8:ℝ) / 5 ≤ √3 := by apply Real.le_sqrt_of_sq_le; norm_num
        linarith
      have c2 : sin k ≤ 1 / 2 := by
        have := sin_le_sin_of_le_of_le_pi_div_two (by linarith) (by linarith) hk2
        rwa [sin_pi_div_six] at this
      have c3 : 0 ≤ sin k := sin_nonneg_of_nonneg_of_le_pi hk (by linarith)
      have c4 : cos t * sin k ≤ 1 / 2 := by nlinarith [cos_le_one t]
      have c5 : 2 * cos k ≤ (D + 2 * sin t) * cos k :=
        mul_le_mul_of_nonneg_right (by linarith [neg_one_le_sin t]) (by linarith)
      linarith
    have m0 : 0 < sin (k - j) := sin_pos_of_pos_of_lt_pi (by linarith) (by linarith)
    have m1 : 0 < cos (k - j) := cos_pos_of_mem_Ioo ⟨by linarith, by linarith⟩
    have m2 := cos_le_one (k - j)
    have m3 := sin_sq_add_cos_sq (k - j)
    nlinarith [mul_pos m0 a2, mul_pos m1 (sub_pos.2 a1)]
  have hrs := LSL_RSL (t := t) (q := -k) (show r * cos j + 2 * sin j = D + 2 * sin t by linarith) g2
  apply Beaten.csc (e := -1) (f := 1) (s := 1) (t := 2 * π - t + j) (u := r) (v := -k + j) neg_one_sign one_sign one_sign
    ⟨by linarith, by linarith⟩ r0 ⟨by linarith, by linarith⟩ _ (by linarith)
  simpa only [one_mul] using hrs

/-- A long left turn and a short right turn. -/
theorem LSR_short {t p q : ℝ} (hp : 0 ≤ p) (ht : π ≤ t) (ht2 : t ≤ 2 * π) (hq : 0 ≤ q) (hq2 : q ≤ π / 2)
    (hpq : p * sin q ≤ 2 * cos q) : Beaten [(1, t), (0, p), (-1, q)] (t + p + q) := by
  have hpi := pi_gt_three
  have hpi2 := Real.pi_lt_d2
  have hsc := sin_sq_add_cos_sq q
  have hs0 : 0 ≤ sin q := sin_nonneg_of_nonneg_of_le_pi hq (by linarith)
  have hc0 : 0 ≤ cos q := cos_nonneg_of_neg_pi_div_two_le_of_le (by linarith) hq2
  have hc1 := cos_le_one q
  obtain ⟨n, D, D0, n0, nq, e1, e2, hDn⟩ := left_line hp hq hq2
  have hD2 : D ^ 2 = p ^ 2 + 4 * (p * sin q) + 8 * (1 - cos q) := by
    have := sin_sq_add_cos_sq n
    linear_combination -D ^ 2 * this + (D * cos n + p + 2 * sin q) * e1 + (D * sin n + 2 - 2 * cos q) * e2 + 4 * hsc
  obtain ⟨k, hk⟩ : ∃ k, k = q - n := ⟨_, rfl⟩
  have k0 : 0 ≤ k := by rw [hk]; linarith
  have k1 : k ≤ π / 2 := by rw [hk]; linarith
  have hDk : D * sin k = p * sin q + 2 - 2 * cos q := by
    rw [hk, sin_sub]; linear_combination sin q * e1 - cos q * e2 + 2 * hsc
  have hDpq : D ≤ p + 2 * q := by
    refine (sq_le_sq₀ D0 (by positivity)).1 ?_
    have h1 := one_sub_sq_div_two_le_cos (x := q)
    have h2 := mul_le_mul_of_nonneg_left (sin_le hq) hp
    rw [hD2]; nlinarith
  have hsame := LSR_LSL (t := t) e1 e2
  rw [show n - q = -k by rw [hk]; ring] at hsame
  rcases le_total D 4 with h4 | h4
  · obtain ⟨g, g0, g1, hg⟩ := near_angle D0 h4
    have hng : n ≤ g := by
      apply le_of_sin_le (by linarith) g0
      rcases D0.eq_or_lt with h | h
      · rw [hDn h.symm, sin_zero]
        exact sin_nonneg_of_nonneg_of_le_pi g0 (by linarith)
      · have h3 : D * sin n ≤ D * sin g := by
          rw [e2]
          have : D * sin g = D ^ 2 / 4 := by rw [hg]; ring
          rw [this, hD2]
          nlinarith [mul_nonneg hp hs0]
        exact le_of_mul_le_mul_left h3 h
    by_cases c : π + g ≤ t - n
    · exact (LSL_near2 g0 g1 hg c (by linarith) (by linarith) le_rfl).via hsame (by linarith)
    · rcases le_total k g with hkg | hkg
      · have := arc_excess hp g1 hg k0 hkg (by rw [hDk, hD2]; ring)
        exact (LSL_near1 g0 g1 hg (by linarith) (by linarith) (s' := 1) (v := g - k) one_sign (by linarith) (by ring) le_rfl).via
          hsame (by linarith)
      · exact (LSL_near1 g0 g1 hg (by linarith) (by linarith) (s' := -1) (v := k - g) neg_one_sign (by linarith) (by ring) le_rfl).via
          hsame (by linarith)
  · obtain ⟨d, s, s0, d0, d1, f1, f2, f3⟩ := far_angle h4
    have hp8 : 8 ≤ p ^ 2 := by
      have : (4:ℝ) ^ 2 ≤ D ^ 2 := pow_le_pow_left₀ (by norm_num) h4 2
      linarith
    have hp2 : 2 ≤ p := by
      refine (sq_le_sq₀ (by norm_num) hp).1 ?_
      linarith
    have hkd : k ≤ d := by
      apply le_of_sin_le k1 d0
      have : D * sin k ≤ D * sin d := by rw [hDk, f2]; linarith
      exact le_of_mul_le_mul_left this (by linarith)
    by_cases c : t - n ≤ 3 * π / 2 + d
    · have hs : 2 + s ≤ p + 2 * sin q := by
        refine (sq_le_sq₀ (by positivity) (by positivity)).1 ?_
        rw [f3, hD2]
        have : 0 ≤ cos q * (2 - cos q) := mul_nonneg hc0 (by linarith)
        nlinarith
      have hsin := two_sin_le hq
      exact (LSL_far1 s0 f1 f2 (by linarith) c (by linarith) (by linarith) le_rfl).via hsame (by linarith)
    · by_cases c2 : 2 * cos q - 2 * cos (t - q) ≤ p * sin q
      · exact LSR_by_RSR hp2 (by linarith) ht2 hq hq2 c2
      · refine (LSL_by_RSL h4 (by linarith) (by linarith) k0 (by linarith) ?_ le_rfl rfl).via hsame (by linarith)
        rw [show t - n - k = t - q by rw [hk]; ring, hDk]; linarith

end Spec
