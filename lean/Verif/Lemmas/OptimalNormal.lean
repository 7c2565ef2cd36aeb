import Verif.Lemmas.OptimalCcc

/-!
# Forward paths with any number of pieces: three turns whose last turn is longer than the middle one
-/

noncomputable section

namespace Spec

open SF Real Filter Topology

theorem end_RLR {x y h0 h1 h2 h3 a b c : ℝ} (ea : a = h0 - h1) (eb : b = h2 - h1) (ec : c = h2 - h3) :
    uEnd [(-1, a), (1, b), (-1, c)] (onL x y h0) =
      onR (x + 2 * sin h0 - 2 * sin h1 + 2 * sin h2) (y - 2 * cos h0 + 2 * cos h1 - 2 * cos h2) h3 := by
  simp only [uEnd]; rw [onL_onR, step_R ea, onR_onL, step_L eb, onL_onR, step_R ec]

theorem end_LRL0 (t p q : ℝ) :
    uEnd [(1, t), (-1, p), (1, q)] (onL 0 0 (-t)) = onL (2 * sin p) (-2 + 2 * cos p) (q - p) := by
  rw [end_LRL (h1 := 0) (h2 := -p) (h3 := q - p) (by ring) (by ring) (by ring)]; simp

/-- Both outer turns are at least half of the middle one: two turns and a line are shorter. -/
theorem LRL_LSL {t a q : ℝ} (ha : 0 ≤ a) (ha2 : a ≤ π) (ht : a ≤ t) (hq : a ≤ q) :
    Csc [(1, t), (-1, 2 * a), (1, q)] (t + 2 * a + q) := by
  have hs : 0 ≤ sin a := sin_nonneg_of_nonneg_of_le_pi ha ha2
  refine Csc.of one_sign one_sign (t := t - a) (p := 4 * sin a) (q := q - a) (by linarith) (by positivity) (by linarith) ?_
    (by linarith [sin_le ha])
  refine SameEnd.left (end_LRL0 t (2 * a) q) (end_LSL (h1 := -a) (h3 := q - 2 * a) (by ring) (by ring)) ?_ ?_ (AngleEq.refl _)
  · rw [cos_neg, sin_two_mul]; ring
  · rw [sin_neg, cos_two_mul]; linear_combination 4 * sin_sq_add_cos_sq a

theorem alt_line {a d P : ℝ} (ha : π / 2 ≤ a) (hd : d ≤ π / 2) (s0 : 0 ≤ sin a) (s1 : sin a ≤ 1) (sds : sin d ≤ sin a)
    (hP2 : P ^ 2 = 16 * (sin a * (sin a - sin d))) : P ≤ 4 * (a - d) := by
  apply le_of_sq_le' (by linarith)
  rw [hP2]
  have k1 : sin a * (sin a - sin d) ≤ 1 * (sin a - sin d) := mul_le_mul_of_nonneg_right s1 (by linarith)
  have k2 : 1 - sin d ≤ (π / 2 - d) ^ 2 / 2 := by
    rw [← cos_pi_div_two_sub]; linarith [one_sub_sq_div_two_le_cos (x := π / 2 - d)]
  have k3 : (π / 2 - d) ^ 2 ≤ (a - d) ^ 2 := pow_le_pow_left₀ (by linarith) (by linarith) 2
  have k4 : (4 * (a - d)) ^ 2 = 16 * (a - d) ^ 2 := by ring
  rw [k4]
  linarith [sq_nonneg (π / 2 - d)]

/-- The right turn, the line and the left turn that replace three turns: `x` is the right turn, `P` the line. -/
theorem RSL_alt {t a : ℝ} (ht : 0 ≤ t) (hta : t ≤ a) (ha : π / 2 ≤ a) (ha2 : a < π) (hd : a - t ≤ π - a) :
    ∃ x P : ℝ, 0 ≤ x ∧ 0 ≤ P ∧ 2 * x + P ≤ 4 * a ∧ P * cos x + 2 * sin x = 2 * (sin t + sin (2 * a - t)) ∧
      -P * sin x + 2 * cos x = 2 * (1 + cos (2 * a - t) - cos t) := by
  have hpi := pi_pos
  obtain ⟨d, rfl⟩ : ∃ d, t = a - d := ⟨a - t, by ring⟩
  have d0 : 0 ≤ d := by linarith
  have d1 : d ≤ π - a := by linarith
  have s0 : 0 < sin a := sin_pos_of_pos_of_lt_pi (by linarith) ha2
  have sd0 : 0 ≤ sin d := sin_nonneg_of_nonneg_of_le_pi d0 (by linarith)
  have cd0 : 0 ≤ cos d := cos_nonneg_of_neg_pi_div_two_le_of_le (by linarith) (by linarith)
  have sds : sin d ≤ sin a := by
    rw [← sin_pi_sub a]
    exact sin_le_sin_of_le_of_le_pi_div_two (by linarith) (by linarith) d1
  have s1 := sin_le_one a
  have e1 := sin_sq_add_cos_sq d
  have eU : 2 * (sin (a - d) + sin (2 * a - (a - d))) = 4 * sin a * cos d := by
    rw [show 2 * a - (a - d) = a + d by ring, sin_add, sin_sub]; ring
  have eW : 2 * (1 + cos (2 * a - (a - d)) - cos (a - d)) = 2 - 4 * sin a * sin d := by
    rw [show 2 * a - (a - d) = a + d by ring, cos_add, cos_sub]; ring
  rw [eU, eW]
  obtain ⟨U, hU⟩ : ∃ U, U = 4 * sin a * cos d := ⟨_, rfl⟩
  obtain ⟨W, hW⟩ : ∃ W, W = 2 - 4 * sin a * sin d := ⟨_, rfl⟩
  obtain ⟨P, hP⟩ : ∃ P, P = √(16 * (sin a * (sin a - sin d))) := ⟨_, rfl⟩
  obtain ⟨R, hR⟩ : ∃ R, R = √(U ^ 2 + W ^ 2) := ⟨_, rfl⟩
  have hU0 : 0 ≤ U := by rw [hU]; positivity
  have hW2 : W ≤ 2 := by rw [hW]; linarith [mul_nonneg s0.le sd0]
  have hss : 0 ≤ sin a * (sin a - sin d) := mul_nonneg s0.le (by linarith)
  have hP0 : 0 ≤ P := by rw [hP]; positivity
  have hP2 : P ^ 2 = 16 * (sin a * (sin a - sin d)) := by rw [hP]; exact sq_sqrt (by positivity)
  have hR2 : R ^ 2 = U ^ 2 + W ^ 2 := by rw [hR]; exact sq_sqrt (by positivity)
  have hRP : R ^ 2 = P ^ 2 + 4 := by rw [hR2, hP2, hU, hW]; linear_combination 16 * sin a ^ 2 * e1
  have hR0 : 0 ≤ R := by rw [hR]; positivity
  have hRpos : 2 ≤ R := by nlinarith
  have hRp : 0 < R := by linarith
  have r1 : 2 / R ≤ 1 := by rw [div_le_one hRp]; exact hRpos
  have r2 : -1 ≤ W / R := by
    rw [le_div_iff₀ hRp]
    by_contra h; push Not at h; nlinarith
  have r3 : W / R ≤ 2 / R := div_le_div_of_nonneg_right hW2 hRp.le
  obtain ⟨x, hx⟩ : ∃ x, x = arcsin (2 / R) - arcsin (W / R) := ⟨_, rfl⟩
  have hx0 : 0 ≤ x := by rw [hx]; linarith [monotone_arcsin r3]
  have hxpi : x ≤ π := by
    rw [hx]; linarith [arcsin_le_pi_div_two (2 / R), neg_pi_div_two_le_arcsin (W / R)]
  have c1 : cos (arcsin (2 / R)) = P / R := by
    rw [cos_arcsin, show 1 - (2 / R) ^ 2 = (P / R) ^ 2 by field_simp; linarith]
    exact sqrt_sq (by positivity)
  have c2 : cos (arcsin (W / R)) = U / R := by
    rw [cos_arcsin, show 1 - (W / R) ^ 2 = (U / R) ^ 2 by field_simp; linarith]
    exact sqrt_sq (by positivity)
  have sx : sin x = (2 * U - P * W) / R ^ 2 := by
    rw [hx, sin_sub, c1, c2, sin_arcsin (by linarith [div_pos two_pos hRp]) r1, sin_arcsin r2 (by linarith)]
    field_simp
  have cx : cos x = (P * U + 2 * W) / R ^ 2 := by
    rw [hx, cos_sub, c1, c2, sin_arcsin (by linarith [div_pos two_pos hRp]) r1, sin_arcsin r2 (by linarith)]
    field_simp
  have g1 : P * cos x + 2 * sin x = U := by
    rw [sx, cx]; field_simp; rw [hRP]; ring
  have g2 : -P * sin x + 2 * cos x = W := by
    rw [sx, cx]; field_simp; rw [hRP]; ring
  have hx2 : x ≤ 2 * d := by
    by_contra h
    push Not at h
    have k1 : -P * sin (x - 2 * d) + 2 * cos (x - 2 * d) = 2 + 4 * sin d * (sin a - sin d) := by
      have : -P * sin (x - 2 * d) + 2 * cos (x - 2 * d) = U * sin (2 * d) + W * cos (2 * d) := by
        rw [sin_sub, cos_sub]; linear_combination sin (2 * d) * g1 + cos (2 * d) * g2
      rw [this, hU, hW, sin_two_mul, cos_two_mul]
      linear_combination 4 * e1
    have k2 : 0 ≤ sin (x - 2 * d) := sin_nonneg_of_nonneg_of_le_pi (by linarith) (by linarith)
    have k3 : cos (x - 2 * d) < 1 := by
      rw [← cos_zero]
      exact cos_lt_cos_of_nonneg_of_le_pi le_rfl (by linarith) (by linarith)
    have k4 := mul_nonneg hP0 k2
    have k5 := mul_nonneg sd0 (sub_nonneg.2 sds)
    nlinarith
  have hPa := alt_line ha (by linarith) s0.le s1 sds hP2
  exact ⟨x, P, hx0, hP0, by linarith, by rw [g1, hU], by rw [g2, hW]⟩

theorem LRL_RSL {t a q x P : ℝ} (hx : 0 ≤ x) (hP : 0 ≤ P) (hL : 2 * x + P ≤ 4 * a)
    (g1 : P * cos x + 2 * sin x = 2 * (sin t + sin (2 * a - t)))
    (g2 : -P * sin x + 2 * cos x = 2 * (1 + cos (2 * a - t) - cos t)) (hq : 0 ≤ q - (2 * a - t) + x) :
    Csc [(1, t), (-1, 2 * a), (1, q)] (t + 2 * a + q) := by
  refine Csc.of neg_one_sign one_sign (t := x) (p := P) (q := q - (2 * a - t) + x) hx hP hq ?_ (by linarith)
  have ea : sin (2 * a) = sin (2 * a - t) * cos t + cos (2 * a - t) * sin t := by rw [← sin_add]; congr 1; ring
  have eb : cos (2 * a) = cos (2 * a - t) * cos t - sin (2 * a - t) * sin t := by rw [← cos_add]; congr 1; ring
  have et := sin_sq_add_cos_sq t
  refine SameEnd.left (end_LRL0 t (2 * a) q) (end_RSL (h1 := -(t + x)) (h3 := q - 2 * a) (by ring) (by ring)) ?_ ?_
    (AngleEq.refl _)
  · rw [sin_neg, sin_neg, cos_neg, sin_add, cos_add, ea]
    linear_combination -cos t * g1 - sin t * g2
  · rw [sin_neg, cos_neg, cos_neg, sin_add, cos_add, eb]
    linear_combination -cos t * g2 + sin t * g1 + 2 * et

/-- The last turn is longer than the middle one and the first one is short: right, left, right is shorter. -/
theorem LRL_RLR {t p q : ℝ} (ht : 0 < t) (hp2 : p < 2 * π) (htp : t < p - π) (hpq : p ≤ q) (hq : q < 2 * π) :
    ∃ t' b v : ℝ, 0 ≤ t' ∧ π / 2 ≤ b ∧ b < π ∧ 0 ≤ v ∧ v ≤ 2 * b ∧ t' + 2 * b + v ≤ t + p + q ∧
      SameEnd [(1, t), (-1, p), (1, q)] [(-1, t'), (1, 2 * b), (-1, v)] := by
  have hpi := pi_pos
  obtain ⟨C, hC⟩ : ∃ C, C = p - (q + t) / 2 := ⟨_, rfl⟩
  have C0 : 0 < C := by rw [hC]; linarith
  have C1 : C < π := by rw [hC]; linarith
  obtain ⟨st, hst⟩ : ∃ st, st = sin (t / 2) := ⟨_, rfl⟩
  obtain ⟨sq, hsq⟩ : ∃ sq, sq = sin (q / 2) := ⟨_, rfl⟩
  have st0 : 0 < st := by rw [hst]; exact sin_pos_of_pos_of_lt_pi (by linarith) (by linarith)
  have sq0 : 0 < sq := by rw [hsq]; exact sin_pos_of_pos_of_lt_pi (by linarith) (by linarith)
  have sC : 0 < sin C := sin_pos_of_pos_of_lt_pi C0 C1
  have eC := sin_sq_add_cos_sq C
  obtain ⟨K, K0, K1, g1, g2⟩ := polar_up (X := sq + st * cos C) (Y := st * sin C) (by positivity)
  obtain ⟨M, hM⟩ : ∃ M, M = √((sq + st * cos C) ^ 2 + (st * sin C) ^ 2) := ⟨_, rfl⟩
  rw [← hM] at g1 g2
  have hM2 : M ^ 2 = st ^ 2 + sq ^ 2 + 2 * st * sq * cos C := by
    rw [hM, sq_sqrt (by positivity)]; linear_combination st ^ 2 * eC
  have hM0 : 0 ≤ M := by rw [hM]; positivity
  have hMp : 0 < M := by
    rcases eq_or_lt_of_le hM0 with h | h
    · rw [← h] at g2; simp at g2; rcases g2 with h | h <;> linarith
    · exact h
  -- the circles are close enough
  have hF : M ^ 2 ≤ sin C ^ 2 := by
    have q2 := sin_sq_add_cos_sq (q / 2)
    have f1 : st + sin (p - t / 2) = 2 * sin (p / 2) * cos ((p - t) / 2) := by
      rw [hst]
      have a1 : sin (p - t / 2) = sin (p / 2 + (p - t) / 2) := by congr 1; ring
      have a2 : sin (t / 2) = sin (p / 2 - (p - t) / 2) := by congr 1; ring
      rw [a1, a2, sin_add, sin_sub]; ring
    have f2 : st + sin (q - p + t / 2) = 2 * sin ((q - p + t) / 2) * cos ((q - p) / 2) := by
      rw [hst]
      have a1 : sin (q - p + t / 2) = sin ((q - p + t) / 2 + (q - p) / 2) := by congr 1; ring
      have a2 : sin (t / 2) = sin ((q - p + t) / 2 - (q - p) / 2) := by congr 1; ring
      rw [a1, a2, sin_add, sin_sub]; ring
    have a3 : sin (p - t / 2) = sin C * cos (q / 2) + cos C * sq := by
      rw [hsq, ← sin_add]; congr 1; rw [hC]; ring
    have a4 : sin (q - p + t / 2) = sq * cos C - cos (q / 2) * sin C := by
      rw [hsq, ← sin_sub]; congr 1; rw [hC]; ring
    have f3 : M ^ 2 - sin C ^ 2 = (st + sin (p - t / 2)) * (st + sin (q - p + t / 2)) := by
      rw [a3, a4, hM2]; rw [hsq]; linear_combination sin C ^ 2 * q2 - sin (q / 2) ^ 2 * eC
    have p1 : 0 ≤ sin (p / 2) := sin_nonneg_of_nonneg_of_le_pi (by linarith) (by linarith)
    have p2 : cos ((p - t) / 2) ≤ 0 := cos_nonpos_of_pi_div_two_le_of_le (by linarith) (by linarith)
    have p3 : 0 ≤ sin ((q - p + t) / 2) := sin_nonneg_of_nonneg_of_le_pi (by linarith) (by linarith)
    have p4 : 0 ≤ cos ((q - p) / 2) := cos_nonneg_of_neg_pi_div_two_le_of_le (by linarith) (by linarith)
    rw [f1, f2] at f3
    have := mul_nonneg p3 p4
    have := mul_nonpos_of_nonneg_of_nonpos p1 p2
    nlinarith
  have hMC : M ≤ sin C := le_of_sq_le' sC.le hF
  have hM1 : M ≤ 1 := hMC.trans (sin_le_one C)
  obtain ⟨b, hb⟩ : ∃ b, b = π - arcsin M := ⟨_, rfl⟩
  have hsb : sin b = M := by rw [hb, sin_pi_sub, sin_arcsin (by linarith) hM1]
  have b0 : π / 2 ≤ b := by rw [hb]; linarith [arcsin_le_pi_div_two M]
  have b1 : b < π := by rw [hb]; linarith [arcsin_pos.2 hMp]
  have hbC : π ≤ b + C := by
    rcases lt_or_ge C (π / 2) with h | h
    · have : arcsin M ≤ C := by rw [arcsin_le_iff_le_sin' ⟨by linarith, by linarith⟩]; exact hMC
      linarith
    · linarith
  have hKC : K ≤ C := by
    by_contra h
    push Not at h
    have k1 : M * sin (C - K) = sq * sin C := by
      rw [sin_sub]; linear_combination -sin C * g1 + cos C * g2
    have k2 : sin (C - K) ≤ 0 := by
      have := sin_nonneg_of_nonneg_of_le_pi (x := K - C) (by linarith) (by linarith)
      rw [← neg_sub K C, sin_neg]; linarith
    have := mul_pos sq0 sC
    have := mul_nonpos_of_nonneg_of_nonpos hM0 k2
    linarith
  have hv : q / 2 ≤ b + K := by
    by_contra h
    push Not at h
    have k1 : sin (q / 2) < sin (b + K) := by
      rw [← sin_pi_sub, ← sin_pi_sub (b + K)]
      exact sin_lt_sin_of_lt_of_le_pi_div_two (by linarith) (by linarith) (by linarith)
    rw [sin_add, hsb, ← hsq] at k1
    have k2 : 0 < st * cos C + cos b * sin K := by linarith
    have k3 : M * (st * cos C + cos b * sin K) = st * sin (b + C) := by
      rw [sin_add, hsb]; linear_combination -cos b * g2
    have k4 : sin (b + C) ≤ 0 := by
      have := sin_nonneg_of_nonneg_of_le_pi (x := b + C - π) (by linarith) (by linarith)
      rw [sin_sub_pi] at this; linarith
    have := mul_pos hMp k2
    have := mul_nonpos_of_nonneg_of_nonpos st0.le k4
    linarith
  have hbt : b ≤ (t + q) / 2 := by
    rcases le_total π ((t + q) / 2) with h | h
    · linarith
    · have : π - (t + q) / 2 ≤ arcsin M := by
        rw [le_arcsin_iff_sin_le ⟨by linarith, by linarith⟩ ⟨by linarith, hM1⟩, sin_pi_sub]
        apply le_of_sq_le' hM0
        rw [hM2]
        have k1 : cos ((t + q) / 2) ≤ cos C := cos_le_cos_of_nonneg_of_le_pi C0.le h (by rw [hC]; linarith)
        have k2 : sin ((t + q) / 2) = st * cos (q / 2) + cos (t / 2) * sq := by
          rw [hst, hsq, ← sin_add]; congr 1; ring
        have k3 : cos ((t + q) / 2) = cos (t / 2) * cos (q / 2) - st * sq := by
          rw [hst, hsq, ← cos_add]; congr 1; ring
        have e1 := sin_sq_add_cos_sq (t / 2)
        have e2 := sin_sq_add_cos_sq (q / 2)
        rw [← hst] at e1
        rw [← hsq] at e2
        have k4 : sin ((t + q) / 2) ^ 2 = st ^ 2 + sq ^ 2 + 2 * st * sq * cos ((t + q) / 2) := by
          rw [k2, k3]; linear_combination sq ^ 2 * e1 + st ^ 2 * e2
        rw [k4]
        have := mul_le_mul_of_nonneg_left k1 (show 0 ≤ 2 * st * sq by positivity)
        linarith
      linarith
  refine ⟨b - t / 2 + C - K, b, b + K - q / 2, by linarith, b0, b1, by linarith, by linarith, by rw [hC]; linarith, ?_⟩
  have m1 : M * cos (K - C - t / 2) = sq * cos (p - q / 2) + st * cos (t / 2) := by
    have : cos (K - C - t / 2) = cos K * cos (C + t / 2) + sin K * sin (C + t / 2) := by rw [← cos_sub]; congr 1; ring
    have h2 : p - q / 2 = C + t / 2 := by rw [hC]; ring
    have h3 : cos (t / 2) = cos (C + t / 2) * cos C + sin (C + t / 2) * sin C := by rw [← cos_sub]; congr 1; ring
    rw [this, h2, h3]; linear_combination -cos (C + t / 2) * g1 - sin (C + t / 2) * g2
  have m2 : M * sin (K - C - t / 2) = -sq * sin (p - q / 2) - st * sin (t / 2) := by
    have : sin (K - C - t / 2) = sin K * cos (C + t / 2) - cos K * sin (C + t / 2) := by rw [← sin_sub]; congr 1; ring
    have h2 : p - q / 2 = C + t / 2 := by rw [hC]; ring
    have h3 : sin (t / 2) = sin (C + t / 2) * cos C - cos (C + t / 2) * sin C := by rw [← sin_sub]; congr 1; ring
    rw [this, h2, h3]; linear_combination -cos (C + t / 2) * g2 + sin (C + t / 2) * g1
  have m3 : sin (K - C - t / 2 + b) - sin (K - C - t / 2 - b) = 2 * (M * cos (K - C - t / 2)) := by
    rw [sin_add (K - C - t / 2) b, sin_sub (K - C - t / 2) b, hsb]; ring
  have m4 : cos (K - C - t / 2 - b) - cos (K - C - t / 2 + b) = 2 * (M * sin (K - C - t / 2)) := by
    rw [cos_add (K - C - t / 2) b, cos_sub (K - C - t / 2) b, hsb]; ring
  have n1 : 2 * (sq * cos (p - q / 2)) = sin p + sin (q - p) := by
    have a1 : sin p = sin (p - q / 2) * cos (q / 2) + cos (p - q / 2) * sin (q / 2) := by rw [← sin_add]; congr 1; ring
    have a2 : sin (q - p) = sin (q / 2) * cos (p - q / 2) - cos (q / 2) * sin (p - q / 2) := by rw [← sin_sub]; congr 1; ring
    rw [a1, a2, hsq]; ring
  have n2 : 2 * (sq * sin (p - q / 2)) = cos (q - p) - cos p := by
    have a1 : cos p = cos (p - q / 2) * cos (q / 2) - sin (p - q / 2) * sin (q / 2) := by rw [← cos_add]; congr 1; ring
    have a2 : cos (q - p) = cos (q / 2) * cos (p - q / 2) + sin (q / 2) * sin (p - q / 2) := by rw [← cos_sub]; congr 1; ring
    rw [a1, a2, hsq]; ring
  have n3 : sin t = 2 * st * cos (t / 2) := by rw [hst, ← sin_two_mul]; congr 1; ring
  have n4 : cos t = 1 - 2 * st ^ 2 := by
    rw [hst, ← cos_two_mul_eq_one_sub]; congr 1; ring
  refine SameEnd.right ((end_LRL0 t p q).trans (onL_onR _ _ _))
    (end_RLR (h1 := K - C - t / 2 - b) (h2 := K - C - t / 2 + b) (h3 := q - p) (by ring) (by ring) (by rw [hC]; ring))
    ?_ ?_ (AngleEq.refl _)
  · rw [sin_neg]; linear_combination -2 * m3 - 4 * m1 - 2 * n1 + 2 * n3
  · rw [cos_neg]; rw [← hst] at m2; linear_combination -2 * m4 - 4 * m2 + 2 * n2 + 2 * n4

end Spec
