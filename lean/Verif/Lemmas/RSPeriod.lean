import Verif.Lemmas.RSReverse

/-!
# Reeds-Shepp words and full turns of the heading

Adding full turns to the heading of the goal changes the words of the code only where the last turn is half a circle: there the
sign of the turn may change.  For these words, the code accepts another one of at most the same length.
-/

noncomputable section

namespace SF

open Real Spec Props

theorem le_of_sin {a b : ℝ} (ha : a ≤ π / 2) (hb : -(π / 2) ≤ b) (h : sin a ≤ sin b) : a ≤ b := by
  by_contra hn
  push Not at hn
  exact absurd (sin_lt_sin_of_lt_of_le_pi_div_two hb ha hn) (not_lt.2 h)

/-- The circles of a short straight piece: `4 sin j = √(4 + (2 + u)²)`. -/
theorem short_num {u : ℝ} (hu : -RS_ZERO ≤ u) (hu0 : u ≤ 0) : ∃ g j : ℝ, 0 ≤ g ∧ g < π / 2 ∧ 1 / 2 ≤ j ∧ j ≤ π / 2 ∧ j ≤ g ∧
    j + g ≤ π / 2 + -u / 2 ∧ 2 = 4 * sin j * sin g ∧ 2 + u = 4 * sin j * cos g := by
  have hz := RS_ZERO_lt
  have hpi := pi_gt_three
  obtain ⟨g, g0, g1, e1, e2⟩ := polar_q (X := 2) (Y := 2 + u) (by norm_num) (by linarith)
  obtain ⟨r, hr⟩ : ∃ r, r = √(2 ^ 2 + (2 + u) ^ 2) := ⟨_, rfl⟩
  rw [← hr] at e1 e2
  have hr0 : 0 ≤ r := by rw [hr]; exact sqrt_nonneg _
  have hr2 : r ^ 2 = 2 ^ 2 + (2 + u) ^ 2 := by rw [hr]; exact sq_sqrt (by positivity)
  have hrlo : 2 ≤ r := by nlinarith
  have hrhi : r ≤ 3 := by nlinarith
  have hsj : sin (arcsin (r / 4)) = r / 4 := sin_arcsin (by linarith) (by linarith)
  have hj2 := arcsin_le_pi_div_two (r / 4)
  have hj0 : 0 ≤ arcsin (r / 4) := arcsin_nonneg.2 (by linarith)
  have hjs := sin_le hj0
  have h4 : 4 * sin (arcsin (r / 4)) = r := by rw [hsj]; ring
  refine ⟨g, arcsin (r / 4), g0, g1, by linarith, hj2, ?_, ?_, by rw [h4]; exact e1, by rw [h4]; exact e2⟩
  · refine le_of_sin hj2 (by linarith) ?_
    rw [hsj]
    have hs : sin g = 2 / r := by field_simp; linarith
    rw [hs, div_le_div_iff₀ (by norm_num) (by linarith)]
    nlinarith
  · have hsu : 0 ≤ -u := by linarith
    have key : sin (arcsin (r / 4)) ≤ sin (π / 2 - (g - -u / 2)) := by
      rw [hsj, sin_pi_div_two_sub, cos_sub]
      have c1 := one_sub_sq_div_two_le_cos (x := -u / 2)
      have s1 : -u / 2 - (-u / 2) ^ 3 / 6 ≤ sin (-u / 2) := by
        rcases hsu.lt_or_eq with h | h
        · exact (sin_gt_sub_cube (x := -u / 2) (by linarith)).le
        · rw [← h]; simp
      obtain ⟨s, hs⟩ : ∃ s, s = -u := ⟨_, rfl⟩
      have hu' : u = -s := by linarith
      have hss : s ≤ 1 / 1000 := by linarith
      rw [← hs] at c1 s1 hsu ⊢
      have f : r * (cos g * cos (s / 2) + sin g * sin (s / 2)) = (2 - s) * cos (s / 2) + 2 * sin (s / 2) := by
        rw [hu'] at e2
        linear_combination -cos (s / 2) * e2 - sin (s / 2) * e1
      have f2 : r * (r / 4) ≤ r * (cos g * cos (s / 2) + sin g * sin (s / 2)) := by
        rw [f]
        have m1 : (2 - s) * (1 - (s / 2) ^ 2 / 2) ≤ (2 - s) * cos (s / 2) := mul_le_mul_of_nonneg_left c1 (by linarith)
        have m2 : r * (r / 4) = 2 - s + s ^ 2 / 4 := by rw [hu'] at hr2; linear_combination hr2 / 4
        have m3 : 0 ≤ s * (1 - s) := mul_nonneg hsu (by linarith)
        have m4 : 0 ≤ s ^ 3 := by positivity
        rw [m2]
        nlinarith
      exact le_of_mul_le_mul_left f2 (by linarith)
    have := le_of_sin hj2 (by linarith) key
    linarith

theorem end_LRSL_short {x y phi t u : ℝ} (ht : CTurn t) (ht2 : t < π / 2) (hu : -RS_ZERO ≤ u) (hu0 : u ≤ 0)
    (h : Hits [(1, t), (-1, -(π / 2)), (0, -u), (1, -π)] x y phi) : RSAny x y phi (|t| + |u| + π + π / 2) := by
  have hz := RS_ZERO_lt
  have hz0 := RS_ZERO_pos
  have hpi := pi_gt_three
  rw [hits_LRSL] at h
  obtain ⟨h1, h2, n, h3⟩ := h
  obtain ⟨g, j, a0, a1, b0, b1, b2, b3, f1, f2⟩ := short_num hu hu0
  have key : Hits [(1, π / 2 - t + g - j), (-1, -(2 * j)), (1, -g - j)] (-x) y (-phi) := by
    rw [hits_LRL, sin_neg, cos_neg]
    rw [show π / 2 - t + g - j - -(2 * j) = π / 2 - (t - g) + j by ring,
      show π / 2 - t + g - j = π / 2 - (t - g) - j by ring, sin_sub _ j, sin_add _ j, cos_sub _ j, cos_add _ j,
      sin_pi_div_two_sub, cos_pi_div_two_sub, sin_sub, cos_sub]
    refine ⟨?_, ?_, -n, ?_⟩
    · linear_combination -h1 + sin t * f2 - cos t * f1
    · linear_combination h2 + sin t * f1 + cos t * f2
    · push_cast; linarith
  apply RSAny.flip
  have := opt_LRL ⟨by linarith, by linarith [ht.1]⟩ (by linarith) (by linarith) key
  rw [abs_of_nonneg (by linarith : 0 ≤ π / 2 - t + g - j), abs_of_nonpos (by linarith : -g - j ≤ 0)] at this
  rw [abs_of_nonpos hu0]
  exact this.mono (by linarith [neg_abs_le t])

/-- The circle of radius 4 is seen under less than twice the angle of that of radius 2. -/
theorem two_arc_num {u r s g g1 : ℝ} (_ : 0 < u) (hr0 : 0 < r) (hs0 : 0 < s) (a0 : 0 ≤ g) (p1 : g1 < π / 2)
    (e1 : 4 = r * sin g1) (e2 : 2 + u = r * cos g1) (f1 : 2 = s * sin g) (f2 : 2 + u = s * cos g) : g1 ≤ 2 * g := by
  have hpi := pi_pos
  by_contra hn
  push Not at hn
  have hneg : sin (2 * g - g1) < 0 := sin_neg_of_neg_of_neg_pi_lt (by linarith) (by linarith)
  rw [sin_sub, sin_two_mul, cos_two_mul] at hneg
  have h1 : s ^ 2 * r * (2 * sin g * cos g * cos g1 - (2 * cos g ^ 2 - 1) * sin g1) < 0 :=
    mul_neg_of_pos_of_neg (by positivity) hneg
  have hs2 : s ^ 2 = 2 ^ 2 + (2 + u) ^ 2 := by
    linear_combination -s ^ 2 * sin_sq_add_cos_sq g - (2 + s * sin g) * f1 - (2 + u + s * cos g) * f2
  have e : s ^ 2 * r * (2 * sin g * cos g * cos g1 - (2 * cos g ^ 2 - 1) * sin g1) =
      2 * (s * sin g) * (s * cos g) * (r * cos g1) - (2 * (s * cos g) ^ 2 - s ^ 2) * (r * sin g1) := by ring
  rw [e, ← f1, ← f2, ← e1, ← e2, hs2] at h1
  nlinarith

theorem end_LRSL_small {x y phi t u r g1 : ℝ} (ht : CTurn t) (ht2 : t ≤ g1) (hu0 : 0 < u) (hr0 : 0 < r) (p1 : g1 < π / 2)
    (e1 : 4 = r * sin g1) (e2 : 2 + u = r * cos g1)
    (h : Hits [(1, t), (-1, -(π / 2)), (0, -u), (1, -π)] x y phi) : RSAny x y phi (|t| + |u| + π + π / 2) := by
  have hz := RS_ZERO_lt
  have hz0 := RS_ZERO_pos
  have hpi := pi_gt_three
  rw [hits_LRSL] at h
  obtain ⟨h1, h2, n, h3⟩ := h
  obtain ⟨g, a0, a1, f1, f2⟩ := polar_q (X := 2) (Y := 2 + u) (by norm_num) (by linarith)
  obtain ⟨s, hs⟩ : ∃ s, s = √(2 ^ 2 + (2 + u) ^ 2) := ⟨_, rfl⟩
  rw [← hs] at f1 f2
  have hs0 : 0 < s := by rw [hs]; positivity
  have hg4 : g ≤ π / 4 := by
    have h1 : sin g ≤ sin (π / 2 - g) := by
      rw [sin_pi_div_two_sub]
      have : s * sin g ≤ s * cos g := by linarith
      exact le_of_mul_le_mul_left this hs0
    have := le_of_sin a1.le (by linarith) h1
    linarith
  have hg1 := two_arc_num hu0 hr0 hs0 a0 p1 e1 e2 f1 f2
  have key : Hits [(1, 2 * g - t), (-1, -(π / 2)), (0, -u), (1, -(2 * g))] (-x) y (-phi) := by
    rw [hits_LRSL, sin_neg, cos_neg]
    have a1 : (2 + u) * sin (2 * g - t) - 2 * cos (2 * g - t) = -((2 + u) * sin t - 2 * cos t) := by
      have : (2 + u) * sin (2 * g - t) - 2 * cos (2 * g - t) = s * sin (2 * g - t - g) := by
        rw [sin_sub _ g]; linear_combination sin (2 * g - t) * f2 - cos (2 * g - t) * f1
      rw [this, show 2 * g - t - g = -(t - g) by ring, sin_neg, sin_sub]
      linear_combination sin t * f2 - cos t * f1
    have a2 : (2 + u) * cos (2 * g - t) + 2 * sin (2 * g - t) = (2 + u) * cos t + 2 * sin t := by
      have : (2 + u) * cos (2 * g - t) + 2 * sin (2 * g - t) = s * cos (2 * g - t - g) := by
        rw [cos_sub _ g]; linear_combination cos (2 * g - t) * f2 + sin (2 * g - t) * f1
      rw [this, show 2 * g - t - g = -(t - g) by ring, cos_neg, cos_sub]
      linear_combination -cos t * f2 - sin t * f1
    refine ⟨?_, ?_, -n, by push_cast; linarith⟩
    · linear_combination a1 - h1
    · linear_combination -a2 + h2
  apply RSAny.flip
  have := opt_LRSf (Or.inl rfl) ⟨by linarith, by linarith [ht.1]⟩ hu0.le ⟨by linarith, by linarith⟩ key
  rw [abs_of_nonneg (by linarith : 0 ≤ 2 * g - t), abs_of_nonneg (by linarith : 0 ≤ 2 * g)] at this
  rw [abs_of_pos hu0]
  exact this.mono (by linarith [neg_abs_le t])

/-- `LRSL` that ends with half a turn. -/
theorem end_LRSL {x y phi t u : ℝ} (ht : CTurn t) (hu : -RS_ZERO ≤ u)
    (h : Hits [(1, t), (-1, -(π / 2)), (0, -u), (1, -π)] x y phi) : RSAny x y phi (|t| + |u| + π + π / 2) := by
  have hz := RS_ZERO_lt
  have hz0 := RS_ZERO_pos
  have hpi := pi_gt_three
  have h0 := h
  rw [hits_LRSL] at h
  obtain ⟨h1, h2, n, h3⟩ := h
  have hang : AngleEq (t - π / 2) phi := ⟨n, by linarith⟩
  have hsin : sin phi = -cos t := by rw [← hang.sin_eq, sin_sub, sin_pi_div_two, cos_pi_div_two]; ring
  have hcos : cos phi = sin t := by rw [← hang.cos_eq, cos_sub, sin_pi_div_two, cos_pi_div_two]; ring
  obtain ⟨g1, p0, p1, e1, e2⟩ := polar_q (X := 4) (Y := 2 + u) (by norm_num) (by linarith)
  obtain ⟨r, hr⟩ : ∃ r, r = √(4 ^ 2 + (2 + u) ^ 2) := ⟨_, rfl⟩
  rw [← hr] at e1 e2
  have hr2 : r ^ 2 = 4 ^ 2 + (2 + u) ^ 2 := by rw [hr]; exact sq_sqrt (by positivity)
  have hr0 : 0 < r := by rw [hr]; positivity
  obtain ⟨q, hq⟩ : ∃ q, q = √(12 + (2 + u) ^ 2) := ⟨_, rfl⟩
  have hq0 : 0 < q := by rw [hq]; positivity
  have hq2 : q ^ 2 = 12 + (2 + u) ^ 2 := by rw [hq]; exact sq_sqrt (by positivity)
  obtain ⟨g2, q0, q1, e3, e4⟩ := polar_q (X := 2) (Y := q) (by norm_num) hq0
  have hrq : √(2 ^ 2 + q ^ 2) = r := by rw [hr, hq2]; congr 1; ring
  rw [hrq] at e3 e4
  have hgg : g2 ≤ g1 := le_of_sin q1.le (by linarith) (by
    have : r * sin g2 ≤ r * sin g1 := by linarith
    exact le_of_mul_le_mul_left this hr0)
  rcases le_or_gt (g1 - g2) t with hge | hlt
  · have key : Hits [(1, t - (g1 - g2)), (-1, -(π / 2)), (0, -(q - 4)), (1, -(π / 2)), (-1, π / 2 - (g1 - g2))] x y phi := by
      rw [hits_LRSLR]
      have a1 : q * sin (t - (g1 - g2)) - 2 * cos (t - (g1 - g2)) = (2 + u) * sin t - 4 * cos t := by
        have : q * sin (t - (g1 - g2)) - 2 * cos (t - (g1 - g2)) = r * sin (t - (g1 - g2) - g2) := by
          rw [sin_sub _ g2]; linear_combination sin (t - (g1 - g2)) * e4 - cos (t - (g1 - g2)) * e3
        rw [this, show t - (g1 - g2) - g2 = t - g1 by ring, sin_sub]
        linear_combination -sin t * e2 + cos t * e1
      have a2 : q * cos (t - (g1 - g2)) + 2 * sin (t - (g1 - g2)) = (2 + u) * cos t + 4 * sin t := by
        have : q * cos (t - (g1 - g2)) + 2 * sin (t - (g1 - g2)) = r * cos (t - (g1 - g2) - g2) := by
          rw [cos_sub _ g2]; linear_combination cos (t - (g1 - g2)) * e4 + sin (t - (g1 - g2)) * e3
        rw [this, show t - (g1 - g2) - g2 = t - g1 by ring, cos_sub]
        linear_combination -cos t * e2 - sin t * e1
      refine ⟨?_, ?_, n, by linarith⟩
      · linear_combination a1 + h1 - 2 * hsin
      · linear_combination -a2 + h2 + 2 * hcos
    have hqlo : 4 - RS_ZERO ≤ q := by nlinarith
    have hqu : |q - 4| ≤ |u| := by
      rcases le_total 0 u with h0 | h0
      · rw [abs_of_nonneg h0, abs_le]
        constructor <;> nlinarith
      · rw [abs_of_nonpos h0, abs_le]
        constructor <;> nlinarith
    have := closed_LRSLR ⟨by linarith, by linarith [ht.2]⟩ (by linarith) ⟨by linarith, by linarith⟩ key
    rw [abs_of_nonneg (by linarith : 0 ≤ t - (g1 - g2)), abs_of_nonneg (by linarith : 0 ≤ π / 2 - (g1 - g2))] at this
    rw [abs_of_nonneg (by linarith : 0 ≤ t)]
    exact this.mono (by linarith)
  · rcases le_or_gt u 0 with hu0 | hu0
    · exact end_LRSL_short ht (by linarith) hu hu0 h0
    · exact end_LRSL_small ht (by linarith) hu0 hr0 p1 e1 e2 h0

theorem end_LRSR_small {x y phi t u : ℝ} (ht0 : 0 < t) (ht2 : t < π / 2) (hu0 : 0 < u) (hct' : 2 < (2 + u) * cos t)
    (h : Hits [(1, t), (-1, -(π / 2)), (0, -u), (-1, -π)] x y phi) : RSAny x y phi (t + u + π + π / 2) := by
  have hz0 := RS_ZERO_pos
  have hpi := pi_gt_three
  rw [hits_LRSR] at h
  obtain ⟨h1, h2, n, h3⟩ := h
  have hst : 0 < sin t := sin_pos_of_pos_of_lt_pi ht0 (by linarith)
  obtain ⟨b, b0, b1, k1, k2⟩ := polar_q (X := 2 + u - 2 * cos t) (Y := 2 * sin t) (by linarith [cos_le_one t]) (by linarith)
  obtain ⟨U, hU⟩ : ∃ U, U = √((2 + u - 2 * cos t) ^ 2 + (2 * sin t) ^ 2) := ⟨_, rfl⟩
  rw [← hU] at k1 k2
  have hU0 : 0 < U := by rw [hU]; exact sqrt_pos.2 (by positivity)
  have hU2 : U ^ 2 = (2 + u - 2 * cos t) ^ 2 + (2 * sin t) ^ 2 := by rw [hU]; exact sq_sqrt (by positivity)
  have c1 : U * cos (b - t) = (2 + u) * sin t := by
    rw [cos_sub]; linear_combination -cos t * k2 - sin t * k1
  have c2 : U * sin (b - t) = (2 + u) * cos t - 2 := by
    rw [sin_sub]; linear_combination -cos t * k1 + sin t * k2 - 2 * sin_sq_add_cos_sq t
  have hbt : t ≤ b := by
    by_contra hn
    push Not at hn
    have : sin (b - t) < 0 := sin_neg_of_neg_of_neg_pi_lt (by linarith) (by linarith)
    linarith [mul_neg_of_pos_of_neg hU0 this]
  have hUu : U ≤ 2 + u := by
    have : U ^ 2 ≤ (2 + u) ^ 2 := by
      rw [hU2, show (2 + u - 2 * cos t) ^ 2 + (2 * sin t) ^ 2 = (2 + u) ^ 2 - 4 * ((2 + u) * cos t) + 4 by
        linear_combination 4 * sin_sq_add_cos_sq t]
      linarith
    exact abs_le_of_sq_le_sq' this (by linarith) |>.2
  have key : Hits [(1, b - t), (0, U), (1, π / 2 - b)] x (-y) (-phi) := by
    rw [hits_LSL, c1, c2, sin_neg, cos_neg]
    exact ⟨by linarith, by linarith, -n + 1, by push_cast; linarith⟩
  apply RSAny.mirror
  have := opt_LSL ⟨by linarith, by linarith⟩ hU0.le ⟨by linarith, by linarith⟩ key
  rw [abs_of_nonneg (by linarith : 0 ≤ b - t), abs_of_nonneg (by linarith : 0 ≤ π / 2 - b)] at this
  exact this.mono (by linarith)

/-- `LRSR` that ends with half a turn. -/
theorem end_LRSR {x y phi t u : ℝ} (ht : CTurn t) (hu : -RS_ZERO ≤ u)
    (h : Hits [(1, t), (-1, -(π / 2)), (0, -u), (-1, -π)] x y phi) : RSAny x y phi (|t| + |u| + π + π / 2) := by
  have hz := RS_ZERO_lt
  have hz0 := RS_ZERO_pos
  have hpi := pi_gt_three
  have h0 := h
  rw [hits_LRSR] at h
  obtain ⟨h1, h2, n, h3⟩ := h
  have hang : AngleEq (t - π / 2) phi := ⟨n - 1, by push_cast; linarith⟩
  have hsin : sin phi = -cos t := by rw [← hang.sin_eq, sin_sub, sin_pi_div_two, cos_pi_div_two]; ring
  have hcos : cos phi = sin t := by rw [← hang.cos_eq, cos_sub, sin_pi_div_two, cos_pi_div_two]; ring
  rcases le_or_gt u 0 with hu0 | hu0
  · obtain ⟨g, j, a0, a1, b0, b1, b2, b3, f1, f2⟩ := short_num hu hu0
    have key : Hits [(1, t + π / 2 + g - j), (-1, -(2 * j)), (1, π - g - j)] x y phi := by
      rw [hits_LRL]
      rw [show t + π / 2 + g - j - -(2 * j) = (t + g) + π / 2 + j by ring,
        show t + π / 2 + g - j = (t + g) + π / 2 - j by ring, sin_sub _ j, sin_add _ j, cos_sub _ j, cos_add _ j,
        sin_add_pi_div_two, cos_add_pi_div_two, sin_add, cos_add]
      refine ⟨?_, ?_, n, ?_⟩
      · linear_combination h1 + 2 * hsin - sin t * f2 - cos t * f1
      · linear_combination h2 - 2 * hcos + cos t * f2 - sin t * f1
      · linarith
    have := opt_LRLb ⟨by linarith, by linarith⟩ (by linarith) (by linarith) key
    rw [abs_of_nonneg (by linarith : 0 ≤ π - g - j), abs_of_nonneg (by linarith [ht.1] : 0 ≤ t + π / 2 + g - j)] at this
    exact this.mono (by linarith [le_abs_self t, abs_nonneg u])
  · rw [abs_of_pos hu0]
    rcases le_or_gt t 0 with ht0 | ht0
    · have key : Hits [(1, -t), (-1, -(π / 2)), (0, -u), (-1, -0)] (-x) y (-phi) := by
        rw [hits_LRSR, sin_neg, cos_neg, sin_neg, cos_neg]
        exact ⟨by linarith, by linarith, -n + 1, by push_cast; linarith⟩
      apply RSAny.flip
      have := opt_LRSf (Or.inr rfl) ⟨by linarith, by linarith [ht.1]⟩ hu0.le ⟨by linarith, by linarith⟩ key
      rw [abs_neg, abs_zero] at this
      exact this.mono (by linarith)
    · rw [abs_of_pos ht0]
      obtain ⟨w, hw⟩ : ∃ w, w = √((2 + u) ^ 2 - 2 ^ 2) := ⟨_, rfl⟩
      have hw0 : 0 < w := by rw [hw]; exact sqrt_pos.2 (by nlinarith)
      have hw2 : w ^ 2 = (2 + u) ^ 2 - 2 ^ 2 := by rw [hw]; exact sq_sqrt (by nlinarith)
      obtain ⟨a, a0, a1, f1, f2⟩ := polar_q (X := w) (Y := 2) hw0.le (by norm_num)
      have hsq : √(w ^ 2 + 2 ^ 2) = 2 + u := by
        rw [hw2, sub_add_cancel]; exact sqrt_sq (by linarith)
      rw [hsq] at f1 f2
      rcases le_or_gt a t with hge | hlt
      · have key : Hits [(1, t - a), (0, w), (-1, π / 2 - a)] x y phi := by
          rw [hits_LSR, sin_sub, cos_sub]
          have hsc := sin_sq_add_cos_sq a
          refine ⟨?_, ?_, n - 1, by push_cast; linarith⟩
          · linear_combination h1 + (sin t * cos a - cos t * sin a) * f2 + (cos t * cos a + sin t * sin a) * f1 + (2 + u) * sin t * hsc
          · linear_combination h2 - (cos t * cos a + sin t * sin a) * f2 + (sin t * cos a - cos t * sin a) * f1 - (2 + u) * cos t * hsc
        have := closed_LSR ⟨by linarith, by linarith [ht.2]⟩ hw0.le ⟨by linarith, by linarith⟩ key
        rw [abs_of_nonneg (by linarith : 0 ≤ t - a), abs_of_nonneg (by linarith : 0 ≤ π / 2 - a)] at this
        have hwu : w ≤ 2 + u := by nlinarith
        exact this.mono (by linarith)
      · have hct : cos a < cos t := cos_lt_cos_of_nonneg_of_le_pi ht0.le (by linarith) hlt
        have hct' : 2 < (2 + u) * cos t := by
          have := mul_lt_mul_of_pos_left hct (by linarith : 0 < 2 + u)
          linarith
        exact end_LRSR_small ht0 (by linarith) hu0 hct' h0

/-! ### `C|C(π/2)SC` with turns of up to and including half a circle -/

theorem closed_LRSf {x y phi t u v f : ℝ} (hf : IsSign f) (ht : CTurn t) (hu : 0 ≤ u) (hv : CTurn v)
    (h : Hits [(1, t), (-1, -(π / 2)), (0, -u), (f, -v)] x y phi) : RSAny x y phi (|t| + π / 2 + u + |v|) := by
  rcases hv.cases with hv' | rfl
  · exact opt_LRSf hf ht hu hv' h
  · have hz := RS_ZERO_pos
    have key : RSAny x y phi (|t| + |u| + π + π / 2) := by
      rcases hf with rfl | rfl
      · exact end_LRSL ht (by linarith) h
      · exact end_LRSR ht (by linarith) h
    rw [abs_of_nonneg hu] at key
    rw [abs_of_pos pi_pos]
    exact key.mono (by linarith)

theorem RSAny.back {x y phi L : ℝ} (h : RSAny (rsXb x y phi) (rsYb x y phi) phi L) : RSAny x y phi L := by
  have := h.reversed
  rw [rsXb_invol, rsYb_invol] at this
  exact this.flip

theorem closed_LRSfb {x y phi t u v f : ℝ} (hf : IsSign f) (ht : CTurn t) (hu : 0 ≤ u) (hv : CTurn v)
    (h : Hits [(f, -v), (0, -u), (-1, -(π / 2)), (1, t)] x y phi) : RSAny x y phi (|t| + π / 2 + u + |v|) := by
  have hw : UnitW [(f, -v), (0, -u), (-1, -(π / 2)), (1, t)] := by
    intro w hw; simp only [List.mem_cons, List.not_mem_nil, or_false] at hw
    rcases hf with rfl | rfl <;> rcases hw with rfl | rfl | rfl | rfl <;> simp
  have := h.reverse' hw
  simp only [List.reverse_cons, List.reverse_nil, List.nil_append, List.cons_append] at this
  exact (closed_LRSf hf ht hu hv this).back

/-! ### Paths of the specification -/

theorem _root_.Spec.IsHalfTurn.cturn {a : ℝ} (h : IsHalfTurn a) : CTurn a := ⟨by linarith [h.1, RS_ZERO_pos], h.2⟩

/-- Every path of the specification is one of the words, and the code accepts a word of at most
its length. -/
theorem rs_optimal {sp : RSSpace} (hk : 0 < sp.kappa) {s1 s2 : State} {cs : List Segment}
    (hcs : ReedsSheppPath sp.kappa cs) (hr : Reaches cs (pose s1) (pose s2)) :
    ∃ L, totalLength cs = 1 / sp.kappa * L ∧
      RSAny (sp.params s1 s2).1 (sp.params s1 s2).2.1 (sp.params s1 s2).2.2 L := by
  set X := (sp.params s1 s2).1
  set Y := (sp.params s1 s2).2.1
  set F := (sp.params s1 s2).2.2
  have unit : ∀ {e s : ℝ} {ws : List (ℝ × ℝ)}, IsSign e → UnitW ws → UnitW (symW e s ws) := by
    intro e s ws he hw w hm
    unfold symW at hm
    rw [List.mem_map] at hm
    obtain ⟨w', hm', rfl⟩ := hm
    have := hw w' hm'
    rcases he with rfl | rfl <;> rcases this with h | h | h <;> simp [h]
  have main : ∀ {e s L : ℝ} {ws : List (ℝ × ℝ)}, IsSign e → IsSign s → UnitW ws →
      cs = wordSegs sp.kappa (symW e s ws) → wordLen ws = L →
      (∀ {x y phi : ℝ}, Hits ws x y phi → RSAny x y phi L) →
      ∃ L, totalLength cs = 1 / sp.kappa * L ∧ RSAny X Y F L := by
    intro e s L ws he hs hw hc hL base
    refine ⟨L, ?_, ?_⟩
    · rw [hc, totalLength_wordSegs hk, ← hL]
      congr 1
      unfold wordLen symW
      rw [List.map_map]
      congr 1
      apply List.map_congr_left
      intro w _
      exact abs_s_mul hs w.2
    · rw [hc, reaches_iff_hits hk (unit he hw)] at hr
      exact sym_reduce he hs hr base
  have mulsq : ∀ {e f : ℝ}, IsSign e → IsSign f → IsSign (e * f) ∧ f = e * (e * f) := by
    intro e f he hf
    rcases he with rfl | rfl <;> rcases hf with rfl | rfl <;> simp [IsSign]
  have hpi := pi_pos
  cases hcs with
  | @csc e f s t u v he hf hs ht hu hv =>
    obtain ⟨hg, hfg⟩ := mulsq he hf
    refine main (e := e) (s := s) (L := |t| + u + |v|) (ws := [(1, t), (0, u), (e * f, v)]) he hs ?_ ?_ ?_ ?_
    · intro w hw; simp only [List.mem_cons, List.not_mem_nil, or_false] at hw
      rcases hw with rfl | rfl | rfl
      · simp
      · simp
      · exact Or.inr hg
    · simp only [wordSegs, symW, List.map_cons, List.map_nil, rsPiece, ← hfg, mul_one, mul_zero]
    · simp only [wordLen, List.map_cons, List.map_nil, List.sum_cons, List.sum_nil,
        abs_of_nonneg hu]; ring
    · intro x y phi h
      rcases hg with hg | hg <;> rw [hg] at h
      · exact closed_LSL ht.cturn hu hv.cturn h
      · exact closed_LSR ht.cturn hu hv.cturn h
  | @ccc e s s' t u v he hs hs' ht hu hu2 hv =>
    obtain ⟨hg, hfg⟩ := mulsq hs hs'
    refine main (e := e) (s := s) (L := |t| + u + |s * s' * v|)
      (ws := [(1, t), (-1, -u), (1, s * s' * v)]) he hs ?_ ?_ ?_ ?_
    · intro w hw; simp only [List.mem_cons, List.not_mem_nil, or_false] at hw
      rcases hw with rfl | rfl | rfl <;> simp
    · simp only [wordSegs, symW, List.map_cons, List.map_nil, rsPiece, mul_one, ← mul_assoc, ← hfg]
      rw [hfg]; simp only [mul_assoc, mul_neg, neg_mul, mul_one]
    · simp only [wordLen, List.map_cons, List.map_nil, List.sum_cons, List.sum_nil,
        abs_of_nonneg hu, abs_neg]; ring
    · intro x y phi h
      exact opt_LRL ht.cturn hu hu2 h
  | @ccc_rev e s s' t u v he hs hs' ht hu hu2 hv =>
    obtain ⟨hg, hfg⟩ := mulsq hs hs'
    refine main (e := e) (s := s) (L := |t| + u + |s * s' * v|)
      (ws := [(1, s * s' * v), (-1, -u), (1, t)]) he hs ?_ ?_ ?_ ?_
    · intro w hw; simp only [List.mem_cons, List.not_mem_nil, or_false] at hw
      rcases hw with rfl | rfl | rfl <;> simp
    · simp only [wordSegs, symW, List.map_cons, List.map_nil, rsPiece, mul_one, ← mul_assoc, ← hfg]
      rw [hfg]; simp only [mul_assoc, mul_neg, neg_mul, mul_one]
    · simp only [wordLen, List.map_cons, List.map_nil, List.sum_cons, List.sum_nil,
        abs_of_nonneg hu, abs_neg]; ring
    · intro x y phi h
      exact opt_LRLb ht.cturn hu hu2 h
  | @cccc_in e s t u v he hs ht hu hu2 hv =>
    refine main (e := e) (s := s) (L := |t| + 2 * u + |v|)
      (ws := [(1, t), (-1, u), (1, -u), (-1, -v)]) he hs ?_ ?_ ?_ ?_
    · intro w hw; simp only [List.mem_cons, List.not_mem_nil, or_false] at hw
      rcases hw with rfl | rfl | rfl | rfl <;> simp
    · simp only [wordSegs, symW, List.map_cons, List.map_nil, rsPiece, mul_one, mul_neg, neg_mul]
    · simp only [wordLen, List.map_cons, List.map_nil, List.sum_cons, List.sum_nil,
        abs_of_nonneg hu, abs_neg]; ring
    · intro x y phi h
      exact closed_LRLRp ht.cturn hu hu2 hv.cturn h
  | @cccc_out e s t u v he hs ht hu hu2 hv =>
    refine main (e := e) (s := s) (L := |t| + 2 * u + |v|)
      (ws := [(1, t), (-1, -u), (1, -u), (-1, v)]) he hs ?_ ?_ ?_ ?_
    · intro w hw; simp only [List.mem_cons, List.not_mem_nil, or_false] at hw
      rcases hw with rfl | rfl | rfl | rfl <;> simp
    · simp only [wordSegs, symW, List.map_cons, List.map_nil, rsPiece, mul_one, mul_neg, neg_mul]
    · simp only [wordLen, List.map_cons, List.map_nil, List.sum_cons, List.sum_nil,
        abs_of_nonneg hu, abs_neg]; ring
    · intro x y phi h
      exact closed_LRLRm ht.cturn hu hu2 hv.cturn h
  | @ccsc e f s t u v he hf hs ht hu hv =>
    obtain ⟨hg, hfg⟩ := mulsq he hf
    refine main (e := e) (s := s) (L := |t| + π / 2 + u + |v|)
      (ws := [(1, t), (-1, -(π / 2)), (0, -u), (e * f, -v)]) he hs ?_ ?_ ?_ ?_
    · intro w hw; simp only [List.mem_cons, List.not_mem_nil, or_false] at hw
      rcases hw with rfl | rfl | rfl | rfl
      · simp
      · simp
      · simp
      · exact Or.inr hg
    · simp only [wordSegs, symW, List.map_cons, List.map_nil, rsPiece, ← hfg, mul_one, mul_neg,
        neg_mul, mul_zero]
    · simp only [wordLen, List.map_cons, List.map_nil, List.sum_cons, List.sum_nil,
        abs_of_nonneg hu, abs_neg,
        abs_of_nonneg (show 0 ≤ π / 2 by positivity)]; ring
    · intro x y phi h
      exact closed_LRSf hg ht.cturn hu hv.cturn h
  | @ccsc_rev e f s t u v he hf hs ht hu hv =>
    obtain ⟨hg, hfg⟩ := mulsq he hf
    refine main (e := e) (s := s) (L := |t| + π / 2 + u + |v|)
      (ws := [(e * f, -v), (0, -u), (-1, -(π / 2)), (1, t)]) he hs ?_ ?_ ?_ ?_
    · intro w hw; simp only [List.mem_cons, List.not_mem_nil, or_false] at hw
      rcases hw with rfl | rfl | rfl | rfl
      · exact Or.inr hg
      · simp
      · simp
      · simp
    · simp only [wordSegs, symW, List.map_cons, List.map_nil, rsPiece, ← hfg, mul_one, mul_neg,
        neg_mul, mul_zero]
    · simp only [wordLen, List.map_cons, List.map_nil, List.sum_cons, List.sum_nil,
        abs_of_nonneg hu, abs_neg,
        abs_of_nonneg (show 0 ≤ π / 2 by positivity)]; ring
    · intro x y phi h
      exact closed_LRSfb hg ht.cturn hu hv.cturn h
  | @ccscc e s t u v he hs ht hu hv =>
    refine main (e := e) (s := s) (L := |t| + π + |u| + |v|)
      (ws := [(1, t), (-1, -(π / 2)), (0, -u), (1, -(π / 2)), (-1, v)]) he hs ?_ ?_ ?_ ?_
    · intro w hw; simp only [List.mem_cons, List.not_mem_nil, or_false] at hw
      rcases hw with rfl | rfl | rfl | rfl | rfl <;> simp
    · simp only [wordSegs, symW, List.map_cons, List.map_nil, rsPiece, mul_one, mul_neg,
        neg_mul, mul_zero]
    · simp only [wordLen, List.map_cons, List.map_nil, List.sum_cons, List.sum_nil,
        abs_of_nonneg hu, abs_neg,
        abs_of_nonneg (show 0 ≤ π / 2 by positivity)]; ring
    · intro x y phi h
      exact closed_LRSLR ht.cturn (by linarith [RS_ZERO_pos]) hv.cturn h

/-! ### Full turns -/

theorem _root_.Spec.Hits.turn {ws : List (ℝ × ℝ)} {x y phi phi' : ℝ} (h : Hits ws x y phi) (ha : AngleEq phi phi') : Hits ws x y phi' :=
  ⟨h.1, h.2.1, h.2.2.trans ha⟩

theorem pify_turn {a b : ℝ} (h : AngleEq a b) : pify a = pify b ∨ |pify a| = π ∧ |pify b| = π := by
  have ha := abs_pify_le a
  have hb := abs_pify_le b
  have h2 : AngleEq (pify a) (pify b) := (pify_angleEq a).trans (h.trans (pify_angleEq b).symm)
  rcases hb.lt_or_eq with hb' | hb'
  · exact Or.inl (repr_eq h2 ha hb')
  · rcases ha.lt_or_eq with ha' | ha'
    · exact Or.inl (repr_eq h2.symm hb ha').symm
    · exact Or.inr ⟨ha', hb'⟩

theorem LRL_turn {x y phi phi' L : ℝ} (ha : AngleEq phi' phi) (ok : (LpRmL x y phi).ok)
    (hl : |(LpRmL x y phi).t| + |(LpRmL x y phi).u| + |(LpRmL x y phi).v| ≤ L) : RSAny x y phi' L := by
  left; left
  refine ⟨_, Or.inr (Or.inr (Or.inl rfl)), ?_, ?_⟩
  · have : (LpRmL x y phi').ok = (LpRmL x y phi).ok := by simp only [LpRmL, ha.sin_eq, ha.cos_eq]
    rw [this]; exact ok
  · have et : (LpRmL x y phi').t = (LpRmL x y phi).t := by simp only [LpRmL, ha.sin_eq, ha.cos_eq]
    have eu : (LpRmL x y phi').u = (LpRmL x y phi).u := by simp only [LpRmL, ha.sin_eq, ha.cos_eq]
    have ev : |(LpRmL x y phi').v| = |(LpRmL x y phi).v| := by
      have e1 : (LpRmL x y phi).v = pify (phi - (LpRmL x y phi).t + (LpRmL x y phi).u) := rfl
      have e2 : (LpRmL x y phi').v = pify (phi' - (LpRmL x y phi').t + (LpRmL x y phi').u) := rfl
      rw [e2, et, eu]
      rcases pify_turn ((ha.sub (AngleEq.refl (LpRmL x y phi).t)).add_right (LpRmL x y phi).u) with h | ⟨h1, h2⟩
      · rw [h, e1]
      · rw [e1, h1, h2]
    rw [et, eu, ev]; exact hl

theorem LRSL_turn {x y phi phi' L : ℝ} (ha : AngleEq phi' phi) (ok : (LpRmSmLm x y phi).ok)
    (hl : |(LpRmSmLm x y phi).t| + |(LpRmSmLm x y phi).u| + |(LpRmSmLm x y phi).v| + 0.5 * π ≤ L) : RSAny x y phi' L := by
  have hpi := pi_pos
  have e1 : (LpRmSmLm x y phi).v = pify (phi - 0.5 * π - (LpRmSmLm x y phi).t) := rfl
  rcases pify_turn ((ha.sub (AngleEq.refl (0.5 * π))).sub (AngleEq.refl (LpRmSmLm x y phi).t)) with h | ⟨-, h⟩
  · have : LpRmSmLm x y phi' = LpRmSmLm x y phi := by
      simp only [LpRmSmLm] at h
      simp only [LpRmSmLm, ha.sin_eq, ha.cos_eq]
      rw [h]
    left; right; right; left
    exact ⟨_, Or.inl this.symm, ok, hl⟩
  · rw [← e1] at h
    have hz := RS_ZERO_lt
    obtain ⟨u, hu⟩ : ∃ u, u = (LpRmSmLm x y phi).u := ⟨_, rfl⟩
    obtain ⟨t, ht⟩ : ∃ t, t = (LpRmSmLm x y phi).t := ⟨_, rfl⟩
    obtain ⟨v, hv⟩ : ∃ v, v = (LpRmSmLm x y phi).v := ⟨_, rfl⟩
    have h1 := LpRmSmLm_hits ok.1
    simp only at h1
    have a0 : -RS_ZERO ≤ -u := by rw [hu]; exact neg_le_neg ok.2.2.1
    have a1 : CTurn t := CTurn.of_abs (by rw [ht]; exact ok.2.1) (by rw [ht]; exact abs_pify_le _)
    have a2 : v ≤ RS_ZERO := by rw [hv]; exact ok.2.2.2
    rw [← ht, ← hu, ← hv] at h1 hl
    rw [← hv] at h
    have hvp : v = -π := by
      rcases abs_eq hpi.le |>.1 h with h | h
      · linarith [pi_gt_three]
      · exact h
    have := end_LRSL (phi := phi') a1 a0 (by rw [neg_neg, ← hvp]; exact h1.turn ha.symm)
    rw [abs_neg] at this
    exact this.mono (by linarith)

theorem LRSR_turn {x y phi phi' L : ℝ} (ha : AngleEq phi' phi) (ok : (LpRmSmRm x y phi).ok)
    (hl : |(LpRmSmRm x y phi).t| + |(LpRmSmRm x y phi).u| + |(LpRmSmRm x y phi).v| + 0.5 * π ≤ L) : RSAny x y phi' L := by
  have hpi := pi_pos
  have e1 : (LpRmSmRm x y phi).v = pify ((LpRmSmRm x y phi).t + 0.5 * π - phi) := rfl
  rcases pify_turn ((AngleEq.refl ((LpRmSmRm x y phi).t + 0.5 * π)).sub ha) with h | ⟨-, h⟩
  · have : LpRmSmRm x y phi' = LpRmSmRm x y phi := by
      simp only [LpRmSmRm] at h
      simp only [LpRmSmRm, ha.sin_eq, ha.cos_eq]
      rw [h]
    left; right; right; left
    exact ⟨_, Or.inr (Or.inr (Or.inl this.symm)), ok, hl⟩
  · rw [← e1] at h
    have hz := RS_ZERO_lt
    obtain ⟨u, hu⟩ : ∃ u, u = (LpRmSmRm x y phi).u := ⟨_, rfl⟩
    obtain ⟨t, ht⟩ : ∃ t, t = (LpRmSmRm x y phi).t := ⟨_, rfl⟩
    obtain ⟨v, hv⟩ : ∃ v, v = (LpRmSmRm x y phi).v := ⟨_, rfl⟩
    have h1 := LpRmSmRm_hits x y phi
    simp only at h1
    have a0 : -RS_ZERO ≤ -u := by rw [hu]; exact neg_le_neg ok.2.2.1
    have a1 : CTurn t := CTurn.of_abs (by rw [ht]; exact ok.2.1) (by rw [ht]; exact abs_polar_snd_le _ _)
    have a2 : v ≤ RS_ZERO := by rw [hv]; exact ok.2.2.2
    rw [← ht, ← hu, ← hv] at h1 hl
    rw [← hv] at h
    have hvp : v = -π := by
      rcases abs_eq hpi.le |>.1 h with h | h
      · linarith [pi_gt_three]
      · exact h
    have := end_LRSR (phi := phi') a1 a0 (by rw [neg_neg, ← hvp]; exact h1.turn ha.symm)
    rw [abs_neg] at this
    exact this.mono (by linarith)

/-- Every accepted word has a counterpart for the goal turned by full circles. -/
theorem RSBest.turn {x y phi phi' L : ℝ} (ha : AngleEq phi' phi) (h : RSBest x y phi L) : RSAny x y phi' L := by
  have hpi := pi_pos
  have ex : rsXb x y phi = rsXb x y phi' := by simp only [rsXb, ha.sin_eq, ha.cos_eq]
  have ey : rsYb x y phi = rsYb x y phi' := by simp only [rsYb, ha.sin_eq, ha.cos_eq]
  rcases h with ⟨w, rfl | rfl | rfl | rfl, ok, hl⟩ | ⟨w, rfl | rfl, ok, hl⟩ | ⟨w, rfl | rfl | rfl | rfl, ok, hl⟩ | ⟨w, rfl, ok, hl⟩
  · have h2 := (LpSpLp_hits x y phi).turn ha.symm
    have hu : 0 ≤ (LpSpLp x y phi).u := polar_nonneg _ _
    rw [abs_of_nonneg hu] at hl
    have a1 : CTurn (LpSpLp x y phi).t := CTurn.of_abs ok.1 (abs_polar_snd_le _ _)
    have a2 : CTurn (LpSpLp x y phi).v := CTurn.of_abs ok.2 (abs_pify_le _)
    exact (closed_LSL a1 hu a2 h2).mono (by linarith)
  · have h2 := (LpSpRp_hits ok.1).turn ha.symm
    have hu : 0 ≤ (LpSpRp x y phi).u := sqrt_nonneg _
    rw [abs_of_nonneg hu] at hl
    have a1 : CTurn (LpSpRp x y phi).t := CTurn.of_abs ok.2.1 (abs_pify_le _)
    have a2 : CTurn (LpSpRp x y phi).v := CTurn.of_abs ok.2.2 (abs_pify_le _)
    exact (closed_LSR a1 hu a2 h2).mono (by linarith)
  · exact LRL_turn ha ok hl
  · rw [ex, ey] at ok hl
    exact (LRL_turn ha ok hl).back
  · obtain ⟨u, hu⟩ : ∃ u, u = (LpRupLumRm x y phi).u := ⟨_, rfl⟩
    obtain ⟨t, ht⟩ : ∃ t, t = (LpRupLumRm x y phi).t := ⟨_, rfl⟩
    obtain ⟨v, hv⟩ : ∃ v, v = (LpRupLumRm x y phi).v := ⟨_, rfl⟩
    have h1 := LpRupLumRm_hits ok.1
    simp only at h1
    have a1 : CTurn t := CTurn.of_abs (by rw [ht]; exact ok.2.1) (by rw [ht]; exact rsTau_abs _ _ _ _)
    have a2 : CTurn (-v) := CTurn.of_abs (by rw [hv]; exact neg_le_neg ok.2.2)
      (by rw [hv, abs_neg]; exact abs_pify_le _)
    have hu' : u = arccos (rhoLpRupLumRm x y phi) := hu
    have hu0 : 0 ≤ u := by rw [hu']; exact arccos_nonneg _
    have hr0 := sqrt_nonneg ((x + sin phi) * (x + sin phi) + (y - 1 - cos phi) * (y - 1 - cos phi))
    have hrho : 1 / 2 ≤ rhoLpRupLumRm x y phi := by unfold rhoLpRupLumRm; linarith
    have hu3 : u ≤ π / 3 := by
      rw [hu', ← arccos_cos (x := π / 3) (by linarith) (by linarith), cos_pi_div_three]
      exact arccos_le_arccos hrho
    have e1 : (LpRupLumRm x y phi).v = pify ((LpRupLumRm x y phi).t - (LpRupLumRm x y phi).u + -(LpRupLumRm x y phi).u - phi) := rfl
    rcases pify_turn ((AngleEq.refl ((LpRupLumRm x y phi).t - (LpRupLumRm x y phi).u + -(LpRupLumRm x y phi).u)).sub ha) with h | ⟨-, h⟩
    · have : LpRupLumRm x y phi' = LpRupLumRm x y phi := by
        simp only [LpRupLumRm] at h
        simp only [LpRupLumRm, ha.sin_eq, ha.cos_eq, rsOmega]
        rw [h]
      left; right; left
      exact ⟨_, Or.inl this.symm, ok, hl⟩
    · rw [← e1, ← hv] at h
      rw [← ht, ← hu, ← hv] at h1 hl
      rw [abs_of_nonneg hu0] at hl
      have hvp : v = -π := by
        rcases abs_eq hpi.le |>.1 h with h | h
        · linarith [pi_gt_three, a2.1, RS_ZERO_lt]
        · exact h
      rw [hvp] at h1
      have hw : UnitW [(1, t), (-1, u), (1, -u), (-1, -π)] := by
        intro w hw; simp only [List.mem_cons, List.not_mem_nil, or_false] at hw
        rcases hw with rfl | rfl | rfl | rfl <;> simp
      have h2 := (h1.turn ha.symm).reverse' hw
      simp only [List.reverse_cons, List.reverse_nil, List.nil_append, List.cons_append] at h2
      have h3 := Hits.flip_mirror (x := -rsXb x y phi') (y := -rsYb x y phi') (phi := phi') (by rwa [neg_neg, neg_neg])
      simp only [mirrorW, flipW, List.map_cons, List.map_nil, neg_neg] at h3
      have := (half_LRLRp hu0 hu3 h3).both.back
      rw [hvp, abs_neg, abs_of_pos hpi] at hl
      exact this.mono (by linarith)
  · obtain ⟨u, hu⟩ : ∃ u, u = (LpRumLumRp x y phi).u := ⟨_, rfl⟩
    obtain ⟨t, ht⟩ : ∃ t, t = (LpRumLumRp x y phi).t := ⟨_, rfl⟩
    obtain ⟨v, hv⟩ : ∃ v, v = (LpRumLumRp x y phi).v := ⟨_, rfl⟩
    have h1 := (LpRumLumRp_hits ok.1).turn ha.symm
    have a1 : CTurn t := CTurn.of_abs (by rw [ht]; exact ok.2.2.1) (by rw [ht]; exact rsTau_abs _ _ _ _)
    have a2 : CTurn v := CTurn.of_abs (by rw [hv]; exact ok.2.2.2) (by rw [hv]; exact abs_pify_le _)
    have hu0 : 0 ≤ -u := by
      have : u = -arccos (rhoLpRumLumRp x y phi) := hu
      rw [this, neg_neg]; exact arccos_nonneg _
    have hu2 : -u ≤ π / 2 := by
      have : (LpRumLumRp x y phi).u ≥ -0.5 * π := ok.2.1
      rw [hu]; linarith
    rw [← ht, ← hu, ← hv] at h1 hl
    rw [abs_of_nonpos (by linarith : u ≤ 0)] at hl
    have := closed_LRLRm a1 hu0 hu2 a2 (by rw [neg_neg u]; exact h1)
    exact this.mono (by linarith)
  · exact LRSL_turn ha ok hl
  · rw [ex, ey] at ok hl
    exact (LRSL_turn ha ok hl).back
  · exact LRSR_turn ha ok hl
  · rw [ex, ey] at ok hl
    exact (LRSR_turn ha ok hl).back
  · obtain ⟨u, hu⟩ : ∃ u, u = (LpRmSLmRp x y phi).u := ⟨_, rfl⟩
    obtain ⟨t, ht⟩ : ∃ t, t = (LpRmSLmRp x y phi).t := ⟨_, rfl⟩
    obtain ⟨v, hv⟩ : ∃ v, v = (LpRmSLmRp x y phi).v := ⟨_, rfl⟩
    have h1 := (LpRmSLmRp_hits ok.1).turn ha.symm
    have a0 : -RS_ZERO ≤ -u := by rw [hu]; exact neg_le_neg ok.2.1
    have a1 : CTurn t := CTurn.of_abs (by rw [ht]; exact ok.2.2.1) (by rw [ht]; exact abs_pify_le _)
    have a2 : CTurn v := CTurn.of_abs (by rw [hv]; exact ok.2.2.2) (by rw [hv]; exact abs_pify_le _)
    rw [← ht, ← hu, ← hv] at h1 hl
    have := closed_LRSLR a1 a0 a2 (by rw [neg_neg u]; exact h1)
    rw [abs_neg] at this
    exact this.mono (by linarith)

theorem RSAny.turn {x y phi phi' L : ℝ} (ha : AngleEq phi' phi) (h : RSAny x y phi L) : RSAny x y phi' L := by
  rcases h with h | h | h | h
  · exact h.turn ha
  · exact (h.turn ha.neg).flip
  · exact (h.turn ha.neg).mirror
  · have := h.turn ha
    apply RSAny.flip; apply RSAny.mirror; rwa [neg_neg]

/-- The length depends on the heading only up to full turns. -/
theorem reeds_shepp_turn {x y phi phi' : ℝ} (ha : AngleEq phi' phi) :
    (reeds_shepp x y phi').length = (reeds_shepp x y phi).length :=
  le_antisymm (reeds_shepp_le fun _ h => h.turn ha) (reeds_shepp_le fun _ h => h.turn ha.symm)

end SF
