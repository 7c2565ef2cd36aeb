import Verif.Lemmas.Compare

/-!
# Reeds-Shepp words that replace Dubins words: two left turns
-/

noncomputable section

namespace Spec

open SF Real

theorem sin_three_half (a : ℝ) : sin (a - 3 * π / 2) = cos a := by
  rw [show a - 3 * π / 2 = a + π / 2 - 2 * π by ring, sin_sub_two_pi, sin_add_pi_div_two]

theorem cos_three_half (a : ℝ) : cos (a - 3 * π / 2) = -sin a := by
  rw [show a - 3 * π / 2 = a + π / 2 - 2 * π by ring, cos_sub_two_pi, cos_add_pi_div_two]

/-- Back on the left circle, right and left again, for near circles. -/
theorem LSL_near1 {t p q g L s' v : ℝ} (hg : 0 ≤ g) (hg2 : g ≤ π / 2) (hp : p = 4 * sin g) (ht : π - g ≤ t)
    (ht2 : t ≤ 2 * π - g) (hs' : IsSign s') (hv : 0 ≤ v) (hv2 : s' * v = q + g)
    (hL : 2 * π - t + g + v ≤ L) : Beaten [(1, t), (0, p), (1, q)] L := by
  have hpi := pi_pos
  apply Beaten.ccc (e := 1) (s := -1) (s' := s') (t := 2 * π - t - g) (u := 2 * g) (v := v) one_sign neg_one_sign hs'
    ⟨by linarith, by linarith⟩ (by linarith) (by linarith) hv _ (by linarith)
  refine SameEnd.left (end_LSL0 t p q) (end_LRL (h1 := g - 2 * π) (h2 := -g - 2 * π) (h3 := q - 2 * π) (by ring) (by ring)
    (by rw [hv2]; ring)) ?_ ?_ (full_turn q)
  · rw [sin_sub_two_pi, sin_sub_two_pi, sin_neg, hp]; ring
  · rw [cos_sub_two_pi, cos_sub_two_pi, cos_neg]; ring

/-- Left, back right and left again, for near circles. -/
theorem LSL_near2 {t p q g L : ℝ} (hg : 0 ≤ g) (hg2 : g ≤ π / 2) (hp : p = 4 * sin g) (ht : π + g ≤ t)
    (ht2 : t ≤ 2 * π) (hq : g - π ≤ q) (hL : t + q ≤ L) : Beaten [(1, t), (0, p), (1, q)] L := by
  have hpi := pi_pos
  apply Beaten.ccc (e := 1) (s := 1) (s' := 1) (t := t - g - π) (u := 2 * g) (v := q + π - g) one_sign one_sign one_sign
    ⟨by linarith, by linarith⟩ (by linarith) (by linarith) (by linarith) _ (by linarith)
  refine SameEnd.left (end_LSL0 t p q) (end_LRL (h1 := -(g + π)) (h2 := g - π) (h3 := q) (by ring) (by ring)
    (by ring)) ?_ ?_ (AngleEq.refl q)
  · rw [sin_neg, sin_add_pi, sin_sub_pi, hp]; ring
  · rw [cos_neg, cos_add_pi, cos_sub_pi]; ring

theorem arcs_le {p g : ℝ} (hg : 0 ≤ g) (hg2 : g ≤ π / 2) (hp : p = 4 * sin g) : 2 * g ≤ p := by
  have := mul_le_sin hg hg2
  have h2 : 1 / 2 * g ≤ 2 / π * g := by
    apply mul_le_mul_of_nonneg_right _ hg
    rw [div_le_div_iff₀ (by norm_num) pi_pos]
    linarith [pi_le_four]
  linarith

theorem near_angle {p : ℝ} (hp : 0 ≤ p) (hp4 : p ≤ 4) : ∃ g, 0 ≤ g ∧ g ≤ π / 2 ∧ p = 4 * sin g :=
  ⟨arcsin (p / 4), arcsin_nonneg.2 (by positivity), arcsin_le_pi_div_two _, by
    rw [sin_arcsin (by linarith) (by linarith)]; ring⟩

/-- Two left turns, the first more than half a turn, around near circles. -/
theorem LSL_near {t p q : ℝ} (hp : 0 ≤ p) (hp4 : p ≤ 4) (ht : π ≤ t) (ht2 : t ≤ 2 * π) (hq : 0 ≤ q) :
    Beaten [(1, t), (0, p), (1, q)] (t + p + q) := by
  obtain ⟨g, h1, h2, h3⟩ := near_angle hp hp4
  have hpi := pi_pos
  have h4 := arcs_le h1 h2 h3
  by_cases c : π + g ≤ t
  · exact LSL_near2 h1 h2 h3 c ht2 (by linarith) (by linarith)
  · exact LSL_near1 h1 h2 h3 (by linarith) (by linarith) (s' := 1) (v := q + g) one_sign (by linarith) (by ring)
      (by linarith)

/-- Back on the left circle, right by a quarter turn, straight and left. -/
theorem LSL_far1 {t p q d s L : ℝ} (hs : 0 ≤ s) (h1 : p * cos d = 2 + s)
    (h2 : p * sin d = 2) (ht : π / 2 + d ≤ t) (ht2 : t ≤ 3 * π / 2 + d) (hq : -d ≤ q) (hq2 : q ≤ π - d)
    (hL : 2 * π - t + 2 * d + s + q ≤ L) : Beaten [(1, t), (0, p), (1, q)] L := by
  have hpi := pi_pos
  apply Beaten.ccsc (e := 1) (f := 1) (s := -1) (t := 3 * π / 2 + d - t) (u := s) (v := q + d) one_sign one_sign neg_one_sign
    ⟨by linarith, by linarith⟩ hs ⟨by linarith, by linarith⟩ _ (by linarith)
  refine SameEnd.left (end_LSL0 t p q) (end_LRSL (h1 := -d - 3 * π / 2) (h2 := -d - 2 * π) (h3 := q - 2 * π) (by ring)
    (by ring) (by ring)) ?_ ?_ (full_turn q)
  · rw [sin_three_half, sin_sub_two_pi, cos_sub_two_pi, cos_neg, sin_neg]
    linear_combination -p * sin_sq_add_cos_sq d + cos d * h1 + sin d * h2
  · rw [cos_three_half, sin_sub_two_pi, cos_sub_two_pi, cos_neg, sin_neg]
    linear_combination -sin d * h1 + cos d * h2

/-- Left, back right by a quarter turn, straight back and back left. -/
theorem LSL_far2 {t p q d s L : ℝ} (hs : 0 ≤ s) (hd2 : d ≤ π / 2) (h1 : p * cos d = 2 + s)
    (h2 : p * sin d = 2) (ht : 3 * π / 2 - d ≤ t) (ht2 : t ≤ 2 * π) (hq : d ≤ q) (hq2 : q ≤ π + d)
    (hL : t + 2 * d + s - q ≤ L) : Beaten [(1, t), (0, p), (1, q)] L := by
  have hpi := pi_pos
  apply Beaten.ccsc (e := 1) (f := 1) (s := 1) (t := t - 3 * π / 2 + d) (u := s) (v := π + d - q) one_sign one_sign one_sign
    ⟨by linarith, by linarith⟩ hs ⟨by linarith, by linarith⟩ _ (by linarith)
  refine SameEnd.left (end_LSL0 t p q) (end_LRSL (h1 := d - 3 * π / 2) (h2 := d - π) (h3 := q - 2 * π) (by ring)
    (by ring) (by ring)) ?_ ?_ (full_turn q)
  · rw [sin_three_half, sin_sub_pi, cos_sub_pi]
    linear_combination -p * sin_sq_add_cos_sq d + cos d * h1 + sin d * h2
  · rw [cos_three_half, sin_sub_pi, cos_sub_pi]
    linear_combination sin d * h1 - cos d * h2

theorem far_angle {p : ℝ} (hp : 4 ≤ p) : ∃ d s, 0 ≤ s ∧ 0 ≤ d ∧ d ≤ π / 6 ∧ p * cos d = 2 + s ∧ p * sin d = 2 ∧
    (2 + s) ^ 2 = p ^ 2 - 4 := by
  have h0 : 0 ≤ 2 / p := by positivity
  have h1 : 2 / p ≤ 1 / 2 := by rw [div_le_div_iff₀ (by linarith) (by norm_num)]; linarith
  have e : p * sin (arcsin (2 / p)) = 2 := by
    rw [sin_arcsin (by linarith) (by linarith)]; field_simp
  have hd : arcsin (2 / p) ≤ π / 6 := by
    rw [arcsin_le_iff_le_sin' ⟨by linarith [pi_pos], by linarith [pi_pos]⟩, sin_pi_div_six]; exact h1
  have hc0 := cos_arcsin_nonneg (2 / p)
  have hsc := sin_sq_add_cos_sq (arcsin (2 / p))
  have hsq : (p * cos (arcsin (2 / p))) ^ 2 = p ^ 2 - 4 := by
    have : (p * sin (arcsin (2 / p))) ^ 2 = 4 := by rw [e]; norm_num
    linear_combination p ^ 2 * hsc - this
  refine ⟨arcsin (2 / p), p * cos (arcsin (2 / p)) - 2, ?_, arcsin_nonneg.2 h0, hd, by ring, e, by rw [← hsq]; ring⟩
  have : 0 ≤ p * cos (arcsin (2 / p)) := by positivity
  nlinarith

theorem polar_c {X Y : ℝ} (hX : 0 ≤ X) (hY : 0 ≤ Y) : ∃ k, 0 ≤ k ∧ k ≤ π / 2 ∧
    X = √(X ^ 2 + Y ^ 2) * cos k ∧ Y = √(X ^ 2 + Y ^ 2) * sin k := by
  rcases hY.lt_or_eq with h | h
  · obtain ⟨t, h1, h2, h3, h4⟩ := polar_q hX h
    exact ⟨π / 2 - t, by linarith, by linarith, by rwa [cos_pi_div_two_sub], by rwa [sin_pi_div_two_sub]⟩
  · refine ⟨0, le_rfl, by positivity, ?_, ?_⟩
    · rw [← h]; simp [sqrt_sq hX]
    · rw [← h]; simp

/-- The straight line from a right to a left circle. -/
theorem cross_angle {p a : ℝ} (hp : 4 ≤ p) (ha : 0 ≤ a) (ha2 : a ≤ π / 2) : ∃ k s, 0 ≤ s ∧ s ≤ p ∧ 0 ≤ k ∧ k ≤ π / 2 ∧
    s * cos k + 2 * sin k = p - 2 * sin a ∧ 2 * cos k - s * sin k = 2 * cos a := by
  have hs0 : 0 ≤ sin a := sin_nonneg_of_nonneg_of_le_pi ha (by linarith [pi_pos])
  have hc0 : 0 ≤ cos a := cos_nonneg_of_neg_pi_div_two_le_of_le (by linarith [pi_pos]) ha2
  have hs1 := sin_le_one a
  have hc1 := cos_le_one a
  have hsc := sin_sq_add_cos_sq a
  obtain ⟨s, hs⟩ : ∃ s, s = √(p ^ 2 - 4 * p * sin a) := ⟨_, rfl⟩
  have hn : 0 ≤ p ^ 2 - 4 * p * sin a := by nlinarith
  have hsq : s ^ 2 = p ^ 2 - 4 * p * sin a := by rw [hs, sq_sqrt hn]
  have h0 : 0 ≤ s := by rw [hs]; positivity
  obtain ⟨P, hP⟩ : ∃ P, P = p - 2 * sin a := ⟨_, rfl⟩
  obtain ⟨Q, hQ⟩ : ∃ Q, Q = 2 * cos a := ⟨_, rfl⟩
  have hP0 : 0 ≤ P := by rw [hP]; linarith
  have hQ0 : 0 ≤ Q := by rw [hQ]; linarith
  have hPQ : P ^ 2 + Q ^ 2 = s ^ 2 + 4 := by rw [hP, hQ, hsq]; linear_combination 4 * hsc
  have hQ2 : Q ≤ 2 := by rw [hQ]; linarith
  have hY : 0 ≤ 2 * P - s * Q := by
    have : s * Q ≤ 2 * P := by
      refine (sq_le_sq₀ (by positivity) (by linarith)).1 ?_
      have : 0 ≤ (4 - Q ^ 2) * (s ^ 2 + 4) := mul_nonneg (by nlinarith) (by positivity)
      nlinarith
    linarith
  obtain ⟨k, k0, k1, e1, e2⟩ := polar_c (show 0 ≤ s * P + 2 * Q by positivity) hY
  have hr : √((s * P + 2 * Q) ^ 2 + (2 * P - s * Q) ^ 2) = s ^ 2 + 4 := by
    rw [show (s * P + 2 * Q) ^ 2 + (2 * P - s * Q) ^ 2 = (s ^ 2 + 4) ^ 2 by linear_combination (s ^ 2 + 4) * hPQ,
      sqrt_sq (by positivity)]
  rw [hr] at e1 e2
  have hpos : s ^ 2 + 4 ≠ 0 := by positivity
  refine ⟨k, s, h0, ?_, k0, k1, ?_, ?_⟩
  · refine (sq_le_sq₀ (by positivity) (by linarith)).1 ?_
    nlinarith
  · rw [← hP]
    apply mul_left_cancel₀ hpos
    linear_combination -s * e1 - 2 * e2
  · rw [← hQ]
    apply mul_left_cancel₀ hpos
    linear_combination -2 * e1 + s * e2

/-- Right, straight and left: ends where left, straight, left ends. -/
theorem LSL_RSL {t p q k s : ℝ} (h1 : s * cos k + 2 * sin k = p + 2 * sin t) (h2 : 2 * cos k - s * sin k = 2 * cos t) :
    SameEnd [(1, t), (0, p), (1, q)] [(-1, 2 * π - t + k), (0, s), (1, q + k)] := by
  refine SameEnd.left (end_LSL0 t p q) (end_RSL (h1 := -k - 2 * π) (h3 := q - 2 * π) (by ring) (by ring)) ?_ ?_ (full_turn q)
  · rw [sin_sub_two_pi, cos_sub_two_pi, sin_neg, sin_neg, cos_neg]; linarith
  · rw [sin_sub_two_pi, cos_sub_two_pi, sin_neg, cos_neg, cos_neg]; linarith

/-- Back right, straight back and back left. -/
theorem LSL_back {t p q k s L : ℝ} (hs : 0 ≤ s) (h1 : s * cos k + 2 * sin k = p + 2 * sin t)
    (h2 : 2 * cos k - s * sin k = -(2 * cos t)) (ht : π - k ≤ t) (ht2 : t ≤ 2 * π - k) (hq : k ≤ q)
    (hq2 : q ≤ π + k) (hL : 2 * k + t - q + s ≤ L) : Beaten [(1, t), (0, p), (1, q)] L := by
  have hpi := pi_pos
  apply Beaten.csc (e := -1) (f := 1) (s := -1) (t := k + t - π) (u := s) (v := k + π - q) neg_one_sign one_sign neg_one_sign
    ⟨by linarith, by linarith⟩ hs ⟨by linarith, by linarith⟩ _ (by linarith)
  refine SameEnd.left (end_LSL0 t p q) (end_RSL (h1 := k - π) (h3 := q - 2 * π) (by ring) (by ring)) ?_ ?_ (full_turn q)
  · rw [sin_sub_pi, cos_sub_pi, sin_neg]; linarith
  · rw [sin_sub_pi, cos_sub_pi, cos_neg]; linarith

theorem LSL_far {t p q : ℝ} (hp4 : 4 ≤ p) (ht : π ≤ t) (ht2 : t ≤ 2 * π) (hq : 0 ≤ q) (hq2 : q ≤ π) :
    Beaten [(1, t), (0, p), (1, q)] (t + p + q) := by
  have hpi := pi_gt_three
  have hpi4 := pi_le_four
  have hpi2 := Real.pi_lt_d2
  obtain ⟨d, s, s0, d0, d1, e1, e2, e3⟩ := far_angle hp4
  have hsp : 2 + s ≤ p := by nlinarith
  by_cases c1 : t ≤ 3 * π / 2 <;> by_cases c2 : q ≤ π / 2
  · exact LSL_far1 s0 e1 e2 (by linarith) (by linarith) (by linarith) (by linarith) (by linarith)
  · obtain ⟨k, r, r0, r1, k0, k1, f1, f2⟩ := cross_angle hp4 (show 0 ≤ t - π by linarith) (by linarith)
    rw [sin_sub_pi] at f1
    rw [cos_sub_pi] at f2
    exact LSL_back (k := k) r0 (by linarith) (by linarith) (by linarith) (by linarith) (by linarith) (by linarith) (by linarith)
  · obtain ⟨k, r, r0, r1, k0, k1, f1, f2⟩ := cross_angle hp4 (show 0 ≤ 2 * π - t by linarith) (by linarith)
    rw [sin_two_pi_sub] at f1
    rw [cos_two_pi_sub] at f2
    have := LSL_RSL (q := q) (show r * cos k + 2 * sin k = p + 2 * sin t by linarith) f2
    apply Beaten.csc (e := -1) (f := 1) (s := 1) (t := 2 * π - t + k) (u := r) (v := q + k) neg_one_sign one_sign one_sign
      ⟨by linarith, by linarith⟩ r0 ⟨by linarith, by linarith⟩ _ (by linarith)
    simpa only [one_mul] using this
  · exact LSL_far2 s0 (by linarith) e1 e2 (by linarith) (by linarith) (by linarith) (by linarith) (by linarith)

/-- Two left turns, the second at most half a turn. -/
theorem LSL_one {t p q : ℝ} (hp : 0 ≤ p) (ht : 0 ≤ t) (ht2 : t ≤ 2 * π) (hq : 0 ≤ q) (hq2 : q ≤ π) :
    Beaten [(1, t), (0, p), (1, q)] (t + p + q) := by
  by_cases c : t ≤ π
  · apply Beaten.csc (e := 1) (f := 1) (s := 1) (t := t) (u := p) (v := q) one_sign one_sign one_sign
      ⟨ht, c⟩ hp ⟨hq, hq2⟩ _ le_rfl
    simp only [one_mul]
    exact fun x y phi h => h
  rcases le_total p 4 with h | h
  · exact LSL_near hp h (by linarith) ht2 hq
  · exact LSL_far h (by linarith) ht2 hq hq2

/-- Two left turns, one of them at most half a turn. -/
theorem LSL_one' {t p q : ℝ} (hp : 0 ≤ p) (ht : 0 ≤ t) (ht2 : t ≤ 2 * π) (hq : 0 ≤ q) (hq2 : q ≤ 2 * π)
    (h : t ≤ π ∨ q ≤ π) : Beaten [(1, t), (0, p), (1, q)] (t + p + q) := by
  rcases h with h | h
  · have := (LSL_one hp hq hq2 ht h).reverse (unitW3 one_sign (Or.inl rfl) one_sign)
    simp only [List.reverse_cons, List.reverse_nil, List.nil_append, List.cons_append] at this
    exact this.via (fun x y phi h => h) (by linarith)
  · exact LSL_one hp ht ht2 hq h

/-- Two right turns, one of them at most half a turn. -/
theorem RSR_one {t p q : ℝ} (hp : 0 ≤ p) (ht : 0 ≤ t) (ht2 : t ≤ 2 * π) (hq : 0 ≤ q) (hq2 : q ≤ 2 * π)
    (h : t ≤ π ∨ q ≤ π) : Beaten [(-1, t), (0, p), (-1, q)] (t + p + q) := by
  have := (LSL_one' hp ht ht2 hq hq2 h).mirror
  simpa [mirrorW] using this

end Spec
