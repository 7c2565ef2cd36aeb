import Verif.Lemmas.CompareLSR

/-!
# Reeds-Shepp words that replace Dubins words: all Dubins words
-/

noncomputable section

namespace Spec

open SF Real

theorem LSR_big {t p q : ℝ} (hp : 0 ≤ p) (ht : π ≤ t) (ht2 : t ≤ 2 * π) (hq : 0 ≤ q) (hq2 : q ≤ π) :
    Beaten [(1, t), (0, p), (-1, q)] (t + p + q) := by
  have hpi := pi_pos
  obtain ⟨d, d0, d1, g1, g2⟩ := polar_c hp (show (0:ℝ) ≤ 2 by norm_num)
  obtain ⟨D, hD⟩ : ∃ D, D = √(p ^ 2 + 2 ^ 2) := ⟨_, rfl⟩
  rw [← hD] at g1 g2
  have hD0 : 2 ≤ D := by rw [hD]; apply Real.le_sqrt_of_sq_le; nlinarith
  have hD1 : D ≤ p + 2 := by rw [hD]; apply Real.sqrt_le_iff.2; constructor <;> nlinarith
  by_cases c : d ≤ q
  · by_cases c2 : t ≤ 3 * π / 2 + d
    · exact LSR_turn1 hD0 g1.symm g2.symm (by linarith) c2 c (by linarith) (by linarith)
    · exact LSR_turn2 hD0 g1.symm g2.symm d0 (by linarith) ht2 c (by linarith) (by linarith)
  · apply LSR_short hp ht ht2 hq (by linarith)
    have h1 : 0 ≤ sin (d - q) := sin_nonneg_of_nonneg_of_le_pi (by linarith) (by linarith)
    have h2 : 0 ≤ D * sin (d - q) := by positivity
    have e : D * sin (d - q) = 2 * cos q - p * sin q := by
      rw [sin_sub]; linear_combination sin q * g1 - cos q * g2
    linarith

theorem LSR_one {t p q : ℝ} (hp : 0 ≤ p) (ht : 0 ≤ t) (ht2 : t ≤ 2 * π) (hq : 0 ≤ q) (hq2 : q ≤ π) :
    Beaten [(1, t), (0, p), (-1, q)] (t + p + q) := by
  by_cases c : t ≤ π
  · apply Beaten.csc (e := 1) (f := -1) (s := 1) (t := t) (u := p) (v := q) one_sign neg_one_sign one_sign
      ⟨ht, c⟩ hp ⟨hq, hq2⟩ _ le_rfl
    simp only [one_mul]
    exact fun x y phi h => h
  · exact LSR_big hp (by linarith) ht2 hq hq2

/-- Exchange both turns of a word left, straight, right. -/
theorem LSR_swap {t p q L : ℝ} (h : Beaten [(1, q), (0, p), (-1, t)] L) : Beaten [(1, t), (0, p), (-1, q)] L := by
  have := (h.reverse (unitW3 one_sign (Or.inl rfl) neg_one_sign)).mirror
  simpa [mirrorW] using this

theorem LSL_swap {t p q L : ℝ} (h : Beaten [(1, q), (0, p), (1, t)] L) : Beaten [(1, t), (0, p), (1, q)] L := by
  have := h.reverse (unitW3 one_sign (Or.inl rfl) one_sign)
  simpa using this

theorem LSR_one' {t p q : ℝ} (hp : 0 ≤ p) (ht : 0 ≤ t) (ht2 : t ≤ 2 * π) (hq : 0 ≤ q) (hq2 : q ≤ 2 * π)
    (h : t ≤ π ∨ q ≤ π) : Beaten [(1, t), (0, p), (-1, q)] (t + p + q) := by
  rcases h with h | h
  · exact (LSR_swap (LSR_one hp hq hq2 ht h)).via (fun x y phi h => h) (by linarith)
  · exact LSR_one hp ht ht2 hq h

theorem RSL_one' {t p q : ℝ} (hp : 0 ≤ p) (ht : 0 ≤ t) (ht2 : t ≤ 2 * π) (hq : 0 ≤ q) (hq2 : q ≤ 2 * π)
    (h : t ≤ π ∨ q ≤ π) : Beaten [(-1, t), (0, p), (1, q)] (t + p + q) := by
  have := (LSR_one' hp ht ht2 hq hq2 h).mirror
  simpa [mirrorW] using this

/-! ### Two turns to the left, both by more than half a turn -/

theorem LSL_both_RSL {t p q : ℝ} (hp : 4 ≤ p) (ht : 3 * π / 2 ≤ t) (ht2 : t ≤ 2 * π) (hq : 0 ≤ q) (hq2 : q ≤ 2 * π) :
    Beaten [(1, t), (0, p), (1, q)] (t + p + q) := by
  have hpi := pi_pos
  obtain ⟨k, s, s0, s1, k0, k1, g1, g2⟩ := cross_angle hp (show 0 ≤ 2 * π - t by linarith) (by linarith)
  rw [sin_two_pi_sub] at g1
  rw [cos_two_pi_sub] at g2
  have hrs := LSL_RSL (t := t) (q := q) (show s * cos k + 2 * sin k = p + 2 * sin t by linarith) g2
  by_cases c : q + k ≤ 2 * π
  · exact (RSL_one' s0 (by linarith) (by linarith) (by linarith) c (Or.inl (by linarith))).via hrs (by linarith)
  · have h2 := SameEnd.turns (-1) 0 1 (2 * π - t + k) s (q + k) 0 1 neg_one_sign one_sign
    simp only [Int.cast_zero, Int.cast_one, zero_mul, one_mul, sub_zero] at h2
    exact (RSL_one' s0 (by linarith) (by linarith) (by linarith) (by linarith) (Or.inl (by linarith))).via (hrs.trans h2)
      (by linarith)

theorem LSL_RSR {t p q n D : ℝ} (h1 : D * cos n = p + 2 * sin q + 2 * sin t) (h2 : D * sin n = 2 * cos t - 2 * cos q) :
    SameEnd [(1, t), (0, p), (1, q)] [(-1, 2 * π - t - n), (0, D), (-1, 2 * π - q + n)] := by
  refine SameEnd.right ((end_LSL0 t p q).trans (onL_onR _ _ _))
    (end_RSR (h1 := n - 2 * π) (h3 := q - 2 * π - 2 * π) (by ring) (by ring)) ?_ ?_ ((full_turn _).trans (full_turn _))
  · rw [sin_neg, cos_sub_two_pi]; linear_combination -h1
  · rw [cos_neg, sin_sub_two_pi]; linear_combination -h2

theorem LSL_both_RSR {t p q : ℝ} (hp : 4 ≤ p) (hq : π ≤ q) (hqt : q ≤ t) (ht : t ≤ 3 * π / 2) :
    Beaten [(1, t), (0, p), (1, q)] (t + p + q) := by
  have hpi := pi_gt_three
  have hpi2 := Real.pi_lt_d2
  obtain ⟨a, rfl⟩ : ∃ a, t = π + a := ⟨t - π, by ring⟩
  obtain ⟨b, rfl⟩ : ∃ b, q = π + b := ⟨q - π, by ring⟩
  have ha : 0 ≤ a := by linarith
  have hb : 0 ≤ b := by linarith
  have hc : cos a ≤ cos b := cos_le_cos_of_nonneg_of_le_pi hb (by linarith) (by linarith)
  have s1 := sin_le_one a
  have s2 := sin_le_one b
  have sa : 0 ≤ sin a := sin_nonneg_of_nonneg_of_le_pi ha (by linarith)
  have sb : 0 ≤ sin b := sin_nonneg_of_nonneg_of_le_pi hb (by linarith)
  have hX : 0 ≤ p - 2 * sin b - 2 * sin a := by linarith
  have hY : 0 ≤ 2 * cos b - 2 * cos a := by linarith
  obtain ⟨m, m0, m1, g1, g2⟩ := polar_c hX hY
  obtain ⟨E, hE⟩ : ∃ E, E = √((p - 2 * sin b - 2 * sin a) ^ 2 + (2 * cos b - 2 * cos a) ^ 2) := ⟨_, rfl⟩
  rw [← hE] at g1 g2
  have hE0 : 0 ≤ E := by rw [hE]; positivity
  have hE1 : E ≤ (p - 2 * sin b - 2 * sin a) + (2 * cos b - 2 * cos a) := by
    rw [hE]; apply Real.sqrt_le_iff.2
    refine ⟨by linarith, ?_⟩
    have := mul_nonneg hX hY
    linarith [add_sq (p - 2 * sin b - 2 * sin a) (2 * cos b - 2 * cos a)]
  have hca : 1 - cos a ≤ a := by
    have := one_sub_sq_div_two_le_cos (x := a)
    nlinarith
  have hcb := cos_le_one b
  have hrs := LSL_RSR (t := π + a) (p := p) (q := π + b) (n := m) (D := E)
    (by rw [add_comm π, add_comm π, sin_add_pi, sin_add_pi]; linarith)
    (by rw [add_comm π, add_comm π, cos_add_pi, cos_add_pi]; linarith)
  exact (RSR_one hE0 (by linarith) (by linarith) (by linarith) (by linarith) (Or.inl (by linarith))).via hrs (by linarith)

theorem LSL_both {t p q : ℝ} (hp : 0 ≤ p) (hq : π ≤ q) (hqt : q ≤ t) (ht : t ≤ 2 * π) :
    Beaten [(1, t), (0, p), (1, q)] (t + p + q) := by
  have hpi := pi_pos
  by_cases h4 : p ≤ 4
  · exact LSL_near hp h4 (by linarith) ht (by linarith)
  by_cases c : t ≤ 3 * π / 2
  · exact LSL_both_RSR (by linarith) hq hqt c
  · exact LSL_both_RSL (by linarith) (by linarith) ht (by linarith) (by linarith)

theorem LSL_two {t p q : ℝ} (hp : 0 ≤ p) (ht : 0 ≤ t) (ht2 : t ≤ 2 * π) (hq : 0 ≤ q) (hq2 : q ≤ 2 * π) :
    Beaten [(1, t), (0, p), (1, q)] (t + p + q) := by
  by_cases c : t ≤ π ∨ q ≤ π
  · exact LSL_one' hp ht ht2 hq hq2 c
  · push Not at c
    rcases le_total q t with h | h
    · exact LSL_both hp c.2.le h ht2
    · exact (LSL_swap (LSL_both hp c.1.le h hq2)).via (fun x y phi h => h) (by linarith)

/-! ### A turn to the left and one to the right, both by more than half a turn -/

theorem polar_up {X Y : ℝ} (hY : 0 ≤ Y) : ∃ k, 0 ≤ k ∧ k ≤ π ∧
    X = √(X ^ 2 + Y ^ 2) * cos k ∧ Y = √(X ^ 2 + Y ^ 2) * sin k := by
  have hpi := pi_pos
  rcases le_total 0 X with h | h
  · obtain ⟨k, k0, k1, g1, g2⟩ := polar_c h hY
    exact ⟨k, k0, by linarith, g1, g2⟩
  · obtain ⟨k, k0, k1, g1, g2⟩ := polar_c (show 0 ≤ -X by linarith) hY
    rw [neg_sq] at g1 g2
    exact ⟨π - k, by linarith, by linarith, by rw [cos_pi_sub]; linarith, by rw [sin_pi_sub]; linarith⟩

theorem LSR_both_LSL {t p q d D : ℝ} (hp : 0 ≤ p) (hD : 0 ≤ D) (g1 : p = D * cos d) (g2 : 2 = D * sin d) (ht : π ≤ t)
    (ht2 : t ≤ 2 * π) (hd : 0 ≤ d) (hq : π + 2 * d ≤ q) (hq2 : q ≤ 2 * π) :
    Beaten [(1, t), (0, p), (-1, q)] (t + p + q) := by
  have hpi := pi_pos
  obtain ⟨k, k0, k1, f1, f2⟩ := polar_up (X := p + 2 * sin q) (show 0 ≤ 2 - 2 * cos q by linarith [cos_le_one q])
  obtain ⟨E, hE⟩ : ∃ E, E = √((p + 2 * sin q) ^ 2 + (2 - 2 * cos q) ^ 2) := ⟨_, rfl⟩
  rw [← hE] at f1 f2
  have hE0 : 0 ≤ E := by rw [hE]; positivity
  have hE1 : E ≤ p := by
    rw [hE]; apply Real.sqrt_le_iff.2
    refine ⟨hp, ?_⟩
    obtain ⟨w, rfl⟩ : ∃ w, q = 2 * w + π := ⟨(q - π) / 2, by ring⟩
    rw [sin_add_pi, cos_add_pi, sin_two_mul, cos_two_mul]
    have h1 : 0 ≤ sin (w - d) := sin_nonneg_of_nonneg_of_le_pi (by linarith) (by linarith)
    have h2 : 0 ≤ D * sin (w - d) := by positivity
    have e : D * sin (w - d) = p * sin w - 2 * cos w := by
      rw [sin_sub]; linear_combination -sin w * g1 + cos w * g2
    have h3 : 0 ≤ cos w := cos_nonneg_of_neg_pi_div_two_le_of_le (by linarith) (by linarith)
    have h4 := mul_nonneg h3 (e ▸ h2)
    have h5 := sin_sq_add_cos_sq w
    have e2 : (p + 2 * -(2 * sin w * cos w)) ^ 2 + (2 - 2 * -(2 * cos w ^ 2 - 1)) ^ 2 =
        p ^ 2 - 8 * (cos w * (p * sin w - 2 * cos w)) := by
      linear_combination (16 * cos w ^ 2) * h5
    rw [e2]; linarith
  have h1 := LSR_LSL (t := t) f1.symm f2.symm
  have h2 := SameEnd.turns 1 0 1 (t - k) E (k - q) 0 (-1) one_sign one_sign
  simp only [Int.cast_zero, Int.cast_one, Int.cast_neg, zero_mul, sub_zero] at h2
  exact (LSL_two hE0 (by linarith) (by linarith) (by linarith) (by linarith)).via (h1.trans h2) (by linarith)

theorem LSR_both {t p q : ℝ} (hp : 0 ≤ p) (ht : π ≤ t) (ht2 : t ≤ 2 * π) (hq : π ≤ q) (hq2 : q ≤ 2 * π) :
    Beaten [(1, t), (0, p), (-1, q)] (t + p + q) := by
  have hpi := pi_pos
  obtain ⟨d, d0, d1, g1, g2⟩ := polar_c hp (show (0:ℝ) ≤ 2 by norm_num)
  obtain ⟨D, hD⟩ : ∃ D, D = √(p ^ 2 + 2 ^ 2) := ⟨_, rfl⟩
  rw [← hD] at g1 g2
  have hD0 : 0 ≤ D := by rw [hD]; positivity
  by_cases c : q ≤ π + 2 * d
  · by_cases c' : t ≤ π + 2 * d
    · apply Beaten.csc (e := 1) (f := -1) (s := -1) (t := π + 2 * d - t) (u := p) (v := π + 2 * d - q) one_sign neg_one_sign
        neg_one_sign ⟨by linarith, by linarith⟩ hp ⟨by linarith, by linarith⟩ _ (by linarith)
      refine SameEnd.right (end_LSR0 t p q) (end_LSR (h1 := -(2 * d + π)) (h3 := -q) (by ring) (by ring)) ?_ ?_ (AngleEq.refl _)
      · rw [sin_neg, cos_neg, sin_add_pi, cos_add_pi, sin_two_mul, cos_two_mul]
        linear_combination (-2 * p) * sin_sq_add_cos_sq d + 2 * sin d * (sin d * g1 - cos d * g2)
      · rw [sin_neg, cos_neg, sin_add_pi, cos_add_pi, sin_two_mul, cos_two_mul]
        linear_combination 2 * cos d * (sin d * g1 - cos d * g2)
    · exact LSR_swap ((LSR_both_LSL hp hD0 g1 g2 hq hq2 d0 (by linarith) ht2).via (fun x y phi h => h) (by linarith))
  · exact LSR_both_LSL hp hD0 g1 g2 ht ht2 d0 (by linarith) hq2

theorem LSR_two {t p q : ℝ} (hp : 0 ≤ p) (ht : 0 ≤ t) (ht2 : t ≤ 2 * π) (hq : 0 ≤ q) (hq2 : q ≤ 2 * π) :
    Beaten [(1, t), (0, p), (-1, q)] (t + p + q) := by
  by_cases c : t ≤ π ∨ q ≤ π
  · exact LSR_one' hp ht ht2 hq hq2 c
  · push Not at c
    exact LSR_both hp c.1.le ht2 c.2.le hq2

/-! ### Three turns -/

theorem LRL_two {t p q : ℝ} (hp : π ≤ p) (hp2 : p ≤ 2 * π) (ht : 0 ≤ t) (ht2 : t ≤ 2 * π) (hq : 0 ≤ q) (hq2 : q ≤ 2 * π) :
    Beaten [(1, t), (-1, p), (1, q)] (t + p + q) := by
  have hpi := pi_gt_three
  have hsame : SameEnd [(1, t), (-1, p), (1, q)] [(1, t), (-1, p - 2 * π), (1, q)] := by
    refine SameEnd.left (end_LRL (x := 0) (y := 0) (h0 := -t) (h1 := 0) (h2 := -p) (h3 := q - p) (by ring) (by ring) (by ring))
      (end_LRL (h1 := 0) (h2 := -p + 2 * π) (h3 := q - p + 2 * π) (by ring) (by ring) (by ring)) ?_ ?_ ?_
    · rw [sin_add_two_pi]
    · rw [cos_add_two_pi]
    · exact ⟨-1, by push_cast; ring⟩
  by_cases c : t ≤ π
  · apply Beaten.ccc (e := 1) (s := 1) (s' := 1) (t := t) (u := 2 * π - p) (v := q) one_sign one_sign one_sign
      ⟨ht, c⟩ (by linarith) (by linarith) hq _ (by linarith)
    rw [show (-1:ℝ) * (2 * π - p) = p - 2 * π by ring, one_mul, one_mul]; exact hsame
  by_cases c' : q ≤ π
  · apply Beaten.ccc_rev (e := 1) (s := 1) (s' := 1) (t := q) (u := 2 * π - p) (v := t) one_sign one_sign one_sign
      ⟨hq, c'⟩ (by linarith) (by linarith) ht _ (by linarith)
    rw [show (-1:ℝ) * (2 * π - p) = p - 2 * π by ring, one_mul, one_mul]; exact hsame
  obtain ⟨g, rfl⟩ : ∃ g, p = 2 * π - 2 * g := ⟨π - p / 2, by ring⟩
  have hg : 0 ≤ sin g := sin_nonneg_of_nonneg_of_le_pi (by linarith) (by linarith)
  refine (LSL_two (t := t + g - π) (p := 4 * sin g) (q := q + g - π) (by positivity) (by linarith) (by linarith)
    (by linarith) (by linarith)).via ?_ (by linarith [sin_le_one g])
  refine SameEnd.left (end_LRL (x := 0) (y := 0) (h1 := π - g) (h2 := -(π - g)) (h3 := q + g - π) (by ring) (by ring) (by ring))
    (end_LSL0 _ _ _) ?_ ?_ (AngleEq.refl _)
  · rw [sin_neg, sin_pi_sub]; ring
  · rw [cos_neg]; ring

/-! ### Any number of turns -/

theorem turn_floor {t : ℝ} (ht : 0 ≤ t) : ∃ n : ℤ, 0 ≤ t - n * (2 * π) ∧ t - n * (2 * π) ≤ 2 * π ∧ t - n * (2 * π) ≤ t := by
  have hpi : 0 < 2 * π := by positivity
  refine ⟨⌊t / (2 * π)⌋, ?_, ?_, ?_⟩
  · have := Int.floor_le (t / (2 * π))
    rw [le_div_iff₀ hpi] at this
    linarith
  · have := Int.lt_floor_add_one (t / (2 * π))
    rw [div_lt_iff₀ hpi] at this
    linarith
  · have : (0:ℝ) ≤ (⌊t / (2 * π)⌋ : ℤ) := by exact_mod_cast Int.floor_nonneg.2 (by positivity)
    nlinarith

theorem Beaten.any {e f g t p q : ℝ} (he : IsSign e) (hg : IsSign g) (ht : 0 ≤ t) (hq : 0 ≤ q)
    (h : ∀ t q : ℝ, 0 ≤ t → t ≤ 2 * π → 0 ≤ q → q ≤ 2 * π → Beaten [(e, t), (f, p), (g, q)] (t + p + q)) :
    Beaten [(e, t), (f, p), (g, q)] (t + p + q) := by
  obtain ⟨n, n0, n1, n2⟩ := turn_floor ht
  obtain ⟨m, m0, m1, m2⟩ := turn_floor hq
  exact (h _ _ n0 n1 m0 m1).via (SameEnd.turns e f g t p q n m he hg) (by linarith)

theorem csc_beaten {e g t p q : ℝ} (he : IsSign e) (hg : IsSign g) (hp : 0 ≤ p) (ht : 0 ≤ t) (hq : 0 ≤ q) :
    Beaten [(e, t), (0, p), (g, q)] (t + p + q) := by
  apply Beaten.any he hg ht hq
  intro t q ht ht2 hq hq2
  rcases he with rfl | rfl <;> rcases hg with rfl | rfl
  · exact LSL_two hp ht ht2 hq hq2
  · exact LSR_two hp ht ht2 hq hq2
  · have := (LSR_two hp ht ht2 hq hq2).mirror
    simpa [mirrorW] using this
  · have := (LSL_two hp ht ht2 hq hq2).mirror
    simpa [mirrorW] using this

theorem ccc_beaten {e t p q : ℝ} (he : IsSign e) (hp : π ≤ p) (hp2 : p ≤ 2 * π) (ht : 0 ≤ t) (hq : 0 ≤ q) :
    Beaten [(e, t), (-e, p), (e, q)] (t + p + q) := by
  apply Beaten.any he he ht hq
  intro t q ht ht2 hq hq2
  rcases he with rfl | rfl
  · exact LRL_two hp hp2 ht ht2 hq hq2
  · have := (LRL_two hp hp2 ht ht2 hq hq2).mirror
    simpa [mirrorW] using this

end Spec
