import Verif.Lemmas.Optimal

/-!
# Forward paths with any number of pieces: one more short piece after a turn, a line and a turn
-/

noncomputable section

namespace Spec

open SF Real Filter Topology

theorem le_of_sq_le' {a b : ℝ} (hb : 0 ≤ b) (h : a ^ 2 ≤ b ^ 2) : a ≤ b := by nlinarith

/-- The tangent between a right and a left circle, when the left circle moves by `rho`. -/
theorem cross_le {p P n rho X Y c s : ℝ} (g1 : P * sin n + 2 * cos n = Y) (g2 : P * cos n - 2 * sin n = X)
    (hX : X = p + rho * c) (hY : Y = 2 + rho * s) (hc : s ^ 2 + c ^ 2 = 1) (hr : 0 ≤ rho) (hn : |n| ≤ 1) (hpP : 0 ≤ p * P)
    (hs : 5 / 12 * n ^ 2 + |P - p| * |n| ≤ p * P / 2) : P - 2 * n ≤ p + rho := by
  have h1 := sin_sq_add_cos_sq n
  have e : rho ^ 2 = (P - p - 2 * n) ^ 2 + (2 * (p * P) * (1 - cos n) + (8 * (1 - cos n) - 4 * n ^ 2) +
      4 * ((P - p) * (n - sin n))) := by
    have : rho ^ 2 = (X - p) ^ 2 + (Y - 2) ^ 2 := by rw [hX, hY]; linear_combination -rho ^ 2 * hc
    rw [this, ← g1, ← g2]
    linear_combination (P ^ 2 + 4) * h1
  have b1 := abs_le.1 (cos_bound hn)
  have b2 := abs_le.1 (sin_bound hn)
  have n0 := abs_nonneg n
  have n2 : n ^ 2 = |n| ^ 2 := (sq_abs n).symm
  have n42 : |n| ^ 4 ≤ |n| ^ 2 := pow_le_pow_of_le_one n0 hn (by norm_num)
  have n5 : |n| ^ 5 ≤ |n| ^ 3 := pow_le_pow_of_le_one n0 hn (by norm_num)
  have n3 : |n ^ 3| = |n| ^ 3 := abs_pow n 3
  have n3' := abs_le.1 n3.le
  have c1 : n ^ 2 / 4 ≤ 1 - cos n := by nlinarith [b1.2]
  have c2 : -(5 / 12 * (n ^ 2 * n ^ 2)) ≤ 8 * (1 - cos n) - 4 * n ^ 2 := by
    have : n ^ 2 * n ^ 2 = |n| ^ 4 := by rw [n2]; ring
    rw [this]; linarith [b1.2]
  have c3 : |n - sin n| ≤ |n| ^ 3 / 4 := by
    rw [abs_le]; constructor <;> linarith [b2.1, b2.2, n3'.1, n3'.2]
  have c4 : -(|P - p| * |n| * n ^ 2) ≤ 4 * ((P - p) * (n - sin n)) := by
    have h := abs_mul (P - p) (n - sin n)
    have h' := neg_abs_le ((P - p) * (n - sin n))
    have := mul_le_mul_of_nonneg_left c3 (abs_nonneg (P - p))
    rw [n2]
    nlinarith
  have c5 := mul_le_mul_of_nonneg_left c1 hpP
  have c6 := mul_le_mul_of_nonneg_right hs (sq_nonneg n)
  have := le_of_sq_le' (a := P - p - 2 * n) hr (by nlinarith)
  linarith

theorem two_mul_one_sub_cos {n : ℝ} (h0 : 0 ≤ n) (h1 : n < π) : n * sin n ≤ 2 * (1 - cos n) := by
  obtain ⟨m, rfl⟩ : ∃ m, n = 2 * m := ⟨n / 2, by ring⟩
  have hs : 0 ≤ sin m := sin_nonneg_of_nonneg_of_le_pi (by linarith) (by linarith [pi_pos])
  have hc : 0 < cos m := cos_pos_of_mem_Ioo ⟨by linarith [pi_pos], by linarith⟩
  have ht := le_tan (x := m) (by linarith) (by linarith)
  rw [tan_eq_sin_div_cos, le_div_iff₀ hc] at ht
  rw [sin_two_mul, cos_two_mul]
  have := mul_le_mul_of_nonneg_left ht hs
  nlinarith [sin_sq_add_cos_sq m]

/-- The same for touching circles that move apart. -/
theorem cross_le_zero {P n rho X Y c s : ℝ} (g1 : P * sin n + 2 * cos n = Y) (g2 : P * cos n - 2 * sin n = X)
    (hX : X = rho * c) (hY : Y = 2 + rho * s) (hc : s ^ 2 + c ^ 2 = 1) (hr : 0 ≤ rho) (hs : 0 ≤ s) (hP : 0 ≤ P)
    (hn : -π < n) (hn' : n < π) : P - 2 * n ≤ rho := by
  have h1 := sin_sq_add_cos_sq n
  have e : rho ^ 2 = (P - 2 * n) ^ 2 + ((8 * (1 - cos n) - 4 * n ^ 2) + 4 * (P * (n - sin n))) := by
    have : rho ^ 2 = X ^ 2 + (Y - 2) ^ 2 := by rw [hX, hY]; linear_combination -rho ^ 2 * hc
    rw [this, ← g1, ← g2]
    linear_combination (P ^ 2 + 4) * h1
  have k : 2 * (1 - cos n) ≤ P * sin n := by
    have := mul_nonneg hr hs
    linarith
  have kc := cos_le_one n
  apply le_of_sq_le' hr
  rw [e]
  rcases lt_trichotomy n 0 with h | h | h
  · have h2 : sin n < 0 := sin_neg_of_neg_of_neg_pi_lt h hn
    have h3 : P * sin n ≤ 0 := mul_nonpos_of_nonneg_of_nonpos hP h2.le
    have h4 : cos n < 1 := by
      have := one_sub_sq_div_two_le_cos (x := n)
      rcases lt_or_eq_of_le kc with h | h
      · exact h
      · rw [h] at h1; nlinarith
    linarith
  · rw [h]; simp
  · have h2 : 0 < sin n := sin_pos_of_pos_of_lt_pi h hn'
    have h3 := two_mul_one_sub_cos h.le hn'
    have h4 := sin_le h.le
    have h5 : 0 ≤ ((8 * (1 - cos n) - 4 * n ^ 2) + 4 * (P * (n - sin n))) * sin n := by
      have := mul_le_mul_of_nonneg_right k (sub_nonneg.2 h4)
      have := mul_le_mul_of_nonneg_left h3 h.le
      nlinarith
    have h6 := nonneg_of_mul_nonneg_left h5 h2
    linarith

theorem cross_sign {X Y P : ℝ} (hX : 0 < X) (hY : 0 < Y) (hY2 : Y ≤ 2) (h4 : 4 ≤ X ^ 2 + Y ^ 2)
    (hP : P = √(X ^ 2 + Y ^ 2 - 4)) : P * Y - 2 * X ≤ 0 := by
  have hP2 : P ^ 2 = X ^ 2 + Y ^ 2 - 4 := by rw [hP]; exact sq_sqrt (by linarith)
  have : P * Y ≤ 2 * X := by
    apply le_of_sq_le' (by positivity)
    have : (P * Y) ^ 2 = (X ^ 2 + Y ^ 2 - 4) * Y ^ 2 := by rw [mul_pow, hP2]
    rw [this]
    have h4 : 0 ≤ 4 - Y ^ 2 := by nlinarith
    have := mul_nonneg h4 (show 0 ≤ X ^ 2 + Y ^ 2 by positivity)
    nlinarith
  linarith

section

variable {t p q u : ℝ} {rho g : ℝ → ℝ}

theorem ev {f : ℝ → ℝ} {a : ℝ} (hf : ContinuousAt f 0) (h : a < f 0) : ∀ᶠ r in 𝓝[>] (0:ℝ), a < f r :=
  (hf.eventually (lt_mem_nhds h)).filter_mono nhdsWithin_le_nhds

theorem ev' {f : ℝ → ℝ} {a : ℝ} (hf : ContinuousAt f 0) (h : f 0 < a) : ∀ᶠ r in 𝓝[>] (0:ℝ), f r < a :=
  (hf.eventually (gt_mem_nhds h)).filter_mono nhdsWithin_le_nhds

/-- After left, straight, left. -/
theorem ok_LSL (hs : Shift q u rho g) (ht : 0 < t) (hp : 0 < p) (hq : 0 < q) : Ok [(1, t), (0, p), (1, q)] u := by
  have cr := hs.crho
  have cg := hs.cg
  have cX : ContinuousAt (fun r => p + rho r * cos (q - g r / 2)) 0 := by fun_prop
  have X0 : 0 < p + rho 0 * cos (q - g 0 / 2) := by rw [hs.rho0]; simpa
  have cn : ContinuousAt (fun r => arctan (rho r * sin (q - g r / 2) / (p + rho r * cos (q - g r / 2)))) 0 := by
    apply continuous_arctan.continuousAt.comp
    exact ContinuousAt.div (by fun_prop) cX X0.ne'
  have n0 : arctan (rho 0 * sin (q - g 0 / 2) / (p + rho 0 * cos (q - g 0 / 2))) = 0 := by rw [hs.rho0]; simp
  have c1 : ContinuousAt (fun r => t + arctan (rho r * sin (q - g r / 2) / (p + rho r * cos (q - g r / 2)))) 0 :=
    continuousAt_const.add cn
  have c2 : ContinuousAt (fun r => q - g r - arctan (rho r * sin (q - g r / 2) / (p + rho r * cos (q - g r / 2)))) 0 :=
    (continuousAt_const.sub cg.continuousAt).sub cn
  filter_upwards [hs.nonneg, hs.le, ev cX X0, ev c1 (a := 0) (by rw [n0]; linarith),
    ev c2 (a := 0) (by rw [n0, hs.g0]; linarith)] with r h1 h2 h3 h4 h5
  rw [wordLen3 ht.le hp.le hq.le]
  exact ext_LSL hs hp.le h1 h2 h3 h4.le h5.le

/-- What holds for short pieces after right, straight, left. -/
theorem ev_RSL (hs : Shift q u rho g) (hp : 0 < p) (hq : 0 < q) : ∀ᶠ r in 𝓝[>] (0:ℝ), ∀ X Y P n : ℝ,
    X = p + rho r * cos (q - g r / 2) → Y = 2 + rho r * sin (q - g r / 2) → P = √(X ^ 2 + Y ^ 2 - 4) →
    n = arctan ((P * Y - 2 * X) / (X * P + 2 * Y)) → 0 < X ∧ 0 < Y ∧ 4 ≤ X ^ 2 + Y ^ 2 ∧ 0 < X * P + 2 * Y ∧
    0 ≤ q - g r - n ∧ (P * sin n + 2 * cos n = Y → P * cos n - 2 * sin n = X → P - 2 * n ≤ p + rho r) := by
  have cr := hs.crho
  have cg := hs.cg
  obtain ⟨X, hX⟩ : ∃ X : ℝ → ℝ, X = fun r => p + rho r * cos (q - g r / 2) := ⟨_, rfl⟩
  obtain ⟨Y, hY⟩ : ∃ Y : ℝ → ℝ, Y = fun r => 2 + rho r * sin (q - g r / 2) := ⟨_, rfl⟩
  obtain ⟨P, hP⟩ : ∃ P : ℝ → ℝ, P = fun r => √(X r ^ 2 + Y r ^ 2 - 4) := ⟨_, rfl⟩
  obtain ⟨n, hn⟩ : ∃ n : ℝ → ℝ, n = fun r => arctan ((P r * Y r - 2 * X r) / (X r * P r + 2 * Y r)) := ⟨_, rfl⟩
  have cX : Continuous X := by rw [hX]; fun_prop
  have cY : Continuous Y := by rw [hY]; fun_prop
  have cP : Continuous P := by rw [hP]; fun_prop
  have X0 : X 0 = p := by rw [hX]; simp [hs.rho0]
  have Y0 : Y 0 = 2 := by rw [hY]; simp [hs.rho0]
  have P0 : P 0 = p := by
    rw [hP]; simp only; rw [X0, Y0, show p ^ 2 + 2 ^ 2 - 4 = p ^ 2 by ring]; exact sqrt_sq hp.le
  have A0 : 0 < X 0 * P 0 + 2 * Y 0 := by rw [X0, Y0, P0]; positivity
  have cn : ContinuousAt n 0 := by
    rw [hn]
    apply continuous_arctan.continuousAt.comp
    exact ContinuousAt.div (by fun_prop) (by fun_prop) A0.ne'
  have n0 : n 0 = 0 := by
    rw [hn]; simp only; rw [P0, X0, Y0, show p * 2 - 2 * p = 0 by ring]; simp
  have cS : ContinuousAt (fun r => p * P r / 2 - (5 / 12 * n r ^ 2 + |P r - p| * |n r|)) 0 := by
    have := cP.continuousAt (x := 0)
    fun_prop
  filter_upwards [hs.nonneg, ev cX.continuousAt (a := 0) (by rw [X0]; exact hp),
    ev cY.continuousAt (a := 0) (by rw [Y0]; norm_num),
    ev (f := fun r => X r ^ 2 + Y r ^ 2) (a := 4) (by fun_prop) (by rw [X0, Y0]; nlinarith),
    ev (f := fun r => X r * P r + 2 * Y r) (by fun_prop) A0,
    ev (f := fun r => q - g r - n r) (a := 0) (by fun_prop) (by rw [n0, hs.g0]; linarith),
    ev' (f := fun r => |n r|) (a := 1) (by fun_prop) (by rw [n0]; simp),
    ev cS (a := 0) (by rw [n0, P0]; simp; positivity)] with r k0 k1 k2 k3 k4 k5 k6 k7
  intro X' Y' P' n' e1 e2 e3 e4
  have f1 : X' = X r := by rw [hX]; exact e1
  have f2 : Y' = Y r := by rw [hY]; exact e2
  subst f1; subst f2
  have f3 : P' = P r := by rw [hP]; exact e3
  subst f3
  have f4 : n' = n r := by rw [hn]; exact e4
  subst f4
  have hPr : 0 ≤ P r := by rw [hP]; positivity
  exact ⟨k1, k2, k3.le, k4, k5.le, fun g1 g2 => cross_le g1 g2 e1 e2 (sin_sq_add_cos_sq _) k0 k6.le (by positivity)
    (by linarith)⟩

/-- After right, straight, left. -/
theorem ok_RSL (hs : Shift q u rho g) (ht : 0 < t) (hp : 0 < p) (hq : 0 < q) : Ok [(-1, t), (0, p), (1, q)] u := by
  have cr := hs.crho
  have cg := hs.cg
  obtain ⟨X, hX⟩ : ∃ X : ℝ → ℝ, X = fun r => p + rho r * cos (q - g r / 2) := ⟨_, rfl⟩
  obtain ⟨Y, hY⟩ : ∃ Y : ℝ → ℝ, Y = fun r => 2 + rho r * sin (q - g r / 2) := ⟨_, rfl⟩
  obtain ⟨P, hP⟩ : ∃ P : ℝ → ℝ, P = fun r => √(X r ^ 2 + Y r ^ 2 - 4) := ⟨_, rfl⟩
  obtain ⟨n, hn⟩ : ∃ n : ℝ → ℝ, n = fun r => arctan ((P r * Y r - 2 * X r) / (X r * P r + 2 * Y r)) := ⟨_, rfl⟩
  have cX : Continuous X := by rw [hX]; fun_prop
  have cY : Continuous Y := by rw [hY]; fun_prop
  have cP : Continuous P := by rw [hP]; fun_prop
  have X0 : X 0 = p := by rw [hX]; simp [hs.rho0]
  have Y0 : Y 0 = 2 := by rw [hY]; simp [hs.rho0]
  have P0 : P 0 = p := by
    rw [hP]; simp only; rw [X0, Y0, show p ^ 2 + 2 ^ 2 - 4 = p ^ 2 by ring]; exact sqrt_sq hp.le
  have A0 : 0 < X 0 * P 0 + 2 * Y 0 := by rw [X0, Y0, P0]; positivity
  have cn : ContinuousAt n 0 := by
    rw [hn]
    apply continuous_arctan.continuousAt.comp
    exact ContinuousAt.div (by fun_prop) (by fun_prop) A0.ne'
  have n0 : n 0 = 0 := by
    rw [hn]; simp only; rw [P0, X0, Y0, show p * 2 - 2 * p = 0 by ring]; simp
  filter_upwards [hs.le, ev_RSL hs hp hq, ev (f := fun r => t - n r) (a := 0) (by fun_prop) (by rw [n0]; linarith)]
    with r h1 h2 h3
  obtain ⟨-, -, k1, k2, k3, k4⟩ := h2 (X r) (Y r) (P r) (n r) (by rw [hX]) (by rw [hY]) (by rw [hP]) (by rw [hn])
  rw [wordLen3 ht.le hp.le hq.le]
  exact ext_RSL hs h1 (X := X r) (Y := Y r) (P := P r) (n := n r) (by rw [hX]) (by rw [hY]) k1 (by rw [hP]) k2 (by rw [hn])
    h3.le k3 k4

/-- After straight, left. -/
theorem ok_SL (hs : Shift q u rho g) (hp : 0 < p) (hq : 0 < q) : Ok [(1, 0), (0, p), (1, q)] u := by
  have cr := hs.crho
  have cg := hs.cg
  have cX : ContinuousAt (fun r => p + rho r * cos (q - g r / 2)) 0 := by fun_prop
  have X0 : 0 < p + rho 0 * cos (q - g 0 / 2) := by rw [hs.rho0]; simpa
  have cn : ContinuousAt (fun r => arctan (rho r * sin (q - g r / 2) / (p + rho r * cos (q - g r / 2)))) 0 := by
    apply continuous_arctan.continuousAt.comp
    exact ContinuousAt.div (by fun_prop) cX X0.ne'
  have n0 : arctan (rho 0 * sin (q - g 0 / 2) / (p + rho 0 * cos (q - g 0 / 2))) = 0 := by rw [hs.rho0]; simp
  have c2 : ContinuousAt (fun r => q - g r - arctan (rho r * sin (q - g r / 2) / (p + rho r * cos (q - g r / 2)))) 0 :=
    (continuousAt_const.sub cg.continuousAt).sub cn
  filter_upwards [hs.nonneg, hs.le, ev cX X0, ev c2 (a := 0) (by rw [n0, hs.g0]; linarith), ev_RSL hs hp hq]
    with r h1 h2 h3 h5 h6
  rw [wordLen3 le_rfl hp.le hq.le]
  rcases le_total 0 (sin (q - g r / 2)) with c | c
  · exact ext_LSL hs hp.le h1 h2 h3 (by rw [zero_add]; exact arctan_nonneg.2 (by positivity)) h5.le
  · obtain ⟨k1, k2, k3, k4, k5, k6⟩ := h6 _ _ _ _ rfl rfl rfl rfl
    refine (ext_RSL (t := 0) hs h2 rfl rfl k3 rfl k4 rfl ?_ k5 k6).via ?_ le_rfl
    · rw [zero_sub, Left.nonneg_neg_iff, ← arctan_zero]
      apply arctan_strictMono.monotone
      apply div_nonpos_of_nonpos_of_nonneg _ k4.le
      exact cross_sign k1 k2 (by linarith [mul_nonpos_of_nonneg_of_nonpos h1 c]) k3 rfl
    · apply SameEnd.append
      apply SameEnd.of ⟨0, 0, 0⟩ <;> simp [uEnd, uStep]
      exact AngleEq.refl _

/-- After right, left, by at most half a turn. -/
theorem ok_RL (hs : Shift q u rho g) (ht : 0 < t) (hq : 0 < q) (hq2 : q ≤ π) : Ok [(-1, t), (0, 0), (1, q)] u := by
  have cr := hs.crho
  have cg := hs.cg
  have hpi := pi_pos
  obtain ⟨X, hX⟩ : ∃ X : ℝ → ℝ, X = fun r => 0 + rho r * cos (q - g r / 2) := ⟨_, rfl⟩
  obtain ⟨Y, hY⟩ : ∃ Y : ℝ → ℝ, Y = fun r => 2 + rho r * sin (q - g r / 2) := ⟨_, rfl⟩
  obtain ⟨P, hP⟩ : ∃ P : ℝ → ℝ, P = fun r => √(X r ^ 2 + Y r ^ 2 - 4) := ⟨_, rfl⟩
  obtain ⟨n, hn⟩ : ∃ n : ℝ → ℝ, n = fun r => arctan ((P r * Y r - 2 * X r) / (X r * P r + 2 * Y r)) := ⟨_, rfl⟩
  have cX : Continuous X := by rw [hX]; fun_prop
  have cY : Continuous Y := by rw [hY]; fun_prop
  have cP : Continuous P := by rw [hP]; fun_prop
  have X0 : X 0 = 0 := by rw [hX]; simp [hs.rho0]
  have Y0 : Y 0 = 2 := by rw [hY]; simp [hs.rho0]
  have P0 : P 0 = 0 := by
    rw [hP]; simp only; rw [X0, Y0]; norm_num
  have A0 : 0 < X 0 * P 0 + 2 * Y 0 := by rw [X0, Y0, P0]; norm_num
  have cn : ContinuousAt n 0 := by
    rw [hn]
    apply continuous_arctan.continuousAt.comp
    exact ContinuousAt.div (by fun_prop) (by fun_prop) A0.ne'
  have n0 : n 0 = 0 := by
    rw [hn]; simp only; rw [P0, X0, Y0]; simp
  filter_upwards [hs.nonneg, hs.gnonneg, hs.le,
    ev (f := fun r => q - g r / 2) (a := 0) (by fun_prop) (by rw [hs.g0]; linarith),
    ev (f := fun r => X r * P r + 2 * Y r) (by fun_prop) A0,
    ev (f := fun r => q - g r - n r) (a := 0) (by fun_prop) (by rw [n0, hs.g0]; linarith),
    ev (f := fun r => t - n r) (a := 0) (by fun_prop) (by rw [n0]; linarith)] with r k0 kg k1 k2 k3 k4 k5
  have hsin : 0 ≤ sin (q - g r / 2) := sin_nonneg_of_nonneg_of_le_pi k2.le (by linarith)
  have hXr : X r = rho r * cos (q - g r / 2) := by rw [hX]; simp
  have hYr : Y r = 2 + rho r * sin (q - g r / 2) := by rw [hY]
  rw [wordLen3 ht.le le_rfl hq.le]
  refine ext_RSL hs k1 (X := X r) (Y := Y r) (P := P r) (n := n r) (by rw [hX]) (by rw [hY]) ?_ (by rw [hP]) k3 (by rw [hn])
    k5.le k4.le ?_
  · rw [hXr, hYr]
    have := sin_sq_add_cos_sq (q - g r / 2)
    have := mul_nonneg k0 hsin
    nlinarith [sq_nonneg (rho r)]
  · intro g1 g2
    rw [zero_add]
    have hnr : n r = arctan ((P r * Y r - 2 * X r) / (X r * P r + 2 * Y r)) := by rw [hn]
    have b1 := neg_pi_div_two_lt_arctan ((P r * Y r - 2 * X r) / (X r * P r + 2 * Y r))
    have b2 := arctan_lt_pi_div_two ((P r * Y r - 2 * X r) / (X r * P r + 2 * Y r))
    rw [← hnr] at b1 b2
    exact cross_le_zero g1 g2 hXr hYr (sin_sq_add_cos_sq _) k0 hsin (by rw [hP]; positivity) (by linarith) (by linarith)

end

end Spec
