import Verif.Lemmas.DoubleDubins

/-!
# `twopify` and `pify` in double precision
-/

noncomputable section

namespace Spec

open Real

/-- The exponent may be lowered. -/
theorem IsDouble.common {x y : ℝ} (hx : IsDouble x) (hy : IsDouble y) :
    ∃ (a b e : ℤ), -1074 ≤ e ∧ e ≤ 971 ∧ x = a * 2 ^ e ∧ y = b * 2 ^ e ∧ (|a| < 2 ^ 53 ∨ |b| < 2 ^ 53) := by
  obtain ⟨m, e, h1, h2, h3, rfl⟩ := hx
  obtain ⟨m', e', h1', h2', h3', rfl⟩ := hy
  rcases le_total e e' with h | h
  · obtain ⟨n, hn⟩ := Int.eq_ofNat_of_zero_le (show 0 ≤ e' - e by omega)
    refine ⟨m, m' * 2 ^ n, e, h2, h3, rfl, ?_, .inl h1⟩
    rw [show e' = (n : ℤ) + e by omega, zpow_add₀ (by norm_num), zpow_natCast]
    push_cast; ring
  · obtain ⟨n, hn⟩ := Int.eq_ofNat_of_zero_le (show 0 ≤ e - e' by omega)
    refine ⟨m * 2 ^ n, m', e', h2', h3', ?_, rfl, .inr h1'⟩
    rw [show e = (n : ℤ) + e' by omega, zpow_add₀ (by norm_num), zpow_natCast]
    push_cast; ring

/-- A number on the common grid of two doubles that is not larger than either of them is a double. -/
theorem IsDouble.of_le {x y z : ℝ} (hx : IsDouble x) (hy : IsDouble y) (m n : ℤ) (hz : z = m * x + n * y)
    (h1 : |z| ≤ |x|) (h2 : |z| ≤ |y|) : IsDouble z := by
  obtain ⟨a, b, e, e1, e2, rfl, rfl, h⟩ := hx.common hy
  have hp : (0:ℝ) < 2 ^ e := by positivity
  have key : ∀ c : ℤ, |z| ≤ |(c:ℝ) * 2 ^ e| → |m * a + n * b| ≤ |c| := by
    intro c hc
    have e3 : z = ((m * a + n * b : ℤ) : ℝ) * 2 ^ e := by rw [hz]; push_cast; ring
    rw [e3, abs_mul, abs_mul, abs_of_pos hp] at hc
    have := le_of_mul_le_mul_right hc hp
    have h' : ((|m * a + n * b| : ℤ) : ℝ) ≤ ((|c| : ℤ) : ℝ) := by
      rw [Int.cast_abs, Int.cast_abs]; exact this
    exact Int.cast_le.1 h'
  refine ⟨m * a + n * b, e, ?_, e1, e2, by rw [hz]; push_cast; ring⟩
  rcases h with h | h
  · exact (key a h1).trans_lt h
  · exact (key b h2).trans_lt h

theorem fmod_abs_lt {x y : ℝ} (hy : 0 < y) : |SF.fmod x y| < y ∧ |SF.fmod x y| ≤ |x| := by
  unfold SF.fmod SF.truncZ
  split_ifs with h
  · have h0 : 0 ≤ x := by
      by_contra hn
      push Not at hn
      exact absurd h (not_le.2 (div_neg_of_neg_of_pos hn hy))
    have h1 := Int.floor_le (x / y)
    have h2 := Int.lt_floor_add_one (x / y)
    have h3 : (0:ℝ) ≤ (⌊x / y⌋ : ℝ) := by exact_mod_cast Int.floor_nonneg.2 h
    rw [le_div_iff₀ hy] at h1
    rw [div_lt_iff₀ hy] at h2
    have h4 : 0 ≤ x - y * (⌊x / y⌋ : ℝ) := by linarith
    rw [abs_of_nonneg h4, abs_of_nonneg h0]
    constructor <;> nlinarith
  · push Not at h
    have h0 : x < 0 := by
      by_contra hn
      push Not at hn
      exact absurd h (not_lt.2 (div_nonneg hn hy.le))
    have h1 := Int.le_ceil (x / y)
    have h2 := Int.ceil_lt_add_one (x / y)
    have h3 : ((⌈x / y⌉ : ℤ) : ℝ) ≤ 0 := by exact_mod_cast Int.ceil_le.2 (by push_cast; exact h.le)
    rw [div_le_iff₀ hy] at h1
    have h2' : ((⌈x / y⌉ : ℤ) : ℝ) * y < x + y := by
      have : ((⌈x / y⌉ : ℤ) : ℝ) * y < (x / y + 1) * y := mul_lt_mul_of_pos_right h2 hy
      rwa [add_mul, div_mul_cancel₀ _ hy.ne', one_mul] at this
    have h4 : x - y * (⌈x / y⌉ : ℝ) ≤ 0 := by linarith
    rw [abs_of_nonpos h4, abs_of_neg h0]
    constructor <;> nlinarith

/-- `fmod` is exact. -/
theorem IsDouble.fmod {x y : ℝ} (hx : IsDouble x) (hy : IsDouble y) (h : 0 < y) : IsDouble (SF.fmod x y) := by
  obtain ⟨h1, h2⟩ := fmod_abs_lt (x := x) h
  refine hx.of_le hy 1 (-SF.truncZ (x / y)) ?_ h2 (by rw [abs_of_pos h]; exact h1.le)
  unfold SF.fmod
  push_cast; ring

namespace Rounds

variable {fl : ℝ → ℝ} (F : Rounds fl)
include F

theorem two_pi_eq : SF.Dbl.TWO_PI fl = 2 * SF.Dbl.PI fl := by rw [F.two_pi, F.pi]; norm_num

/-- `pify` is exact. -/
theorem pify {x : ℝ} (hx : IsDouble x) :
    IsDouble (SF.Dbl.pify fl x) ∧ -SF.Dbl.PI fl ≤ SF.Dbl.pify fl x ∧ SF.Dbl.pify fl x ≤ SF.Dbl.PI fl ∧
    ∃ n : ℤ, SF.Dbl.pify fl x = x - n * SF.Dbl.TWO_PI fl := by
  obtain ⟨a, -⟩ := F.two_pi_bounds
  have hT := F.two_pi_eq
  have h0 : 0 < SF.Dbl.TWO_PI fl := by linarith
  obtain ⟨v, hv⟩ : ∃ v, v = SF.fmod x (SF.Dbl.TWO_PI fl) := ⟨_, rfl⟩
  have hd : IsDouble v := by rw [hv]; exact hx.fmod F.two_pi_double h0
  obtain ⟨h1, -⟩ := fmod_abs_lt (x := x) h0
  rw [← hv, abs_lt] at h1
  obtain ⟨n, hn⟩ : ∃ n : ℤ, v = x - n * SF.Dbl.TWO_PI fl := ⟨_, by rw [hv, SF.fmod, mul_comm]⟩
  unfold SF.Dbl.pify
  simp only [← hv]
  split_ifs with c1 c2
  · have hz : IsDouble (v + SF.Dbl.TWO_PI fl) := by
      refine hd.of_le F.two_pi_double 1 1 (by push_cast; ring) ?_ ?_
      · rw [abs_of_pos (by linarith), abs_of_neg (by linarith)]; linarith
      · rw [abs_of_pos (by linarith), abs_of_pos h0]; linarith
    rw [F.exact hz]
    exact ⟨hz, by linarith, by linarith, n - 1, by rw [hn]; push_cast; ring⟩
  · have hz : IsDouble (v - SF.Dbl.TWO_PI fl) := by
      refine hd.of_le F.two_pi_double 1 (-1) (by push_cast; ring) ?_ ?_
      · rw [abs_of_neg (by linarith), abs_of_pos (by linarith)]; linarith
      · rw [abs_of_neg (by linarith), abs_of_pos h0]; linarith
    rw [F.exact hz]
    exact ⟨hz, by linarith, by linarith, n + 1, by rw [hn]; push_cast; ring⟩
  · push Not at c1 c2
    exact ⟨hd, c1, c2, n, hn⟩

theorem two_pi_mul {n : ℤ} (h : |n| ≤ 4) : fl (SF.Dbl.TWO_PI fl * (n : ℝ)) = n * SF.Dbl.TWO_PI fl := by
  rw [mul_comm]
  apply F.exact
  rw [F.two_pi]
  rw [abs_le] at h
  obtain ⟨h1, h2⟩ := h
  refine .mul_pow (n * 884279719003555) (-47) ?_ ?_ (by norm_num) (by norm_num)
  · push_cast
    norm_num
    ring
  · rw [abs_lt]; constructor <;> omega

/-- A double below a multiple of `TWO_PI` is at least one unit below. -/
theorem below_mul {x : ℝ} (hx : IsDouble x) (hs : x ≤ -2 ^ (-1000 : ℤ) ∨ 0 ≤ x) {n : ℤ} (h1 : -4 ≤ n) (h2 : n ≤ 4) (h : x < n * SF.Dbl.TWO_PI fl) :
    fl (x / SF.Dbl.TWO_PI fl) < n := by
  obtain ⟨a, b⟩ := F.two_pi_bounds
  have hT := F.two_pi
  have h0 : 0 < SF.Dbl.TWO_PI fl := by linarith
  -- the next double below a number on the grid
  have grid : ∀ (e k : ℤ), (n : ℝ) * SF.Dbl.TWO_PI fl = k * 2 ^ (e - 52) → (2:ℝ) ^ e ≤ |x| → x ≤ n * SF.Dbl.TWO_PI fl - 2 ^ (e - 52) := by
    intro e k hk he
    obtain ⟨j, hj⟩ := hx.grid he
    rw [hk, hj] at h
    have hp : (0:ℝ) < 2 ^ (e - 52) := by positivity
    have hjk : j < k := by exact_mod_cast lt_of_mul_lt_mul_right h hp.le
    have : (j:ℝ) ≤ k - 1 := by exact_mod_cast Int.le_sub_one_of_lt hjk
    rw [hk, hj]
    nlinarith
  -- `n` positive: the quotient is at most the double before `n`
  have pos : ∀ (e k m j : ℤ), 1 ≤ n → (n : ℝ) * SF.Dbl.TWO_PI fl = k * 2 ^ (e - 52) →
      (2:ℝ) ^ e ≤ (n - 1 / 4) * SF.Dbl.TWO_PI fl → (n : ℝ) * SF.Dbl.TWO_PI fl - 2 ^ (e - 52) ≤ m * 2 ^ j * SF.Dbl.TWO_PI fl →
      |m| < 2 ^ 53 → -1074 ≤ j → j ≤ 971 → (m : ℝ) * 2 ^ j < n → fl (x / SF.Dbl.TWO_PI fl) < n := by
    intro e k m j hn hk he hm m1 j1 j2 hlt
    rcases le_or_gt x ((n - 1 / 4) * SF.Dbl.TWO_PI fl) with hc | hc
    · have : fl (x / SF.Dbl.TWO_PI fl) ≤ n - 1 / 4 := by
        refine F.le (.mul_pow (4 * n - 1) (-2) (by push_cast; norm_num; ring) ?_ (by norm_num) (by norm_num)) ?_
        · rw [abs_lt]; constructor <;> omega
        · rw [div_le_iff₀ h0]; exact hc
      linarith
    · have hn' : (1:ℝ) ≤ n := by exact_mod_cast hn
      have hx0 : 0 < x := lt_of_le_of_lt (by nlinarith) hc
      have := grid e k hk (by rw [abs_of_pos hx0]; linarith)
      have : fl (x / SF.Dbl.TWO_PI fl) ≤ m * 2 ^ j :=
        F.le (.mul_pow m j rfl m1 j1 j2) (by rw [div_le_iff₀ h0]; linarith)
      linarith
  -- `n` negative: the quotient is rounded to the double before `n`
  have neg : ∀ (e k e' m : ℤ), (n : ℝ) * SF.Dbl.TWO_PI fl = k * 2 ^ (e - 52) → (2:ℝ) ^ e ≤ -(n * SF.Dbl.TWO_PI fl) →
      (2:ℝ) ^ e' ≤ |(n : ℝ) - 2 ^ (e - 52) / SF.Dbl.TWO_PI fl| → |(n : ℝ) - 2 ^ (e - 52) / SF.Dbl.TWO_PI fl| ≤ 2 ^ (e' + 1) →
      |(m : ℝ) * 2 ^ (e' - 52) - (n - 2 ^ (e - 52) / SF.Dbl.TWO_PI fl)| < 2 ^ (e' - 53) → -1022 ≤ e' → e' ≤ 970 →
      (m : ℝ) * 2 ^ (e' - 52) < n → fl (x / SF.Dbl.TWO_PI fl) < n := by
    intro e k e' m hk he q1 q2 q3 q4 q5 hlt
    have hx' : x < 0 := by
      have : (0:ℝ) < 2 ^ e := by positivity
      linarith
    have := grid e k hk (by rw [abs_of_neg hx']; linarith)
    have h1 : fl (x / SF.Dbl.TWO_PI fl) ≤ fl (n - 2 ^ (e - 52) / SF.Dbl.TWO_PI fl) := by
      apply F.mono
      rw [div_le_iff₀ h0, sub_mul, div_mul_cancel₀ _ h0.ne']
      exact this
    rw [F.near q1 q2 rfl q3 q4 q5] at h1
    linarith
  have hTv : SF.Dbl.TWO_PI fl = 7074237752028440 / 1125899906842624 := by rw [hT]; norm_num
  obtain rfl | rfl | rfl | rfl | rfl | rfl | rfl | rfl | rfl :
    n = -4 ∨ n = -3 ∨ n = -2 ∨ n = -1 ∨ n = 0 ∨ n = 1 ∨ n = 2 ∨ n = 3 ∨ n = 4 := by omega
  · refine neg 4 (-7074237752028440) 2 (-4503599627370497) ?_ ?_ ?_ ?_ ?_ (by norm_num) (by norm_num) ?_ <;> (try rw [hTv]) <;> norm_num [abs_lt, abs_le, le_abs]
  · refine neg 4 (-5305678314021330) 1 (-6755399441055745) ?_ ?_ ?_ ?_ ?_ (by norm_num) (by norm_num) ?_ <;> (try rw [hTv]) <;> norm_num [abs_lt, abs_le, le_abs]
  · refine neg 3 (-7074237752028440) 1 (-4503599627370497) ?_ ?_ ?_ ?_ ?_ (by norm_num) (by norm_num) ?_ <;> (try rw [hTv]) <;> norm_num [abs_lt, abs_le, le_abs]
  · refine neg 2 (-7074237752028440) 0 (-4503599627370497) ?_ ?_ ?_ ?_ ?_ (by norm_num) (by norm_num) ?_ <;> (try rw [hTv]) <;> norm_num [abs_lt, abs_le, le_abs]
  · simp only [Int.cast_zero, zero_mul] at h ⊢
    rcases hs with hs | hs
    · have : fl (x / SF.Dbl.TWO_PI fl) ≤ -2 ^ (-1003 : ℤ) := by
        refine F.le (IsDouble.pow _ (by norm_num) (by norm_num)).neg ?_
        rw [div_le_iff₀ h0]
        have e1 : (2:ℝ) ^ (-1000 : ℤ) = 8 * 2 ^ (-1003 : ℤ) := by
          rw [show (-1000 : ℤ) = 3 + -1003 by norm_num, zpow_add₀ (by norm_num)]; norm_num
        have : (0:ℝ) < 2 ^ (-1003 : ℤ) := by positivity
        nlinarith
      have : (0:ℝ) < 2 ^ (-1003 : ℤ) := by positivity
      linarith
    · linarith
  · refine pos 2 7074237752028440 9007199254740991 (-53) (by norm_num) ?_ ?_ ?_ (by norm_num) (by norm_num) (by norm_num) ?_ <;> (try rw [hTv]) <;> norm_num
  · refine pos 3 7074237752028440 9007199254740991 (-52) (by norm_num) ?_ ?_ ?_ (by norm_num) (by norm_num) (by norm_num) ?_ <;> (try rw [hTv]) <;> norm_num
  · refine pos 4 5305678314021330 6755399441055743 (-51) (by norm_num) ?_ ?_ ?_ (by norm_num) (by norm_num) (by norm_num) ?_ <;> (try rw [hTv]) <;> norm_num
  · refine pos 4 7074237752028440 9007199254740991 (-51) (by norm_num) ?_ ?_ ?_ (by norm_num) (by norm_num) (by norm_num) ?_ <;> (try rw [hTv]) <;> norm_num

/-- `twopify` of doubles of moderate size. -/
theorem twopify {x : ℝ} (hx : IsDouble x) (hs : x ≤ -2 ^ (-1000 : ℤ) ∨ 0 ≤ x) (h : |x| ≤ 4 * SF.Dbl.TWO_PI fl) :
    0 ≤ SF.Dbl.twopify fl x ∧ SF.Dbl.twopify fl x ≤ SF.Dbl.TWO_PI fl ∧
    ∃ n : ℤ, |n| ≤ 4 ∧ 0 ≤ x - n * SF.Dbl.TWO_PI fl ∧ x - n * SF.Dbl.TWO_PI fl < SF.Dbl.TWO_PI fl ∧
      |SF.Dbl.twopify fl x - (x - n * SF.Dbl.TWO_PI fl)| ≤ 2 ^ (-51 : ℤ) := by
  obtain ⟨a, b⟩ := F.two_pi_bounds
  have h0 : 0 < SF.Dbl.TWO_PI fl := by linarith
  obtain ⟨h1, h2⟩ := abs_le.1 h
  obtain ⟨n, hn⟩ : ∃ n, n = ⌊fl (x / SF.Dbl.TWO_PI fl)⌋ := ⟨_, rfl⟩
  have n1 : -4 ≤ n := by
    rw [hn, Int.le_floor]
    refine F.ge (.mul_pow (-4) 0 (by norm_num) (by norm_num) (by norm_num) (by norm_num)) ?_
    rw [le_div_iff₀ h0]; push_cast; linarith
  have n2 : n ≤ 4 := by
    have : fl (x / SF.Dbl.TWO_PI fl) ≤ 4 := by
      refine F.le (.mul_pow 4 0 (by norm_num) (by norm_num) (by norm_num) (by norm_num)) ?_
      rw [div_le_iff₀ h0]; linarith
    have : (n:ℝ) ≤ 4 := by rw [hn]; exact (Int.floor_le _).trans this
    exact_mod_cast this
  have e1 : 0 ≤ x - n * SF.Dbl.TWO_PI fl := by
    by_contra hc
    push Not at hc
    have := F.below_mul hx hs n1 n2 (by linarith)
    rw [← Int.floor_lt, ← hn] at this
    omega
  have e2 : x - n * SF.Dbl.TWO_PI fl < SF.Dbl.TWO_PI fl := by
    by_contra hc
    push Not at hc
    have : ((n + 1 : ℤ) : ℝ) ≤ fl (x / SF.Dbl.TWO_PI fl) := by
      refine F.ge (.int _ (by rw [abs_lt]; constructor <;> omega)) ?_
      rw [le_div_iff₀ h0]; push_cast; linarith
    rw [← Int.le_floor, ← hn] at this
    omega
  have e3 : SF.Dbl.twopify fl x = fl (x - n * SF.Dbl.TWO_PI fl) := by
    unfold SF.Dbl.twopify
    rw [← hn, F.two_pi_mul (abs_le.2 ⟨n1, n2⟩)]
  rw [e3]
  refine ⟨F.nonneg e1, F.le F.two_pi_double e2.le, n, abs_le.2 ⟨n1, n2⟩, e1, e2, ?_⟩
  exact F.err (e := 2) (by rw [abs_of_nonneg e1]; norm_num; linarith) (by norm_num) (by norm_num)

/-- A double for which `twopify` is negative. -/
theorem twopify_neg : SF.Dbl.twopify fl (7295307681779328 * 2 ^ (-45 : ℤ)) = -2 ^ (-45 : ℤ) := by
  have hTv : SF.Dbl.TWO_PI fl = 7074237752028440 / 1125899906842624 := by rw [F.two_pi]; norm_num
  have e1 : fl (7295307681779328 * 2 ^ (-45 : ℤ) / SF.Dbl.TWO_PI fl) = 33 := by
    rw [hTv]
    refine F.near (e := 5) (k := 33 * 2 ^ 47) ?_ ?_ (by norm_num) ?_ (by norm_num) (by norm_num) <;> norm_num [abs_lt, abs_le, le_abs]
  have e2 : fl (SF.Dbl.TWO_PI fl * 33) = 7295307681779329 * 2 ^ (-45 : ℤ) := by
    rw [hTv]
    refine F.near (e := 7) (k := 7295307681779329) ?_ ?_ (by norm_num) ?_ (by norm_num) (by norm_num) <;> norm_num [abs_lt, abs_le, le_abs]
  unfold SF.Dbl.twopify
  rw [e1, show ⌊(33:ℝ)⌋ = 33 by norm_num, Int.cast_ofNat, e2]
  rw [show (7295307681779328 * 2 ^ (-45 : ℤ) - 7295307681779329 * 2 ^ (-45 : ℤ) : ℝ) = -2 ^ (-45 : ℤ) by norm_num]
  exact F.exact (IsDouble.pow _ (by norm_num) (by norm_num)).neg

end Rounds
end Spec
