import Verif.Spec.Double
import Mathlib.Tactic.Ring
import Mathlib.Tactic.FieldSimp
import Mathlib.Tactic.LinearCombination

/-!
# Rounding to double precision: auxiliary lemmas
-/

namespace Spec

theorem IsDouble.neg {x : ℝ} (h : IsDouble x) : IsDouble (-x) := by
  obtain ⟨m, e, h1, h2, h3, rfl⟩ := h
  exact ⟨-m, e, by rwa [abs_neg], h2, h3, by push_cast; ring⟩

theorem IsDouble.mul_pow {x : ℝ} (m e : ℤ) (hx : x = m * 2 ^ e) (h : |m| < 2 ^ 53) (h1 : -1074 ≤ e) (h2 : e ≤ 971) :
    IsDouble x := ⟨m, e, h, h1, h2, hx⟩

/-- Integers below `2^53` are doubles. -/
theorem IsDouble.int (n : ℤ) (h : |n| < 2 ^ 53) : IsDouble n := ⟨n, 0, h, by norm_num, by norm_num, by simp⟩

theorem IsDouble.pow (e : ℤ) (h1 : -1074 ≤ e) (h2 : e ≤ 971) : IsDouble (2 ^ e) :=
  ⟨1, e, by norm_num, h1, h2, by norm_num⟩

namespace Rounds

variable {fl : ℝ → ℝ} (F : Rounds fl)
include F

/-- Doubles are not changed. -/
theorem exact {x : ℝ} (h : IsDouble x) : fl x = x := by
  have := F.nearest x x h
  simp only [sub_self, abs_zero, abs_nonpos_iff] at this
  linarith

theorem mono {x y : ℝ} (h : x ≤ y) : fl x ≤ fl y := by
  rcases h.eq_or_lt with rfl | h
  · exact le_rfl
  by_contra hn
  push Not at hn
  have h1 := F.nearest x (fl y) (F.double y)
  have h2 := F.nearest y (fl x) (F.double x)
  have a1 : (fl x - x) ^ 2 ≤ (fl y - x) ^ 2 := sq_le_sq.2 h1
  have a2 : (fl y - y) ^ 2 ≤ (fl x - y) ^ 2 := sq_le_sq.2 h2
  nlinarith

theorem le {x b : ℝ} (hb : IsDouble b) (h : x ≤ b) : fl x ≤ b := by
  have := F.mono h
  rwa [F.exact hb] at this

theorem ge {x a : ℝ} (ha : IsDouble a) (h : a ≤ x) : a ≤ fl x := by
  have := F.mono h
  rwa [F.exact ha] at this

theorem zero : fl 0 = 0 := F.exact IsDouble.zero

theorem nonneg {x : ℝ} (h : 0 ≤ x) : 0 ≤ fl x := F.ge IsDouble.zero h

theorem nonpos {x : ℝ} (h : x ≤ 0) : fl x ≤ 0 := F.le IsDouble.zero h

theorem int (n : ℤ) (h : |n| < 2 ^ 53) : fl n = n := F.exact (.int n h)

end Rounds

/-- Doubles of absolute value at least `2^e` are multiples of `2^(e-52)`. -/
theorem IsDouble.grid {z : ℝ} (h : IsDouble z) {e : ℤ} (he : (2:ℝ) ^ e ≤ |z|) : ∃ k : ℤ, z = k * 2 ^ (e - 52) := by
  obtain ⟨m, e', h1, -, -, rfl⟩ := h
  have hlt : (2:ℝ) ^ e < 2 ^ (53 + e') := by
    refine he.trans_lt ?_
    rw [abs_mul, abs_of_pos (show (0:ℝ) < 2 ^ e' by positivity), zpow_add₀ (by norm_num)]
    refine mul_lt_mul_of_pos_right ?_ (by positivity)
    have : (|m| : ℤ) < 2 ^ 53 := h1
    have h' : ((|m| : ℤ) : ℝ) < ((2 ^ 53 : ℤ) : ℝ) := by exact_mod_cast this
    rw [Int.cast_abs] at h'
    refine h'.trans_le ?_
    norm_num
  have hlt' : e < 53 + e' := (zpow_lt_zpow_iff_right₀ (by norm_num : (1:ℝ) < 2)).1 hlt
  obtain ⟨n, hn⟩ := Int.eq_ofNat_of_zero_le (show 0 ≤ e' - (e - 52) by omega)
  refine ⟨m * 2 ^ n, ?_⟩
  have : e' = (n : ℤ) + (e - 52) := by omega
  rw [this, zpow_add₀ (by norm_num), zpow_natCast]
  push_cast
  ring

/-- Doubles of absolute value below `2^(e+1)` are `k * 2^(e-52)` for some `k`, conversely. -/
theorem IsDouble.of_grid {z : ℝ} {e k : ℤ} (hz : z = k * 2 ^ (e - 52)) (h : |z| ≤ 2 ^ (e + 1)) (h1 : -1022 ≤ e) (h2 : e ≤ 1022) :
    IsDouble z := by
  have hk : |(k : ℝ)| ≤ 2 ^ 53 := by
    have : |(k : ℝ)| * 2 ^ (e - 52) ≤ 2 ^ (53 : ℤ) * 2 ^ (e - 52) := by
      rw [hz, abs_mul, abs_of_pos (show (0:ℝ) < 2 ^ (e - 52) by positivity)] at h
      rw [← zpow_add₀ (by norm_num)]
      refine h.trans (le_of_eq (by congr 1; ring))
    have h' := le_of_mul_le_mul_right this (by positivity)
    exact_mod_cast h'
  have hk' : |k| ≤ 2 ^ 53 := by
    have : ((|k| : ℤ) : ℝ) ≤ ((2 ^ 53 : ℤ) : ℝ) := by rw [Int.cast_abs]; exact_mod_cast hk
    exact_mod_cast this
  rcases hk'.lt_or_eq with hlt | heq
  · exact ⟨k, e - 52, hlt, by omega, by omega, hz⟩
  · rcases (abs_eq (by norm_num)).1 heq with h' | h'
    · refine ⟨2 ^ 52, e - 51, by norm_num, by omega, by omega, ?_⟩
      rw [hz, h', show e - 51 = 1 + (e - 52) by ring, zpow_add₀ (by norm_num)]
      push_cast
      ring
    · refine ⟨-2 ^ 52, e - 51, by norm_num, by omega, by omega, ?_⟩
      rw [hz, h', show e - 51 = 1 + (e - 52) by ring, zpow_add₀ (by norm_num)]
      push_cast
      ring

namespace Rounds

variable {fl : ℝ → ℝ} (F : Rounds fl)
include F

/-- Error of rounding: half a unit in the last place. -/
theorem err {x : ℝ} {e : ℤ} (h : |x| ≤ 2 ^ (e + 1)) (h1 : -1022 ≤ e) (h2 : e ≤ 1022) : |fl x - x| ≤ 2 ^ (e - 53) := by
  obtain ⟨u, hu⟩ : ∃ u : ℝ, u = 2 ^ (e - 52) := ⟨_, rfl⟩
  have hu0 : 0 < u := by rw [hu]; positivity
  have hu2 : (2:ℝ) ^ (e - 53) = u / 2 := by
    rw [hu, show e - 53 = (e - 52) - 1 by ring, zpow_sub_one₀ (by norm_num)]; rfl
  have hr := abs_sub_round (x / u)
  have hz : |x - round (x / u) * u| ≤ u / 2 := by
    have : x - round (x / u) * u = (x / u - round (x / u)) * u := by field_simp
    rw [this, abs_mul, abs_of_pos hu0]
    nlinarith
  have hbig : (2:ℝ) ^ (e + 1) = 2 ^ 53 * u := by
    rw [hu, ← zpow_natCast, ← zpow_add₀ (by norm_num)]; congr 1; push_cast; ring
  have hk : |round (x / u)| ≤ 2 ^ 53 := by
    have hx : |x / u| ≤ 2 ^ 53 := by
      rw [abs_div, abs_of_pos hu0, div_le_iff₀ hu0]; rwa [hbig] at h
    have : ((round (x / u) : ℤ) : ℝ) ≤ 2 ^ 53 + 1 / 2 ∧ -(2 ^ 53 + 1 / 2) ≤ ((round (x / u) : ℤ) : ℝ) := by
      obtain ⟨a, b⟩ := abs_le.1 hr
      obtain ⟨c, d⟩ := abs_le.1 hx
      constructor <;> linarith
    rw [abs_le]
    constructor
    · have : ((-(2 ^ 53) - 1 : ℤ) : ℝ) < (round (x / u) : ℤ) := by push_cast; linarith [this.2]
      have := Int.cast_lt.1 this
      omega
    · have : ((round (x / u) : ℤ) : ℝ) < ((2 ^ 53 + 1 : ℤ) : ℝ) := by push_cast; linarith [this.1]
      have := Int.cast_lt.1 this
      omega
  have hd : IsDouble (round (x / u) * u) := by
    refine .of_grid (e := e) (k := round (x / u)) (by rw [hu]) ?_ h1 h2
    rw [hbig, abs_mul, abs_of_pos hu0]
    refine mul_le_mul_of_nonneg_right ?_ hu0.le
    have : ((|round (x / u)| : ℤ) : ℝ) ≤ ((2 ^ 53 : ℤ) : ℝ) := Int.cast_le.2 hk
    rw [Int.cast_abs] at this
    exact_mod_cast this
  have := F.nearest x _ hd
  rw [hu2]
  rw [abs_sub_comm] at hz
  exact this.trans hz

/-- Numbers close to a double are rounded to it. -/
theorem near {x y : ℝ} {e k : ℤ} (hx : 2 ^ e ≤ |x|) (hx' : |x| ≤ 2 ^ (e + 1)) (hy : y = k * 2 ^ (e - 52))
    (h : |y - x| < 2 ^ (e - 53)) (h1 : -1022 ≤ e) (h2 : e ≤ 970) : fl x = y := by
  obtain ⟨u, hu⟩ : ∃ u : ℝ, u = 2 ^ (e - 52) := ⟨_, rfl⟩
  have hu0 : 0 < u := by rw [hu]; positivity
  have hu2 : (2:ℝ) ^ (e - 53) = u / 2 := by
    rw [hu, show e - 53 = (e - 52) - 1 by ring, zpow_sub_one₀ (by norm_num)]; rfl
  have hbig : (2:ℝ) ^ (e + 1) = 2 ^ 53 * u := by
    rw [hu, ← zpow_natCast, ← zpow_add₀ (by norm_num)]; congr 1; push_cast; ring
  rw [hu2] at h
  have e1 := F.err hx' h1 (by omega)
  rw [hu2] at e1
  have e2 : 2 ^ e ≤ |fl x| := by
    rcases le_total 0 x with h0 | h0
    · rw [abs_of_nonneg h0] at hx
      rw [abs_of_nonneg (F.nonneg h0)]
      exact F.ge (.pow e (by omega) (by omega)) hx
    · rw [abs_of_nonpos h0] at hx
      rw [abs_of_nonpos (F.nonpos h0)]
      have := F.le (IsDouble.pow e (by omega) (by omega)).neg (show x ≤ -2 ^ e by linarith)
      linarith
  obtain ⟨k', hk'⟩ := (F.double x).grid e2
  rw [← hu] at hk' hy
  have e3 : |fl x - y| < u := by
    have : fl x - y = (fl x - x) - (y - x) := by ring
    rw [this]
    exact (abs_sub _ _).trans_lt (by linarith)
  rw [hk', hy, ← sub_mul, abs_mul, abs_of_pos hu0] at e3
  have e4 : |(k' : ℝ) - k| < 1 := by
    by_contra hn
    push Not at hn
    nlinarith
  have e5 : |k' - k| < 1 := by
    have : ((|k' - k| : ℤ) : ℝ) < ((1 : ℤ) : ℝ) := by push_cast; exact e4
    exact Int.cast_lt.1 this
  have : k' = k := by
    have := Int.abs_lt_one_iff.1 e5
    omega
  rw [hk', hy, this]

end Rounds
end Spec
