import Mathlib.Analysis.SpecialFunctions.Trigonometric.Angle
import Verif.Spec.Angle
import Verif.Model.Utilities

/-!
# Lemmas about angles, `twopify`, `pify`, `atan2`
-/

namespace Spec

open Real

theorem angleEq_iff {a b : ℝ} : AngleEq a b ↔ (a : Real.Angle) = b := by
  rw [Real.Angle.angle_eq_iff_two_pi_dvd_sub]
  constructor
  · rintro ⟨n, h⟩; exact ⟨n, by rw [h]; ring⟩
  · rintro ⟨n, h⟩; exact ⟨n, by linarith⟩

@[refl] theorem AngleEq.refl (a : ℝ) : AngleEq a a := ⟨0, by simp⟩

theorem AngleEq.of_eq {a b : ℝ} (h : a = b) : AngleEq a b := h ▸ AngleEq.refl a

@[symm] theorem AngleEq.symm {a b : ℝ} (h : AngleEq a b) : AngleEq b a := by
  obtain ⟨n, h⟩ := h; exact ⟨-n, by rw [h]; push_cast; ring⟩

@[trans] theorem AngleEq.trans {a b c : ℝ} (h : AngleEq a b) (h' : AngleEq b c) : AngleEq a c := by
  obtain ⟨n, h⟩ := h; obtain ⟨m, h'⟩ := h'
  exact ⟨n + m, by rw [h, h']; push_cast; ring⟩

theorem AngleEq.add {a b a' b' : ℝ} (h : AngleEq a b) (h' : AngleEq a' b') :
    AngleEq (a + a') (b + b') := by
  obtain ⟨n, h⟩ := h; obtain ⟨m, h'⟩ := h'
  exact ⟨n + m, by rw [h, h']; push_cast; ring⟩

theorem AngleEq.neg {a b : ℝ} (h : AngleEq a b) : AngleEq (-a) (-b) := by
  obtain ⟨n, h⟩ := h; exact ⟨-n, by rw [h]; push_cast; ring⟩

theorem AngleEq.sub {a b a' b' : ℝ} (h : AngleEq a b) (h' : AngleEq a' b') :
    AngleEq (a - a') (b - b') := by
  rw [sub_eq_add_neg, sub_eq_add_neg]; exact h.add h'.neg

theorem AngleEq.add_right {a b : ℝ} (h : AngleEq a b) (c : ℝ) : AngleEq (a + c) (b + c) :=
  h.add (AngleEq.refl c)

theorem AngleEq.add_left {a b : ℝ} (h : AngleEq a b) (c : ℝ) : AngleEq (c + a) (c + b) :=
  (AngleEq.refl c).add h

theorem AngleEq.cos_eq {a b : ℝ} (h : AngleEq a b) : cos a = cos b := by
  obtain ⟨n, h⟩ := h; rw [h]; exact Real.cos_add_int_mul_two_pi b n

theorem AngleEq.sin_eq {a b : ℝ} (h : AngleEq a b) : sin a = sin b := by
  obtain ⟨n, h⟩ := h; rw [h]; exact Real.sin_add_int_mul_two_pi b n

theorem AngleEq.of_cos_sin {a b : ℝ} (hc : cos a = cos b) (hs : sin a = sin b) : AngleEq a b :=
  angleEq_iff.2 (Real.Angle.cos_sin_inj hc hs)

theorem AngleEq.add_int (a : ℝ) (n : ℤ) : AngleEq (a + n * (2 * π)) a := ⟨n, rfl⟩

theorem AngleEq.add_two_pi (a : ℝ) : AngleEq (a + 2 * π) a := ⟨1, by push_cast; ring⟩

theorem AngleEq.sub_two_pi (a : ℝ) : AngleEq (a - 2 * π) a := ⟨-1, by push_cast; ring⟩

theorem AngleEq.sub_iff {a b c : ℝ} : AngleEq (a - b) c ↔ AngleEq a (c + b) := by
  constructor
  · rintro ⟨n, h⟩; exact ⟨n, by linarith⟩
  · rintro ⟨n, h⟩; exact ⟨n, by linarith⟩

end Spec

namespace SF

open Real Spec

theorem two_pi_pos' : (0:ℝ) < 2 * π := by positivity

theorem twopify_angleEq (a : ℝ) : AngleEq (twopify a) a :=
  ⟨-⌊a / (2 * π)⌋, by unfold twopify; push_cast; ring⟩

theorem twopify_nonneg (a : ℝ) : 0 ≤ twopify a := by
  have h := Int.floor_le (a / (2 * π))
  rw [le_div_iff₀ two_pi_pos'] at h
  unfold twopify; linarith

theorem twopify_lt (a : ℝ) : twopify a < 2 * π := by
  have h := Int.lt_floor_add_one (a / (2 * π))
  rw [div_lt_iff₀ two_pi_pos'] at h
  unfold twopify; linarith

theorem twopify_congr {a b : ℝ} (h : AngleEq a b) : twopify a = twopify b := by
  obtain ⟨n, rfl⟩ := h
  unfold twopify
  have : (b + n * (2 * π)) / (2 * π) = b / (2 * π) + n := by
    field_simp
  rw [this, Int.floor_add_intCast]; push_cast; ring

theorem angleEq_eq_of_mem {a b : ℝ} (h : AngleEq a b) (ha : 0 ≤ a) (ha' : a < 2 * π)
    (hb : 0 ≤ b) (hb' : b < 2 * π) : a = b := by
  obtain ⟨n, hn⟩ := h
  have hp := two_pi_pos'
  have h1 : (n : ℝ) < 1 := by
    by_contra hc; push Not at hc; nlinarith
  have h2 : (-1 : ℝ) < n := by
    by_contra hc; push Not at hc; nlinarith
  have : n = 0 := by
    have h1' : n < 1 := by exact_mod_cast h1
    have h2' : -1 < n := by exact_mod_cast h2
    omega
  rw [hn, this]; simp

theorem twopify_of_mem {a : ℝ} (ha : 0 ≤ a) (ha' : a < 2 * π) : twopify a = a :=
  angleEq_eq_of_mem (twopify_angleEq a) (twopify_nonneg a) (twopify_lt a) ha ha'

theorem cos_twopify (a : ℝ) : cos (twopify a) = cos a := (twopify_angleEq a).cos_eq
theorem sin_twopify (a : ℝ) : sin (twopify a) = sin a := (twopify_angleEq a).sin_eq

theorem fmod_two_pi_angleEq (a : ℝ) : AngleEq (fmod a (2 * π)) a :=
  ⟨-truncZ (a / (2 * π)), by unfold fmod; push_cast; ring⟩

theorem fmod_two_pi_abs_lt (a : ℝ) : |fmod a (2 * π)| < 2 * π := by
  have hp := two_pi_pos'
  unfold fmod truncZ
  split_ifs with h
  · have h1 := Int.floor_le (a / (2 * π))
    have h2 := Int.lt_floor_add_one (a / (2 * π))
    rw [le_div_iff₀ hp] at h1
    rw [div_lt_iff₀ hp] at h2
    rw [abs_lt]; constructor <;> nlinarith
  · have h1 := Int.le_ceil (a / (2 * π))
    have h2 := Int.ceil_lt_add_one (a / (2 * π))
    rw [div_le_iff₀ hp] at h1
    have h2' : (⌈a / (2 * π)⌉ : ℝ) - 1 < a / (2 * π) := by linarith
    rw [lt_div_iff₀ hp] at h2'
    rw [abs_lt]; constructor <;> nlinarith

theorem pify_angleEq (a : ℝ) : AngleEq (pify a) a := by
  unfold pify
  simp only
  split_ifs
  · exact (AngleEq.add_two_pi _).trans (fmod_two_pi_angleEq a)
  · exact (AngleEq.sub_two_pi _).trans (fmod_two_pi_angleEq a)
  · exact fmod_two_pi_angleEq a

theorem neg_pi_le_pify (a : ℝ) : -π ≤ pify a := by
  have h := abs_lt.1 (fmod_two_pi_abs_lt a)
  have hp := Real.pi_pos
  unfold pify; simp only; split_ifs <;> linarith

theorem pify_le_pi (a : ℝ) : pify a ≤ π := by
  have h := abs_lt.1 (fmod_two_pi_abs_lt a)
  have hp := Real.pi_pos
  unfold pify; simp only; split_ifs <;> linarith

theorem cos_pify (a : ℝ) : cos (pify a) = cos a := (pify_angleEq a).cos_eq
theorem sin_pify (a : ℝ) : sin (pify a) = sin a := (pify_angleEq a).sin_eq

theorem truncZ_zero_of_abs_lt {x : ℝ} (h : |x| < 1) : truncZ x = 0 := by
  obtain ⟨h1, h2⟩ := abs_lt.1 h
  unfold truncZ
  split_ifs with h0
  · exact Int.floor_eq_zero_iff.2 ⟨h0, h2⟩
  · rw [Int.ceil_eq_iff]; push_cast; constructor <;> linarith

theorem fmod_of_abs_lt {x y : ℝ} (hy : 0 < y) (h : |x| < y) : fmod x y = x := by
  unfold fmod
  rw [truncZ_zero_of_abs_lt]
  · simp
  · rw [abs_div, abs_of_pos hy, div_lt_one hy]; exact h

/-- On `[-π, π]`, `pify` is the identity. -/
theorem pify_of_mem {a : ℝ} (h1 : -π ≤ a) (h2 : a ≤ π) : pify a = a := by
  have hp := Real.pi_pos
  have : fmod a (2 * π) = a := fmod_of_abs_lt two_pi_pos' (by rw [abs_lt]; constructor <;> linarith)
  unfold pify; simp only [this]
  split_ifs <;> first | rfl | linarith

/-! ### `atan2` -/

theorem atan2_mem (y x : ℝ) : -π < atan2 y x ∧ atan2 y x ≤ π :=
  ⟨Complex.neg_pi_lt_arg _, Complex.arg_le_pi _⟩

theorem sqrt_mul_cos_atan2 (y x : ℝ) : √(x ^ 2 + y ^ 2) * cos (atan2 y x) = x := by
  have h := Complex.norm_mul_cos_arg ⟨x, y⟩
  have hn : ‖(⟨x, y⟩ : ℂ)‖ = √(x ^ 2 + y ^ 2) := by
    rw [Complex.norm_eq_sqrt_sq_add_sq]
  rw [hn] at h; exact h

theorem sqrt_mul_sin_atan2 (y x : ℝ) : √(x ^ 2 + y ^ 2) * sin (atan2 y x) = y := by
  have h := Complex.norm_mul_sin_arg ⟨x, y⟩
  have hn : ‖(⟨x, y⟩ : ℂ)‖ = √(x ^ 2 + y ^ 2) := by
    rw [Complex.norm_eq_sqrt_sq_add_sq]
  rw [hn] at h; exact h

/-- `atan2 (r sin t) (r cos t)` is `t` modulo full turns, for `r > 0`. -/
theorem atan2_polar {r : ℝ} (hr : 0 < r) (t : ℝ) : AngleEq (atan2 (r * sin t) (r * cos t)) t := by
  have h0 : √((r * cos t) ^ 2 + (r * sin t) ^ 2) = r := by
    have : (r * cos t) ^ 2 + (r * sin t) ^ 2 = r ^ 2 := by
      have := Real.sin_sq_add_cos_sq t
      linear_combination r ^ 2 * this
    rw [this]; exact Real.sqrt_sq hr.le
  have h1 := sqrt_mul_cos_atan2 (r * sin t) (r * cos t)
  have h2 := sqrt_mul_sin_atan2 (r * sin t) (r * cos t)
  rw [h0] at h1 h2
  exact AngleEq.of_cos_sin (mul_left_cancel₀ hr.ne' h1) (mul_left_cancel₀ hr.ne' h2)

theorem sgn_sq (x : ℝ) : sgn x * sgn x = 1 := by unfold sgn; split_ifs <;> norm_num

theorem sgn_mul_abs (x : ℝ) : sgn x * |x| = x := by
  unfold sgn; split_ifs with h
  · rw [abs_of_neg h]; ring
  · rw [abs_of_nonneg (not_lt.1 h)]; ring

theorem sgn_mul_self (x : ℝ) : sgn x * x = |x| := by
  unfold sgn; split_ifs with h
  · rw [abs_of_neg h]; ring
  · rw [abs_of_nonneg (not_lt.1 h)]; ring

theorem sgn_eq (x : ℝ) : sgn x = 1 ∨ sgn x = -1 := by unfold sgn; split_ifs <;> simp

end SF
