import Verif.Lemmas.Double
import Verif.Model.Double
import Verif.Lemmas.DubinsWords
import Mathlib.Analysis.SpecialFunctions.Trigonometric.Bounds
import Mathlib.Analysis.SpecialFunctions.Trigonometric.ArctanDeriv
import Mathlib.Analysis.Calculus.Deriv.MeanValue
import Mathlib.Analysis.Real.Pi.Bounds

/-!
# Dubins' planner in double precision: a goal straight ahead
-/

noncomputable section

namespace Spec.Rounds

open Real

variable {fl : ℝ → ℝ} (F : Rounds fl)
include F

/-- The value of the constant `TWO_PI`. -/
theorem two_pi : SF.Dbl.TWO_PI fl = 7074237752028440 * 2 ^ (-50 : ℤ) := by
  unfold SF.Dbl.TWO_PI
  refine F.near (e := 2) (k := 7074237752028440) ?_ ?_ (by norm_num) ?_ (by norm_num) (by norm_num)
  · rw [abs_of_pos (by norm_num)]; norm_num
  · rw [abs_of_pos (by norm_num)]; norm_num
  · rw [abs_lt]; constructor <;> norm_num

/-- The value of the constant `PI`. -/
theorem pi : SF.Dbl.PI fl = 7074237752028440 * 2 ^ (-51 : ℤ) := by
  unfold SF.Dbl.PI
  refine F.near (e := 1) (k := 7074237752028440) ?_ ?_ (by norm_num) ?_ (by norm_num) (by norm_num)
  · rw [abs_of_pos (by norm_num)]; norm_num
  · rw [abs_of_pos (by norm_num)]; norm_num
  · rw [abs_lt]; constructor <;> norm_num

theorem two_pi_bounds : 6283 / 1000 < SF.Dbl.TWO_PI fl ∧ SF.Dbl.TWO_PI fl < 6284 / 1000 := by
  rw [F.two_pi]; constructor <;> norm_num

theorem two_pi_double : IsDouble (SF.Dbl.TWO_PI fl) := F.double _

theorem tw_small {x : ℝ} (h0 : 0 ≤ x) (h1 : x ≤ 4) : SF.Dbl.twopify fl x = fl x := by
  obtain ⟨a, b⟩ := F.two_pi_bounds
  have e0 : 0 ≤ fl (x / SF.Dbl.TWO_PI fl) := F.nonneg (div_nonneg h0 (by linarith))
  have e1 : fl (x / SF.Dbl.TWO_PI fl) ≤ 3 / 4 := by
    refine F.le (.mul_pow 3 (-2) (by norm_num) (by norm_num) (by norm_num) (by norm_num)) ?_
    rw [div_le_iff₀ (by linarith)]; linarith
  have e2 : ⌊fl (x / SF.Dbl.TWO_PI fl)⌋ = 0 := Int.floor_eq_zero_iff.2 ⟨e0, by linarith⟩
  unfold SF.Dbl.twopify
  rw [e2, Int.cast_zero, mul_zero, F.zero, sub_zero]

theorem tw_neg {x : ℝ} (h0 : -4 ≤ x) (h1 : x ≤ -2 ^ (-70 : ℤ)) : SF.Dbl.twopify fl x = fl (x + SF.Dbl.TWO_PI fl) := by
  obtain ⟨a, b⟩ := F.two_pi_bounds
  have e0 : -1 ≤ fl (x / SF.Dbl.TWO_PI fl) := by
    refine F.ge (.mul_pow (-1) 0 (by norm_num) (by norm_num) (by norm_num) (by norm_num)) ?_
    rw [le_div_iff₀ (by linarith)]; linarith
  have e1 : fl (x / SF.Dbl.TWO_PI fl) ≤ -2 ^ (-73 : ℤ) := by
    refine F.le (IsDouble.pow (-73) (by norm_num) (by norm_num)).neg ?_
    rw [div_le_iff₀ (by linarith)]
    norm_num at h1 ⊢
    linarith
  have e2 : ⌊fl (x / SF.Dbl.TWO_PI fl)⌋ = -1 := by
    rw [Int.floor_eq_iff]
    norm_num at e1 ⊢
    exact ⟨e0, by linarith⟩
  unfold SF.Dbl.twopify
  rw [e2, Int.cast_neg, Int.cast_one, mul_neg, mul_one, F.exact F.two_pi_double.neg, sub_neg_eq_add]

/-- `twopify` of a tiny negative number is `TWO_PI`. -/
theorem tw_tiny {x : ℝ} (h0 : -2 ^ (-52 : ℤ) ≤ x) (h1 : x ≤ -2 ^ (-70 : ℤ)) : SF.Dbl.twopify fl x = SF.Dbl.TWO_PI fl := by
  obtain ⟨a, b⟩ := F.two_pi_bounds
  rw [F.tw_neg (by norm_num at h0; linarith) h1]
  norm_num at h0 h1
  refine F.near (e := 2) (k := 7074237752028440) ?_ ?_ (by rw [F.two_pi]; norm_num) ?_ (by norm_num) (by norm_num)
  · rw [abs_of_pos (by linarith)]; norm_num; linarith
  · rw [abs_of_pos (by linarith)]; norm_num; linarith
  · rw [abs_lt]; constructor <;> norm_num <;> linarith

/-- Small perturbations of one. -/
theorem one_near {x : ℝ} (h : |x - 1| < 2 ^ (-54 : ℤ)) : fl x = 1 := by
  obtain ⟨a, b⟩ := abs_lt.1 h
  norm_num at a b
  rcases le_total x 1 with h1 | h1
  · refine F.near (e := -1) (k := 2 ^ 53) ?_ ?_ (by norm_num) ?_ (by norm_num) (by norm_num)
    · rw [abs_of_pos (by linarith)]; norm_num; linarith
    · rw [abs_of_pos (by linarith)]; norm_num; linarith
    · rw [abs_lt]; constructor <;> norm_num <;> linarith
  · refine F.near (e := 0) (k := 2 ^ 52) ?_ ?_ (by norm_num) ?_ (by norm_num) (by norm_num)
    · rw [abs_of_pos (by linarith)]; norm_num; linarith
    · rw [abs_of_pos (by linarith)]; norm_num; linarith
    · rw [abs_lt]; constructor <;> norm_num <;> linarith

end Spec.Rounds

namespace Spec.Straight

open Real

/-- Distance of the goal in turning radii. -/
def dist : ℝ := 16777219 * 2 ^ (-28 : ℤ)

/-- Heading of start and goal. -/
def head : ℝ := 2 ^ (-60 : ℤ)

theorem dist_bounds : 1 / 16 < dist ∧ dist < 1 / 16 + 1 / 10 ^ 7 := by unfold dist; constructor <;> norm_num

theorem dist_double : IsDouble dist := .mul_pow 16777219 (-28) (by unfold dist; norm_num) (by norm_num) (by norm_num) (by norm_num)

theorem dist_sq_double : IsDouble (dist * dist) :=
  .mul_pow 281475077373961 (-56) (by unfold dist; norm_num) (by norm_num) (by norm_num) (by norm_num)

variable {fl : ℝ → ℝ} (F : Rounds fl)
include F

theorem cos_head : SF.Dbl.cosF fl head = 1 := by
  refine F.one_near ?_
  have h1 := cos_le_one head
  have h2 := one_sub_sq_div_two_le_cos (x := head)
  have h3 : head ^ 2 = 2 ^ (-120 : ℤ) := by unfold head; norm_num
  rw [h3] at h2
  norm_num at h2
  rw [abs_lt]; constructor
  · norm_num; linarith
  · norm_num; linarith

theorem sin_head : 0 ≤ SF.Dbl.sinF fl head ∧ SF.Dbl.sinF fl head ≤ 2 ^ (-60 : ℤ) := by
  have hp : 0 < head := by unfold head; positivity
  have h1 : head ≤ 1 := by unfold head; norm_num
  refine ⟨F.nonneg (sin_nonneg_of_nonneg_of_le_pi hp.le (by linarith [pi_gt_three])), ?_⟩
  exact F.le (.pow (-60) (by norm_num) (by norm_num)) (sin_le hp.le)

theorem tiny_mul {a b : ℝ} (ha : |a| ≤ 1) (hb : |b| ≤ 2 ^ (-58 : ℤ)) : |fl (a * b)| ≤ 2 ^ (-58 : ℤ) := by
  have h : |a * b| ≤ 2 ^ (-58 : ℤ) := by
    rw [abs_mul]
    exact (mul_le_mul ha hb (abs_nonneg _) zero_le_one).trans (by rw [one_mul])
  obtain ⟨h1, h2⟩ := abs_le.1 h
  have hd := IsDouble.pow (-58) (by norm_num) (by norm_num)
  exact abs_le.2 ⟨F.ge hd.neg h1, F.le hd h2⟩

theorem tiny_add {a b : ℝ} (ha : |a| ≤ 2 ^ (-60 : ℤ)) (hb : |b| ≤ 2 ^ (-60 : ℤ)) : |fl (a + b)| ≤ 2 ^ (-58 : ℤ) := by
  have h : |a + b| ≤ 2 ^ (-58 : ℤ) := by
    refine (abs_add_le _ _).trans ((add_le_add ha hb).trans ?_)
    norm_num
  obtain ⟨h1, h2⟩ := abs_le.1 h
  have hd := IsDouble.pow (-58) (by norm_num) (by norm_num)
  exact abs_le.2 ⟨F.ge hd.neg h1, F.le hd h2⟩

theorem common_one {s : ℝ} (h : |s| ≤ 2 ^ (-60 : ℤ)) : SF.Dbl.common fl 1 s 1 s = 1 := by
  unfold SF.Dbl.common
  rw [mul_one, F.exact (x := 1) (.mul_pow 1 0 (by norm_num) (by norm_num) (by norm_num) (by norm_num))]
  refine F.one_near ?_
  rw [add_sub_cancel_left]
  refine (tiny_mul F (h.trans (by norm_num)) (h.trans (by norm_num))).trans_lt (by norm_num)

theorem one_add_tiny {s : ℝ} (h : |s| ≤ 2 ^ (-58 : ℤ)) : fl (1 + s) = 1 := by
  refine F.one_near ?_
  rw [add_sub_cancel_left]
  exact h.trans_lt (by norm_num)

theorem one_sub_tiny {s : ℝ} (h : |s| ≤ 2 ^ (-58 : ℤ)) : fl (1 - s) = 1 := by
  rw [sub_eq_add_neg]; exact one_add_tiny F (by rwa [abs_neg])

omit F in
theorem two_double : IsDouble (2 : ℝ) := .mul_pow 2 0 (by norm_num) (by norm_num) (by norm_num) (by norm_num)

theorem dist_add_tiny {s : ℝ} (h : |s| ≤ 2 ^ (-60 : ℤ)) : fl (dist + s) = dist := by
  obtain ⟨a, b⟩ := abs_le.1 h
  norm_num at a b
  have hd : dist = 16777219 / 268435456 := by unfold dist; norm_num
  refine F.near (e := -4) (k := 16777219 * 2 ^ 28) ?_ ?_ (by unfold dist; norm_num) ?_ (by norm_num) (by norm_num)
  · rw [abs_of_pos (by linarith)]; norm_num; linarith
  · rw [abs_of_pos (by linarith)]; norm_num; linarith
  · rw [abs_lt]; constructor <;> norm_num <;> linarith

omit F in
theorem atan2_two {x : ℝ} (hx : 0 < x) : SF.atan2 2 x = π / 2 - arctan (x / 2) := by
  have h1 : (0:ℝ) < √(1 + (x / 2) ^ 2) := sqrt_pos.2 (by positivity)
  have e : (⟨x, 2⟩ : ℂ) = ((2 * √(1 + (x / 2) ^ 2) : ℝ) : ℂ) *
      (Complex.cos ((π / 2 - arctan (x / 2) : ℝ) : ℂ) + Complex.sin ((π / 2 - arctan (x / 2) : ℝ) : ℂ) * Complex.I) := by
    rw [← Complex.ofReal_cos, ← Complex.ofReal_sin, cos_pi_div_two_sub, sin_pi_div_two_sub, sin_arctan, cos_arctan]
    apply Complex.ext
    · simp; field_simp
    · simp; field_simp
  unfold SF.atan2
  rw [e, Complex.arg_mul_cos_add_sin_mul_I (by positivity)]
  have := arctan_lt_pi_div_two (x / 2)
  have h2 : 0 < arctan (x / 2) := arctan_pos.2 (by positivity)
  constructor <;> linarith [pi_pos]

omit F in
theorem atan2_neg_two {x : ℝ} (hx : 0 < x) : SF.atan2 (-2) x = -(π / 2 - arctan (x / 2)) := by
  have h : (⟨x, -2⟩ : ℂ) = (starRingEnd ℂ) ⟨x, 2⟩ := rfl
  rw [← atan2_two hx]
  unfold SF.atan2
  rw [h, Complex.arg_conj, if_neg]
  rw [show Complex.arg ⟨x, 2⟩ = SF.atan2 2 x from rfl, atan2_two hx]
  have h2 : 0 < arctan (x / 2) := arctan_pos.2 (by positivity)
  linarith [pi_pos]

omit F in
theorem arctan_diff {a b : ℝ} (ha : 0 ≤ a) (hab : a ≤ b) (hb : b ≤ 1 / 16) :
    256 / 257 * (b - a) ≤ arctan b - arctan a ∧ arctan b - arctan a ≤ b - a := by
  have hD : Convex ℝ (Set.Icc (0:ℝ) (1 / 16)) := convex_Icc _ _
  have hd : DifferentiableOn ℝ arctan (interior (Set.Icc (0:ℝ) (1 / 16))) := differentiable_arctan.differentiableOn
  have hc : ContinuousOn arctan (Set.Icc (0:ℝ) (1 / 16)) := continuous_arctan.continuousOn
  constructor
  · refine hD.mul_sub_le_image_sub_of_le_deriv hc hd (fun x hx => ?_) a ⟨ha, hab.trans hb⟩ b ⟨ha.trans hab, hb⟩ hab
    rw [interior_Icc] at hx
    rw [Real.deriv_arctan]
    simp only
    rw [le_div_iff₀ (by positivity)]
    nlinarith [hx.1, hx.2]
  · have := hD.image_sub_le_mul_sub_of_deriv_le hc hd (C := 1) (fun x hx => ?_) a ⟨ha, hab.trans hb⟩ b ⟨ha.trans hab, hb⟩ hab
    · linarith
    · rw [Real.deriv_arctan]
      simp only
      rw [div_le_one (by positivity)]
      nlinarith

/-- The unit in the last place of one. -/
def u : ℝ := 2 ^ (-52 : ℤ)

omit F in
theorem u_val : u = 1 / 4503599627370496 := by unfold u; norm_num

omit F in
theorem dist_sq : dist * dist = 17592192335872 * u + 9 / 16 * u := by unfold dist u; norm_num

/-- The number under the square root is rounded up. -/
theorem tmp_up : fl (fl (dist * dist) - 2) = -2 + 17592192335873 * u := by
  have hu := u_val
  have hd := dist_sq
  rw [F.exact dist_sq_double]
  rw [hd]
  refine F.near (e := 0) (k := -9007199254740992 + 17592192335873) ?_ ?_ ?_ ?_ (by norm_num) (by norm_num)
  · rw [abs_of_neg (by rw [hu]; norm_num), hu]; norm_num
  · rw [abs_of_neg (by rw [hu]; norm_num), hu]; norm_num
  · rw [hu]; norm_num
  · rw [abs_lt, hu]; constructor <;> norm_num

omit F in
theorem root_bounds : dist + 3 * u ≤ √(17592192335873 * u) ∧ √(17592192335873 * u) ≤ dist + 4 * u := by
  have hu := u_val
  have hv : dist = 16777219 / 268435456 := by unfold dist; norm_num
  constructor
  · apply le_sqrt_of_sq_le; rw [hv, hu]; norm_num
  · rw [sqrt_le_left (by rw [hv, hu]; norm_num), hv, hu]; norm_num

theorem p_bounds : dist + 3 * u ≤ SF.Dbl.sqrtF fl (17592192335873 * u) ∧ SF.Dbl.sqrtF fl (17592192335873 * u) ≤ dist + 4 * u := by
  obtain ⟨h1, h2⟩ := root_bounds
  constructor
  · exact F.ge (.mul_pow (16777219 * 2 ^ 24 + 3) (-52) (by unfold dist u; norm_num) (by norm_num) (by norm_num) (by norm_num)) h1
  · exact F.le (.mul_pow (16777219 * 2 ^ 24 + 4) (-52) (by unfold dist u; norm_num) (by norm_num) (by norm_num) (by norm_num)) h2

/-- The direction of the straight part of `RSL` is rounded to a small positive angle, that of `LSR` to a small negative one. -/
theorem theta_bounds {p : ℝ} (h1 : dist + 3 * u ≤ p) (h2 : p ≤ dist + 4 * u) :
    (2 ^ (-54 : ℤ) ≤ fl (SF.Dbl.atan2F fl 2 dist - SF.Dbl.atan2F fl 2 p) ∧
      fl (SF.Dbl.atan2F fl 2 dist - SF.Dbl.atan2F fl 2 p) ≤ 2 ^ (-50 : ℤ)) ∧
    (-2 ^ (-50 : ℤ) ≤ fl (SF.Dbl.atan2F fl (-2) dist - SF.Dbl.atan2F fl (-2) p) ∧
      fl (SF.Dbl.atan2F fl (-2) dist - SF.Dbl.atan2F fl (-2) p) ≤ -2 ^ (-54 : ℤ)) := by
  have hu := u_val
  obtain ⟨d1, d2⟩ := dist_bounds
  have hu0 : 0 < u := by rw [hu]; norm_num
  have hp : 0 < p := by linarith
  have hd : 0 < dist := by linarith
  have hp1 : p ≤ 1 / 8 := by rw [hu] at h2; linarith
  obtain ⟨c1, c2⟩ := arctan_diff (a := dist / 2) (b := p / 2) (by linarith) (by linarith) (by linarith)
  have b1 : 0 < arctan (dist / 2) := arctan_pos.2 (by linarith)
  have b2 : 0 < arctan (p / 2) := arctan_pos.2 (by linarith)
  have b3 := arctan_lt_pi_div_two (dist / 2)
  have b4 := arctan_lt_pi_div_two (p / 2)
  have hpi := pi_lt_d2
  have err : ∀ x : ℝ, |x| ≤ 2 → |fl x - x| ≤ u / 2 := by
    intro x hx
    have := F.err (x := x) (e := 0) (by norm_num; exact hx) (by norm_num) (by norm_num)
    refine this.trans (le_of_eq ?_)
    rw [hu]; norm_num
  have hA := err (π / 2 - arctan (dist / 2)) (by rw [abs_of_pos (by linarith)]; linarith)
  have hB := err (π / 2 - arctan (p / 2)) (by rw [abs_of_pos (by linarith)]; linarith)
  have hA' := err (-(π / 2 - arctan (dist / 2))) (by rw [abs_neg, abs_of_pos (by linarith)]; linarith)
  have hB' := err (-(π / 2 - arctan (p / 2))) (by rw [abs_neg, abs_of_pos (by linarith)]; linarith)
  unfold SF.Dbl.atan2F
  rw [atan2_two hd, atan2_two hp, atan2_neg_two hd, atan2_neg_two hp]
  rw [abs_le] at hA hB hA' hB'
  have q1 : (2:ℝ) ^ (-54 : ℤ) = u / 4 := by rw [hu]; norm_num
  have q2 : (2:ℝ) ^ (-50 : ℤ) = 4 * u := by rw [hu]; norm_num
  have D1 : IsDouble (u / 4) := by rw [← q1]; exact .pow _ (by norm_num) (by norm_num)
  have D2 : IsDouble (4 * u) := by rw [← q2]; exact .pow _ (by norm_num) (by norm_num)
  rw [q1, q2]
  refine ⟨⟨F.ge D1 ?_, F.le D2 ?_⟩, F.ge D2.neg ?_, F.le D1.neg ?_⟩ <;> linarith

omit F in
theorem six_double : IsDouble (6 : ℝ) := .mul_pow 6 0 (by norm_num) (by norm_num) (by norm_num) (by norm_num)

/-- A path with nonnegative parts, one of which is at least six. -/
structure Long (a : SF.DPath) : Prop where
  t : 0 ≤ a.t
  p : 0 ≤ a.p
  q : 0 ≤ a.q
  long : 6 ≤ a.t ∨ 6 ≤ a.p ∨ 6 ≤ a.q

theorem Long.length {a : SF.DPath} (h : Long a) : 6 ≤ SF.Dbl.length fl a := by
  unfold SF.Dbl.length
  have h1 := h.t
  have h2 := h.p
  have h3 := h.q
  have h0 := F.nonneg (x := a.t + a.p) (by linarith)
  rcases h.long with h' | h' | h'
  · have := F.ge six_double (show 6 ≤ a.t + a.p by linarith)
    exact F.ge six_double (by linarith)
  · have := F.ge six_double (show 6 ≤ a.t + a.p by linarith)
    exact F.ge six_double (by linarith)
  · exact F.ge six_double (by linarith)

omit F in
theorem long_default : Long SF.DPath.default := by
  have h : (6:ℝ) ≤ SF.dblMax := by
    have h1 : (2:ℝ) ^ 3 ≤ 2 ^ 1023 := pow_le_pow_right₀ (by norm_num) (by norm_num)
    have h2 : (1:ℝ) ≤ 2 - 2⁻¹ ^ 52 := by norm_num
    unfold SF.dblMax
    calc (6:ℝ) ≤ 1 * 2 ^ 1023 := by rw [one_mul]; exact le_trans (by norm_num) h1
      _ ≤ _ := mul_le_mul_of_nonneg_right h2 (by positivity)
  exact ⟨le_rfl, by show (0:ℝ) ≤ SF.dblMax; linarith, le_rfl, .inr (.inl h)⟩

theorem sqrtF_nonneg (x : ℝ) : 0 ≤ SF.Dbl.sqrtF fl x := F.nonneg (sqrt_nonneg _)

omit F in
theorem head_double : IsDouble head := .pow (-60) (by norm_num) (by norm_num)

theorem fl_head : fl head = head := F.exact head_double

theorem tw_head : 0 ≤ SF.Dbl.twopify fl head := by
  rw [F.tw_small (by unfold head; positivity) (by unfold head; norm_num)]
  exact F.nonneg (by unfold head; positivity)

theorem tw_neg_head : 6 ≤ SF.Dbl.twopify fl (-head) := by
  rw [F.tw_tiny (by unfold head; norm_num) (by unfold head; norm_num)]
  linarith [F.two_pi_bounds.1]

theorem atan_zero : SF.Dbl.atan2F fl 0 dist = 0 := by
  unfold SF.Dbl.atan2F
  rw [SF.atan2_zero_nonneg (by linarith [dist_bounds.1]), F.zero]

theorem dist_sub_tiny {s : ℝ} (h : |s| ≤ 2 ^ (-60 : ℤ)) : fl (dist - s) = dist := by
  rw [sub_eq_add_neg]; exact dist_add_tiny F (by rwa [abs_neg])

theorem sin_abs : |SF.Dbl.sinF fl head| ≤ 2 ^ (-60 : ℤ) := by
  obtain ⟨h0, h1⟩ := sin_head F
  rwa [abs_of_nonneg h0]

theorem long_LSL : Long (SF.Dbl.dubinsLSL fl dist head head) := by
  have hs := sin_abs F
  unfold SF.Dbl.dubinsLSL
  simp only [cos_head F, sub_self, F.zero, dist_add_tiny F hs, dist_sub_tiny F hs, atan_zero F, add_zero, sub_zero,
    F.exact head_double.neg, fl_head F]
  split_ifs
  · have := tw_neg_head F
    exact ⟨by linarith, sqrtF_nonneg F _, tw_head F, .inl this⟩
  · exact long_default

theorem long_RSR : Long (SF.Dbl.dubinsRSR fl dist head head) := by
  have hs := sin_abs F
  unfold SF.Dbl.dubinsRSR
  simp only [cos_head F, sub_self, F.zero, dist_add_tiny F hs, dist_sub_tiny F hs, atan_zero F, add_zero, sub_zero,
    F.exact head_double.neg, fl_head F]
  split_ifs
  · have := tw_neg_head F
    exact ⟨tw_head F, sqrtF_nonneg F _, by linarith, .inr (.inr this)⟩
  · exact long_default

theorem tmp_add : fl (-2 + 17592192335873 * u + 2) = 17592192335873 * u := by
  rw [show -2 + 17592192335873 * u + 2 = 17592192335873 * u by ring]
  exact F.exact (.mul_pow 17592192335873 (-52) (by unfold u; norm_num) (by norm_num) (by norm_num) (by norm_num))

theorem tw_theta {x : ℝ} (h0 : -2 ^ (-49 : ℤ) ≤ x) (h1 : x ≤ -2 ^ (-60 : ℤ)) : 6 ≤ SF.Dbl.twopify fl x := by
  norm_num at h0 h1
  rw [F.tw_neg (by linarith) (by norm_num; linarith)]
  exact F.ge six_double (by linarith [F.two_pi_bounds.1])

omit F in
theorem neg_two_double : IsDouble (-2 : ℝ) := two_double.neg

theorem long_RSL : Long (SF.Dbl.dubinsRSL fl dist head head) := by
  have hs := sin_abs F
  have h2 : |fl (dist * fl (SF.Dbl.sinF fl head + SF.Dbl.sinF fl head))| ≤ 2 ^ (-58 : ℤ) :=
    tiny_mul F (by rw [abs_of_pos (by linarith [dist_bounds.1])]; linarith [dist_bounds.2]) (tiny_add F hs hs)
  have hu0 : 0 ≤ 17592192335873 * u := by rw [u_val]; norm_num
  obtain ⟨p1, p2⟩ := p_bounds F
  obtain ⟨⟨t1, t2⟩, -⟩ := theta_bounds F p1 p2
  unfold SF.Dbl.dubinsRSL
  simp only [cos_head F, common_one F hs, one_sub_tiny F h2, mul_one, F.exact two_double, tmp_up F, tmp_add F, max_eq_left hu0,
    dist_sub_tiny F hs, show (1:ℝ) + 1 = 2 by norm_num]
  split_ifs
  · have : 6 ≤ SF.Dbl.twopify fl (fl (head - fl (SF.Dbl.atan2F fl 2 dist - SF.Dbl.atan2F fl 2
        (SF.Dbl.sqrtF fl (17592192335873 * u))))) := by
      generalize fl (SF.Dbl.atan2F fl 2 dist - SF.Dbl.atan2F fl 2 (SF.Dbl.sqrtF fl (17592192335873 * u))) = th at t1 t2
      refine tw_theta F (F.ge (IsDouble.pow _ (by norm_num) (by norm_num)).neg ?_)
        (F.le (IsDouble.pow _ (by norm_num) (by norm_num)).neg ?_)
      · unfold head; norm_num at t2 ⊢; linarith
      · unfold head; norm_num at t1 ⊢; linarith
    exact ⟨by linarith, sqrtF_nonneg F _, by linarith, .inl this⟩
  · exact long_default

theorem long_LSR : Long (SF.Dbl.dubinsLSR fl dist head head) := by
  have hs := sin_abs F
  have h2 : |fl (dist * fl (SF.Dbl.sinF fl head + SF.Dbl.sinF fl head))| ≤ 2 ^ (-58 : ℤ) :=
    tiny_mul F (by rw [abs_of_pos (by linarith [dist_bounds.1])]; linarith [dist_bounds.2]) (tiny_add F hs hs)
  have hu0 : 0 ≤ 17592192335873 * u := by rw [u_val]; norm_num
  obtain ⟨p1, p2⟩ := p_bounds F
  obtain ⟨-, t1, t2⟩ := theta_bounds F p1 p2
  unfold SF.Dbl.dubinsLSR
  simp only [cos_head F, common_one F hs, one_add_tiny F h2, mul_one, F.exact two_double, F.exact neg_two_double,
    show ∀ x : ℝ, -2 + x = x - 2 from fun x => by ring, tmp_up F,
    show (-1:ℝ) - 1 = -2 by norm_num]
  simp only [show ∀ x : ℝ, x - 2 + 2 = -2 + x + 2 from fun x => by ring, tmp_add F, max_eq_left hu0, dist_add_tiny F hs]
  split_ifs
  · have : 6 ≤ SF.Dbl.twopify fl (fl (-head + fl (SF.Dbl.atan2F fl (-2) dist - SF.Dbl.atan2F fl (-2)
        (SF.Dbl.sqrtF fl (17592192335873 * u))))) := by
      generalize fl (SF.Dbl.atan2F fl (-2) dist - SF.Dbl.atan2F fl (-2) (SF.Dbl.sqrtF fl (17592192335873 * u))) = th at t1 t2
      refine tw_theta F (F.ge (IsDouble.pow _ (by norm_num) (by norm_num)).neg ?_)
        (F.le (IsDouble.pow _ (by norm_num) (by norm_num)).neg ?_)
      · unfold head; norm_num at t1 ⊢; linarith
      · unfold head; norm_num at t2 ⊢; linarith
    exact ⟨by linarith, sqrtF_nonneg F _, by linarith, .inl this⟩
  · exact long_default

theorem tmp_three : 1 - 2 ^ (-10 : ℤ) ≤ fl (0.125 * fl (fl (6 - fl (dist * dist)) + 2)) := by
  obtain ⟨d1, d2⟩ := dist_bounds
  have h1 : fl (dist * dist) ≤ 2 ^ (-7 : ℤ) := F.le (.pow _ (by norm_num) (by norm_num)) (by norm_num; nlinarith)
  have h2 : 6 - 2 ^ (-7 : ℤ) ≤ fl (6 - fl (dist * dist)) :=
    F.ge (.mul_pow 767 (-7) (by norm_num) (by norm_num) (by norm_num) (by norm_num)) (by linarith)
  have h3 : 8 - 2 ^ (-7 : ℤ) ≤ fl (fl (6 - fl (dist * dist)) + 2) :=
    F.ge (.mul_pow 1023 (-7) (by norm_num) (by norm_num) (by norm_num) (by norm_num)) (by linarith)
  refine F.ge (.mul_pow 1023 (-10) (by norm_num) (by norm_num) (by norm_num) (by norm_num)) ?_
  norm_num at h3 ⊢
  linarith

theorem acos_small {x : ℝ} (h : 1 - 2 ^ (-10 : ℤ) ≤ x) : 0 ≤ SF.Dbl.acosF fl x ∧ SF.Dbl.acosF fl x ≤ 1 / 16 := by
  refine ⟨F.nonneg (arccos_nonneg _), F.le (.mul_pow 1 (-4) (by norm_num) (by norm_num) (by norm_num) (by norm_num)) ?_⟩
  have h1 : cos (1 / 16) ≤ x := by
    have h2 : cos (1 / 16) = 1 - 2 * sin (1 / 32) ^ 2 := by
      rw [show (1:ℝ) / 16 = 2 * (1 / 32) by norm_num, cos_two_mul]; linarith [sin_sq_add_cos_sq (1 / 32)]
    have h3 := sin_gt_sub_cube (x := 1 / 32) (by norm_num)
    norm_num at h
    rw [h2]
    nlinarith
  have := arccos_le_arccos h1
  rwa [arccos_cos (by norm_num) (by linarith [pi_gt_three])] at this

theorem three_parts {g p : ℝ} (hh : |g| ≤ 1 / 4) (h1 : 62 / 10 ≤ p) (h2 : p ≤ 63 / 10) :
    0 ≤ SF.Dbl.twopify fl (fl (g + fl (0.5 * p))) ∧
    0 ≤ SF.Dbl.twopify fl (fl (-SF.Dbl.twopify fl (fl (g + fl (0.5 * p))) + p)) := by
  have e1 : 3 ≤ fl (0.5 * p) :=
    F.ge (.mul_pow 3 0 (by norm_num) (by norm_num) (by norm_num) (by norm_num)) (by linarith)
  have e2 : fl (0.5 * p) ≤ 13 / 4 :=
    F.le (.mul_pow 13 (-2) (by norm_num) (by norm_num) (by norm_num) (by norm_num)) (by linarith)
  rw [abs_le] at hh
  have e3 : 5 / 2 ≤ fl (g + fl (0.5 * p)) :=
    F.ge (.mul_pow 5 (-1) (by norm_num) (by norm_num) (by norm_num) (by norm_num)) (by linarith)
  have e4 : fl (g + fl (0.5 * p)) ≤ 7 / 2 :=
    F.le (.mul_pow 7 (-1) (by norm_num) (by norm_num) (by norm_num) (by norm_num)) (by linarith)
  rw [F.tw_small (x := fl (g + fl (0.5 * p))) (by linarith) (by linarith), F.exact (F.double _)]
  refine ⟨by linarith, ?_⟩
  have e5 : 0 ≤ fl (-fl (g + fl (0.5 * p)) + p) := F.nonneg (by linarith)
  have e6 : fl (-fl (g + fl (0.5 * p)) + p) ≤ 4 :=
    F.le (.mul_pow 4 0 (by norm_num) (by norm_num) (by norm_num) (by norm_num)) (by linarith)
  rw [F.tw_small e5 e6, F.exact (F.double _)]
  exact e5

theorem p_three {x : ℝ} (h : 1 - 2 ^ (-10 : ℤ) ≤ x) :
    62 / 10 ≤ fl (SF.Dbl.TWO_PI fl - SF.Dbl.acosF fl x) ∧ fl (SF.Dbl.TWO_PI fl - SF.Dbl.acosF fl x) ≤ 63 / 10 := by
  obtain ⟨a1, a2⟩ := acos_small F h
  obtain ⟨b1, b2⟩ := F.two_pi_bounds
  have e1 : 199 / 32 ≤ fl (SF.Dbl.TWO_PI fl - SF.Dbl.acosF fl x) :=
    F.ge (.mul_pow 199 (-5) (by norm_num) (by norm_num) (by norm_num) (by norm_num)) (by linarith)
  have e2 : fl (SF.Dbl.TWO_PI fl - SF.Dbl.acosF fl x) ≤ SF.Dbl.TWO_PI fl := F.le F.two_pi_double (by linarith)
  constructor <;> linarith

theorem neg_tw (x : ℝ) : fl (-SF.Dbl.twopify fl x) = -SF.Dbl.twopify fl x := F.exact (F.double _).neg

omit F in
theorem head_abs : |head| ≤ 1 / 4 := by rw [abs_of_pos (by unfold head; positivity)]; unfold head; norm_num

theorem long_RLR : Long (SF.Dbl.dubinsRLR fl dist head head) := by
  have hs := sin_abs F
  have h1 : fl (1 : ℝ) = 1 := by simpa using one_add_tiny F (s := 0) (by norm_num)
  have h0 := tmp_three F
  obtain ⟨p1, p2⟩ := p_three F h0
  obtain ⟨t1, t2⟩ := three_parts F head_abs p1 p2
  unfold SF.Dbl.dubinsRLR
  simp only [cos_head F, common_one F hs, sub_self, F.zero, mul_zero, add_zero, h1, mul_one, F.exact two_double,
    dist_add_tiny F hs, dist_sub_tiny F hs, atan_zero F, sub_zero, zero_sub, fl_head F, neg_tw F]
  split_ifs
  · exact ⟨t1, by linarith, t2, .inr (.inl (by linarith))⟩
  · exact long_default

theorem long_LRL : Long (SF.Dbl.dubinsLRL fl dist head head) := by
  have hs := sin_abs F
  have h1 : fl (1 : ℝ) = 1 := by simpa using one_add_tiny F (s := 0) (by norm_num)
  have h0 := tmp_three F
  obtain ⟨p1, p2⟩ := p_three F h0
  obtain ⟨t1, t2⟩ := three_parts F (g := -head) (by rw [abs_neg]; exact head_abs) p1 p2
  unfold SF.Dbl.dubinsLRL
  simp only [cos_head F, common_one F hs, sub_self, F.zero, mul_zero, add_zero, h1, mul_one, F.exact two_double, neg_add_cancel,
    dist_add_tiny F hs, dist_sub_tiny F hs, atan_zero F, sub_zero, zero_sub, F.exact head_double.neg, neg_tw F]
  split_ifs
  · exact ⟨t1, by linarith, t2, .inr (.inl (by linarith))⟩
  · exact long_default

omit F in
theorem pick_long {st : ℝ × SF.DPath} {a : SF.DPath} (h : Long st.2) (ha : Long a) : Long (SF.Dbl.dubinsPick fl st a).2 := by
  unfold SF.Dbl.dubinsPick; split_ifs; exacts [ha, h]

theorem long : Long (SF.Dbl.dubins fl dist head head) := by
  have h : ¬ dist < SF.Dbl.DUBINS_EPS fl := by
    have : SF.Dbl.DUBINS_EPS fl ≤ 1 / 16 :=
      F.le (.mul_pow 1 (-4) (by norm_num) (by norm_num) (by norm_num) (by norm_num)) (by norm_num)
    linarith [dist_bounds.1]
  unfold SF.Dbl.dubins
  rw [if_neg fun hn => h hn.1]
  exact pick_long (pick_long (pick_long (pick_long (pick_long (long_LSL F) (long_RSR F)) (long_RSL F)) (long_LSR F))
    (long_RLR F)) (long_LRL F)

omit F in
theorem goal_double : IsDouble (16 * dist) :=
  .mul_pow 16777219 (-24) (by unfold dist; norm_num) (by norm_num) (by norm_num) (by norm_num)

omit F in
theorem goal_sq_double : IsDouble (16 * dist * (16 * dist)) :=
  .mul_pow 281475077373961 (-48) (by unfold dist; norm_num) (by norm_num) (by norm_num) (by norm_num)

theorem tw_head_eq : SF.Dbl.twopify fl head = head := by
  rw [F.tw_small (by unfold head; positivity) (by unfold head; norm_num), fl_head F]

/-- The planner returns a path of more than 96 metres. -/
theorem far (disc : ℝ) :
    96 ≤ SF.Dbl.get_distance fl ⟨1 / 16, disc, true⟩ ⟨0, 0, head, 0, 0⟩ ⟨16 * dist, 0, head, 0, 0⟩ := by
  have d0 := dist_bounds.1
  have hl := (long F).length F
  have hs : SF.Dbl.space_dubins fl ⟨1 / 16, disc, true⟩ ⟨0, 0, head, 0, 0⟩ ⟨16 * dist, 0, head, 0, 0⟩
      = SF.Dbl.dubins fl dist head head := by
    unfold SF.Dbl.space_dubins
    have e1 : SF.Dbl.atan2F fl 0 (16 * dist) = 0 := by
      unfold SF.Dbl.atan2F; rw [SF.atan2_zero_nonneg (by linarith), F.zero]
    have e2 : SF.Dbl.sqrtF fl (16 * dist * (16 * dist)) = 16 * dist := by
      unfold SF.Dbl.sqrtF; rw [sqrt_mul_self (by linarith), F.exact goal_double]
    have e3 : 16 * dist * (1 / 16) = dist := by ring
    simp only [sub_zero, F.exact goal_double, F.zero, e1, mul_zero, add_zero, F.exact goal_sq_double, e2, e3,
      F.exact dist_double, fl_head F, tw_head_eq F]
  unfold SF.Dbl.get_distance
  rw [if_pos rfl, hs]
  have e4 : fl ((1:ℝ) / (1 / 16)) = 16 := by
    norm_num
    exact F.exact (.mul_pow 16 0 (by norm_num) (by norm_num) (by norm_num) (by norm_num))
  simp only
  rw [e4]
  exact F.ge (.mul_pow 96 0 (by norm_num) (by norm_num) (by norm_num) (by norm_num)) (by linarith)

end Spec.Straight
