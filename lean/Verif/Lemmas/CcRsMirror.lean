import Verif.Lemmas.CcCompare
import Verif.Lemmas.Concurrent
import Verif.Lemmas.MirrorNum

/-!
# CC-Reeds-Shepp: lengths for a goal and its mirror image
-/

noncomputable section

namespace Spec

open Real Props
open CC00 (CircOk cc_turn_ne_nil circOk_at)

/-! ### Parameters -/

theorem rng_mirror : Rng 1 1000 := ⟨by norm_num [SF.epsilon], by norm_num, by norm_num [SF.epsilon]⟩

theorem fresnelS_small {t : ℝ} (ht : 0 ≤ t) : |fresnelS t| ≤ π / 2 * t ^ 2 * t := by
  have hp := pi_pos
  have := intervalIntegral.norm_integral_le_of_norm_le_const (a := 0) (b := t) (C := π / 2 * t ^ 2)
    (f := fun u => sin (π / 2 * u ^ 2)) (fun x hx => by
      rw [Set.uIoc_of_le ht] at hx
      rw [Real.norm_eq_abs]
      refine abs_sin_le_abs.trans ?_
      rw [abs_of_nonneg (by positivity)]
      have : x ^ 2 ≤ t ^ 2 := pow_le_pow_left₀ hx.1.le hx.2 2
      gcongr)
  rw [Real.norm_eq_abs, sub_zero, abs_of_nonneg ht] at this
  exact this

theorem param_bounds : 0 < ccA 1 1000 ∧ ccA 1 1000 ≤ 0.0006 ∧ |ccB 1 1000 - 1| ≤ 0.0002 := by
  have H := rng_mirror
  refine ⟨ccA_pos H.kappa H.sigma H.clothoid, ?_⟩
  have hs : (0 : ℝ) < 1000 := by norm_num
  have hlow := cArg_full_lower H.kappa hs H.clothoid
  have hc := cScale_pos hs
  have hcA : cScale 1000 * cArg 1000 (1 / 1000) = 1 / 1000 := by
    unfold cScale cArg
    have h1 : √π ≠ 0 := (sqrt_pos.mpr pi_pos).ne'
    have h2 : √(1000 : ℝ) ≠ 0 := (sqrt_pos.mpr hs).ne'
    have h3 : √(1000 : ℝ) * √1000 = 1000 := mul_self_sqrt hs.le
    field_simp
    rw [sq, h3]
  have hph : π / 2 * cArg 1000 (1 / 1000) ^ 2 = 1 / 2000 := by
    rw [cArg_full hs, div_pow, sq_sqrt (by positivity)]
    have := pi_pos.ne'
    field_simp
    norm_num
  obtain ⟨f1, f2⟩ := Poly.fresnel_accurate (cArg 1000 (1 / 1000))
  have hx0 : 0 ≤ cArg 1000 (1 / 1000) := le_trans (by norm_num) hlow
  have g1 := fresnelS_small hx0
  have g2 := abs_fresnelC_le hx0
  rw [hph] at g1
  unfold ccA ccB
  generalize cArg 1000 (1 / 1000) = x at *
  have b1 : |cScale 1000 * (SF.fresnel x).1| ≤ 0.000001 := by
    have h : |(SF.fresnel x).1| ≤ 1 / 1000 * x := by
      have := abs_le.mp f1; have := abs_le.mp g1
      rw [abs_le]; constructor <;> linarith
    rw [abs_mul, abs_of_pos hc]
    have := mul_le_mul_of_nonneg_left h hc.le
    have e : cScale 1000 * (1 / 1000 * x) = 1 / 1000 * (1 / 1000) := by rw [← hcA]; ring
    rw [e] at this
    exact this.trans (by norm_num)
  have b2 : cScale 1000 * (SF.fresnel x).2 ≤ 0.00101 := by
    have h : (SF.fresnel x).2 ≤ 1.01 * x := by
      have := abs_le.mp f2; have := abs_le.mp g2
      linarith
    have := mul_le_mul_of_nonneg_left h hc.le
    have e : cScale 1000 * (1.01 * x) = 1.01 * (1 / 1000) := by rw [← hcA]; ring
    rw [e] at this
    exact this.trans (by norm_num)
  have s1 : (1 : ℝ) ^ 2 / (2 * 1000) = 0.0005 := by norm_num
  rw [s1]
  have s2 := sin_gt_sub_cube (x := 0.0005) (by norm_num)
  have s3 := one_sub_sq_div_two_le_cos (x := 0.0005)
  have s4 := cos_le_one 0.0005
  obtain ⟨b1l, b1u⟩ := abs_le.1 b1
  constructor
  · rw [div_one]; norm_num at s2 ⊢; linarith
  · rw [div_one, abs_le]; norm_num at s3 ⊢; constructor <;> linarith

/-! ### Turns -/

theorem ang_eq_zero_of (a b : ℝ) : ang a b = ang (a - b) 0 := by unfold ang; rw [sub_zero]

theorem ang_congr {a b x : ℝ} (h : AngleEq (a - b) x) : ang a b = ang x 0 := by
  unfold ang; rw [sub_zero, h.cos_eq]

theorem ang_zero_le (x : ℝ) : ang x 0 ≤ |x| := by
  unfold ang
  rw [sub_zero, ← cos_abs]
  rcases le_total |x| π with h | h
  · rw [arccos_cos (abs_nonneg _) h]
  · exact (arccos_le_pi _).trans h

theorem ang_neg (x : ℝ) : ang (-x) 0 = ang x 0 := by unfold ang; rw [sub_zero, sub_zero, cos_neg]

theorem ang_deflection (c : SF.Circle) (q : SF.Configuration) : ang q.theta c.start.theta = ang (c.deflection q) 0 := by
  obtain ⟨h, _, _⟩ := deflection_spec c q
  have h' : AngleEq (q.theta - c.start.theta) (sg c.forward * sg c.left * c.deflection q) :=
    AngleEq.sub_iff.2 (h.trans (AngleEq.of_eq (by ring)))
  rw [ang_congr h']
  cases c.forward <;> cases c.left <;> simp [sg, ang_neg]

theorem turn_params {c : SF.Circle} (h : CircleOk c 1 1000 (ccA 1 1000) (ccB 1 1000)) :
    |c.kappa / c.sigma| = 0.001 ∧ (∀ x, |c.kappa_inv * x| = |x|) ∧ c.delta_min = 0.0005 := by
  refine ⟨?_, fun x => ?_, ?_⟩
  · rw [h.kappa, h.sigma]; cases c.left <;> norm_num [sg]
  · rw [h.kappa_inv]; cases c.left <;> simp [sg]
  · rw [h.delta_min]; norm_num

theorem turn_ge {c : SF.Circle} (h : CircleOk c 1 1000 (ccA 1 1000) (ccB 1 1000)) (q : SF.Configuration) :
    ang q.theta c.start.theta - 0.001 ≤ c.cc_turn_length q := by
  obtain ⟨p1, p2, p3⟩ := turn_params h
  obtain ⟨A0, A1, B1⟩ := param_bounds
  have hn := CC00.cc_turn_length_nonneg h A0.le q
  obtain ⟨_, d0, d1⟩ := deflection_spec c q
  have hle := ang_zero_le (c.deflection q)
  rw [abs_of_nonneg d0] at hle
  rw [ang_deflection]
  by_cases hs : c.deflection q < 2 * c.delta_min
  · rw [p3] at hs; linarith
  · unfold SF.Circle.cc_turn_length
    have he : ¬ c.deflection q < SF.epsilon := by rw [p3] at hs; unfold SF.epsilon; push Not at hs ⊢; linarith
    simp only [if_neg he, if_neg hs]
    rw [p1, p2]
    have hc := cc_circular_spec c (c.deflection q)
    have a1 := ang_zero_le (c.cc_circular_deflection (c.deflection q))
    have a2 : ang (c.deflection q) (2 * c.delta_min) = ang (c.cc_circular_deflection (c.deflection q)) 0 := ang_congr hc.symm
    have a3 := ang_triangle (c.deflection q) (2 * c.delta_min) 0
    have a4 := ang_zero_le (2 * c.delta_min)
    rw [p3] at a2 a3 a4
    norm_num at a2 a3 a4 ⊢
    linarith

/-- Circles without `CC_REGULAR` choose the shorter arc. -/
theorem circular_le {c : SF.Circle} (hr : c.regular = false) (hm : c.delta_min = 0.0005) {d : ℝ} (h0 : 0 ≤ d) (h1 : d < 2 * π) :
    |c.cc_circular_deflection d| ≤ ang (d - 2 * c.delta_min) 0 := by
  have hp := pi_gt_three
  have ht : SF.twopify (2 * c.delta_min) = 2 * c.delta_min := by
    rw [hm]; exact SF.twopify_of_mem (by norm_num) (by linarith)
  unfold SF.Circle.cc_circular_deflection
  simp only [hr, Bool.false_eq_true, if_false, ht]
  obtain ⟨y, hy⟩ : ∃ y, y = d - 2 * c.delta_min := ⟨_, rfl⟩
  rw [← hy]
  have hyl : -1 ≤ y := by rw [hy, hm]; linarith
  have hyu : y < 2 * π := by rw [hy, hm]; linarith
  unfold ang
  rw [sub_zero, ← cos_abs]
  by_cases hpi : |y| ≤ π
  · rw [arccos_cos (abs_nonneg _) hpi]
    split_ifs <;> first | exact le_rfl | linarith
  · push Not at hpi
    have hy0 : 0 ≤ y := by
      by_contra hneg
      rw [abs_of_neg (not_le.1 hneg)] at hpi
      linarith
    have hge : ¬ d < 2 * c.delta_min := by rw [hy] at hy0; linarith
    rw [if_neg hge, abs_of_nonneg hy0]
    rw [abs_of_nonneg hy0] at hpi
    have e : arccos (cos y) = 2 * π - y := by
      rw [← cos_neg, ← cos_add_two_pi, show -y + 2 * π = 2 * π - y by ring, arccos_cos (by linarith) (by linarith)]
    have e2 : |y - 2 * π| = 2 * π - y := by rw [abs_of_neg (by linarith)]; ring
    rw [e, e2]
    split_ifs with hh
    · rw [abs_of_nonneg hy0]; exact hh.le
    · rw [e2]

theorem turn_le {c : SF.Circle} (h : CircleOk c 1 1000 (ccA 1 1000) (ccB 1 1000)) (hr : c.regular = false)
    (q : SF.Configuration) : c.cc_turn_length q ≤ ang q.theta c.start.theta + 0.003 := by
  obtain ⟨p1, p2, p3⟩ := turn_params h
  obtain ⟨A0, A1, B1⟩ := param_bounds
  obtain ⟨_, d0, d1⟩ := deflection_spec c q
  have hn := ang_nonneg (c.deflection q) 0
  rw [ang_deflection]
  have hdef : 2 * |c.kappa / c.sigma| + |c.kappa_inv * c.cc_circular_deflection (c.deflection q)|
      ≤ ang (c.deflection q) 0 + 0.003 := by
    rw [p1, p2]
    have a1 := circular_le hr p3 d0 d1
    have a2 := ang_triangle (c.deflection q - 2 * c.delta_min) (c.deflection q) 0
    have a3 : ang (c.deflection q - 2 * c.delta_min) (c.deflection q) ≤ 2 * c.delta_min := by
      rw [ang_eq_zero_of]
      refine (ang_zero_le _).trans (le_of_eq ?_)
      rw [p3]; norm_num
    rw [p3] at a1 a2 a3
    norm_num at a1 a2 a3 ⊢
    linarith
  unfold SF.Circle.cc_turn_length
  simp only
  split_ifs with h1 h2
  · rw [mul_assoc, h.sin_mu]; norm_num at A1 ⊢; linarith
  · split
    · split_ifs with h3
      · exact h3.le.trans hdef
      · exact hdef
    · exact hdef
  · exact hdef

/-! ### The example -/

/-- Circles at the start `(0, 0, 0)` and at the goal `(7, 3, -π/2)`. -/
structure Ex (c1 c2 : SF.Circle) : Prop where
  ok1 : CircOk c1 1 1000
  ok2 : CircOk c2 1 1000
  theta1 : c1.start.theta = 0
  cos2 : cos c2.start.theta = 0
  sin2 : sin c2.start.theta = -1
  x1 : c1.start.x = 0
  y1 : c1.start.y = 0
  x2 : c2.start.x = 7
  y2 : c2.start.y = 3

local notation "A" => ccA 1 1000
local notation "B" => ccB 1 1000

section
variable {c1 c2 : SF.Circle} (E : Ex c1 c2)

include E in
theorem Ex.center1 : c1.xc = sg c1.forward * A ∧ c1.yc = sg c1.left * B := by
  have h := E.ok1.cen
  rw [Complex.ext_iff] at h
  simpa [center, cen, cfg, Config.pos, cis, E.theta1, E.x1, E.y1] using h

include E in
theorem Ex.center2 : c2.xc = 7 + sg c2.left * B ∧ c2.yc = 3 - sg c2.forward * A := by
  have h := E.ok2.cen
  rw [Complex.ext_iff] at h
  simpa [center, cen, cfg, Config.pos, cis, E.cos2, E.sin2, E.x2, E.y2, sub_eq_add_neg] using h

include E in
theorem Ex.near : |c2.xc - c1.xc - (7 + sg c2.left)| ≤ 0.001 ∧ |c2.yc - c1.yc - (3 - sg c1.left)| ≤ 0.001 := by
  obtain ⟨A0, A1, B1⟩ := param_bounds
  obtain ⟨b1, b2⟩ := abs_le.1 B1
  obtain ⟨x1, y1⟩ := E.center1
  obtain ⟨x2, y2⟩ := E.center2
  rw [x1, y1, x2, y2, abs_le, abs_le]
  norm_num at A1 b1 b2 ⊢
  rcases sg_pm c1.forward with f1 | f1 <;> rcases sg_pm c2.forward with f2 | f2 <;>
    rcases sg_pm c1.left with l1 | l1 <;> rcases sg_pm c2.left with l2 | l2 <;> rw [f1, f2, l1, l2] <;>
    refine ⟨⟨?_, ?_⟩, ?_, ?_⟩ <;> linarith

end

/-! ### Lines and cusps in coordinates -/

theorem AtTan.eq {k s : ℝ} {f l : Bool} {z : ℂ} {q : SF.Configuration} (h : AtTan k s f l z q 0) :
    z = (cfg q).pos + cis q.theta * ⟨-(sg f * ccA k s), sg l * ccB k s⟩ :=
  (sub_eq_zero.1 (norm_le_zero_iff.1 h)).symm

/-- The line between two circles seen along the line. -/
theorem line_eq {k s : ℝ} {fa la fb lb : Bool} {za zb : ℂ} {q1 q2 : SF.Configuration} {d x : ℝ}
    (h1 : AtTan k s fa la za q1 0) (h2 : AtTan k s fb lb zb q2 0) (ha : Ahead d q1 q2 x) :
    zb - za = cis q1.theta * ⟨d * x + (sg fa - sg fb) * ccA k s, (sg lb - sg la) * ccB k s⟩ := by
  rw [h1.eq, h2.eq, ← ha.1, Complex.mk_eq_add_mul_I, Complex.mk_eq_add_mul_I, Complex.mk_eq_add_mul_I]
  push_cast
  have h := ha.2
  push_cast at h
  linear_combination h

theorem line_coord {k s : ℝ} {fa la fb lb : Bool} {za zb : ℂ} {q1 q2 : SF.Configuration} {d x X Y : ℝ}
    (h1 : AtTan k s fa la za q1 0) (h2 : AtTan k s fb lb zb q2 0) (ha : Ahead d q1 q2 x) (hz : zb - za = ⟨X, Y⟩) :
    X = cos q1.theta * (d * x + (sg fa - sg fb) * ccA k s) - sin q1.theta * ((sg lb - sg la) * ccB k s) ∧
    Y = sin q1.theta * (d * x + (sg fa - sg fb) * ccA k s) + cos q1.theta * ((sg lb - sg la) * ccB k s) := by
  have h := line_eq h1 h2 ha
  rw [hz, Complex.ext_iff] at h
  simpa [cis, add_comm, -Complex.ofReal_cos, -Complex.ofReal_sin] using h

/-- The cusp between two circles seen along the heading in the cusp. -/
theorem cusp_coord {k s : ℝ} {f l l' : Bool} {z z' : ℂ} {q : SF.Configuration} {X Y : ℝ}
    (h : AtTan k s f l z q 0) (h' : AtTan k s f l' z' q 0) (hz : z' - z = ⟨X, Y⟩) :
    X = -(sin q.theta * ((sg l' - sg l) * ccB k s)) ∧ Y = cos q.theta * ((sg l' - sg l) * ccB k s) := by
  have e : z' - z = cis q.theta * ⟨0, (sg l' - sg l) * ccB k s⟩ := by
    rw [h.eq, h'.eq, Complex.mk_eq_add_mul_I, Complex.mk_eq_add_mul_I, Complex.mk_eq_add_mul_I]
    push_cast
    ring
  rw [hz, Complex.ext_iff] at e
  simpa [cis, -Complex.ofReal_cos, -Complex.ofReal_sin] using e

theorem near_dir {fa fb : Bool} {d x : ℝ} : |d * x + (sg fa - sg fb) * A - d * x| ≤ 0.002 := by
  obtain ⟨A0, A1, _⟩ := param_bounds
  norm_num at A1
  rw [add_sub_cancel_left, abs_le]
  norm_num
  cases fa <;> cases fb <;> norm_num [sg] <;> constructor <;> linarith

/-! ### Two turns and a line -/

section
variable {c1 c2 : SF.Circle} (E : Ex c1 c2)

theorem sq_ge {X X0 e : ℝ} (h : |X - X0| ≤ e) (h0 : e ≤ X0) : (X0 - e) ^ 2 ≤ X ^ 2 :=
  pow_le_pow_left₀ (by linarith) (by have := (abs_le.1 h).1; linarith) 2

/-- A line without lateral offset is as long as the distance of the centres. -/
theorem long_line {d x p b N r : ℝ} (hd : d = 1 ∨ d = -1) (hx : 0 ≤ x) (hp : |p - d * x| ≤ 0.002) (h : p ^ 2 + b ^ 2 = N)
    (hN : (r + 0.002) ^ 2 + b ^ 2 ≤ N) (hr : 0 ≤ r) : r ≤ x := by
  have h1 : (r + 0.002) ^ 2 ≤ p ^ 2 := by linarith
  have h2 : r + 0.002 ≤ |p| := by
    have := sq_le_sq.1 h1
    rwa [abs_of_nonneg (by positivity)] at this
  have h3 : |p| ≤ x + 0.002 := by
    have : |d * x| = x := by rcases hd with rfl | rfl <;> simp [abs_of_nonneg hx]
    have h4 := abs_add_le (p - d * x) (d * x)
    rw [sub_add_cancel, this] at h4
    linarith
  linarith

include E in
theorem Ex.line_ge {q1 q2 : SF.Configuration} {fa fb : Bool} {d x : ℝ} (hd : d = 1 ∨ d = -1) (hx : 0 ≤ x)
    (h1 : AtTan 1 1000 fa c1.left (center c1) q1 0) (h2 : AtTan 1 1000 fb c2.left (center c2) q2 0)
    (ha : Ahead d q1 q2 x) : 8.71 ≤ x + ang q1.theta 0 + ang q1.theta c2.start.theta := by
  obtain ⟨A0, A1, B1⟩ := param_bounds
  obtain ⟨eX, eY⟩ := line_coord h1 h2 ha (X := c2.xc - c1.xc) (Y := c2.yc - c1.yc) rfl
  obtain ⟨nX, nY⟩ := E.near
  have ht := turn_total E.cos2 E.sin2 q1.theta
  obtain ⟨_, _, hN⟩ := line_dir eX eY
  have hp := near_dir (fa := fa) (fb := fb) (d := d) (x := x)
  obtain ⟨b1, b2⟩ := abs_le.1 B1
  obtain ⟨p, hp'⟩ : ∃ p, p = d * x + (sg fa - sg fb) * A := ⟨_, rfl⟩
  obtain ⟨b, hb⟩ : ∃ b, b = (sg c2.left - sg c1.left) * B := ⟨_, rfl⟩
  obtain ⟨X, hX⟩ : ∃ X, X = c2.xc - c1.xc := ⟨_, rfl⟩
  obtain ⟨Y, hY⟩ : ∃ Y, Y = c2.yc - c1.yc := ⟨_, rfl⟩
  rw [← hp'] at hp eX eY hN
  rw [← hb] at eX eY hN
  rw [← hX] at nX eX hN
  rw [← hY] at nY eY hN
  cases l1 : c1.left <;> cases l2 : c2.left <;> rw [l1, l2] at hb <;> rw [l2] at nX <;> rw [l1] at nY <;>
    norm_num [sg] at hb nX nY
  · have : 7.2 ≤ x := by
      refine long_line hd hx hp hN ?_ (by norm_num)
      have u := sq_ge nX (by norm_num); have v := sq_ge nY (by norm_num)
      rw [hb]; norm_num at u v ⊢; linarith
    linarith
  · have : 8.7 ≤ x := by
      refine long_line hd hx hp hN ?_ (by norm_num)
      have u := sq_ge nX (by norm_num); have v := sq_ge nY (by norm_num)
      have w : b ^ 2 ≤ 2.001 ^ 2 := by
        rw [hb]; exact pow_le_pow_left₀ (by norm_num at b1 ⊢; linarith) (by norm_num at b2 ⊢; linarith) 2
      norm_num at u v w ⊢; linarith
    linarith
  · have := cross_62 E.cos2 E.sin2 (nX.trans (by norm_num)) (nY.trans (by norm_num))
      (by rw [hb, abs_le]; norm_num at b1 b2 ⊢; constructor <;> linarith) eX eY hd hx hp
    linarith
  · have : 8.1 ≤ x := by
      refine long_line hd hx hp hN ?_ (by norm_num)
      have u := sq_ge nX (by norm_num); have v := sq_ge nY (by norm_num)
      rw [hb]; norm_num at u v ⊢; linarith
    linarith

include E in
theorem Ex.line_row_ge {q : SF.Configuration × SF.Configuration} {fa fb : Bool} {d x : ℝ} (hd : d = 1 ∨ d = -1) (hx : 0 ≤ x)
    (h1 : AtTan 1 1000 fa c1.left (center c1) q.1 0) (h2 : AtTan 1 1000 fb c2.left (center c2) q.2 0)
    (ha : Ahead d q.1 q.2 x) : 8.7 ≤ (SF.CcRs.line_row c1 c2 q).length := by
  have h := E.line_ge hd hx h1 h2 ha
  have t1 := turn_ge E.ok1.ok q.1
  have t2 := turn_ge E.ok2.ok q.2
  rw [E.theta1] at t1
  rw [← ha.1] at t2
  have hl : (SF.CcRs.line_row c1 c2 q).length
    = c1.cc_turn_length q.1 + SF.configuration_distance q.1 q.2 + c2.cc_turn_length q.2 := rfl
  rw [hl, ha.length hd hx]
  norm_num at h t1 t2 ⊢
  linarith

end

/-! ### Polar coordinates of the centres -/

local notation "P" => SF.hc_cc_circle_param 1 1000

section
variable {c1 c2 : SF.Circle} (E : Ex c1 c2)

variable (c1 c2) in
theorem scratch_coord : c2.xc - c1.xc = (SF.scratch c1 c2).distance * cos (SF.scratch c1 c2).angle ∧
    c2.yc - c1.yc = (SF.scratch c1 c2).distance * sin (SF.scratch c1 c2).angle := by
  have h := scratch_polar c1 c2
  rw [Complex.ext_iff] at h
  simp only [center, cis, Complex.add_re, Complex.add_im, Complex.mul_re, Complex.mul_im, Complex.ofReal_re,
    Complex.ofReal_im, zero_mul, sub_zero, add_zero] at h
  exact ⟨by linarith [h.1], by linarith [h.2]⟩

include E in
theorem Ex.far : 6.3 ≤ (SF.scratch c1 c2).distance := by
  obtain ⟨eX, eY⟩ := scratch_coord c1 c2
  obtain ⟨nX, nY⟩ := E.near
  have hD : 0 ≤ (SF.scratch c1 c2).distance := by rw [scratch_distance]; exact norm_nonneg _
  have h : (SF.scratch c1 c2).distance ^ 2 = (c2.xc - c1.xc) ^ 2 + (c2.yc - c1.yc) ^ 2 := by
    rw [eX, eY]; linear_combination -(SF.scratch c1 c2).distance ^ 2 * sin_sq_add_cos_sq (SF.scratch c1 c2).angle
  refine (sq_le_sq₀ (by norm_num) hD).1 ?_
  have u : (5.999 : ℝ) ^ 2 ≤ (c2.xc - c1.xc) ^ 2 := by
    refine le_trans ?_ (sq_ge nX (by rcases sg_pm c2.left with l | l <;> rw [l] <;> norm_num))
    rcases sg_pm c2.left with l | l <;> rw [l] <;> norm_num
  have v : (1.999 : ℝ) ^ 2 ≤ (c2.yc - c1.yc) ^ 2 := by
    refine le_trans ?_ (sq_ge nY (by rcases sg_pm c1.left with l | l <;> rw [l] <;> norm_num))
    rcases sg_pm c1.left with l | l <;> rw [l] <;> norm_num
  rw [h]; norm_num at u v ⊢; linarith

include E in
theorem Ex.offsets {dx dy : ℝ} (hy : dy = (2 * B) ^ 2 / (SF.scratch c1 c2).distance) (hx : dx = 2 * B * √(1 - dy / (SF.scratch c1 c2).distance)) :
    0 ≤ dx ∧ dy * (SF.scratch c1 c2).distance = (2 * B) ^ 2 ∧ dx ^ 2 + dy ^ 2 = (2 * B) ^ 2 := by
  obtain ⟨A0, A1, B1⟩ := param_bounds
  obtain ⟨b1, b2⟩ := abs_le.1 B1
  norm_num at b1 b2
  have hD := E.far
  have hB : 0 < B := by linarith
  refine ⟨by rw [hx]; positivity, by rw [hy]; field_simp, (cc_offsets hB (by linarith) ?_ hy hx).1⟩
  exact pow_le_pow_left₀ (by linarith) (by linarith) 2

/-- Circles given by an offset from the line through the centres. -/
theorem frame_sub (c : SF.Circle) (g a b : ℝ) :
    center c - ⟨(SF.global_frame_change c.xc c.yc g a b).1, (SF.global_frame_change c.xc c.yc g a b).2⟩
      = ⟨-(a * cos g - b * sin g), -(a * sin g + b * cos g)⟩ := by
  rw [frame_cis, show (⟨c.xc, c.yc⟩ : ℂ) = center c from rfl, sub_add_cancel_left]
  apply Complex.ext <;> simp [cis, -Complex.ofReal_cos, -Complex.ofReal_sin] <;> ring

theorem sub_frame (c : SF.Circle) (g a b : ℝ) :
    ⟨(SF.global_frame_change c.xc c.yc g a b).1, (SF.global_frame_change c.xc c.yc g a b).2⟩ - center c
      = ⟨a * cos g - b * sin g, a * sin g + b * cos g⟩ := by
  rw [← neg_sub, frame_sub]
  apply Complex.ext <;> simp

variable (c1 c2) in
theorem center_sub : center c2 - center c1 = ⟨(SF.scratch c1 c2).distance * cos (SF.scratch c1 c2).angle, (SF.scratch c1 c2).distance * sin (SF.scratch c1 c2).angle⟩ := by
  obtain ⟨eX, eY⟩ := scratch_coord c1 c2
  rw [← eX, ← eY]; rfl

variable (c1 c2) in
theorem frame_from (a b : ℝ) :
    ⟨(SF.global_frame_change c2.xc c2.yc (SF.scratch c1 c2).angle a b).1, (SF.global_frame_change c2.xc c2.yc (SF.scratch c1 c2).angle a b).2⟩ - center c1
      = ⟨((SF.scratch c1 c2).distance + a) * cos (SF.scratch c1 c2).angle - b * sin (SF.scratch c1 c2).angle, ((SF.scratch c1 c2).distance + a) * sin (SF.scratch c1 c2).angle + b * cos (SF.scratch c1 c2).angle⟩ := by
  rw [← sub_add_sub_cancel _ (center c2) (center c1), sub_frame, center_sub]
  apply Complex.ext <;> simp <;> ring

variable (c1 c2) in
theorem frame_to (a b : ℝ) :
    center c2 - ⟨(SF.global_frame_change c1.xc c1.yc (SF.scratch c1 c2).angle a b).1, (SF.global_frame_change c1.xc c1.yc (SF.scratch c1 c2).angle a b).2⟩
      = ⟨((SF.scratch c1 c2).distance - a) * cos (SF.scratch c1 c2).angle + b * sin (SF.scratch c1 c2).angle, ((SF.scratch c1 c2).distance - a) * sin (SF.scratch c1 c2).angle - b * cos (SF.scratch c1 c2).angle⟩ := by
  rw [← sub_add_sub_cancel _ (center c1) _, frame_sub, center_sub]
  apply Complex.ext <;> simp <;> ring

variable (c1 c2) in
theorem frame_both (a b a' b' : ℝ) :
    (⟨(SF.global_frame_change c2.xc c2.yc (SF.scratch c1 c2).angle a' b').1, (SF.global_frame_change c2.xc c2.yc (SF.scratch c1 c2).angle a' b').2⟩ : ℂ)
      - ⟨(SF.global_frame_change c1.xc c1.yc (SF.scratch c1 c2).angle a b).1, (SF.global_frame_change c1.xc c1.yc (SF.scratch c1 c2).angle a b).2⟩
      = ⟨((SF.scratch c1 c2).distance + a' - a) * cos (SF.scratch c1 c2).angle - (b' - b) * sin (SF.scratch c1 c2).angle,
          ((SF.scratch c1 c2).distance + a' - a) * sin (SF.scratch c1 c2).angle + (b' - b) * cos (SF.scratch c1 c2).angle⟩ := by
  rw [← sub_add_sub_cancel _ (center c2) _, sub_frame, frame_to]
  apply Complex.ext <;> simp <;> ring

/-! ### Lines and cusps -/

section cores
variable {q : SF.Configuration × SF.Configuration} {q1 q3 q4 : SF.Configuration} {x d : ℝ} {l l' f f' r r' : Bool}

include E in
theorem Ex.one_after (ht : q.1.theta = q.2.theta) (hx : SF.configuration_distance q.1 q.2 = x)
    (h : 8.71 ≤ x + ang q.1.theta 0 + ang q3.theta q.1.theta + ang q3.theta c2.start.theta) :
    8.7 ≤ c1.cc_turn_length q.1 + SF.configuration_distance q.1 q.2
          + (SF.circleAt q.2 l f r P).cc_turn_length q3 + c2.cc_turn_length q3 := by
  have t1 := turn_ge E.ok1.ok q.1
  have t2 := turn_ge (circOk_at rng_mirror.kappa rng_mirror.sigma rng_mirror.clothoid q.2 l f r).ok q3
  have t3 := turn_ge E.ok2.ok q3
  have e : (SF.circleAt q.2 l f r P).start.theta = q.1.theta := ht.symm
  rw [E.theta1] at t1
  rw [e] at t2
  rw [hx]
  norm_num at h t1 t2 t3 ⊢
  linarith

include E in
theorem Ex.one_before (ht : q.1.theta = q.2.theta) (hx : SF.configuration_distance q.1 q.2 = x)
    (h : 8.71 ≤ x + ang q1.theta 0 + ang q1.theta q.1.theta + ang q.1.theta c2.start.theta) :
    8.7 ≤ c1.cc_turn_length q1 + (SF.circleAt q1 l f r P).cc_turn_length q.1
          + SF.configuration_distance q.1 q.2 + c2.cc_turn_length q.2 := by
  have t1 := turn_ge E.ok1.ok q1
  have t2 := turn_ge (circOk_at rng_mirror.kappa rng_mirror.sigma rng_mirror.clothoid q1 l f r).ok q.1
  have t3 := turn_ge E.ok2.ok q.2
  have e : (SF.circleAt q1 l f r P).start.theta = q1.theta := rfl
  rw [E.theta1] at t1
  rw [e, ang_comm] at t2
  rw [← ht] at t3
  rw [hx]
  norm_num at h t1 t2 t3 ⊢
  linarith

include E in
theorem Ex.both (ht : q.1.theta = q.2.theta) (hx : SF.configuration_distance q.1 q.2 = x)
    (h : 8.71 ≤ x + ang q1.theta 0 + ang q1.theta q.1.theta + ang q4.theta q.1.theta + ang q4.theta c2.start.theta) :
    8.7 ≤ c1.cc_turn_length q1 + (SF.circleAt q1 l f r P).cc_turn_length q.1
          + SF.configuration_distance q.1 q.2 + (SF.circleAt q.2 l' f' r' P).cc_turn_length q4 + c2.cc_turn_length q4 := by
  have t1 := turn_ge E.ok1.ok q1
  have t2 := turn_ge (circOk_at rng_mirror.kappa rng_mirror.sigma rng_mirror.clothoid q1 l f r).ok q.1
  have t3 := turn_ge (circOk_at rng_mirror.kappa rng_mirror.sigma rng_mirror.clothoid q.2 l' f' r').ok q4
  have t4 := turn_ge E.ok2.ok q4
  have e : (SF.circleAt q1 l f r P).start.theta = q1.theta := rfl
  have e' : (SF.circleAt q.2 l' f' r' P).start.theta = q.1.theta := ht.symm
  rw [E.theta1] at t1
  rw [e, ang_comm] at t2
  rw [e'] at t3
  rw [hx]
  norm_num at h t1 t2 t3 t4 ⊢
  linarith

end cores

/-! ### Direct lines with cusps -/

local notation "H" => rng_mirror

/-- A line without lateral offset. -/
theorem direct_line {fa fb l l' : Bool} {za zb : ℂ} {q1 q2 : SF.Configuration} {d x Q g X Y : ℝ} (hd : d = 1 ∨ d = -1) (hx : 0 ≤ x)
    (h1 : AtTan 1 1000 fa l za q1 0) (h2 : AtTan 1 1000 fb l' zb q2 0) (hl : l = l') (ha : Ahead d q1 q2 x)
    (hz : zb - za = ⟨X, Y⟩) (hX : X = Q * cos g) (hY : Y = Q * sin g) (hQ : 2 ≤ Q) :
    Q - 0.002 ≤ x ∧ ∀ u w : ℝ, cos u = -w * sin g → sin u = w * cos g → cos (u - q1.theta) = 0 := by
  obtain ⟨eX, eY⟩ := line_coord h1 h2 ha hz
  have hp := near_dir (fa := fa) (fb := fb) (d := d) (x := x)
  rw [hl, sub_self, zero_mul, mul_zero] at eX eY
  rw [sub_zero] at eX
  rw [add_zero] at eY
  refine ⟨long_line (b := 0) hd hx hp (N := Q ^ 2) ?_ (by linarith) (by linarith), fun u w hc hs => ?_⟩
  · rw [hX] at eX
    rw [hY] at eY
    generalize d * x + (sg fa - sg fb) * A = p at *
    linear_combination -(Q * cos g + cos q1.theta * p) * eX - (Q * sin g + sin q1.theta * p) * eY - p ^ 2 * sin_sq_add_cos_sq q1.theta
      + Q ^ 2 * sin_sq_add_cos_sq g
  · exact perp_of (hX.symm.trans eX) (hY.symm.trans eY) (by linarith) w hc hs

theorem ccB_ne : B ≠ 0 := by
  obtain ⟨_, _, B1⟩ := param_bounds
  have := (abs_le.1 B1).1
  intro h
  rw [h] at this; norm_num at this

theorem two_bounds : 1.99 ≤ 2 * B ∧ 2 * B ≤ 2.001 := by
  obtain ⟨_, _, B1⟩ := param_bounds
  have := abs_le.1 B1
  norm_num at this ⊢
  constructor <;> linarith

include E in
theorem Ex.exists_offsets : ∃ dx dy : ℝ, 0 ≤ dx ∧ dy * (SF.scratch c1 c2).distance = (2 * B) ^ 2 ∧ dx ^ 2 + dy ^ 2 = (2 * B) ^ 2 :=
  ⟨_, _, E.offsets rfl rfl⟩

include E in
theorem Ex.polars {dx dy : ℝ} (h0 : 0 ≤ dx) (hy : dy * (SF.scratch c1 c2).distance = (2 * B) ^ 2) (hx : dx ^ 2 + dy ^ 2 = (2 * B) ^ 2) :
    (c1.left = true → c2.left = true → Polar 8.24621 0.97014 0.24254 0.48507 1.94028 (SF.scratch c1 c2).distance (SF.scratch c1 c2).angle B dx dy) ∧
    (c1.left = true → c2.left = false → Polar 6.32456 0.94868 0.31623 0.63246 1.89737 (SF.scratch c1 c2).distance (SF.scratch c1 c2).angle B dx dy) ∧
    (c1.left = false → c2.left = true → Polar 8.94427 0.89443 0.44721 0.44721 1.94936 (SF.scratch c1 c2).distance (SF.scratch c1 c2).angle B dx dy) ∧
    (c1.left = false → c2.left = false → Polar 7.21110 0.83205 0.55470 0.55470 1.92154 (SF.scratch c1 c2).distance (SF.scratch c1 c2).angle B dx dy) := by
  obtain ⟨_, _, hB⟩ := param_bounds
  obtain ⟨eX, eY⟩ := scratch_coord c1 c2
  obtain ⟨nX, nY⟩ := E.near
  have hD : 0 ≤ (SF.scratch c1 c2).distance := by rw [scratch_distance]; exact norm_nonneg _
  refine ⟨fun l1 l2 => ?_, fun l1 l2 => ?_, fun l1 l2 => ?_, fun l1 l2 => ?_⟩ <;> rw [l2] at nX <;> rw [l1] at nY <;> norm_num [sg] at nX nY
  · exact polar_LL hD eX eY hB hy h0 hx (by norm_num; exact nX) (by norm_num; exact nY)
  · exact polar_LR hD eX eY hB hy h0 hx (by norm_num; exact nX) (by norm_num; exact nY)
  · exact polar_RL hD eX eY hB hy h0 hx (by norm_num; exact nX) (by norm_num; exact nY)
  · exact polar_RR hD eX eY hB hy h0 hx (by norm_num; exact nX) (by norm_num; exact nY)

/-- Heading in a cusp on the line through the centres. -/
theorem cusp_direct {l l' : Bool} {u g X Y w : ℝ} (hX : X = -(sin u * ((sg l' - sg l) * B))) (hY : Y = cos u * ((sg l' - sg l) * B))
    (hl : l = !l') (hw : w = -sg l') (eX : X = 2 * B * cos g) (eY : Y = 2 * B * sin g) : cos u = -w * sin g ∧ sin u = w * cos g := by
  have hB := ccB_ne
  rw [hl, sg_not] at hX hY
  rw [eX] at hX
  rw [eY] at hY
  have h1 : cos g = w * sin u := mul_left_cancel₀ (mul_ne_zero two_ne_zero hB) (by rw [hX, hw]; ring)
  have h2 : sin g = -w * cos u := mul_left_cancel₀ (mul_ne_zero two_ne_zero hB) (by rw [hY, hw]; ring)
  have hw2 : w * w = 1 := by rcases sg_pm l' with h | h <;> rw [hw, h] <;> norm_num
  rw [h1, h2]
  exact ⟨by linear_combination -cos u * hw2, by linear_combination -sin u * hw2⟩

section
variable {t u v x : ℝ} (hl : c2.left = !c1.left) (hline : (SF.scratch c1 c2).distance - 2 * B - 0.002 ≤ x)
  (hperp : ∀ u w : ℝ, cos u = -w * sin (SF.scratch c1 c2).angle → sin u = w * cos (SF.scratch c1 c2).angle → cos (u - t) = 0)

include E hl hline hperp in
theorem Ex.e_after (h : cos u = sg c2.left * sin (SF.scratch c1 c2).angle ∧ sin u = -sg c2.left * cos (SF.scratch c1 c2).angle) :
    8.71 ≤ x + ang t 0 + ang u t + ang u c2.start.theta := by
  obtain ⟨_, _, hB⟩ := param_bounds
  obtain ⟨dx, dy, o1, o2, o3⟩ := E.exists_offsets
  obtain ⟨_, pLR, pRL, _⟩ := E.polars o1 o2 o3
  have a1 := ang_triangle u t 0
  have a2 := ang_nonneg t 0
  obtain ⟨c, s⟩ := h
  have hp := hperp u (-sg c2.left) (by rw [c]; ring) s
  cases l1 : c1.left <;> rw [l1] at hl
  · rw [hl] at c s
    have := (e1_RL E.cos2 E.sin2 hB (pRL l1 hl) (c.trans (by norm_num [sg])) (s.trans (by norm_num [sg])) hp hline).1
    linarith
  · rw [hl] at c s
    have := e1_LR E.cos2 E.sin2 hB (pLR l1 hl) (c.trans (by norm_num [sg])) (s.trans (by norm_num [sg])) hline
    linarith

include E hl hline hperp in
theorem Ex.e_before (h : cos u = -sg c1.left * sin (SF.scratch c1 c2).angle ∧ sin u = sg c1.left * cos (SF.scratch c1 c2).angle) :
    8.71 ≤ x + ang u 0 + ang u t + ang t c2.start.theta := by
  obtain ⟨_, _, hB⟩ := param_bounds
  obtain ⟨dx, dy, o1, o2, o3⟩ := E.exists_offsets
  obtain ⟨_, pLR, pRL, _⟩ := E.polars o1 o2 o3
  have a1 := ang_triangle u t c2.start.theta
  have a2 := ang_nonneg t c2.start.theta
  obtain ⟨c, s⟩ := h
  have hp := hperp u (sg c1.left) c s
  cases l1 : c1.left <;> rw [l1] at hl c s
  · have := (e1_RL E.cos2 E.sin2 hB (pRL l1 hl) (c.trans (by norm_num [sg])) (s.trans (by norm_num [sg])) hp hline).2
    linarith
  · have := e1_LR E.cos2 E.sin2 hB (pLR l1 hl) (c.trans (by norm_num [sg])) (s.trans (by norm_num [sg])) hline
    linarith

end

include E in
theorem Ex.e_both {t u v x : ℝ} (hl : c2.left = c1.left) (hline : (SF.scratch c1 c2).distance - 4 * B - 0.002 ≤ x)
    (hperp : ∀ u w : ℝ, cos u = -w * sin (SF.scratch c1 c2).angle → sin u = w * cos (SF.scratch c1 c2).angle → cos (u - t) = 0)
    (h : cos u = -sg c1.left * sin (SF.scratch c1 c2).angle ∧ sin u = sg c1.left * cos (SF.scratch c1 c2).angle)
    (h' : cos v = sg c2.left * sin (SF.scratch c1 c2).angle ∧ sin v = -sg c2.left * cos (SF.scratch c1 c2).angle) :
    8.71 ≤ x + ang u 0 + ang u t + ang v t + ang v c2.start.theta := by
  obtain ⟨_, _, hB⟩ := param_bounds
  obtain ⟨dx, dy, o1, o2, o3⟩ := E.exists_offsets
  obtain ⟨pLL, _, _, pRR⟩ := E.polars o1 o2 o3
  obtain ⟨c, s⟩ := h
  obtain ⟨c', s'⟩ := h'
  have hp := hperp u (sg c1.left) c s
  have hp' := hperp v (-sg c2.left) (by rw [c']; ring) s'
  rw [hl] at c' s'
  cases l1 : c1.left <;> rw [l1] at hl c s c' s'
  · exact e2_RR E.cos2 E.sin2 hB (pRR l1 hl) (c.trans (by norm_num [sg])) (s'.trans (by norm_num [sg])) hp hp' hline
  · exact e2_LL hB (pLL l1 hl) (c.trans (by norm_num [sg])) hp hp' hline

include E in
theorem Ex.TeSTcT_ge (h : SF.CcRs.TeSTcT_exists (SF.scratch c1 c2) c1 c2) : 8.7 ≤ (SF.CcRs.TeSTcT_path P (SF.scratch c1 c2) c1 c2).length := by
  have hB := ccB_pos (H).kappa (H).sigma (H).clothoid
  have hA := ccA_pos (H).kappa (H).sigma (H).clothoid
  unfold SF.CcRs.TeSTcT_exists at h
  split_ifs at h with hl hf
  have hl' : c2.left = !c1.left := not_of_ne hl
  rw [mul_assoc 2, mul_add, E.ok1.ok.sin_mu, E.ok1.ok.cos_mu] at h
  unfold SF.CcRs.TeSTcT_path
  rw [mul_assoc 2, E.ok2.ok.cos_mu]
  dsimp only
  have D2 := frame_dist (g := (SF.scratch c1 c2).angle) (dx := -(2 * B)) (dy := 0) (r := 2 * B) c2 (by ring) (by positivity)
  have D1 := frame_dist_from c1 c2 (dx := -(2 * B)) (dy := 0) (r := (SF.scratch c1 c2).distance - 2 * B) (by ring) (by linarith)
  have z1 := frame_from c1 c2 (-(2 * B)) 0
  have z2 := frame_sub c2 (SF.scratch c1 c2).angle (-(2 * B)) 0
  rw [norm_sub_rev] at D2
  have hR : 2 * A ≤ (SF.scratch c1 c2).distance - 2 * B := by linarith
  rw [← D1] at hR
  generalize SF.global_frame_change c2.xc c2.yc (SF.scratch c1 c2).angle (-(2 * B)) 0 = p at *
  obtain ⟨t1, t2, x, hx, _, ha⟩ := TeST_geo H c1 (SF.circleCentered p.1 p.2 (!c2.left) c2.forward c2.regular P) E.ok1.ok.geom hR
  obtain ⟨t3, t4⟩ := TcT_cc_at H (f := c2.forward) (l := !c2.left) (SF.circleCentered p.1 p.2 (!c2.left) c2.forward c2.regular P) c2
    (geo_centered H _ _ _ _ _) rfl rfl rfl rfl D2
  have hd := sg_pm c1.forward
  refine E.one_after ha.1 (ha.length hd hx) ?_
  obtain ⟨b1, b2⟩ := two_bounds
  have far := E.far
  obtain ⟨hline, hperp⟩ := direct_line (Q := (SF.scratch c1 c2).distance - 2 * B) (g := (SF.scratch c1 c2).angle) hd hx t1 t2 rfl ha z1 (by ring) (by ring)
    (by norm_num at far b2 ⊢; linarith)
  obtain ⟨c, s⟩ := cusp_coord t3 (t4.side rfl (Bool.not_not _).symm) z2
  obtain ⟨c, s⟩ := cusp_direct (g := (SF.scratch c1 c2).angle) c s rfl rfl (by ring) (by ring)
  exact E.e_after hl' hline hperp ⟨c.trans (by ring), s⟩

include E in
theorem Ex.TcTeST_ge (h : SF.CcRs.TcTeST_exists (SF.scratch c1 c2) c1 c2) : 8.7 ≤ (SF.CcRs.TcTeST_path P (SF.scratch c1 c2) c1 c2).length := by
  have hA := ccA_pos (H).kappa (H).sigma (H).clothoid
  have hB := ccB_pos (H).kappa (H).sigma (H).clothoid
  unfold SF.CcRs.TcTeST_exists at h
  split_ifs at h with hl hf
  have hl' : c2.left = !c1.left := not_of_ne hl
  rw [mul_assoc 2, mul_add, E.ok1.ok.sin_mu, E.ok1.ok.cos_mu] at h
  unfold SF.CcRs.TcTeST_path
  rw [mul_assoc 2, E.ok2.ok.cos_mu]
  dsimp only
  have D2 := frame_dist (g := (SF.scratch c1 c2).angle) (dx := 2 * B) (dy := 0) (r := 2 * B) c1 (by ring) (by positivity)
  have D1 := frame_dist_to c1 c2 (dx := 2 * B) (dy := 0) (r := (SF.scratch c1 c2).distance - 2 * B) (by ring) (by linarith)
  have z1 := frame_to c1 c2 (2 * B) 0
  have z2 := sub_frame c1 (SF.scratch c1 c2).angle (2 * B) 0
  have hR : 2 * A ≤ (SF.scratch c1 c2).distance - 2 * B := by linarith
  rw [← D1] at hR
  generalize SF.global_frame_change c1.xc c1.yc (SF.scratch c1 c2).angle (2 * B) 0 = p at *
  obtain ⟨t1, t2⟩ := TcT_cc_at H c1 (SF.circleCentered p.1 p.2 c2.left (!c2.forward) c2.regular P) E.ok1.ok.geom rfl rfl rfl rfl D2
  obtain ⟨t3, t4, x, hx, _, ha⟩ := TeST_geo H (SF.circleCentered p.1 p.2 c2.left (!c2.forward) c2.regular P) c2
    (geo_centered H _ _ _ _ _) hR
  have hd := sg_pm (!c2.forward)
  refine E.one_before ha.1 (ha.length hd hx) ?_
  obtain ⟨b1, b2⟩ := two_bounds
  have far := E.far
  obtain ⟨hline, hperp⟩ := direct_line (Q := (SF.scratch c1 c2).distance - 2 * B) (g := (SF.scratch c1 c2).angle) hd hx t3 t4 rfl ha z1 (by ring) (by ring)
    (by norm_num at far b2 ⊢; linarith)
  obtain ⟨c, s⟩ := cusp_coord t1 t2 z2
  obtain ⟨c, s⟩ := cusp_direct (g := (SF.scratch c1 c2).angle) c s (Bool.not_not _).symm rfl (by ring) (by ring)
  rw [sg_not, neg_neg] at c s
  exact E.e_before hl' hline hperp ⟨c, s⟩

include E in
theorem Ex.TcTeSTcT_ge (h : SF.CcRs.TcTeSTcT_exists (SF.scratch c1 c2) c1 c2) : 8.7 ≤ (SF.CcRs.TcTeSTcT_path P (SF.scratch c1 c2) c1 c2).length := by
  have hA := ccA_pos (H).kappa (H).sigma (H).clothoid
  have hB := ccB_pos (H).kappa (H).sigma (H).clothoid
  unfold SF.CcRs.TcTeSTcT_exists at h
  split_ifs at h with hl hf
  have hl' : c2.left = c1.left := (not_not.1 hl).symm
  rw [show 2 * c1.radius * (2 * c1.cos_mu + c1.sin_mu) = 4 * (c1.radius * c1.cos_mu) + 2 * (c1.radius * c1.sin_mu) by ring,
    E.ok1.ok.sin_mu, E.ok1.ok.cos_mu] at h
  unfold SF.CcRs.TcTeSTcT_path
  rw [mul_assoc 2, E.ok1.ok.cos_mu]
  dsimp only
  have D1 := frame_dist (g := (SF.scratch c1 c2).angle) (dx := 2 * B) (dy := 0) (r := 2 * B) c1 (by ring) (by positivity)
  have D2 := frame_dist (g := (SF.scratch c1 c2).angle) (dx := -(2 * B)) (dy := 0) (r := 2 * B) c2 (by ring) (by positivity)
  have D3 := frame_dist_both c1 c2 (dx := 2 * B) (dy := 0) (ex := -(2 * B)) (ey := 0)
    (r := (SF.scratch c1 c2).distance - 4 * B) (by ring) (by linarith)
  have z1 := sub_frame c1 (SF.scratch c1 c2).angle (2 * B) 0
  have z2 := frame_sub c2 (SF.scratch c1 c2).angle (-(2 * B)) 0
  have z3 := frame_both c1 c2 (2 * B) 0 (-(2 * B)) 0
  rw [norm_sub_rev] at D2
  have hR : 2 * A ≤ (SF.scratch c1 c2).distance - 4 * B := by linarith
  rw [← D3] at hR
  generalize SF.global_frame_change c1.xc c1.yc (SF.scratch c1 c2).angle (2 * B) 0 = p1 at *
  generalize SF.global_frame_change c2.xc c2.yc (SF.scratch c1 c2).angle (-(2 * B)) 0 = p2 at *
  obtain ⟨t1, t2⟩ := TcT_cc_at H c1 (SF.circleCentered p1.1 p1.2 (!c1.left) (!c1.forward) c1.regular P) E.ok1.ok.geom rfl rfl rfl rfl D1
  obtain ⟨t3, t4, x, hx, _, ha⟩ := TeST_geo H (SF.circleCentered p1.1 p1.2 (!c1.left) (!c1.forward) c1.regular P)
    (SF.circleCentered p2.1 p2.2 (!c2.left) c2.forward c2.regular P) (geo_centered H _ _ _ _ _) hR
  obtain ⟨t5, t6⟩ := TcT_cc_at H (f := c2.forward) (l := !c2.left) (SF.circleCentered p2.1 p2.2 (!c2.left) c2.forward c2.regular P) c2
    (geo_centered H _ _ _ _ _) rfl rfl rfl rfl D2
  have hd := sg_pm (!c1.forward)
  refine E.both ha.1 (ha.length hd hx) ?_
  obtain ⟨b1, b2⟩ := two_bounds
  have far := E.far
  obtain ⟨hline, hperp⟩ := direct_line (Q := (SF.scratch c1 c2).distance - 4 * B) (g := (SF.scratch c1 c2).angle) hd hx t3 t4 rfl ha z3 (by ring) (by ring)
    (by norm_num at far b2 ⊢; linarith)
  obtain ⟨c, s⟩ := cusp_coord t1 t2 z1
  obtain ⟨c, s⟩ := cusp_direct (g := (SF.scratch c1 c2).angle) c s (Bool.not_not _).symm rfl (by ring) (by ring)
  rw [sg_not, neg_neg] at c s
  obtain ⟨c', s'⟩ := cusp_coord t5 (t6.side rfl (Bool.not_not _).symm) z2
  obtain ⟨c', s'⟩ := cusp_direct (g := (SF.scratch c1 c2).angle) c' s' rfl rfl (by ring) (by ring)
  exact E.e_both hl' hline hperp ⟨c, s⟩ ⟨c'.trans (by ring), s'⟩

/-! ### Crossing lines with cusps -/

/-- Heading in a cusp next to the line through the centres. -/
theorem cusp_side {l l' : Bool} {u X Y w : ℝ} (hX : X = -(sin u * ((sg l' - sg l) * B))) (hY : Y = cos u * ((sg l' - sg l) * B))
    (hl : l = !l') (hw : w = sg l') : cos u * (2 * B) = w * Y ∧ sin u * (2 * B) = -w * X := by
  rw [hl, sg_not, ← hw] at hX hY
  have hw2 : w * w = 1 := by rcases sg_pm l' with h | h <;> rw [hw, h] <;> norm_num
  rw [hX, hY]
  exact ⟨by linear_combination -2 * cos u * B * hw2, by linear_combination -2 * sin u * B * hw2⟩

theorem off_near {l l' : Bool} {b0 : ℝ} (h : sg l' - sg l = b0) (h0 : b0 = 2 ∨ b0 = -2) : |(sg l' - sg l) * B - b0| ≤ 0.001 := by
  obtain ⟨b1, b2⟩ := two_bounds
  obtain ⟨_, _, B1⟩ := param_bounds
  have := abs_le.1 B1
  norm_num at this
  rw [h, abs_le]
  rcases h0 with rfl | rfl <;> norm_num <;> constructor <;> linarith

section
variable {t u v x X Y dx dy d : ℝ} {f f' l l' : Bool} (o1 : 0 ≤ dx) (o2 : dy * (SF.scratch c1 c2).distance = (2 * B) ^ 2)
  (o3 : dx ^ 2 + dy ^ 2 = (2 * B) ^ 2) (hd : d = 1 ∨ d = -1) (hx : 0 ≤ x)
  (eX : X = cos t * (d * x + (sg f - sg f') * A) - sin t * ((sg l' - sg l) * B))
  (eY : Y = sin t * (d * x + (sg f - sg f') * A) + cos t * ((sg l' - sg l) * B))

include E o1 o2 o3 hd hx eX eY in
theorem Ex.i_after (hl : c2.left = c1.left) (ha : l = c1.left) (hb : l' = !c1.left)
    (hX : X = ((SF.scratch c1 c2).distance - dx) * cos (SF.scratch c1 c2).angle - dy * sin (SF.scratch c1 c2).angle)
    (hY : Y = ((SF.scratch c1 c2).distance - dx) * sin (SF.scratch c1 c2).angle + dy * cos (SF.scratch c1 c2).angle)
    (c : cos u * (2 * B) = sg c2.left * (dx * sin (SF.scratch c1 c2).angle - dy * cos (SF.scratch c1 c2).angle))
    (s : sin u * (2 * B) = -sg c2.left * (dx * cos (SF.scratch c1 c2).angle + dy * sin (SF.scratch c1 c2).angle)) :
    8.71 ≤ x + ang t 0 + ang u t + ang u c2.start.theta := by
  obtain ⟨_, _, hB⟩ := param_bounds
  obtain ⟨pLL, _, _, pRR⟩ := E.polars o1 o2 o3
  have a1 := ang_triangle u t 0
  have a2 := ang_triangle t u c2.start.theta
  rw [ang_comm t u] at a2
  cases l1 : c1.left <;> rw [l1] at hl ha hb <;> rw [hl] at c s <;> subst ha <;> subst hb
  · have := i1_RR E.cos2 E.sin2 hB eX eY hd hx near_dir (pRR l1 hl) (off_near (by norm_num [sg]) (.inl rfl)) hX hY
      (c.trans (by norm_num [sg])) (s.trans (by norm_num [sg]; ring))
    linarith
  · have := i1_LL E.cos2 E.sin2 eX eY hd hx near_dir (pLL l1 hl) (off_near (by norm_num [sg]) (.inr rfl)) hX hY
    linarith

include E o1 o2 o3 hd hx eX eY in
theorem Ex.i_before (hl : c2.left = c1.left) (ha : l = !c2.left) (hb : l' = c2.left)
    (hX : X = ((SF.scratch c1 c2).distance - dx) * cos (SF.scratch c1 c2).angle - dy * sin (SF.scratch c1 c2).angle)
    (hY : Y = ((SF.scratch c1 c2).distance - dx) * sin (SF.scratch c1 c2).angle + dy * cos (SF.scratch c1 c2).angle)
    (c : cos u * (2 * B) = -sg c1.left * (dx * sin (SF.scratch c1 c2).angle - dy * cos (SF.scratch c1 c2).angle))
    (s : sin u * (2 * B) = sg c1.left * (dx * cos (SF.scratch c1 c2).angle + dy * sin (SF.scratch c1 c2).angle)) :
    8.71 ≤ x + ang u 0 + ang u t + ang t c2.start.theta := by
  obtain ⟨_, _, hB⟩ := param_bounds
  obtain ⟨pLL, _, _, pRR⟩ := E.polars o1 o2 o3
  have a2 := ang_triangle u t c2.start.theta
  cases l1 : c1.left <;> rw [l1] at hl c s <;> rw [hl] at ha hb <;> subst ha <;> subst hb
  · exact i1_RR' E.cos2 E.sin2 hB eX eY hd hx near_dir (pRR l1 hl) (off_near (by norm_num [sg]) (.inr rfl)) hX hY
      (c.trans (by norm_num [sg])) (s.trans (by norm_num [sg]; ring))
  · have := i1_LL' E.cos2 E.sin2 hB eX eY hd hx near_dir (pLL l1 hl) (off_near (by norm_num [sg]) (.inl rfl)) hX hY
      (c.trans (by norm_num [sg])) (s.trans (by norm_num [sg]; ring))
    linarith

include E o1 o2 o3 hd hx eX eY in
theorem Ex.i_both (hl : c2.left = !c1.left) (ha : l = !c1.left) (hb : l' = c1.left)
    (hX : X = ((SF.scratch c1 c2).distance - 2 * dx) * cos (SF.scratch c1 c2).angle + 2 * dy * sin (SF.scratch c1 c2).angle)
    (hY : Y = ((SF.scratch c1 c2).distance - 2 * dx) * sin (SF.scratch c1 c2).angle - 2 * dy * cos (SF.scratch c1 c2).angle)
    (c : cos u * (2 * B) = -sg c1.left * (dx * sin (SF.scratch c1 c2).angle + dy * cos (SF.scratch c1 c2).angle))
    (s : sin u * (2 * B) = sg c1.left * (dx * cos (SF.scratch c1 c2).angle - dy * sin (SF.scratch c1 c2).angle))
    (c' : cos v = cos u) (s' : sin v = sin u) :
    8.71 ≤ x + ang u 0 + ang u t + ang v t + ang v c2.start.theta := by
  obtain ⟨_, _, hB⟩ := param_bounds
  obtain ⟨_, pLR, pRL, _⟩ := E.polars o1 o2 o3
  cases l1 : c1.left <;> rw [l1] at hl ha hb c s <;> subst ha <;> subst hb
  · exact i2_RL E.cos2 E.sin2 hB eX eY hd hx near_dir (pRL l1 hl) (off_near (by norm_num [sg]) (.inr rfl)) hX hY
      (c.trans (by norm_num [sg]; ring)) (s.trans (by norm_num [sg])) c' s'
  · exact i2_LR E.cos2 E.sin2 hB eX eY hd hx near_dir (pLR l1 hl) (off_near (by norm_num [sg]) (.inl rfl)) hX hY
      (c.trans (by norm_num [sg]; ring)) (s.trans (by norm_num [sg])) c' s'

end

include E in
theorem Ex.TiSTcT_ge (h : SF.CcRs.TiSTcT_exists (SF.scratch c1 c2) c1 c2) : 8.7 ≤ (SF.CcRs.TiSTcT_path P (SF.scratch c1 c2) c1 c2).length := by
  have hA := ccA_pos (H).kappa (H).sigma (H).clothoid
  have hB := ccB_pos (H).kappa (H).sigma (H).clothoid
  unfold SF.CcRs.TiSTcT_exists at h
  split_ifs at h with hl hf
  have hl' : c2.left = c1.left := (not_not.1 hl).symm
  obtain ⟨D0, hD⟩ := cc_exists_one H h E.ok1
  unfold SF.CcRs.TiSTcT_path
  rw [E.ok2.ok.cos_mu]
  obtain ⟨dy, hdy⟩ : ∃ dy, dy = (2 * B) ^ 2 / (SF.scratch c1 c2).distance := ⟨_, rfl⟩
  obtain ⟨dx, hdx⟩ : ∃ dx, dx = 2 * B * √(1 - dy / (SF.scratch c1 c2).distance) := ⟨_, rfl⟩
  simp only [← hdy]
  rw [← hdx]
  obtain ⟨w1, w2, w3⟩ := E.offsets hdy hdx
  obtain ⟨o1, o2⟩ := cc_offsets hB D0 (by nlinarith [sq_nonneg (2 * A + 1 * (2 * (1 / (1 / B))))]) hdy hdx
  have hc := cross_dist (n := 1) (one_div_pos.2 hB) hA hD o2
  rw [one_div_one_div] at hc
  have D2 := frame_dist (g := (SF.scratch c1 c2).angle) (dx := -dx) (dy := dy) (r := 2 * B) c2
    (by rw [neg_sq]; exact o1) (by positivity)
  have hn : 0 ≤ ((SF.scratch c1 c2).distance + -dx) ^ 2 + dy ^ 2 := by positivity
  have D1 := frame_dist_from c1 c2 (dx := -dx) (dy := dy) (sq_sqrt hn).symm (sqrt_nonneg _)
  have z1 := frame_from c1 c2 (-dx) dy
  have z2 := frame_sub c2 (SF.scratch c1 c2).angle (-dx) dy
  rw [norm_sub_rev] at D2
  have hR : 2 * ccR 1 1000 ≤ √(((SF.scratch c1 c2).distance + -dx) ^ 2 + dy ^ 2) := by
    refine two_ccR_le (sqrt_nonneg _) ?_
    rw [sq_sqrt hn]
    nlinarith
  rw [← D1] at hR
  generalize SF.global_frame_change c2.xc c2.yc (SF.scratch c1 c2).angle (-dx) dy = p at *
  obtain ⟨t1, t2, x, hx, _, ha⟩ := TiST_geo H c1 (SF.circleCentered p.1 p.2 (!c2.left) c2.forward c2.regular P) E.ok1.ok.geom hR
  obtain ⟨t3, t4⟩ := TcT_cc_at H (f := c2.forward) (l := !c2.left) (SF.circleCentered p.1 p.2 (!c2.left) c2.forward c2.regular P) c2
    (geo_centered H _ _ _ _ _) rfl rfl rfl rfl D2
  have hd := sg_pm c1.forward
  refine E.one_after ha.1 (ha.length hd hx) ?_
  obtain ⟨eX, eY⟩ := line_coord t1 t2 ha z1
  obtain ⟨c, s⟩ := cusp_coord t3 (t4.side rfl (Bool.not_not _).symm) z2
  obtain ⟨c, s⟩ := cusp_side c s rfl rfl
  exact E.i_after w1 w2 w3 hd hx eX eY hl' rfl rfl (by ring) (by ring) (c.trans (by ring)) (s.trans (by ring))

include E in
theorem Ex.TcTiST_ge (h : SF.CcRs.TcTiST_exists (SF.scratch c1 c2) c1 c2) : 8.7 ≤ (SF.CcRs.TcTiST_path P (SF.scratch c1 c2) c1 c2).length := by
  have hA := ccA_pos (H).kappa (H).sigma (H).clothoid
  have hB := ccB_pos (H).kappa (H).sigma (H).clothoid
  unfold SF.CcRs.TcTiST_exists at h
  split_ifs at h with hl hf
  have hl' : c2.left = c1.left := (not_not.1 hl).symm
  obtain ⟨D0, hD⟩ := cc_exists_one H h E.ok1
  unfold SF.CcRs.TcTiST_path
  rw [E.ok1.ok.cos_mu]
  obtain ⟨dy, hdy⟩ : ∃ dy, dy = (2 * B) ^ 2 / (SF.scratch c1 c2).distance := ⟨_, rfl⟩
  obtain ⟨dx, hdx⟩ : ∃ dx, dx = 2 * B * √(1 - dy / (SF.scratch c1 c2).distance) := ⟨_, rfl⟩
  simp only [← hdy]
  rw [← hdx]
  obtain ⟨w1, w2, w3⟩ := E.offsets hdy hdx
  obtain ⟨o1, o2⟩ := cc_offsets hB D0 (by nlinarith [sq_nonneg (2 * A + 1 * (2 * (1 / (1 / B))))]) hdy hdx
  have hc := cross_dist (n := 1) (one_div_pos.2 hB) hA hD o2
  rw [one_div_one_div] at hc
  have D2 := frame_dist (g := (SF.scratch c1 c2).angle) (dx := dx) (dy := -dy) (r := 2 * B) c1
    (by rw [neg_sq]; exact o1) (by positivity)
  have hn : 0 ≤ ((SF.scratch c1 c2).distance - dx) ^ 2 + (-dy) ^ 2 := by positivity
  have D1 := frame_dist_to c1 c2 (dx := dx) (dy := -dy) (sq_sqrt hn).symm (sqrt_nonneg _)
  have z1 := frame_to c1 c2 dx (-dy)
  have z2 := sub_frame c1 (SF.scratch c1 c2).angle dx (-dy)
  have hR : 2 * ccR 1 1000 ≤ √(((SF.scratch c1 c2).distance - dx) ^ 2 + (-dy) ^ 2) := by
    refine two_ccR_le (sqrt_nonneg _) ?_
    rw [sq_sqrt hn]
    nlinarith
  rw [← D1] at hR
  generalize SF.global_frame_change c1.xc c1.yc (SF.scratch c1 c2).angle dx (-dy) = p at *
  obtain ⟨t1, t2⟩ := TcT_cc_at H c1 (SF.circleCentered p.1 p.2 (!c2.left) (!c2.forward) c2.regular P) E.ok1.ok.geom rfl rfl rfl rfl D2
  obtain ⟨t3, t4, x, hx, _, ha⟩ := TiST_geo H (SF.circleCentered p.1 p.2 (!c2.left) (!c2.forward) c2.regular P) c2
    (geo_centered H _ _ _ _ _) hR
  have hd := sg_pm (!c2.forward)
  refine E.one_before ha.1 (ha.length hd hx) ?_
  obtain ⟨eX, eY⟩ := line_coord t3 t4 ha z1
  obtain ⟨c, s⟩ := cusp_coord t1 t2 z2
  obtain ⟨c, s⟩ := cusp_side c s (Bool.not_not _).symm rfl
  rw [sg_not] at c s
  exact E.i_before w1 w2 w3 hd hx eX eY hl' rfl (Bool.not_not _) (by ring) (by ring) (c.trans (by ring)) (s.trans (by ring))

include E in
theorem Ex.TcTiSTcT_ge (h : SF.CcRs.TcTiSTcT_exists (SF.scratch c1 c2) c1 c2) : 8.7 ≤ (SF.CcRs.TcTiSTcT_path P (SF.scratch c1 c2) c1 c2).length := by
  have hA := ccA_pos (H).kappa (H).sigma (H).clothoid
  have hB := ccB_pos (H).kappa (H).sigma (H).clothoid
  unfold SF.CcRs.TcTiSTcT_exists at h
  split_ifs at h with hl hf
  have hl' : c2.left = !c1.left := not_of_ne hl
  obtain ⟨D0, hD⟩ := cc_exists_two H h E.ok1
  unfold SF.CcRs.TcTiSTcT_path
  rw [E.ok1.ok.cos_mu]
  obtain ⟨dy, hdy⟩ : ∃ dy, dy = (2 * B) ^ 2 / (SF.scratch c1 c2).distance := ⟨_, rfl⟩
  obtain ⟨dx, hdx⟩ : ∃ dx, dx = 2 * B * √(1 - dy / (SF.scratch c1 c2).distance) := ⟨_, rfl⟩
  simp only [← hdy]
  rw [← hdx]
  obtain ⟨w1, w2, w3⟩ := E.offsets hdy hdx
  obtain ⟨o1, o2⟩ := cc_offsets hB D0 (by nlinarith [sq_nonneg (2 * A + 2 * (2 * (1 / (1 / B))))]) hdy hdx
  have hc := cross_dist (one_div_pos.2 hB) hA hD o2
  rw [one_div_one_div] at hc
  have D1 := frame_dist (g := (SF.scratch c1 c2).angle) (dx := dx) (dy := dy) c1 o1 (by positivity)
  have D2 := frame_dist (g := (SF.scratch c1 c2).angle) (dx := -dx) (dy := -dy) (r := 2 * B) c2
    (by rw [neg_sq, neg_sq]; exact o1) (by positivity)
  have hn : 0 ≤ ((SF.scratch c1 c2).distance + -dx - dx) ^ 2 + (-dy - dy) ^ 2 := by positivity
  have D3 := frame_dist_both c1 c2 (dx := dx) (dy := dy) (ex := -dx) (ey := -dy) (sq_sqrt hn).symm (sqrt_nonneg _)
  have z1 := sub_frame c1 (SF.scratch c1 c2).angle dx dy
  have z2 := frame_sub c2 (SF.scratch c1 c2).angle (-dx) (-dy)
  have z3 := frame_both c1 c2 dx dy (-dx) (-dy)
  rw [norm_sub_rev] at D2
  have hR : 2 * ccR 1 1000 ≤ √(((SF.scratch c1 c2).distance + -dx - dx) ^ 2 + (-dy - dy) ^ 2) := by
    refine two_ccR_le (sqrt_nonneg _) ?_
    rw [sq_sqrt hn]
    nlinarith
  rw [← D3] at hR
  generalize SF.global_frame_change c1.xc c1.yc (SF.scratch c1 c2).angle dx dy = p1 at *
  generalize SF.global_frame_change c2.xc c2.yc (SF.scratch c1 c2).angle (-dx) (-dy) = p2 at *
  obtain ⟨t1, t2⟩ := TcT_cc_at H c1 (SF.circleCentered p1.1 p1.2 (!c1.left) (!c1.forward) c1.regular P) E.ok1.ok.geom rfl rfl rfl rfl D1
  obtain ⟨t3, t4, x, hx, _, ha⟩ := TiST_geo H (SF.circleCentered p1.1 p1.2 (!c1.left) (!c1.forward) c1.regular P)
    (SF.circleCentered p2.1 p2.2 (!c2.left) c2.forward c2.regular P) (geo_centered H _ _ _ _ _) hR
  obtain ⟨t5, t6⟩ := TcT_cc_at H (f := c2.forward) (l := !c2.left) (SF.circleCentered p2.1 p2.2 (!c2.left) c2.forward c2.regular P) c2
    (geo_centered H _ _ _ _ _) rfl rfl rfl rfl D2
  have hd := sg_pm (!c1.forward)
  refine E.both ha.1 (ha.length hd hx) ?_
  obtain ⟨eX, eY⟩ := line_coord t3 t4 ha z3
  obtain ⟨c, s⟩ := cusp_coord t1 t2 z1
  obtain ⟨c, s⟩ := cusp_side c s (Bool.not_not _).symm rfl
  rw [sg_not] at c s
  obtain ⟨c', s'⟩ := cusp_coord t5 (t6.side rfl (Bool.not_not _).symm) z2
  obtain ⟨c', s'⟩ := cusp_side c' s' rfl rfl
  have hB2 : 2 * B ≠ 0 := mul_ne_zero two_ne_zero ccB_ne
  have e : sg c2.left = -sg c1.left := by rw [hl', sg_not]
  exact E.i_both w1 w2 w3 hd hx eX eY hl' rfl (Bool.not_not _) (by ring) (by ring) (c.trans (by ring)) (s.trans (by ring))
    (mul_right_cancel₀ hB2 (by rw [c, c', e]; ring)) (mul_right_cancel₀ hB2 (by rw [s, s', e]; ring))

/-! ### Families that do not exist -/

theorem ccR_bounds : 0.99 ≤ ccR 1 1000 ∧ ccR 1 1000 ≤ 1.001 := by
  obtain ⟨A0, A1, _⟩ := param_bounds
  obtain ⟨b1, b2⟩ := two_bounds
  constructor
  · refine le_trans ?_ (ccB_le_ccR 1 1000)
    norm_num at b1 ⊢; linarith
  · rw [ccR, sqrt_le_left (by norm_num)]
    have h1 : A ^ 2 ≤ 0.0006 ^ 2 := pow_le_pow_left₀ A0.le A1 2
    have h2 : B ^ 2 ≤ 1.0002 ^ 2 := by
      obtain ⟨_, _, B1⟩ := param_bounds
      have := abs_le.1 B1
      refine pow_le_pow_left₀ ?_ ?_ 2 <;> norm_num at this ⊢ <;> linarith
    norm_num at h1 h2 ⊢
    linarith

theorem empty_ge : 8.7 ≤ ({} : SF.RSRow).length := by
  change 8.7 ≤ SF.dblMax
  have : (2 : ℝ) ^ 5 ≤ 2 ^ 1023 := pow_le_pow_right₀ (by norm_num) (by norm_num)
  unfold SF.dblMax
  generalize (2 : ℝ) ^ 1023 = w at *
  norm_num at this ⊢
  linarith

include E in
/-- Lengths of all families. -/
theorem Ex.family_ge {sp : SF.HCSpace} (hk : sp.kappa = 1) (hs : sp.sigma = 1000) (i : ℕ) :
    8.7 ≤ (SF.CcRs.family sp (SF.scratch c1 c2) c1 c2 i).length := by
  have hP : sp.param = P := by unfold SF.HCSpace.param; rw [hk, hs]
  have hno := empty_ge
  have far := E.far
  have hr := E.ok1.ok.geom.ccR
  have hcm := E.ok1.ok.cos_mu
  obtain ⟨b1, b2⟩ := two_bounds
  obtain ⟨r1, r2⟩ := ccR_bounds
  rw [← hr] at r1 r2
  have hpm : -sg c1.forward = 1 ∨ -sg c1.forward = -1 := by rw [← sg_not]; exact sg_pm _
  have g1 : ¬ SF.CcRs.TT_exists (SF.scratch c1 c2) c1 c2 := by
    unfold SF.CcRs.TT_exists SF.CC00.TT_exists
    split_ifs <;> norm_num [SF.epsilon]
    rw [le_abs]; left
    norm_num at r2 far ⊢; linarith
  have g2 : ¬ SF.CcRs.TcT_exists (SF.scratch c1 c2) c1 c2 := by
    unfold SF.CcRs.TcT_exists
    split_ifs <;> norm_num [SF.epsilon]
    rw [mul_assoc 2, hcm, le_abs]; left
    norm_num at b2 far ⊢; linarith
  have g3 : ¬ SF.CcRs.TcTcT_exists (SF.scratch c1 c2) c1 c2 := by
    unfold SF.CcRs.TcTcT_exists
    split_ifs <;> norm_num
    rw [mul_assoc 4, hcm]
    norm_num at b2 far ⊢; linarith
  have g4 : ¬ SF.CcRs.TcTT_exists (SF.scratch c1 c2) c1 c2 := by
    unfold SF.CcRs.TcTT_exists
    split_ifs
    any_goals exact id
    rintro ⟨h, _⟩
    rw [mul_assoc 2, mul_add, mul_one, hcm] at h
    norm_num at b2 r2 far; linarith
  have g5 : ¬ SF.CcRs.TTcT_exists (SF.scratch c1 c2) c1 c2 := g4
  have g6 : ¬ SF.CcRs.TTcTT_exists (SF.scratch c1 c2) c1 c2 := by
    unfold SF.CcRs.TTcTT_exists
    split_ifs
    any_goals exact id
    intro h
    rw [mul_assoc 2, mul_add, hcm] at h
    norm_num at b2 r2 far; linarith
  have g7 : ¬ SF.CcRs.TcTTcT_exists (SF.scratch c1 c2) c1 c2 := by
    unfold SF.CcRs.TcTTcT_exists
    split_ifs
    any_goals exact id
    rintro ⟨h, _⟩
    rw [show 2 * c1.radius * (2 * c1.cos_mu + 1) = 4 * (c1.radius * c1.cos_mu) + 2 * c1.radius by ring, hcm] at h
    norm_num at b2 r2 far; linarith
  have g8 : ¬ SF.CcRs.TTT_exists (SF.scratch c1 c2) c1 c2 := by
    unfold SF.CcRs.TTT_exists SF.CC00.TTT_exists
    split_ifs
    any_goals exact id
    intro h
    norm_num at r2 far; linarith
  unfold SF.CcRs.family
  rw [hP]
  split
  · rw [if_neg g1]; exact hno
  · rw [if_neg g2]; exact hno
  · rw [if_neg g3]; exact hno
  · rw [if_neg g4]; exact hno
  · rw [if_neg g5]; exact hno
  · unfold SF.CcRs.TST_path
    split_ifs with hi he
    · unfold SF.CcRs.TiST_exists SF.CC00.TiST_exists at hi
      split_ifs at hi with hl hf
      have hl' : c2.left = !c1.left := not_of_ne hl
      have hd : 2 * ccR 1 1000 ≤ ‖center c2 - center c1‖ := by rw [← scratch_distance, ← hr]; exact hi
      obtain ⟨t1, t2, x, hx, _, ha⟩ := TiST_geo H c1 c2 E.ok1.ok.geom hd
      exact E.line_row_ge (sg_pm _) hx t1 (t2.side rfl hl') ha
    · unfold SF.CcRs.TeST_exists SF.CC00.TeST_exists at he
      split_ifs at he with hl hf
      have hl' : c2.left = c1.left := (not_not.1 hl).symm
      have hd : 2 * ccA 1 1000 ≤ ‖center c2 - center c1‖ := by
        rw [← scratch_distance, ← E.ok1.ok.sin_mu, ← mul_assoc]; exact he
      obtain ⟨t1, t2, x, hx, _, ha⟩ := TeST_geo H c1 c2 E.ok1.ok.geom hd
      exact E.line_row_ge (sg_pm _) hx t1 (t2.side rfl hl') ha
    · exact hno
  · unfold SF.CcRs.TSTcT_path
    split_ifs with hi he
    · exact E.TiSTcT_ge hi
    · exact E.TeSTcT_ge he
    · exact hno
  · unfold SF.CcRs.TcTST_path
    split_ifs with hi he
    · exact E.TcTiST_ge hi
    · exact E.TcTeST_ge he
    · exact hno
  · unfold SF.CcRs.TcTSTcT_path
    split_ifs with hi he
    · exact E.TcTiSTcT_ge hi
    · exact E.TcTeSTcT_ge he
    · exact hno
  · rw [if_neg g6]; exact hno
  · rw [if_neg g7]; exact hno
  · rw [if_neg g8]; exact hno
  · unfold SF.CcRs.TcST_path
    split_ifs with hg he
    · unfold SF.CcRs.TciST_exists at hg
      split_ifs at hg with hl hf
      have hl' : c2.left = !c1.left := not_of_ne hl
      rw [mul_assoc 2, hcm, scratch_distance] at hg
      obtain ⟨t1, t2, x, hx, _, ha⟩ := TciST_cc_at H c1 c2 E.ok1.ok.geom hg
      exact E.line_row_ge hpm hx t1 (t2.side rfl hl') ha
    · unfold SF.CcRs.TceST_exists at he
      split_ifs at he with hl hf
      have hl' : c2.left = c1.left := (not_not.1 hl).symm
      obtain ⟨t1, t2, x, hx, _, ha⟩ := TceST_cc_at H c1 c2 E.ok1.ok.geom
      exact E.line_row_ge hpm hx t1 (t2.side rfl hl') ha
    · exact hno
  · unfold SF.CcRs.TScT_path
    split_ifs with hg he
    · unfold SF.CcRs.TiScT_exists at hg
      split_ifs at hg with hl hf
      have hl' : c2.left = !c1.left := not_of_ne hl
      rw [mul_assoc 2, hcm, scratch_distance] at hg
      obtain ⟨t1, t2, x, hx, _, ha⟩ := TiScT_cc_at H c1 c2 E.ok1.ok.geom hg
      exact E.line_row_ge (sg_pm _) hx t1 (t2.side rfl hl') ha
    · unfold SF.CcRs.TeScT_exists at he
      split_ifs at he with hl hf
      have hl' : c2.left = c1.left := (not_not.1 hl).symm
      obtain ⟨t1, t2, x, hx, _, ha⟩ := TeScT_cc_at H c1 c2 E.ok1.ok.geom
      exact E.line_row_ge (sg_pm _) hx t1 (t2.side rfl hl') ha
    · exact hno
  · unfold SF.CcRs.TcScT_path
    split_ifs with hg he
    · unfold SF.CcRs.TciScT_exists at hg
      split_ifs at hg with hl hf
      have hl' : c2.left = !c1.left := not_of_ne hl
      rw [mul_assoc 2, hcm, scratch_distance] at hg
      obtain ⟨t1, t2, x, hx, _, ha⟩ := TciScT_cc_at H c1 c2 E.ok1.ok.geom hg
      have hx : 0 ≤ x := by linarith [ccA_pos (H).kappa (H).sigma (H).clothoid]
      exact E.line_row_ge hpm hx t1 (t2.side rfl hl') ha
    · unfold SF.CcRs.TceScT_exists at he
      split_ifs at he with hl hf
      have hl' : c2.left = c1.left := (not_not.1 hl).symm
      obtain ⟨t1, t2, x, hx, _, ha⟩ := TceScT_cc_at H c1 c2 E.ok1.ok.geom
      have hx : 0 ≤ x := by linarith [ccA_pos (H).kappa (H).sigma (H).clothoid]
      exact E.line_row_ge hpm hx t1 (t2.side rfl hl') ha
    · exact hno
  · exact hno

/-! ### No special case -/

theorem no_shortcut (h : 1 ≤ |c2.start.theta - c1.start.theta|) (hx : c1.xc + 5 ≤ c2.start.x) (hr : c1.radius ≤ 1.001) :
    SF.CcRs.shortcut c1 c2 = none := by
  have he : (SF.epsilon : ℝ) < 1 := by norm_num [SF.epsilon]
  have h' : 1 ≤ |c1.start.theta - c2.start.theta| := by rwa [abs_sub_comm]
  unfold SF.CcRs.shortcut
  have g1 : ¬ SF.configuration_equal c1.start c2.start := by
    unfold SF.configuration_equal
    rw [if_pos (by linarith)]; exact id
  have g2 : ¬ SF.configuration_aligned c1.start c2.start := by
    unfold SF.configuration_aligned
    rw [if_pos (by linarith)]; exact id
  have g3 : ¬ SF.configuration_aligned c2.start c1.start := by
    unfold SF.configuration_aligned
    rw [if_pos (by linarith)]; exact id
  have g4 : ¬ SF.configuration_on_hc_cc_circle c1 c2.start := by
    unfold SF.configuration_on_hc_cc_circle
    have : 5 ≤ SF.point_distance c1.xc c1.yc c2.start.x c2.start.y := by
      unfold SF.point_distance
      refine le_sqrt_of_sq_le ?_
      have h1 : (5 : ℝ) ^ 2 ≤ (c2.start.x - c1.xc) ^ 2 := pow_le_pow_left₀ (by norm_num) (by linarith) 2
      nlinarith [sq_nonneg (c2.start.y - c1.yc)]
    rw [if_pos (by
      refine lt_of_lt_of_le ?_ (le_abs_self _)
      norm_num at hr
      linarith)]
    exact id
  rw [if_neg g1, if_neg g2, if_neg g3, if_neg g4]

include E in
theorem Ex.path_ge {sp : SF.HCSpace} (hk : sp.kappa = 1) (hs : sp.sigma = 1000) : 8.7 ≤ (SF.CcRs.circles_rs_path sp c1 c2).length := by
  obtain ⟨A0, A1, _⟩ := param_bounds
  have hsc : SF.CcRs.shortcut c1 c2 = none := by
    refine no_shortcut ?_ ?_ (E.ok1.ok.geom.ccR.le.trans ccR_bounds.2)
    · rw [E.theta1, sub_zero]
      have := abs_sin_le_abs (x := c2.start.theta)
      rw [E.sin2] at this
      norm_num at this
      exact this
    · rw [E.x2, E.center1.1]
      norm_num at A1
      rcases sg_pm c1.forward with f | f <;> rw [f] <;> linarith
  unfold SF.CcRs.Path.length SF.CcRs.circles_rs_path SF.CcRs.table
  simp only [hsc]
  exact E.family_ge hk hs _

/-- The distance to the goal of the example. -/
theorem example_ge {sp : SF.HCSpace} (hk : sp.kappa = 1) (hs : sp.sigma = 1000) {s1 s2 : SF.State}
    (hx1 : s1.x = 0) (hy1 : s1.y = 0) (ht1 : s1.theta = 0) (hx2 : s2.x = 7) (hy2 : s2.y = 3) (ht2 : s2.theta = -(π / 2)) :
    8.7 ≤ SF.CcRs.get_distance sp s1 s2 := by
  have hP : sp.param = P := by unfold SF.HCSpace.param; rw [hk, hs]
  unfold SF.CcRs.get_distance SF.CcRs.reeds_shepp SF.CcRs.path
  refine Ex.path_ge ?_ hk hs
  unfold SF.CcRs.end_circle
  rw [hP]
  have hc : ∀ a : ℝ, cos (SF.twopify a) = cos a := fun a => SF.cos_twopify a
  have hsn : ∀ a : ℝ, sin (SF.twopify a) = sin a := fun a => SF.sin_twopify a
  refine ⟨circOk_at (H).kappa (H).sigma (H).clothoid _ _ _ _, circOk_at (H).kappa (H).sigma (H).clothoid _ _ _ _, ?_, ?_, ?_, ?_, ?_, ?_, ?_⟩
  · change SF.twopify s1.theta = 0
    rw [ht1]; exact SF.twopify_of_mem le_rfl (by positivity)
  · change cos (SF.twopify s2.theta) = 0
    rw [hc, ht2, cos_neg, cos_pi_div_two]
  · change sin (SF.twopify s2.theta) = -1
    rw [hsn, ht2, sin_neg, sin_pi_div_two]
  all_goals assumption

end

/-! ### The mirrored goal -/

theorem cos_le_bound {x : ℝ} (h0 : 0 ≤ x) (h1 : x ≤ 1) : cos x ≤ 1 - x ^ 2 / 2 + x ^ 4 * (5 / 96) := by
  have h := Real.cos_bound (x := x) (by rw [abs_of_nonneg h0]; exact h1)
  rw [abs_of_nonneg h0] at h
  have := (abs_le.1 h).2
  linarith

/-- The direction and length of the line and the heading in the cusp. -/
theorem mirror_num {D g C dx dy X Y t u x p b : ℝ} (hC : |C - 1| ≤ 0.0002)
    (Q : Polar 8.24621 0.97014 (-0.24254) 0.48507 1.94028 D g C dx dy) (hx : 0 ≤ x) (hp : |p - 1 * x| ≤ 0.002)
    (eX : X = cos t * p - sin t * b) (eY : Y = sin t * p + cos t * b) (hb : |b - 2| ≤ 0.001)
    (hX : X = (D - dx) * cos g - dy * sin g) (hY : Y = (D - dx) * sin g + dy * cos g)
    (c : cos u * (2 * C) = dy * cos g - dx * sin g) (s : sin u * (2 * C) = dx * cos g + dy * sin g) :
    x ≤ 6.02 ∧ ang t 0 ≤ 0.53 ∧ ang u t ≤ 1.62 ∧ ∀ e, cos e = 0 → sin e = 1 → ang u e ≤ 0.5 := by
  have hpi := pi_gt_three
  have q : |D - dx - 6.30593| ≤ 0.003 := near_sub Q.dist Q.dx _ _ (by norm_num)
  have m1 : |(D - dx) * cos g - 6.11764| ≤ 0.0068 := near_mul q Q.cos _ _ (by norm_num)
  have m2 : |dy * sin g - (-0.11765)| ≤ 0.0005 := near_mul Q.dy Q.sin _ _ (by norm_num)
  have m3 : |(D - dx) * sin g - (-1.52944)| ≤ 0.0046 := near_mul q Q.sin _ _ (by norm_num)
  have m4 : |dy * cos g - 0.47059| ≤ 0.0009 := near_mul Q.dy Q.cos _ _ (by norm_num)
  have m5 : |dx * sin g - (-0.47059)| ≤ 0.0015 := near_mul Q.dx Q.sin _ _ (by norm_num)
  have m6 : |dx * cos g - 1.88235| ≤ 0.0022 := near_mul Q.dx Q.cos _ _ (by norm_num)
  have tx : |X - 6.23529| ≤ 0.008 := by rw [hX]; exact near_sub m1 m2 _ _ (by norm_num)
  have ty : |Y - (-1.05885)| ≤ 0.008 := by rw [hY]; exact near_add m3 m4 _ _ (by norm_num)
  have hb := hb.trans (show (0.001 : ℝ) ≤ 0.008 by norm_num)
  obtain ⟨xx, ct, st⟩ := cross_dir tx ty hb eX eY (.inl rfl) hx hp 6 0.88235 (-0.47059) 0.118 0.151 0.013 0.224 0.011
    (by norm_num) (by norm_num) (by norm_num) (by norm_num) (by norm_num) (by norm_num) (by norm_num) (by norm_num)
  have hC2 : |2 * C - 2| ≤ 0.0004 := by
    rw [show 2 * C - 2 = 2 * (C - 1) by ring, abs_mul]; norm_num; linarith
  have cu : |cos u - 0.47059| ≤ 0.002 := near_of_mul c hC2 (near_sub m4 m5 0.94118 0.0025 (by norm_num)) _ _ (by norm_num) (by norm_num)
  have su : |sin u - 0.88235| ≤ 0.002 := near_of_mul s hC2 (near_add m6 m2 1.7647 0.0028 (by norm_num)) _ _ (by norm_num) (by norm_num)
  refine ⟨?_, ?_, ?_, fun e ce se => ?_⟩
  · obtain ⟨_, _, hN⟩ := line_dir eX eY
    obtain ⟨x1, x2⟩ := abs_le.1 tx
    obtain ⟨y1, y2⟩ := abs_le.1 ty
    obtain ⟨b1, b2⟩ := abs_le.1 hb
    have X2 : X ^ 2 ≤ 6.244 ^ 2 := by
      refine pow_le_pow_left₀ ?_ ?_ 2 <;> norm_num at x1 x2 ⊢ <;> linarith
    have Y2 : Y ^ 2 ≤ 1.067 ^ 2 := by
      refine sq_le_sq' ?_ ?_ <;> norm_num at y1 y2 ⊢ <;> linarith
    have B2 : 1.992 ^ 2 ≤ b ^ 2 := by
      refine pow_le_pow_left₀ ?_ ?_ 2 <;> norm_num at b1 b2 ⊢ <;> linarith
    have p2 : p ^ 2 ≤ 6.015 ^ 2 := by norm_num at X2 Y2 B2 ⊢; linarith
    have p3 := abs_le_of_sq_le_sq p2 (by norm_num)
    have p4 := abs_le.1 hp
    norm_num at p3 p4 ⊢
    linarith [le_abs_self p]
  · refine ang_le_of_cos (by norm_num) (by linarith) ?_
    have h1 := cos_le_bound (x := 0.53) (by norm_num) (by norm_num)
    have h2 := (abs_le.1 ct).1
    rw [sub_zero]
    norm_num at h1 h2 ⊢
    linarith
  · refine ang_le_of_cos (by norm_num) (by linarith) ?_
    have h1 := cos_le_bound (x := 0.81) (by norm_num) (by norm_num)
    have h0 : 0 ≤ cos 0.81 := cos_nonneg_of_mem_Icc ⟨by linarith, by linarith⟩
    have h2 : cos 1.62 = 2 * cos 0.81 ^ 2 - 1 := by rw [← cos_two_mul]; norm_num
    have h3 : cos 0.81 ^ 2 ≤ 0.6945 ^ 2 := pow_le_pow_left₀ h0 (h1.trans (by norm_num)) 2
    have n1 : |cos u * cos t - 0.41523| ≤ 0.0071 := near_mul cu ct _ _ (by norm_num)
    have n2 : |sin u * sin t - (-0.41523)| ≤ 0.0108 := near_mul su st _ _ (by norm_num)
    rw [h2, cos_sub]
    have n3 := (abs_le.1 n1).1
    have n4 := (abs_le.1 n2).1
    norm_num at h3 n3 n4 ⊢
    linarith
  · refine ang_le_of_cos (by norm_num) (by linarith) ?_
    have h1 := cos_le_bound (x := 0.5) (by norm_num) (by norm_num)
    have h2 := (abs_le.1 su).1
    rw [cos_sub, ce, se]
    norm_num at h1 h2 ⊢
    linarith

section
variable {c1 c2 : SF.Circle}

local notation "H" => rng_mirror

/-- Forward circles to the right at the start `(0, 0, 0)` and at the goal `(7, -3, π/2)`. -/
structure Mx (c1 c2 : SF.Circle) : Prop where
  ok1 : CircOk c1 1 1000
  ok2 : CircOk c2 1 1000
  irr1 : c1.regular = false
  irr2 : c2.regular = false
  left1 : c1.left = false
  left2 : c2.left = false
  forward1 : c1.forward = true
  forward2 : c2.forward = true
  theta1 : c1.start.theta = 0
  cos2 : cos c2.start.theta = 0
  sin2 : sin c2.start.theta = 1
  x1 : c1.start.x = 0
  y1 : c1.start.y = 0
  x2 : c2.start.x = 7
  y2 : c2.start.y = -3

variable (M : Mx c1 c2)

include M in
theorem Mx.near : c1.xc = A ∧ |c2.xc - c1.xc - 8| ≤ 0.001 ∧ |c2.yc - c1.yc - (-2)| ≤ 0.001 := by
  obtain ⟨A0, A1, B1⟩ := param_bounds
  obtain ⟨b1, b2⟩ := abs_le.1 B1
  have h1 := M.ok1.cen
  have h2 := M.ok2.cen
  rw [Complex.ext_iff] at h1 h2
  simp [center, cen, cfg, Config.pos, cis, M.theta1, M.x1, M.y1, M.left1, M.forward1, sg] at h1
  simp [center, cen, cfg, Config.pos, cis, M.cos2, M.sin2, M.x2, M.y2, M.left2, M.forward2, sg] at h2
  refine ⟨h1.1, ?_, ?_⟩
  · rw [h1.1, h2.1, abs_le]; norm_num at A1 b1 b2 ⊢; constructor <;> linarith
  · rw [h1.2, h2.2, abs_le]; norm_num at A1 b1 b2 ⊢; constructor <;> linarith

include M in
theorem Mx.total {q : SF.Configuration × SF.Configuration} {q3 : SF.Configuration} {x : ℝ} {l f r : Bool} (hr : r = false)
    (ht : q.1.theta = q.2.theta) (hx : SF.configuration_distance q.1 q.2 = x) (n : x ≤ 6.02) (a1 : ang q.1.theta 0 ≤ 0.53)
    (a2 : ang q3.theta q.1.theta ≤ 1.62) (a3 : ang q3.theta c2.start.theta ≤ 0.5) :
    c1.cc_turn_length q.1 + SF.configuration_distance q.1 q.2
          + (SF.circleAt q.2 l f r P).cc_turn_length q3 + c2.cc_turn_length q3 < 8.7 := by
  have t1 := turn_le M.ok1.ok M.irr1 q.1
  have t2 := turn_le (circOk_at (H).kappa (H).sigma (H).clothoid q.2 l f r).ok hr q3
  have t3 := turn_le M.ok2.ok M.irr2 q3
  have e : (SF.circleAt q.2 l f r P).start.theta = q.1.theta := ht.symm
  rw [M.theta1] at t1
  rw [e] at t2
  rw [hx]
  norm_num at n a1 a2 a3 t1 t2 t3 ⊢
  linarith

include M in
theorem Mx.family_le {sp : SF.HCSpace} (hk : sp.kappa = 1) (hs : sp.sigma = 1000) :
    (SF.CcRs.family sp (SF.scratch c1 c2) c1 c2 SF.hc_cc_rs.TSTcT).length < 8.7 := by
  have hP : sp.param = P := by unfold SF.HCSpace.param; rw [hk, hs]
  obtain ⟨A0, A1, B1⟩ := param_bounds
  obtain ⟨b1, b2⟩ := two_bounds
  obtain ⟨r1, r2⟩ := ccR_bounds
  obtain ⟨_, nX, nY⟩ := M.near
  obtain ⟨eX, eY⟩ := scratch_coord c1 c2
  have hD0 : 0 ≤ (SF.scratch c1 c2).distance := by rw [scratch_distance]; exact norm_nonneg _
  have hD : 8 ≤ (SF.scratch c1 c2).distance := by
    refine (sq_le_sq₀ (by norm_num) hD0).1 ?_
    have e : (SF.scratch c1 c2).distance ^ 2 = (c2.xc - c1.xc) ^ 2 + (c2.yc - c1.yc) ^ 2 := by
      rw [eX, eY]; linear_combination -(SF.scratch c1 c2).distance ^ 2 * sin_sq_add_cos_sq (SF.scratch c1 c2).angle
    have u : (7.999 : ℝ) ^ 2 ≤ (c2.xc - c1.xc) ^ 2 := le_trans (by norm_num) (sq_ge nX (by norm_num))
    have v : (1.999 : ℝ) ^ 2 ≤ (c2.yc - c1.yc) ^ 2 := by
      rw [← neg_sq (c2.yc - c1.yc)]
      refine pow_le_pow_left₀ (by norm_num) ?_ 2
      have := (abs_le.1 nY).2
      norm_num at this ⊢; linarith
    rw [e]; norm_num at u v ⊢; linarith
  have hA := ccA_pos (H).kappa (H).sigma (H).clothoid
  have hB := ccB_pos (H).kappa (H).sigma (H).clothoid
  have hr := M.ok1.ok.geom.ccR
  have hR0 : 0 < c1.radius := by rw [hr]; norm_num at r1; linarith
  have hc1 : c1.cos_mu ≤ 1 := by
    refine le_of_mul_le_mul_left ?_ hR0
    rw [M.ok1.ok.cos_mu, mul_one, hr]; exact ccB_le_ccR _ _
  have hc0 : 0 ≤ c1.cos_mu := by
    refine le_of_mul_le_mul_left ?_ hR0
    rw [M.ok1.ok.cos_mu, mul_zero]; exact hB.le
  have hs1 : c1.sin_mu ≤ 1 := by
    refine le_of_mul_le_mul_left ?_ hR0
    rw [M.ok1.ok.sin_mu, mul_one, hr]; norm_num at A1 r1; linarith
  have hex : SF.CcRs.TiSTcT_exists (SF.scratch c1 c2) c1 c2 := by
    unfold SF.CcRs.TiSTcT_exists
    rw [if_neg (by rw [M.left1, M.left2]; simp), if_neg (by rw [M.forward1, M.forward2]; simp)]
    have h1 : √(1 + 2 * c1.sin_mu * c1.cos_mu + c1.cos_mu ^ 2) ≤ 2 := by
      rw [sqrt_le_left (by norm_num)]
      nlinarith [mul_le_mul_of_nonneg_right hs1 hc0]
    have h2 : 2 * c1.radius * √(1 + 2 * c1.sin_mu * c1.cos_mu + c1.cos_mu ^ 2) ≤ 2 * c1.radius * 2 :=
      mul_le_mul_of_nonneg_left h1 (by positivity)
    rw [hr] at h2
    norm_num at r2 h2 ⊢
    rw [hr]; linarith
  have hexu := hex
  unfold SF.CcRs.family SF.CcRs.TSTcT_path
  simp only
  rw [if_pos hex, hP]
  unfold SF.CcRs.TiSTcT_exists at hexu
  split_ifs at hexu
  obtain ⟨D0, hDD⟩ := cc_exists_one H hexu M.ok1
  unfold SF.CcRs.TiSTcT_path
  rw [M.ok2.ok.cos_mu]
  obtain ⟨dy, hdy⟩ : ∃ dy, dy = (2 * B) ^ 2 / (SF.scratch c1 c2).distance := ⟨_, rfl⟩
  obtain ⟨dx, hdx⟩ : ∃ dx, dx = 2 * B * √(1 - dy / (SF.scratch c1 c2).distance) := ⟨_, rfl⟩
  simp only [← hdy]
  rw [← hdx]
  obtain ⟨o1, o2⟩ := cc_offsets hB D0 (by nlinarith [sq_nonneg (2 * A + 1 * (2 * (1 / (1 / B))))]) hdy hdx
  have hcd := cross_dist (n := 1) (one_div_pos.2 hB) hA hDD o2
  rw [one_div_one_div] at hcd
  have D2 := frame_dist (g := (SF.scratch c1 c2).angle) (dx := -dx) (dy := dy) (r := 2 * B) c2
    (by rw [neg_sq]; exact o1) (by positivity)
  have hn : 0 ≤ ((SF.scratch c1 c2).distance + -dx) ^ 2 + dy ^ 2 := by positivity
  have D1 := frame_dist_from c1 c2 (dx := -dx) (dy := dy) (sq_sqrt hn).symm (sqrt_nonneg _)
  have z1 := frame_from c1 c2 (-dx) dy
  have z2 := frame_sub c2 (SF.scratch c1 c2).angle (-dx) dy
  rw [norm_sub_rev] at D2
  have hR : 2 * ccR 1 1000 ≤ √(((SF.scratch c1 c2).distance + -dx) ^ 2 + dy ^ 2) := by
    refine two_ccR_le (sqrt_nonneg _) ?_
    rw [sq_sqrt hn]
    nlinarith
  rw [← D1] at hR
  generalize SF.global_frame_change c2.xc c2.yc (SF.scratch c1 c2).angle (-dx) dy = p at *
  obtain ⟨t1, t2, x, hx, _, ha⟩ := TiST_geo H c1 (SF.circleCentered p.1 p.2 (!c2.left) c2.forward c2.regular P) M.ok1.ok.geom hR
  obtain ⟨t3, t4⟩ := TcT_cc_at H (f := c2.forward) (l := !c2.left) (SF.circleCentered p.1 p.2 (!c2.left) c2.forward c2.regular P) c2
    (geo_centered H _ _ _ _ _) rfl rfl rfl rfl D2
  obtain ⟨fX, fY⟩ := line_coord t1 t2 ha z1
  obtain ⟨c, s⟩ := cusp_coord t3 (t4.side rfl (Bool.not_not _).symm) z2
  obtain ⟨c, s⟩ := cusp_side c s rfl rfl
  have hdyD : dy * (SF.scratch c1 c2).distance = (2 * B) ^ 2 := by rw [hdy]; field_simp
  have Q : Polar 8.24621 0.97014 (-0.24254) 0.48507 1.94028 (SF.scratch c1 c2).distance (SF.scratch c1 c2).angle B dx dy := by
    apply polar nX nY hD0 eX eY B1 hdyD (by rw [hdx]; positivity) o1 <;> norm_num
  have hd : sg c1.forward = 1 := by rw [M.forward1]; rfl
  have hl2 : sg c2.left = -1 := by rw [M.left2]; rfl
  have hp := near_dir (fa := c1.forward) (fb := !c1.forward) (d := sg c1.forward) (x := x)
  have hb : |(sg (!c1.left) - sg c1.left) * B - 2| ≤ 0.001 := off_near (by rw [M.left1]; norm_num [sg]) (.inl rfl)
  rw [hl2] at c s
  nth_rewrite 3 [hd] at hp
  obtain ⟨n1, n2, n3, n4⟩ := mirror_num B1 Q hx hp fX fY hb (by ring) (by ring) (c.trans (by ring)) (s.trans (by ring))
  have n4 := n4 _ M.cos2 M.sin2
  exact M.total M.irr1 ha.1 (ha.length (sg_pm _) hx) n1 n2 n3 n4

include M in
/-- A path of the planner to the mirrored goal. -/
theorem Mx.path_lt {sp : SF.HCSpace} (hk : sp.kappa = 1) (hs : sp.sigma = 1000) :
    (SF.CcRs.circles_rs_path sp c1 c2).length < 8.7 := by
  obtain ⟨A0, A1, _⟩ := param_bounds
  refine lt_of_le_of_lt (CcRs.le_family (i := SF.hc_cc_rs.TSTcT) ?_ (by norm_num)) (M.family_le hk hs)
  refine no_shortcut ?_ ?_ (M.ok1.ok.geom.ccR.le.trans ccR_bounds.2)
  · rw [M.theta1, sub_zero]
    have := abs_sin_le_abs (x := c2.start.theta)
    rw [M.sin2] at this
    norm_num at this
    exact this
  · rw [M.x2, M.near.1]
    norm_num at A1
    linarith

/-- The distance to the mirrored goal. -/
theorem mirrored_lt {sp : SF.HCSpace} (hk : sp.kappa = 1) (hs : sp.sigma = 1000) {s1 s2 : SF.State}
    (hx1 : s1.x = 0) (hy1 : s1.y = 0) (ht1 : s1.theta = 0) (hx2 : s2.x = 7) (hy2 : s2.y = -3) (ht2 : s2.theta = π / 2) :
    SF.CcRs.get_distance sp s1 s2 < 8.7 := by
  have hP : sp.param = P := by unfold SF.HCSpace.param; rw [hk, hs]
  obtain ⟨n, _, hn, hmin⟩ := CcRs.best_spec sp s1 s2
  rw [SF.CcRs.get_distance, hn]
  refine lt_of_le_of_lt (hmin 5 (by norm_num)) ?_
  unfold SF.CcRs.path
  refine Mx.path_lt ?_ hk hs
  unfold SF.CcRs.end_circle
  rw [hP]
  have hc : ∀ a : ℝ, cos (SF.twopify a) = cos a := fun a => SF.cos_twopify a
  have hsn : ∀ a : ℝ, sin (SF.twopify a) = sin a := fun a => SF.sin_twopify a
  refine ⟨circOk_at (H).kappa (H).sigma (H).clothoid _ _ _ _, circOk_at (H).kappa (H).sigma (H).clothoid _ _ _ _, rfl, rfl,
    by simp [SF.circleAt], by simp [SF.circleAt], by simp [SF.circleAt], by simp [SF.circleAt], ?_, ?_, ?_, ?_, ?_, ?_, ?_⟩
  · change SF.twopify s1.theta = 0
    rw [ht1]; exact SF.twopify_of_mem le_rfl (by positivity)
  · change cos (SF.twopify s2.theta) = 0
    rw [hc, ht2, cos_pi_div_two]
  · change sin (SF.twopify s2.theta) = 1
    rw [hsn, ht2, sin_pi_div_two]
  all_goals assumption

end

end Spec
