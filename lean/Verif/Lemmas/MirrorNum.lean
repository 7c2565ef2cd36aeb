import Mathlib.Geometry.Euclidean.Angle.Unoriented.TriangleInequality
import Mathlib.Analysis.SpecialFunctions.Trigonometric.Bounds
import Mathlib.Analysis.Complex.Trigonometric
import Mathlib.Analysis.Real.Pi.Bounds
import Verif.Lemmas.Frame

/-!
# Angles between headings and approximate arithmetic
-/

noncomputable section

namespace Spec

open Real

/-- The angle between two headings. -/
def ang (a b : ℝ) : ℝ := arccos (cos (a - b))

theorem ang_comm (a b : ℝ) : ang a b = ang b a := by
  unfold ang; rw [← cos_neg, neg_sub]

theorem ang_nonneg (a b : ℝ) : 0 ≤ ang a b := arccos_nonneg _

theorem ang_le_pi (a b : ℝ) : ang a b ≤ π := arccos_le_pi _

theorem ang_eq (a b : ℝ) : ang a b = InnerProductGeometry.angle (cis a) (cis b) := by
  unfold ang InnerProductGeometry.angle
  rw [norm_cis, norm_cis, mul_one, div_one, Complex.inner]
  congr 1
  simp [cis, cos_sub]
  ring

theorem ang_triangle (a b c : ℝ) : ang a c ≤ ang a b + ang b c := by
  rw [ang_eq, ang_eq, ang_eq]
  exact InnerProductGeometry.angle_le_angle_add_angle _ _ _

theorem ang_ge_small {a b m : ℝ} (hm : 0 ≤ m) (hm' : m ≤ 2) (h : cos (a - b) ≤ 1 - m ^ 2 / 2) : m ≤ ang a b := by
  have h1 : m = arccos (cos m) := (arccos_cos hm (by linarith [pi_gt_three])).symm
  rw [h1]
  exact arccos_le_arccos (h.trans (one_sub_sq_div_two_le_cos))

theorem ang_ge_big {a b m : ℝ} (hm : 0 ≤ m) (hm1 : m ≤ 1) (h : cos (a - b) ≤ -m) : 1.57 + m ≤ ang a b := by
  have h1 : arccos (-m) ≤ ang a b := arccos_le_arccos h
  have h2 : m ≤ arcsin m := by
    have h3 := sin_le (arcsin_nonneg.2 hm)
    rwa [sin_arcsin (by linarith) hm1] at h3
  have h3 : arccos (-m) = π / 2 + arcsin m := by
    rw [arccos_eq_pi_div_two_sub_arcsin, arcsin_neg]; ring
  have := pi_gt_d2
  linarith

theorem ang_ge_right {a b m : ℝ} (hm : 0 ≤ m) (hm1 : m ≤ 1) (h : cos (a - b) ≤ m) : 1.57 * (1 - m) ≤ ang a b := by
  have h1 : arccos m ≤ ang a b := arccos_le_arccos h
  have h2 : arcsin m ≤ π / 2 * m := by
    have h0 := arcsin_nonneg.2 hm
    have h3 := mul_le_sin h0 (arcsin_le_pi_div_two m)
    rw [sin_arcsin (by linarith) hm1] at h3
    have hp := pi_pos
    rw [show 2 / π * arcsin m = arcsin m * 2 / π by ring, div_le_iff₀ hp] at h3
    linarith
  have h3 : arccos m = π / 2 - arcsin m := arccos_eq_pi_div_two_sub_arcsin m
  have := pi_gt_d2
  nlinarith

theorem ang_le_of_cos {a b m : ℝ} (hm : 0 ≤ m) (hm' : m ≤ π) (h : cos m ≤ cos (a - b)) : ang a b ≤ m := by
  rw [← arccos_cos hm hm']
  exact arccos_le_arccos h

/-! ### Approximate arithmetic -/

theorem near_mul {x y x0 y0 e f : ℝ} (hx : |x - x0| ≤ e) (hy : |y - y0| ≤ f) (z0 g : ℝ)
    (hg : |x0 * y0 - z0| + |x0| * f + |y0| * e + e * f ≤ g) : |x * y - z0| ≤ g := by
  have h1 : x * y - z0 = (x0 * y0 - z0) + x0 * (y - y0) + y0 * (x - x0) + (x - x0) * (y - y0) := by ring
  have he := (abs_nonneg _).trans hx
  rw [h1]
  refine (abs_add_le _ _).trans ?_
  refine (add_le_add_left (abs_add_le _ _) _).trans ?_
  refine (add_le_add_left (add_le_add_left (abs_add_le _ _) _) _).trans ?_
  rw [abs_mul, abs_mul, abs_mul]
  have a1 := mul_le_mul_of_nonneg_left hy (abs_nonneg x0)
  have a2 := mul_le_mul_of_nonneg_left hx (abs_nonneg y0)
  have a3 := mul_le_mul hx hy (abs_nonneg _) he
  linarith

theorem near_of_mul {c D X D0 X0 e f : ℝ} (h : c * D = X) (hD : |D - D0| ≤ e) (hX : |X - X0| ≤ f) (c0 g : ℝ)
    (h0 : 0 < D0 - e) (hg : f + |c0| * e + |X0 - c0 * D0| ≤ g * (D0 - e)) : |c - c0| ≤ g := by
  have hpos : D0 - e ≤ D := by have := (abs_le.1 hD).1; linarith
  have h1 : (c - c0) * D = (X - X0) - c0 * (D - D0) + (X0 - c0 * D0) := by rw [← h]; ring
  have h2 : |c - c0| * D ≤ g * (D0 - e) := by
    have h3 : |c - c0| * D = |(c - c0) * D| := by rw [abs_mul, abs_of_pos (h0.trans_le hpos)]
    rw [h3, h1]
    refine (abs_add_le _ _).trans ?_
    refine (add_le_add_left (abs_sub _ _) _).trans ?_
    rw [abs_mul]
    have := mul_le_mul_of_nonneg_left hD (abs_nonneg c0)
    linarith
  by_contra hc
  push Not at hc
  have h4 : 0 ≤ |c - c0| := abs_nonneg _
  nlinarith

theorem near_sqrt {D s D0 e : ℝ} (h : 0 ≤ D) (hD : |D ^ 2 - s| ≤ e) (f : ℝ) (hf : f ≤ D0) (hf0 : 0 ≤ f) (h1 : (D0 - f) ^ 2 ≤ s - e)
    (h2 : s + e ≤ (D0 + f) ^ 2) : |D - D0| ≤ f := by
  obtain ⟨a1, a2⟩ := abs_le.1 hD
  rw [abs_le]
  constructor
  · have := (sq_le_sq₀ (by linarith : 0 ≤ D0 - f) h).1 (by linarith)
    linarith
  · have := (sq_le_sq₀ h (by linarith : 0 ≤ D0 + f)).1 (by linarith)
    linarith

theorem near_add {x y x0 y0 e f : ℝ} (hx : |x - x0| ≤ e) (hy : |y - y0| ≤ f) (z0 g : ℝ) (hg : |x0 + y0 - z0| + e + f ≤ g) :
    |x + y - z0| ≤ g := by
  have : x + y - z0 = (x0 + y0 - z0) + (x - x0) + (y - y0) := by ring
  rw [this]
  refine (abs_add_le _ _).trans ?_
  refine (add_le_add_left (abs_add_le _ _) _).trans ?_
  linarith

theorem near_sub {x y x0 y0 e f : ℝ} (hx : |x - x0| ≤ e) (hy : |y - y0| ≤ f) (z0 g : ℝ) (hg : |x0 - y0 - z0| + e + f ≤ g) :
    |x - y - z0| ≤ g := by
  have : x - y - z0 = (x0 - y0 - z0) + (x - x0) - (y - y0) := by ring
  rw [this]
  refine (abs_sub _ _).trans ?_
  refine (add_le_add_left (abs_add_le _ _) _).trans ?_
  linarith

/-! ### Headings of the lines and cusps of the example

`e` is the heading at the goal, minus a quarter turn. -/

section
variable {e : ℝ} (ce : cos e = 0) (se : sin e = -1)

include ce se in
theorem cos_sub_end (t : ℝ) : cos (t - e) = -sin t := by rw [cos_sub, ce, se]; ring

include ce se in
theorem turn_total (t : ℝ) : 1.57 ≤ ang t 0 + ang t e := by
  have h := ang_triangle 0 t e
  rw [ang_comm 0 t] at h
  have h2 : 1.57 * (1 - 0) ≤ ang 0 e := ang_ge_right le_rfl zero_le_one (by rw [cos_sub_end ce se]; simp)
  linarith

/-- The direction of a line with lateral offset `b` between points at `(X, Y)` from each other. -/
theorem line_dir {X Y t p b : ℝ} (hX : X = cos t * p - sin t * b) (hY : Y = sin t * p + cos t * b) :
    cos t * (X ^ 2 + Y ^ 2) = X * p + Y * b ∧ sin t * (X ^ 2 + Y ^ 2) = Y * p - X * b ∧ p ^ 2 + b ^ 2 = X ^ 2 + Y ^ 2 := by
  have h := sin_sq_add_cos_sq t
  subst hX hY
  refine ⟨?_, ?_, ?_⟩
  · linear_combination (cos t * (p ^ 2 + b ^ 2) - 0) * h
  · linear_combination (sin t * (p ^ 2 + b ^ 2)) * h
  · linear_combination -(p ^ 2 + b ^ 2) * h

/-- The direction of a line, approximately. -/
theorem cross_dir {X Y t p b d x X0 Y0 b0 e : ℝ} (hX : |X - X0| ≤ e) (hY : |Y - Y0| ≤ e) (hb : |b - b0| ≤ e)
    (eX : X = cos t * p - sin t * b) (eY : Y = sin t * p + cos t * b) (hd : d = 1 ∨ d = -1) (hx : 0 ≤ x)
    (hp : |p - d * x| ≤ 0.002) (p0 c0 s0 eN E f F g : ℝ)
    (h1 : 2 * (|X0| + |Y0|) * e + 2 * e ^ 2 ≤ eN)
    (h2 : eN + 2 * |b0| * e + e ^ 2 + |X0 ^ 2 + Y0 ^ 2 - b0 ^ 2 - p0 ^ 2| ≤ E) (h0 : E + 0.01 ≤ p0 ^ 2)
    (hf : 0 ≤ f ∧ f ≤ p0 ∧ (p0 - f) ^ 2 ≤ p0 ^ 2 - E ∧ p0 ^ 2 + E ≤ (p0 + f) ^ 2)
    (hF : (|X0| + |Y0|) * f + |p0| * e + e * f + (|X0| + |Y0|) * e + |b0| * e + e ^ 2 ≤ F)
    (hpos : 0 < X0 ^ 2 + Y0 ^ 2 - eN)
    (hc0 : F + |c0| * eN + |d * X0 * p0 + Y0 * b0 - c0 * (X0 ^ 2 + Y0 ^ 2)| ≤ g * (X0 ^ 2 + Y0 ^ 2 - eN))
    (hs0 : F + |s0| * eN + |d * Y0 * p0 - X0 * b0 - s0 * (X0 ^ 2 + Y0 ^ 2)| ≤ g * (X0 ^ 2 + Y0 ^ 2 - eN)) :
    p0 - f - 0.002 ≤ x ∧ |cos t - c0| ≤ g ∧ |sin t - s0| ≤ g := by
  obtain ⟨hc, hs, hn⟩ := line_dir eX eY
  have he : 0 ≤ e := (abs_nonneg _).trans hX
  have aX := abs_nonneg X0
  have aY := abs_nonneg Y0
  have ab := abs_nonneg b0
  obtain ⟨f0, f1, f2, f3⟩ := hf
  have X2 : |X * X - X0 ^ 2| ≤ 2 * |X0| * e + e ^ 2 := near_mul hX hX _ _ (by
    rw [show X0 * X0 - X0 ^ 2 = 0 by ring, abs_zero]; linarith)
  have Y2 : |Y * Y - Y0 ^ 2| ≤ 2 * |Y0| * e + e ^ 2 := near_mul hY hY _ _ (by
    rw [show Y0 * Y0 - Y0 ^ 2 = 0 by ring, abs_zero]; linarith)
  have b2 : |b * b - b0 ^ 2| ≤ 2 * |b0| * e + e ^ 2 := near_mul hb hb _ _ (by
    rw [show b0 * b0 - b0 ^ 2 = 0 by ring, abs_zero]; linarith)
  have N : |X * X + Y * Y - (X0 ^ 2 + Y0 ^ 2)| ≤ eN := near_add X2 Y2 _ _ (by
    rw [sub_self, abs_zero]; linarith)
  have N' : |X ^ 2 + Y ^ 2 - (X0 ^ 2 + Y0 ^ 2)| ≤ eN := by rw [sq X, sq Y]; exact N
  have P2 : |(X * X + Y * Y) - b * b - p0 ^ 2| ≤ E := near_sub N b2 _ _ (by linarith)
  have p2 : |(d * p) ^ 2 - p0 ^ 2| ≤ E := by
    have : (d * p) ^ 2 = (X * X + Y * Y) - b * b := by rcases hd with rfl | rfl <;> linarith
    rw [this]; exact P2
  have dp : |d * p - x| ≤ 0.002 := by
    have : |d * p - x| = |p - d * x| := by
      rcases hd with rfl | rfl
      · simp
      · rw [← abs_neg]; congr 1; ring
    rw [this]; exact hp
  obtain ⟨dp1, dp2⟩ := abs_le.1 dp
  have hp0 : 0 ≤ d * p := by
    by_contra h
    push Not at h
    have a1 := (abs_le.1 p2).1
    have a2 : (d * p) ^ 2 ≤ 0.002 ^ 2 := sq_le_sq' (by linarith) (by linarith)
    norm_num at a2 h0
    linarith
  have pd : |d * p - p0| ≤ f := near_sqrt hp0 p2 _ f1 f0 f2 f3
  have pd' : |p - d * p0| ≤ f := by
    have : |p - d * p0| = |d * p - p0| := by
      rcases hd with rfl | rfl
      · simp
      · rw [← abs_neg]; congr 1; ring
    rw [this]; exact pd
  have adp : |d * p0| = |p0| := by rcases hd with rfl | rfl <;> simp
  have Yb : |Y * b - Y0 * b0| ≤ |Y0| * e + |b0| * e + e ^ 2 := near_mul hY hb _ _ (by
    rw [sub_self, abs_zero]; linarith)
  have Xb : |X * b - X0 * b0| ≤ |X0| * e + |b0| * e + e ^ 2 := near_mul hX hb _ _ (by
    rw [sub_self, abs_zero]; linarith)
  have Xp : |X * p - X0 * (d * p0)| ≤ |X0| * f + |p0| * e + e * f := near_mul hX pd' _ _ (by
    rw [sub_self, abs_zero, adp]; linarith)
  have Yp : |Y * p - Y0 * (d * p0)| ≤ |Y0| * f + |p0| * e + e * f := near_mul hY pd' _ _ (by
    rw [sub_self, abs_zero, adp]; linarith)
  have m1 := mul_nonneg aX f0
  have m2 := mul_nonneg aY f0
  have m3 := mul_nonneg aX he
  have m4 := mul_nonneg aY he
  have c1 : |X * p + Y * b - (d * X0 * p0 + Y0 * b0)| ≤ F := near_add Xp Yb _ _ (by
    rw [show X0 * (d * p0) + Y0 * b0 - (d * X0 * p0 + Y0 * b0) = 0 by ring, abs_zero]; linarith)
  have s1 : |Y * p - X * b - (d * Y0 * p0 - X0 * b0)| ≤ F := near_sub Yp Xb _ _ (by
    rw [show Y0 * (d * p0) - X0 * b0 - (d * Y0 * p0 - X0 * b0) = 0 by ring, abs_zero]; linarith)
  refine ⟨by have := abs_le.1 pd; linarith, near_of_mul hc N' c1 _ _ hpos hc0, near_of_mul hs N' s1 _ _ hpos hs0⟩

include ce se in
/-- A crossing line between points at about `(6, 2)` from each other. -/
theorem cross_62 {X Y t p b d x : ℝ} (hX : |X - 6| ≤ 0.01) (hY : |Y - 2| ≤ 0.01) (hb : |b - (-2)| ≤ 0.01)
    (eX : X = cos t * p - sin t * b) (eY : Y = sin t * p + cos t * b) (hd : d = 1 ∨ d = -1) (hx : 0 ≤ x)
    (hp : |p - d * x| ≤ 0.002) : 8.72 ≤ x + ang t 0 + ang t e := by
  rcases hd with rfl | rfl
  · obtain ⟨hx6, C, S⟩ := cross_dir hX hY hb eX eY (.inl rfl) hx hp 6 0.8 0.6 0.161 0.202 0.018 0.31 0.012
      (by norm_num) (by norm_num) (by norm_num) (by norm_num) (by norm_num) (by norm_num) (by norm_num) (by norm_num)
    have a1 : 0.61 ≤ ang t 0 := ang_ge_small (by norm_num) (by norm_num) (by rw [sub_zero]; have := abs_le.1 C; norm_num; linarith)
    have a2 : 1.57 + 0.588 ≤ ang t e := ang_ge_big (by norm_num) (by norm_num)
      (by rw [cos_sub_end ce se]; have := abs_le.1 S; linarith)
    linarith
  · obtain ⟨hx6, C, S⟩ := cross_dir hX hY hb eX eY (.inr rfl) hx hp 6 (-1) 0 0.161 0.202 0.018 0.31 0.012
      (by norm_num) (by norm_num) (by norm_num) (by norm_num) (by norm_num) (by norm_num) (by norm_num) (by norm_num)
    have a1 : 1.57 + 0.98 ≤ ang t 0 := ang_ge_big (by norm_num) (by norm_num) (by rw [sub_zero]; have := abs_le.1 C; linarith)
    have a2 : 1.57 * (1 - 0.02) ≤ ang t e := ang_ge_right (by norm_num) (by norm_num)
      (by rw [cos_sub_end ce se]; have := abs_le.1 S; linarith)
    linarith

end

/-! ### The vector between the centres of the outer circles -/

/-- Approximate polar coordinates and offsets of the middle circles. -/
structure Polar (D0 c0 s0 dy0 dx0 D g C dx dy : ℝ) : Prop where
  dist : |D - D0| ≤ 0.002
  cos : |cos g - c0| ≤ 0.0006
  sin : |sin g - s0| ≤ 0.0006
  dy : |dy - dy0| ≤ 0.0006
  dx : |dx - dx0| ≤ 0.001

theorem polar {X Y X0 Y0 D g C dx dy : ℝ} (hX : |X - X0| ≤ 0.001) (hY : |Y - Y0| ≤ 0.001) (h0 : 0 ≤ D)
    (eX : X = D * cos g) (eY : Y = D * sin g) (hC : |C - 1| ≤ 0.0002) (hdy : dy * D = (2 * C) ^ 2)
    (hdx0 : 0 ≤ dx) (hdx : dx ^ 2 + dy ^ 2 = (2 * C) ^ 2) (D0 c0 s0 dy0 dx0 : ℝ)
    (h1 : |X0| + |Y0| ≤ 12)
    (h2 : 0.002 ≤ D0 ∧ (D0 - 0.002) ^ 2 ≤ X0 ^ 2 + Y0 ^ 2 - 0.0241 ∧ X0 ^ 2 + Y0 ^ 2 + 0.0241 ≤ (D0 + 0.002) ^ 2)
    (hc0 : 0.001 + |c0| * 0.002 + |X0 - c0 * D0| ≤ 0.0006 * (D0 - 0.002))
    (hs0 : 0.001 + |s0| * 0.002 + |Y0 - s0 * D0| ≤ 0.0006 * (D0 - 0.002))
    (hdy0 : 0.00161 + |dy0| * 0.002 + |4 - dy0 * D0| ≤ 0.0006 * (D0 - 0.002))
    (hdx1 : |dx0 ^ 2 + dy0 ^ 2 - 4| + 0.00161 + 0.0013 * |dy0| ≤ 0.0033) (hdx2 : 1.8 ≤ dx0) :
    Polar D0 c0 s0 dy0 dx0 D g C dx dy := by
  have hsc := sin_sq_add_cos_sq g
  have X2 : |X * X - X0 ^ 2| ≤ 2 * |X0| * 0.001 + 0.001 ^ 2 := near_mul hX hX _ _ (by
    rw [show X0 * X0 - X0 ^ 2 = 0 by ring, abs_zero]; linarith)
  have Y2 : |Y * Y - Y0 ^ 2| ≤ 2 * |Y0| * 0.001 + 0.001 ^ 2 := near_mul hY hY _ _ (by
    rw [show Y0 * Y0 - Y0 ^ 2 = 0 by ring, abs_zero]; linarith)
  have N : |X * X + Y * Y - (X0 ^ 2 + Y0 ^ 2)| ≤ 0.0241 := near_add X2 Y2 _ _ (by
    rw [sub_self, abs_zero]; norm_num; linarith)
  have hD2 : D ^ 2 = X * X + Y * Y := by rw [eX, eY]; linear_combination -D ^ 2 * hsc
  have d1 : |D - D0| ≤ 0.002 := near_sqrt h0 (by rw [hD2]; exact N) _ h2.1 (by norm_num) h2.2.1 h2.2.2
  have hD3 : 0 < D0 - 0.002 := by
    have : 0 ≤ |X0 - c0 * D0| := abs_nonneg _
    have : 0 ≤ |c0| := abs_nonneg _
    by_contra h
    push Not at h
    linarith
  have C2 : |(2 * C) ^ 2 - 4| ≤ 0.00161 := by
    have : |C * C - 1| ≤ 0.0004001 := near_mul hC hC _ _ (by norm_num)
    rw [show (2 * C) ^ 2 - 4 = 4 * (C * C - 1) by ring, abs_mul]
    norm_num; linarith
  have hdyn : |dy - dy0| ≤ 0.0006 := near_of_mul hdy d1 C2 _ _ hD3 hdy0
  refine ⟨d1, near_of_mul (by rw [eX]; ring) d1 hX _ _ hD3 hc0, near_of_mul (by rw [eY]; ring) d1 hY _ _ hD3 hs0, hdyn, ?_⟩
  have y2 : |dy * dy - dy0 ^ 2| ≤ 0.0012 * |dy0| + 0.0006 ^ 2 := near_mul hdyn hdyn _ _ (by
    rw [show dy0 * dy0 - dy0 ^ 2 = 0 by ring, abs_zero]; linarith)
  have x2 : |dx ^ 2 - dx0 ^ 2| ≤ 0.0034 := by
    rw [show dx ^ 2 = (2 * C) ^ 2 - dy * dy by rw [← hdx]; ring]
    refine near_sub C2 y2 _ _ ?_
    have e1 : |4 - dy0 ^ 2 - dx0 ^ 2| = |dx0 ^ 2 + dy0 ^ 2 - 4| := by rw [← abs_neg]; congr 1; ring
    have e2 := abs_nonneg dy0
    rw [e1]; norm_num at hdx1 ⊢; linarith
  have h18 : 1.8 ≤ dx0 := hdx2
  have e1 : (dx0 - 0.001) ^ 2 = dx0 ^ 2 - 0.002 * dx0 + 0.000001 := by ring
  have e2 : (dx0 + 0.001) ^ 2 = dx0 ^ 2 + 0.002 * dx0 + 0.000001 := by ring
  exact near_sqrt hdx0 x2 _ (by linarith) (by norm_num) (by rw [e1]; linarith) (by rw [e2]; linarith)

section
variable {X Y D g C dx dy : ℝ} (h0 : 0 ≤ D)
    (eX : X = D * cos g) (eY : Y = D * sin g) (hC : |C - 1| ≤ 0.0002) (hdy : dy * D = (2 * C) ^ 2)
    (hdx0 : 0 ≤ dx) (hdx : dx ^ 2 + dy ^ 2 = (2 * C) ^ 2)

include h0 eX eY hC hdy hdx0 hdx

theorem polar_LL (hX : |X - 8| ≤ 0.001) (hY : |Y - 2| ≤ 0.001) :
    Polar 8.24621 0.97014 0.24254 0.48507 1.94028 D g C dx dy := by
  apply polar hX hY h0 eX eY hC hdy hdx0 hdx <;> norm_num

theorem polar_LR (hX : |X - 6| ≤ 0.001) (hY : |Y - 2| ≤ 0.001) :
    Polar 6.32456 0.94868 0.31623 0.63246 1.89737 D g C dx dy := by
  apply polar hX hY h0 eX eY hC hdy hdx0 hdx <;> norm_num

theorem polar_RL (hX : |X - 8| ≤ 0.001) (hY : |Y - 4| ≤ 0.001) :
    Polar 8.94427 0.89443 0.44721 0.44721 1.94936 D g C dx dy := by
  apply polar hX hY h0 eX eY hC hdy hdx0 hdx <;> norm_num

theorem polar_RR (hX : |X - 6| ≤ 0.001) (hY : |Y - 4| ≤ 0.001) :
    Polar 7.21110 0.83205 0.55470 0.55470 1.92154 D g C dx dy := by
  apply polar hX hY h0 eX eY hC hdy hdx0 hdx <;> norm_num

end

/-! ### Bounds of the lengths, by type of path -/

section
variable {e : ℝ} (ce : cos e = 0) (se : sin e = -1)
variable {D g C dx dy x t u v : ℝ} (hC : |C - 1| ≤ 0.0002)

/-- A turn between a cusp and a line at right angles. -/
theorem ang_perp (h : cos (u - t) = 0) : 1.57 ≤ ang u t := by
  have := ang_ge_right (a := u) (b := t) le_rfl zero_le_one h.le
  linarith

/-- Direct lines meet the cusps at right angles. -/
theorem perp_of {p q : ℝ} (h1 : q * cos g = cos t * p) (h2 : q * sin g = sin t * p) (hq : q ≠ 0) (w : ℝ)
    (c : cos u = -w * sin g) (s : sin u = w * cos g) : cos (u - t) = 0 := by
  have hp : p ≠ 0 := by
    rintro rfl
    rw [mul_zero] at h1 h2
    have a := (mul_eq_zero.1 h1).resolve_left hq
    have b := (mul_eq_zero.1 h2).resolve_left hq
    have := sin_sq_add_cos_sq g
    rw [a, b] at this; norm_num at this
  have : cos (u - t) * p = 0 := by
    rw [cos_sub, c, s]
    linear_combination w * sin g * h1 - w * cos g * h2
  exact (mul_eq_zero.1 this).resolve_right hp

include ce se hC in
theorem e1_LR (P : Polar 6.32456 0.94868 0.31623 0.63246 1.89737 D g C dx dy) (c : cos u = -sin g) (s : sin u = cos g)
    (hx : D - 2 * C - 0.002 ≤ x) : 8.71 ≤ x + ang u 0 + ang u e := by
  have h1 := abs_le.1 P.dist
  have h2 := abs_le.1 P.cos
  have h3 := abs_le.1 P.sin
  have h4 := abs_le.1 hC
  have a1 : 1.57 + 0.3156 ≤ ang u 0 := ang_ge_big (by norm_num) (by norm_num) (by rw [sub_zero, c]; linarith)
  have a2 : 1.57 + 0.948 ≤ ang u e := ang_ge_big (by norm_num) (by norm_num) (by rw [cos_sub_end ce se, s]; linarith)
  linarith

include ce se hC in
theorem e1_RL (P : Polar 8.94427 0.89443 0.44721 0.44721 1.94936 D g C dx dy) (c : cos u = sin g) (s : sin u = -cos g)
    (hp : cos (u - t) = 0) (hx : D - 2 * C - 0.002 ≤ x) :
    8.71 ≤ x + ang u t + ang u e ∧ 8.71 ≤ x + ang u 0 + ang u t := by
  have h1 := abs_le.1 P.dist
  have h2 := abs_le.1 P.cos
  have h3 := abs_le.1 P.sin
  have h4 := abs_le.1 hC
  have a1 : 1 ≤ ang u 0 := ang_ge_small (by norm_num) (by norm_num) (by rw [sub_zero, c]; norm_num; linarith)
  have a2 : 0.4 ≤ ang u e := ang_ge_small (by norm_num) (by norm_num) (by rw [cos_sub_end ce se, s]; norm_num; linarith)
  have a3 := ang_perp hp
  constructor <;> linarith

include hC in
theorem e2_LL (P : Polar 8.24621 0.97014 0.24254 0.48507 1.94028 D g C dx dy) (c : cos u = -sin g)
    (hp : cos (u - t) = 0) (hp' : cos (v - t) = 0) (hx : D - 4 * C - 0.002 ≤ x) :
    8.71 ≤ x + ang u 0 + ang u t + ang v t + ang v e := by
  have h1 := abs_le.1 P.dist
  have h3 := abs_le.1 P.sin
  have h4 := abs_le.1 hC
  have a1 : 1.57 + 0.24 ≤ ang u 0 := ang_ge_big (by norm_num) (by norm_num) (by rw [sub_zero, c]; linarith)
  have a3 := ang_perp hp
  have a4 := ang_perp hp'
  have a5 := ang_nonneg v e
  linarith

include ce se hC in
theorem e2_RR (P : Polar 7.21110 0.83205 0.55470 0.55470 1.92154 D g C dx dy) (c : cos u = sin g) (s : sin v = cos g)
    (hp : cos (u - t) = 0) (hp' : cos (v - t) = 0) (hx : D - 4 * C - 0.002 ≤ x) :
    8.71 ≤ x + ang u 0 + ang u t + ang v t + ang v e := by
  have h1 := abs_le.1 P.dist
  have h2 := abs_le.1 P.cos
  have h3 := abs_le.1 P.sin
  have h4 := abs_le.1 hC
  have a1 : 0.9 ≤ ang u 0 := ang_ge_small (by norm_num) (by norm_num) (by rw [sub_zero, c]; norm_num; linarith)
  have a2 : 1.57 + 0.8 ≤ ang v e := ang_ge_big (by norm_num) (by norm_num) (by rw [cos_sub_end ce se, s]; linarith)
  have a3 := ang_perp hp
  have a4 := ang_perp hp'
  linarith

/-! Crossing lines: `b` is the lateral offset of the line. -/

variable {X Y p b d : ℝ} (eX : X = cos t * p - sin t * b) (eY : Y = sin t * p + cos t * b) (hd : d = 1 ∨ d = -1)
  (hx : 0 ≤ x) (hp : |p - d * x| ≤ 0.002)

include ce se eX eY hd hx hp in
theorem i1_LL (P : Polar 8.24621 0.97014 0.24254 0.48507 1.94028 D g C dx dy) (hb : |b - (-2)| ≤ 0.001)
    (hX : X = (D - dx) * cos g - dy * sin g) (hY : Y = (D - dx) * sin g + dy * cos g) :
    8.71 ≤ x + ang t 0 + ang t e := by
  have q : |D - dx - 6.30593| ≤ 0.003 := near_sub P.dist P.dx _ _ (by norm_num)
  have m1 : |(D - dx) * cos g - 6.11764| ≤ 0.0068 := near_mul q P.cos _ _ (by norm_num)
  have m2 : |dy * sin g - 0.11765| ≤ 0.0005 := near_mul P.dy P.sin _ _ (by norm_num)
  have m3 : |(D - dx) * sin g - 1.52944| ≤ 0.0046 := near_mul q P.sin _ _ (by norm_num)
  have m4 : |dy * cos g - 0.47059| ≤ 0.0009 := near_mul P.dy P.cos _ _ (by norm_num)
  have tx : |X - 6| ≤ 0.01 := by rw [hX]; exact near_sub m1 m2 _ _ (by norm_num)
  have ty : |Y - 2| ≤ 0.01 := by rw [hY]; exact near_add m3 m4 _ _ (by norm_num)
  have := cross_62 ce se tx ty (hb.trans (by norm_num)) eX eY hd hx hp
  linarith

/-- Length of the line and direction of the cusp. -/
theorem i1_RR_line (P : Polar 7.21110 0.83205 0.55470 0.55470 1.92154 D g C dx dy)
    (hX : X = (D - dx) * cos g - dy * sin g) (hY : Y = (D - dx) * sin g + dy * cos g) :
    |X - 4.09351| ≤ 0.007 ∧ |Y - 3.39574| ≤ 0.007 := by
  have q : |D - dx - 5.28956| ≤ 0.003 := near_sub P.dist P.dx _ _ (by norm_num)
  have m1 : |(D - dx) * cos g - 4.40118| ≤ 0.006 := near_mul q P.cos _ _ (by norm_num)
  have m2 : |dy * sin g - 0.30769| ≤ 0.0008 := near_mul P.dy P.sin _ _ (by norm_num)
  have m3 : |(D - dx) * sin g - 2.93412| ≤ 0.006 := near_mul q P.sin _ _ (by norm_num)
  have m4 : |dy * cos g - 0.46154| ≤ 0.0009 := near_mul P.dy P.cos _ _ (by norm_num)
  exact ⟨by rw [hX]; exact near_sub m1 m2 _ _ (by norm_num), by rw [hY]; exact near_add m3 m4 _ _ (by norm_num)⟩

include ce se hC eX eY hd hx hp in
/-- The cusp after the line between two right circles. -/
theorem i1_RR (P : Polar 7.21110 0.83205 0.55470 0.55470 1.92154 D g C dx dy) (hb : |b - 2| ≤ 0.001)
    (hX : X = (D - dx) * cos g - dy * sin g) (hY : Y = (D - dx) * sin g + dy * cos g)
    (c : cos u * (2 * C) = dy * cos g - dx * sin g) (s : sin u * (2 * C) = dy * sin g + dx * cos g) :
    8.71 ≤ x + ang u 0 + ang u e := by
  obtain ⟨tx, ty⟩ := i1_RR_line P hX hY
  have hb := hb.trans (show (0.001 : ℝ) ≤ 0.007 by norm_num)
  have xx : 4.9 ≤ x := by
    rcases hd with rfl | rfl
    · have := (cross_dir tx ty hb eX eY (.inl rfl) hx hp 4.92827 0.9532 0.3022 0.105 0.134 0.014 0.207 0.012
        (by norm_num) (by norm_num) (by norm_num) (by norm_num) (by norm_num) (by norm_num) (by norm_num) (by norm_num)).1
      linarith
    · have := (cross_dir tx ty hb eX eY (.inr rfl) hx hp 4.92827 (-0.4731) (-0.8810) 0.105 0.134 0.014 0.207 0.012
        (by norm_num) (by norm_num) (by norm_num) (by norm_num) (by norm_num) (by norm_num) (by norm_num) (by norm_num)).1
      linarith
  have m1 : |dy * cos g - 0.46154| ≤ 0.0009 := near_mul P.dy P.cos _ _ (by norm_num)
  have m2 : |dx * sin g - 1.06588| ≤ 0.0018 := near_mul P.dx P.sin _ _ (by norm_num)
  have m3 : |dy * sin g - 0.30769| ≤ 0.0008 := near_mul P.dy P.sin _ _ (by norm_num)
  have m4 : |dx * cos g - 1.59882| ≤ 0.002 := near_mul P.dx P.cos _ _ (by norm_num)
  have hC2 : |2 * C - 2| ≤ 0.0004 := by
    rw [show 2 * C - 2 = 2 * (C - 1) by ring, abs_mul]; norm_num; linarith
  have cu : |cos u - (-0.30217)| ≤ 0.002 := near_of_mul c hC2 (near_sub m1 m2 (-0.60434) 0.0028 (by norm_num)) _ _ (by norm_num) (by norm_num)
  have su : |sin u - 0.95326| ≤ 0.002 := near_of_mul s hC2 (near_add m3 m4 1.90651 0.0029 (by norm_num)) _ _ (by norm_num) (by norm_num)
  have a1 : 1.57 + 0.3 ≤ ang u 0 := ang_ge_big (by norm_num) (by norm_num) (by rw [sub_zero]; have := abs_le.1 cu; linarith)
  have a2 : 1.57 + 0.95 ≤ ang u e := ang_ge_big (by norm_num) (by norm_num) (by rw [cos_sub_end ce se]; have := abs_le.1 su; linarith)
  linarith

include ce se hC eX eY hd hx hp in
/-- The cusp before the line between two left circles. -/
theorem i1_LL' (P : Polar 8.24621 0.97014 0.24254 0.48507 1.94028 D g C dx dy) (hb : |b - 2| ≤ 0.001)
    (hX : X = (D - dx) * cos g - dy * sin g) (hY : Y = (D - dx) * sin g + dy * cos g)
    (c : cos u * (2 * C) = dy * cos g - dx * sin g) (s : sin u * (2 * C) = dy * sin g + dx * cos g) :
    8.71 ≤ x + ang u 0 + ang u e := by
  have q : |D - dx - 6.30593| ≤ 0.003 := near_sub P.dist P.dx _ _ (by norm_num)
  have m1 : |(D - dx) * cos g - 6.11764| ≤ 0.0068 := near_mul q P.cos _ _ (by norm_num)
  have m2 : |dy * sin g - 0.11765| ≤ 0.0005 := near_mul P.dy P.sin _ _ (by norm_num)
  have m3 : |(D - dx) * sin g - 1.52944| ≤ 0.0046 := near_mul q P.sin _ _ (by norm_num)
  have m4 : |dy * cos g - 0.47059| ≤ 0.0009 := near_mul P.dy P.cos _ _ (by norm_num)
  have tx : |X - 6| ≤ 0.01 := by rw [hX]; exact near_sub m1 m2 _ _ (by norm_num)
  have ty : |Y - 2| ≤ 0.01 := by rw [hY]; exact near_add m3 m4 _ _ (by norm_num)
  have hb := hb.trans (show (0.001 : ℝ) ≤ 0.01 by norm_num)
  have xx : 5.9 ≤ x := by
    rcases hd with rfl | rfl
    · have := (cross_dir tx ty hb eX eY (.inl rfl) hx hp 6 1 0 0.161 0.202 0.018 0.31 0.012
        (by norm_num) (by norm_num) (by norm_num) (by norm_num) (by norm_num) (by norm_num) (by norm_num) (by norm_num)).1
      linarith
    · have := (cross_dir tx ty hb eX eY (.inr rfl) hx hp 6 (-0.8) (-0.6) 0.161 0.202 0.018 0.31 0.012
        (by norm_num) (by norm_num) (by norm_num) (by norm_num) (by norm_num) (by norm_num) (by norm_num) (by norm_num)).1
      linarith
  have m5 : |dx * sin g - 0.47059| ≤ 0.0015 := near_mul P.dx P.sin _ _ (by norm_num)
  have m6 : |dx * cos g - 1.88235| ≤ 0.0022 := near_mul P.dx P.cos _ _ (by norm_num)
  have hC2 : |2 * C - 2| ≤ 0.0004 := by
    rw [show 2 * C - 2 = 2 * (C - 1) by ring, abs_mul]; norm_num; linarith
  have cu : |cos u - 0| ≤ 0.002 := near_of_mul c hC2 (near_sub m4 m5 0 0.0025 (by norm_num)) _ _ (by norm_num) (by norm_num)
  have su : |sin u - 1| ≤ 0.002 := near_of_mul s hC2 (near_add m2 m6 2 0.0028 (by norm_num)) _ _ (by norm_num) (by norm_num)
  have a1 : 1.57 * (1 - 0.01) ≤ ang u 0 := ang_ge_right (by norm_num) (by norm_num) (by rw [sub_zero]; have := abs_le.1 cu; linarith)
  have a2 : 1.57 + 0.95 ≤ ang u e := ang_ge_big (by norm_num) (by norm_num) (by rw [cos_sub_end ce se]; have := abs_le.1 su; linarith)
  linarith

include ce se hC eX eY hd hx hp in
/-- The cusp before the line between two right circles. -/
theorem i1_RR' (P : Polar 7.21110 0.83205 0.55470 0.55470 1.92154 D g C dx dy) (hb : |b - (-2)| ≤ 0.001)
    (hX : X = (D - dx) * cos g - dy * sin g) (hY : Y = (D - dx) * sin g + dy * cos g)
    (c : cos u * (2 * C) = dx * sin g - dy * cos g) (s : sin u * (2 * C) = -(dy * sin g) - dx * cos g) :
    8.71 ≤ x + ang u 0 + ang u t + ang t e := by
  obtain ⟨tx, ty⟩ := i1_RR_line P hX hY
  have hb := hb.trans (show (0.001 : ℝ) ≤ 0.007 by norm_num)
  have m1 : |dy * cos g - 0.46154| ≤ 0.0009 := near_mul P.dy P.cos _ _ (by norm_num)
  have m2 : |dx * sin g - 1.06588| ≤ 0.0018 := near_mul P.dx P.sin _ _ (by norm_num)
  have m3 : |-(dy * sin g) - (-0.30769)| ≤ 0.0008 := by
    rw [← abs_neg, neg_sub, sub_neg_eq_add, neg_add_eq_sub]; exact near_mul P.dy P.sin _ _ (by norm_num)
  have m4 : |dx * cos g - 1.59882| ≤ 0.002 := near_mul P.dx P.cos _ _ (by norm_num)
  have hC2 : |2 * C - 2| ≤ 0.0004 := by
    rw [show 2 * C - 2 = 2 * (C - 1) by ring, abs_mul]; norm_num; linarith
  have cu : |cos u - 0.30217| ≤ 0.002 := near_of_mul c hC2 (near_sub m2 m1 0.60434 0.0028 (by norm_num)) _ _ (by norm_num) (by norm_num)
  have su : |sin u - (-0.95326)| ≤ 0.002 := near_of_mul s hC2 (near_sub m3 m4 (-1.90651) 0.0029 (by norm_num)) _ _ (by norm_num) (by norm_num)
  have a1 : 1.175 ≤ ang u 0 := ang_ge_small (by norm_num) (by norm_num) (by rw [sub_zero]; have := abs_le.1 cu; norm_num; linarith)
  rcases hd with rfl | rfl
  · obtain ⟨xx, ct, st⟩ := cross_dir tx ty hb eX eY (.inl rfl) hx hp 4.92827 0.4731 0.8810 0.105 0.134 0.014 0.207 0.012
      (by norm_num) (by norm_num) (by norm_num) (by norm_num) (by norm_num) (by norm_num) (by norm_num) (by norm_num)
    have n1 : |cos u * cos t - 0.143| ≤ 0.01 := near_mul cu ct _ _ (by norm_num)
    have n2 : |sin u * sin t - (-0.8398)| ≤ 0.02 := near_mul su st _ _ (by norm_num)
    have a2 : 1.57 * (1 - 0) ≤ ang u t := ang_ge_right (by norm_num) (by norm_num) (by
      rw [cos_sub]; have := abs_le.1 n1; have := abs_le.1 n2; linarith)
    have a3 : 1.57 + 0.85 ≤ ang t e := ang_ge_big (by norm_num) (by norm_num) (by rw [cos_sub_end ce se]; have := abs_le.1 st; linarith)
    linarith
  · obtain ⟨xx, ct, st⟩ := cross_dir tx ty hb eX eY (.inr rfl) hx hp 4.92827 (-0.9532) (-0.3022) 0.105 0.134 0.014 0.207 0.012
      (by norm_num) (by norm_num) (by norm_num) (by norm_num) (by norm_num) (by norm_num) (by norm_num) (by norm_num)
    have n1 : |cos u * cos t - (-0.288)| ≤ 0.007 := near_mul cu ct _ _ (by norm_num)
    have n2 : |sin u * sin t - 0.2881| ≤ 0.013 := near_mul su st _ _ (by norm_num)
    have a2 : 1.57 * (1 - 0.021) ≤ ang u t := ang_ge_right (by norm_num) (by norm_num) (by
      rw [cos_sub]; have := abs_le.1 n1; have := abs_le.1 n2; linarith)
    have a3 : 1.165 ≤ ang t e := ang_ge_small (by norm_num) (by norm_num) (by
      rw [cos_sub_end ce se]; have := abs_le.1 st; norm_num; linarith)
    linarith

include ce se hC eX eY hd hx hp in
/-- Cusps before and after the line from a left to a right circle. -/
theorem i2_LR (P : Polar 6.32456 0.94868 0.31623 0.63246 1.89737 D g C dx dy) (hb : |b - 2| ≤ 0.001)
    (hX : X = (D - 2 * dx) * cos g + 2 * dy * sin g) (hY : Y = (D - 2 * dx) * sin g - 2 * dy * cos g)
    (c : cos u * (2 * C) = -(dy * cos g) - dx * sin g) (s : sin u * (2 * C) = dx * cos g - dy * sin g)
    (c' : cos v = cos u) (s' : sin v = sin u) :
    8.71 ≤ x + ang u 0 + ang u t + ang v t + ang v e := by
  have d2 : |2 * dx - 3.79474| ≤ 0.002 := by
    rw [show 2 * dx - 3.79474 = 2 * (dx - 1.89737) by ring, abs_mul]; have := P.dx; norm_num at this ⊢; linarith
  have y2 : |2 * dy - 1.26492| ≤ 0.0012 := by
    rw [show 2 * dy - 1.26492 = 2 * (dy - 0.63246) by ring, abs_mul]; have := P.dy; norm_num at this ⊢; linarith
  have q : |D - 2 * dx - 2.52982| ≤ 0.004 := near_sub P.dist d2 _ _ (by norm_num)
  have m1 : |(D - 2 * dx) * cos g - 2.39999| ≤ 0.0054 := near_mul q P.cos _ _ (by norm_num)
  have m2 : |2 * dy * sin g - 0.4| ≤ 0.0012 := near_mul y2 P.sin _ _ (by norm_num)
  have m3 : |(D - 2 * dx) * sin g - 0.8| ≤ 0.0029 := near_mul q P.sin _ _ (by norm_num)
  have m4 : |2 * dy * cos g - 1.2| ≤ 0.002 := near_mul y2 P.cos _ _ (by norm_num)
  have tx : |X - 2.8| ≤ 0.007 := by rw [hX]; exact near_add m1 m2 _ _ (by norm_num)
  have ty : |Y - (-0.4)| ≤ 0.007 := by rw [hY]; exact near_sub m3 m4 _ _ (by norm_num)
  have hb := hb.trans (show (0.001 : ℝ) ≤ 0.007 by norm_num)
  have n1 : |-(dy * cos g) - (-0.6)| ≤ 0.001 := by
    rw [← abs_neg, neg_sub, sub_neg_eq_add, neg_add_eq_sub]; exact near_mul P.dy P.cos _ _ (by norm_num)
  have n2 : |dx * sin g - 0.6| ≤ 0.0015 := near_mul P.dx P.sin _ _ (by norm_num)
  have n3 : |dx * cos g - 1.8| ≤ 0.0022 := near_mul P.dx P.cos _ _ (by norm_num)
  have n4 : |dy * sin g - 0.2| ≤ 0.001 := near_mul P.dy P.sin _ _ (by norm_num)
  have hC2 : |2 * C - 2| ≤ 0.0004 := by
    rw [show 2 * C - 2 = 2 * (C - 1) by ring, abs_mul]; norm_num; linarith
  have cu : |cos u - (-0.6)| ≤ 0.002 := near_of_mul c hC2 (near_sub n1 n2 (-1.2) 0.0026 (by norm_num)) _ _ (by norm_num) (by norm_num)
  have su : |sin u - 0.8| ≤ 0.002 := near_of_mul s hC2 (near_sub n3 n4 1.6 0.0033 (by norm_num)) _ _ (by norm_num) (by norm_num)
  have hv : ang v t = ang u t := by unfold ang; rw [cos_sub, cos_sub, c', s']
  have a1 : 1.57 + 0.59 ≤ ang u 0 := ang_ge_big (by norm_num) (by norm_num) (by rw [sub_zero]; have := abs_le.1 cu; linarith)
  have a2 : 1.57 + 0.79 ≤ ang v e := ang_ge_big (by norm_num) (by norm_num) (by rw [cos_sub_end ce se, s']; have := abs_le.1 su; linarith)
  rcases hd with rfl | rfl
  · obtain ⟨xx, ct, st⟩ := cross_dir tx ty hb eX eY (.inl rfl) hx hp 2 0.6 (-0.8) 0.045 0.0735 0.019 0.113 0.02
      (by norm_num) (by norm_num) (by norm_num) (by norm_num) (by norm_num) (by norm_num) (by norm_num) (by norm_num)
    have n1 : |cos u * cos t - (-0.36)| ≤ 0.02 := near_mul cu ct _ _ (by norm_num)
    have n2 : |sin u * sin t - (-0.64)| ≤ 0.02 := near_mul su st _ _ (by norm_num)
    have a2 : 1.57 * (1 - 0) ≤ ang u t := ang_ge_right (by norm_num) (by norm_num) (by
      rw [cos_sub]; have := abs_le.1 n1; have := abs_le.1 n2; linarith)
    linarith
  · obtain ⟨xx, ct, st⟩ := cross_dir tx ty hb eX eY (.inr rfl) hx hp 2 (-0.8) (-0.6) 0.045 0.0735 0.019 0.113 0.02
      (by norm_num) (by norm_num) (by norm_num) (by norm_num) (by norm_num) (by norm_num) (by norm_num) (by norm_num)
    have n1 : |cos u * cos t - 0.48| ≤ 0.02 := near_mul cu ct _ _ (by norm_num)
    have n2 : |sin u * sin t - (-0.48)| ≤ 0.02 := near_mul su st _ _ (by norm_num)
    have a2 : 1.57 * (1 - 0.04) ≤ ang u t := ang_ge_right (by norm_num) (by norm_num) (by
      rw [cos_sub]; have := abs_le.1 n1; have := abs_le.1 n2; linarith)
    linarith

include ce se hC eX eY hd hx hp in
/-- Cusps before and after the line from a right to a left circle. -/
theorem i2_RL (P : Polar 8.94427 0.89443 0.44721 0.44721 1.94936 D g C dx dy) (hb : |b - (-2)| ≤ 0.001)
    (hX : X = (D - 2 * dx) * cos g + 2 * dy * sin g) (hY : Y = (D - 2 * dx) * sin g - 2 * dy * cos g)
    (c : cos u * (2 * C) = dy * cos g + dx * sin g) (s : sin u * (2 * C) = dy * sin g - dx * cos g)
    (c' : cos v = cos u) (s' : sin v = sin u) :
    8.71 ≤ x + ang u 0 + ang u t + ang v t + ang v e := by
  have d2 : |2 * dx - 3.89872| ≤ 0.002 := by
    rw [show 2 * dx - 3.89872 = 2 * (dx - 1.94936) by ring, abs_mul]; have := P.dx; norm_num at this ⊢; linarith
  have y2 : |2 * dy - 0.89442| ≤ 0.0012 := by
    rw [show 2 * dy - 0.89442 = 2 * (dy - 0.44721) by ring, abs_mul]; have := P.dy; norm_num at this ⊢; linarith
  have q : |D - 2 * dx - 5.04555| ≤ 0.004 := near_sub P.dist d2 _ _ (by norm_num)
  have m1 : |(D - 2 * dx) * cos g - 4.51289| ≤ 0.0067 := near_mul q P.cos _ _ (by norm_num)
  have m2 : |2 * dy * sin g - 0.4| ≤ 0.0012 := near_mul y2 P.sin _ _ (by norm_num)
  have m3 : |(D - 2 * dx) * sin g - 2.25642| ≤ 0.005 := near_mul q P.sin _ _ (by norm_num)
  have m4 : |2 * dy * cos g - 0.8| ≤ 0.002 := near_mul y2 P.cos _ _ (by norm_num)
  have tx : |X - 4.91289| ≤ 0.008 := by rw [hX]; exact near_add m1 m2 _ _ (by norm_num)
  have ty : |Y - 1.45642| ≤ 0.008 := by rw [hY]; exact near_sub m3 m4 _ _ (by norm_num)
  have hb := hb.trans (show (0.001 : ℝ) ≤ 0.008 by norm_num)
  have n1 : |dy * cos g - 0.4| ≤ 0.001 := near_mul P.dy P.cos _ _ (by norm_num)
  have n2 : |dx * sin g - 0.87177| ≤ 0.0017 := near_mul P.dx P.sin _ _ (by norm_num)
  have n3 : |dx * cos g - 1.74357| ≤ 0.0021 := near_mul P.dx P.cos _ _ (by norm_num)
  have n4 : |dy * sin g - 0.2| ≤ 0.001 := near_mul P.dy P.sin _ _ (by norm_num)
  have hC2 : |2 * C - 2| ≤ 0.0004 := by
    rw [show 2 * C - 2 = 2 * (C - 1) by ring, abs_mul]; norm_num; linarith
  have cu : |cos u - 0.63589| ≤ 0.002 := near_of_mul c hC2 (near_add n1 n2 1.27177 0.0028 (by norm_num)) _ _ (by norm_num) (by norm_num)
  have su : |sin u - (-0.77178)| ≤ 0.002 := near_of_mul s hC2 (near_sub n4 n3 (-1.54357) 0.0032 (by norm_num)) _ _ (by norm_num) (by norm_num)
  have hv : ang v t = ang u t := by unfold ang; rw [cos_sub, cos_sub, c', s']
  have a1 : 0.8 ≤ ang u 0 := ang_ge_small (by norm_num) (by norm_num) (by rw [sub_zero]; have := abs_le.1 cu; norm_num; linarith)
  have a2 : 0.6 ≤ ang v e := ang_ge_small (by norm_num) (by norm_num) (by
    rw [cos_sub_end ce se, s']; have := abs_le.1 su; norm_num; linarith)
  rcases hd with rfl | rfl
  · obtain ⟨xx, ct, st⟩ := cross_dir tx ty hb eX eY (.inl rfl) hx hp 4.71779 0.77178 0.63589 0.103 0.136 0.015 0.21 0.013
      (by norm_num) (by norm_num) (by norm_num) (by norm_num) (by norm_num) (by norm_num) (by norm_num) (by norm_num)
    have n1 : |cos u * cos t - 0.49077| ≤ 0.02 := near_mul cu ct _ _ (by norm_num)
    have n2 : |sin u * sin t - (-0.49077)| ≤ 0.02 := near_mul su st _ _ (by norm_num)
    have a2 : 1.57 * (1 - 0.04) ≤ ang u t := ang_ge_right (by norm_num) (by norm_num) (by
      rw [cos_sub]; have := abs_le.1 n1; have := abs_le.1 n2; linarith)
    linarith
  · obtain ⟨xx, ct, st⟩ := cross_dir tx ty hb eX eY (.inr rfl) hx hp 4.71779 (-0.99365) 0.11253 0.103 0.136 0.015 0.21 0.013
      (by norm_num) (by norm_num) (by norm_num) (by norm_num) (by norm_num) (by norm_num) (by norm_num) (by norm_num)
    have n1 : |cos u * cos t - (-0.6318)| ≤ 0.02 := near_mul cu ct _ _ (by norm_num)
    have n2 : |sin u * sin t - (-0.0868)| ≤ 0.02 := near_mul su st _ _ (by norm_num)
    have a2 : 1.57 * (1 - 0) ≤ ang u t := ang_ge_right (by norm_num) (by norm_num) (by
      rw [cos_sub]; have := abs_le.1 n1; have := abs_le.1 n2; linarith)
    linarith

end

end Spec
