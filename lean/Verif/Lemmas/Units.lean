import Verif.Lemmas.MotionPlan
import Verif.Lemmas.Representation

/-!
# Units of length: the CC00-Dubins planner
-/

noncomputable section

namespace Spec.Units

open Real Props

variable {c : ℝ}

/-- A configuration in another unit of length. -/
def zq (c : ℝ) (q : SF.Configuration) : SF.Configuration := ⟨c * q.x, c * q.y, q.theta, q.kappa⟩

/-- The parameters of the circles in another unit of length. -/
def zp (c : ℝ) (P : SF.CircleParam) : SF.CircleParam :=
  ⟨P.kappa / c, c * P.kappa_inv, P.sigma / c ^ 2, c * P.radius, P.mu, P.sin_mu, P.cos_mu, P.delta_min⟩

/-- A circle in another unit of length. -/
def zc (c : ℝ) (C : SF.Circle) : SF.Circle :=
  { zp c C.toCircleParam with
    start := zq c C.start, left := C.left, forward := C.forward, regular := C.regular, xc := c * C.xc, yc := c * C.yc }

theorem zq_configuration (x y t k : ℝ) : SF.configuration (c * x) (c * y) t k = zq c (SF.configuration x y t k) := rfl

theorem frame (x y t dx dy : ℝ) : SF.global_frame_change (c * x) (c * y) t (c * dx) (c * dy) =
    (c * (SF.global_frame_change x y t dx dy).1, c * (SF.global_frame_change x y t dx dy).2) := by
  unfold SF.global_frame_change
  refine Prod.ext ?_ ?_ <;> dsimp only <;> ring

theorem clothoid_scaled (hc : 0 < c) {k s : ℝ} (hs : 0 < s) (h : k / s > SF.epsilon) (h' : c * (k / s) > SF.epsilon) :
    SF.first_clothoid (k / c) (s / c ^ 2) =
      ⟨c * (SF.first_clothoid k s).x, c * (SF.first_clothoid k s).y, (SF.first_clothoid k s).theta⟩ := by
  have hl : k / c / (s / c ^ 2) = c * (k / s) := by field_simp
  have hq : √|s / c ^ 2| = √|s| / c := by
    rw [abs_div, abs_of_pos (by positivity : (0:ℝ) < c ^ 2), sqrt_div' _ (by positivity), sqrt_sq hc.le]
  have hg : SF.sgn (s / c ^ 2) = SF.sgn s := by
    have : 0 < s / c ^ 2 := by positivity
    unfold SF.sgn
    rw [if_neg (by linarith), if_neg (by linarith)]
  have hr : 0 < √s := sqrt_pos.2 hs
  have ha : |s / c ^ 2| = |s| / c ^ 2 := by rw [abs_div, abs_of_pos (by positivity : (0:ℝ) < c ^ 2)]
  unfold SF.first_clothoid
  dsimp only
  rw [hl, if_pos h, if_pos h']
  unfold SF.end_of_clothoid
  dsimp only
  rw [hq, hg, ha]
  have e2 : 1 / √π * (1 / (√|s| / c)) * (|s| / c ^ 2 * (c * (k / s)) + SF.sgn s * 0)
      = 1 / √π * (1 / √|s|) * (|s| * (k / s) + SF.sgn s * 0) := by
    rw [mul_zero, add_zero, add_zero, abs_of_pos hs]; field_simp
  have e3 : 1 / √π * (1 / (√|s| / c)) * SF.sgn s * 0 = 1 / √π * (1 / √|s|) * SF.sgn s * 0 := by ring
  have e1 : (0:ℝ) - 0.5 * 1 * 0 * 0 / (s / c ^ 2) = 0 - 0.5 * 1 * 0 * 0 / s := by ring
  have e4 : (0:ℝ) + 0 * 1 * (c * (k / s)) + 0.5 * (s / c ^ 2) * 1 * (c * (k / s)) * (c * (k / s))
      = 0 + 0 * 1 * (k / s) + 0.5 * s * 1 * (k / s) * (k / s) := by field_simp; ring
  rw [e1, e2, e3, e4, one_div_div]
  refine SF.Pose.ext ?_ ?_ rfl <;> dsimp only <;> ring

theorem param_scaled (hc : 0 < c) {k s : ℝ} (hk : 0 < k) (hs : 0 < s) (h : k / s > SF.epsilon) (h' : c * (k / s) > SF.epsilon) :
    SF.hc_cc_circle_param (k / c) (s / c ^ 2) = zp c (SF.hc_cc_circle_param k s) := by
  unfold SF.hc_cc_circle_param SF.set_param zp
  dsimp only
  rw [clothoid_scaled hc hs h h']
  dsimp only
  generalize SF.first_clothoid k s = e
  have ex : c * e.x - sin e.theta / (k / c) = c * (e.x - sin e.theta / k) := by field_simp
  have ey : c * e.y + cos e.theta / (k / c) = c * (e.y + cos e.theta / k) := by field_simp
  rw [ex, ey, mul_div_mul_left _ _ hc.ne']
  have er : SF.point_distance (c * (e.x - sin e.theta / k)) (c * (e.y + cos e.theta / k)) 0 0
      = c * SF.point_distance (e.x - sin e.theta / k) (e.y + cos e.theta / k) 0 0 := by
    unfold SF.point_distance
    rw [← sqrt_sq hc.le, ← sqrt_mul (by positivity), sqrt_sq hc.le]
    congr 1; ring
  rw [er]
  have ed : 0.5 * (k / c) ^ 2 / (s / c ^ 2) = 0.5 * k ^ 2 / s := by field_simp
  have ei : 1 / (k / c) = c * (1 / k) := by field_simp
  rw [ed, ei]

theorem dist_scaled (hc : 0 < c) (a b d e : ℝ) :
    SF.point_distance (c * a) (c * b) (c * d) (c * e) = c * SF.point_distance a b d e := by
  unfold SF.point_distance
  rw [← sqrt_sq hc.le, ← sqrt_mul (by positivity), sqrt_sq hc.le]
  congr 1; ring

theorem cfg_dist (hc : 0 < c) (p q : SF.Configuration) :
    SF.configuration_distance (zq c p) (zq c q) = c * SF.configuration_distance p q := dist_scaled hc _ _ _ _

theorem atan_scaled (hc : 0 < c) (a b d e : ℝ) : SF.atan2 (c * a - c * b) (c * d - c * e) = SF.atan2 (a - b) (d - e) := by
  unfold SF.atan2
  have : (⟨c * d - c * e, c * a - c * b⟩ : ℂ) = (c : ℂ) * ⟨d - e, a - b⟩ := by
    apply Complex.ext <;> simp <;> ring
  rw [this, Complex.arg_real_mul _ hc]

theorem circle_scaled (q : SF.Configuration) (l f r : Bool) (P : SF.CircleParam) :
    SF.circleAt (zq c q) l f r (zp c P) = zc c (SF.circleAt q l f r P) := by
  unfold SF.circleAt zc zp zq
  cases l <;> cases f <;> simp only [if_true, if_false, Bool.false_eq_true] <;>
    refine SF.Circle.ext ?_ ?_ ?_ rfl rfl rfl rfl rfl rfl rfl rfl rfl ?_ ?_ <;> dsimp only [SF.global_frame_change] <;> ring

theorem center_scaled (hc : 0 < c) (C D : SF.Circle) : SF.center_distance (zc c C) (zc c D) = c * SF.center_distance C D := by
  unfold SF.center_distance zc
  dsimp only
  rw [← sqrt_sq hc.le, ← sqrt_mul (by positivity), sqrt_sq hc.le]
  congr 1; ring

theorem tist_scaled (hc : 0 < c) (C D : SF.Circle) : SF.CC00.TiST_tangent_circles (zc c C) (zc c D) =
    (zq c (SF.CC00.TiST_tangent_circles C D).1, zq c (SF.CC00.TiST_tangent_circles C D).2) := by
  unfold SF.CC00.TiST_tangent_circles
  dsimp only
  rw [center_scaled hc]
  have e : 2 * (zc c C).radius * (zc c C).cos_mu / (c * SF.center_distance C D)
      = 2 * C.radius * C.cos_mu / SF.center_distance C D := by
    rw [show 2 * (zc c C).radius * (zc c C).cos_mu = c * (2 * C.radius * C.cos_mu) by unfold zc zp; dsimp only; ring,
      mul_div_mul_left _ _ hc.ne']
  have e2 : SF.atan2 ((zc c D).yc - (zc c C).yc) ((zc c D).xc - (zc c C).xc) = SF.atan2 (D.yc - C.yc) (D.xc - C.xc) :=
    atan_scaled hc _ _ _ _
  rw [e, e2]
  generalize SF.atan2 (D.yc - C.yc) (D.xc - C.xc) = a
  generalize arcsin (2 * C.radius * C.cos_mu / SF.center_distance C D) = b
  have e3 : (zc c C).radius * (zc c C).sin_mu = c * (C.radius * C.sin_mu) := by unfold zc zp; dsimp only; ring
  have e4 : (zc c C).radius * (zc c C).cos_mu = c * (C.radius * C.cos_mu) := by unfold zc zp; dsimp only; ring
  have e5 : (zc c C).left = C.left := rfl
  have e6 : (zc c C).forward = C.forward := rfl
  rw [e3, e4, e5, e6]
  cases C.left <;> cases C.forward <;> simp only [if_true, if_false, Bool.false_eq_true] <;>
    simp only [zc, ← mul_neg, frame, zq_configuration]

theorem test_scaled (hc : 0 < c) (C D : SF.Circle) : SF.CC00.TeST_tangent_circles (zc c C) (zc c D) =
    (zq c (SF.CC00.TeST_tangent_circles C D).1, zq c (SF.CC00.TeST_tangent_circles C D).2) := by
  unfold SF.CC00.TeST_tangent_circles
  dsimp only
  have e2 : SF.atan2 ((zc c D).yc - (zc c C).yc) ((zc c D).xc - (zc c C).xc) = SF.atan2 (D.yc - C.yc) (D.xc - C.xc) :=
    atan_scaled hc _ _ _ _
  rw [e2]
  generalize SF.atan2 (D.yc - C.yc) (D.xc - C.xc) = a
  have e3 : (zc c C).radius * (zc c C).sin_mu = c * (C.radius * C.sin_mu) := by unfold zc zp; dsimp only; ring
  have e4 : (zc c C).radius * (zc c C).cos_mu = c * (C.radius * C.cos_mu) := by unfold zc zp; dsimp only; ring
  have e5 : (zc c C).left = C.left := rfl
  have e6 : (zc c C).forward = C.forward := rfl
  rw [e3, e4, e5, e6]
  cases C.left <;> cases C.forward <;> simp only [if_true, if_false, Bool.false_eq_true] <;>
    simp only [zc, ← mul_neg, frame, zq_configuration]

/-- A turn in another unit of length, if the tolerance of the elementary path applies in neither unit. -/
theorem turn_scaled (hc : 0 < c) (C : SF.Circle) (q : SF.Configuration)
    (h : SF.epsilon ≤ C.deflection q → C.deflection q < 2 * C.delta_min →
      SF.epsilon < SF.point_distance C.start.x C.start.y q.x q.y ∧ SF.epsilon < c * SF.point_distance C.start.x C.start.y q.x q.y) :
    (zc c C).cc_turn_length (zq c q) = c * C.cc_turn_length q := by
  have ed : (zc c C).deflection (zq c q) = C.deflection q := rfl
  have ek : |(zc c C).kappa / (zc c C).sigma| = c * |C.kappa / C.sigma| := by
    rw [show (zc c C).kappa / (zc c C).sigma = c * (C.kappa / C.sigma) by unfold zc zp; dsimp only; field_simp,
      abs_mul, abs_of_pos hc]
  have ei : ∀ x, |(zc c C).kappa_inv * x| = c * |C.kappa_inv * x| := by
    intro x
    rw [show (zc c C).kappa_inv * x = c * (C.kappa_inv * x) by unfold zc zp; dsimp only; ring, abs_mul, abs_of_pos hc]
  have e3 : ∀ x, (zc c C).cc_circular_deflection x = C.cc_circular_deflection x := fun x => rfl
  have e4 : (zc c C).delta_min = C.delta_min := rfl
  have e5 : 2 * (zc c C).radius * (zc c C).sin_mu = c * (2 * C.radius * C.sin_mu) := by unfold zc zp; dsimp only; ring
  unfold SF.Circle.cc_turn_length
  dsimp only
  rw [ed, ek, ei, e3, e4, e5]
  by_cases h1 : C.deflection q < SF.epsilon
  · rw [if_pos h1, if_pos h1]
  rw [if_neg h1, if_neg h1]
  by_cases h2 : C.deflection q < 2 * C.delta_min
  swap
  · rw [if_neg h2, if_neg h2]; ring
  rw [if_pos h2, if_pos h2]
  obtain ⟨a, b⟩ := h (not_lt.1 h1) h2
  unfold SF.Circle.cc_elementary_sharpness
  dsimp only
  have e6 : SF.point_distance (zc c C).start.x (zc c C).start.y (zq c q).x (zq c q).y
      = c * SF.point_distance C.start.x C.start.y q.x q.y := dist_scaled hc _ _ _ _
  have e7 : (zc c C).left = C.left := rfl
  rw [e6, e7]
  generalize SF.point_distance C.start.x C.start.y q.x q.y = D at *
  by_cases h3 : C.deflection q < 4.5948
  swap
  · rw [if_neg (fun g => h3 g.1), if_neg (fun g => h3 g.1)]; ring
  rw [if_pos (show _ ∧ _ from ⟨h3, b⟩), if_pos (show _ ∧ _ from ⟨h3, a⟩)]
  dsimp only
  generalize C.deflection q = d at *
  have e8 : ∀ l : Bool, 2 * √(d / |if l = true then 4 * π * SF.Circle.D1 (0.5 * d) ^ 2 / (c * D) ^ 2
      else -(4 * π * SF.Circle.D1 (0.5 * d) ^ 2 / (c * D) ^ 2)|)
      = c * (2 * √(d / |if l = true then 4 * π * SF.Circle.D1 (0.5 * d) ^ 2 / D ^ 2
      else -(4 * π * SF.Circle.D1 (0.5 * d) ^ 2 / D ^ 2)|)) := by
    intro l
    have g : ∀ y : ℝ, |if l = true then y else -y| = |y| := by intro y; split_ifs <;> simp
    rw [g, g]
    have g2 : d / |4 * π * SF.Circle.D1 (0.5 * d) ^ 2 / (c * D) ^ 2| = c ^ 2 * (d / |4 * π * SF.Circle.D1 (0.5 * d) ^ 2 / D ^ 2|) := by
      rw [mul_pow, abs_div, abs_div, abs_mul (c ^ 2), abs_of_pos (by positivity : (0:ℝ) < c ^ 2)]
      rw [div_div_eq_mul_div, div_div_eq_mul_div]; ring
    rw [g2, sqrt_mul (by positivity), sqrt_sq hc.le]; ring
  rw [e8]
  have e9 : 2 * (c * |C.kappa / C.sigma|) + c * |C.kappa_inv * C.cc_circular_deflection d|
      = c * (2 * |C.kappa / C.sigma| + |C.kappa_inv * C.cc_circular_deflection d|) := by ring
  rw [e9]
  by_cases h4 : 2 * √(d / |if C.left = true then 4 * π * SF.Circle.D1 (0.5 * d) ^ 2 / D ^ 2
      else -(4 * π * SF.Circle.D1 (0.5 * d) ^ 2 / D ^ 2)|) < 2 * |C.kappa / C.sigma| + |C.kappa_inv * C.cc_circular_deflection d|
  · rw [if_pos h4, if_pos (mul_lt_mul_of_pos_left h4 hc)]
  · rw [if_neg h4, if_neg (fun g => h4 (lt_of_mul_lt_mul_left g hc.le))]

/-- The ends of a turn that may be driven with an elementary path are not close to each other. -/
theorem chord_lower {C : SF.Circle} {k s : ℝ} (H : Rng k s) (hks : k ^ 2 ≤ 2 * s) (h : CC00.CircOk C k s) {q : SF.Configuration}
    (hq : cen (-(sg C.forward * ccA k s)) (sg C.left * ccB k s) (cfg q) = center C) (hd : C.deflection q < 2 * C.delta_min) :
    k / s / 30 ≤ SF.point_distance C.start.x C.start.y q.x q.y := by
  have hs := H.sigma
  have hk := H.pos
  obtain ⟨a1, a2, -⟩ := deflection_spec C q
  rw [h.ok.delta_min] at hd
  have h1 : C.deflection q ≤ 2 := by
    refine hd.le.trans ?_
    rw [show 2 * (k ^ 2 / (2 * s)) = k ^ 2 / s by field_simp, div_le_iff₀ hs]; exact hks
  obtain ⟨a, ha⟩ : ∃ a, a = C.deflection q / 2 := ⟨_, rfl⟩
  have ha0 : 0 ≤ a := by linarith
  have ha1 : a ≤ 1 := by linarith
  have hA := ccA_lower' H.kappa hs H.clothoid
  have hApos := ccA_pos H.kappa hs H.clothoid
  have hB := ccB_pos H.kappa hs H.clothoid
  have hsin : 0 ≤ sin a := sin_nonneg_of_nonneg_of_le_pi ha0 (by linarith [pi_gt_three])
  have hcos : 1 / 2 ≤ cos a := by
    have := one_sub_sq_div_two_le_cos (x := a)
    nlinarith
  have hchord : ccA k s / 2 ≤ ccA k s * cos a + ccB k s * sin a := by
    have := mul_nonneg hB.le hsin
    nlinarith
  have hA2 : k / s / 30 ≤ ccA k s := by
    refine le_trans ?_ hA
    have hr : 0 < √s := sqrt_pos.2 hs
    have hss : √s ^ 2 = s := sq_sqrt hs.le
    have : k / s / 3 ≤ 1 / √s / 2 := by
      rw [div_div, div_div, div_le_div_iff₀ (by positivity) (by positivity)]
      have : k ≤ 3 / 2 * √s := by
        refine abs_le_of_sq_le_sq' ?_ (by positivity) |>.2
        rw [mul_pow, hss]; nlinarith
      nlinarith
    have h3 : k / s / 3 ≤ k / s := by
      have : 0 < k / s := by positivity
      linarith
    have := le_min h3 this
    linarith
  have e := chord_dist (A := ccA k s) (B := ccB k s) (a := a) (e := 0) (sg_pm C.forward) (sg_pm C.left) (p := cfg C.start) (r := cfg q)
    (by rw [ha, show 2 * (C.deflection q / 2) = C.deflection q by ring]; exact a1)
    (by rw [hq, h.cen]; simp) (by linarith)
  have e2 : SF.point_distance C.start.x C.start.y q.x q.y = ‖(cfg q).pos - (cfg C.start).pos‖ := turn_distance C q true
  rw [e2]
  have := (abs_le.1 e).1
  linarith

/-- The state in a unit of length that is `c` times smaller. -/
def zs (c : ℝ) (s : SF.State) : SF.State := ⟨c * s.x, c * s.y, s.theta, s.kappa / c, s.d⟩

theorem table_tist {sp : SF.HCSpace} {c1 c2 : SF.Circle} (h1 : ¬ SF.configuration_equal c1.start c2.start)
    (h2 : ¬ SF.configuration_aligned c1.start c2.start) (h3 : ¬ SF.configuration_aligned c2.start c1.start)
    (h4 : ¬ SF.configuration_on_hc_cc_circle c1 c2.start) (h : SF.CC00.TiST_exists (SF.scratch c1 c2) c1 c2) :
    (SF.CC00.table sp (SF.scratch c1 c2) c1 c2 4).length = (SF.CC00.TiST_path c1 c2).1 := by
  classical
  rw [cc00_table h1 h2 h3 h4, if_neg (by simp), if_pos ⟨rfl, Or.inl h⟩, ← cc00_TST_eq]
  unfold SF.CC00.TST_path
  rw [if_pos h]

theorem table_test {sp : SF.HCSpace} {c1 c2 : SF.Circle} (h1 : ¬ SF.configuration_equal c1.start c2.start)
    (h2 : ¬ SF.configuration_aligned c1.start c2.start) (h3 : ¬ SF.configuration_aligned c2.start c1.start)
    (h4 : ¬ SF.configuration_on_hc_cc_circle c1 c2.start) (h : SF.CC00.TeST_exists (SF.scratch c1 c2) c1 c2) :
    (SF.CC00.table sp (SF.scratch c1 c2) c1 c2 4).length = (SF.CC00.TeST_path c1 c2).1 := by
  classical
  rw [cc00_table h1 h2 h3 h4, if_neg (by simp), if_pos ⟨rfl, Or.inr h⟩, ← cc00_TST_eq]
  unfold SF.CC00.TST_path
  have hn : ¬ SF.CC00.TiST_exists (SF.scratch c1 c2) c1 c2 := by
    unfold SF.CC00.TeST_exists at h
    unfold SF.CC00.TiST_exists
    by_cases g : c1.left = c2.left
    · simp [g]
    · simp [g] at h
  rw [if_neg hn, if_pos h]

theorem le_scaled (hc : 0 < c) {k s d d' : ℝ} {fw : Bool} (H : InRange k s) (hl : 3 / 1000 < k / s) (hl' : 3 / 1000 < c * (k / s))
    (hks : k ^ 2 ≤ 2 * s) {s1 s2 : SF.State} (far : 6 * radiusBound k s + 1 / 10000 < dist2 s1 s2) (fin : dist2 s1 s2 ≤ 10 ^ 100)
    (line : ¬ OnLine s1 s2) (H' : Rng (k / c) (s / c ^ 2)) (O' : Open ⟨k / c, s / c ^ 2, d', fw⟩ (zs c s1) (zs c s2)) :
    SF.CC00.get_distance ⟨k / c, s / c ^ 2, d', fw⟩ (zs c s1) (zs c s2) ≤ c * SF.CC00.get_distance ⟨k, s, d, fw⟩ s1 s2 := by
  obtain ⟨sp, hsp⟩ : ∃ sp : SF.HCSpace, sp = ⟨k, s, d, fw⟩ := ⟨_, rfl⟩
  obtain ⟨sp', hsp'⟩ : ∃ sp' : SF.HCSpace, sp' = ⟨k / c, s / c ^ 2, d', fw⟩ := ⟨_, rfl⟩
  have R := H.rng
  have hR : 0 ≤ radiusBound k s := by
    have := R.pos
    have := R.sigma
    rw [radiusBound]; positivity
  have eps : SF.epsilon = 1 / 10000 := by norm_num [SF.epsilon]
  have hP : sp'.param = zp c sp.param := by
    rw [hsp, hsp']
    exact param_scaled hc R.pos R.sigma R.clothoid (by rw [eps]; linarith)
  have O : Open sp s1 s2 := by rw [hsp]; exact ⟨by dsimp only; linarith, line⟩
  rw [← hsp'] at O'
  have R0 : Rng sp.kappa sp.sigma := by rw [hsp]; exact R
  have R' : Rng sp'.kappa sp'.sigma := by rw [hsp']; exact H'
  obtain ⟨i, j, t, r, hi, hj, e, F⟩ := CC00.selected (sp := sp) s1 s2 R0.kappa R0.sigma R0.clothoid (by rw [hsp]; exact H.finite) fin
  have hd : SF.CC00.get_distance sp s1 s2 = r.length := by
    unfold SF.CC00.get_distance; rw [e]; rfl
  obtain ⟨C1, hC1⟩ : ∃ C1, C1 = SF.CC00.start_circle sp (confOf s1) i := ⟨_, rfl⟩
  obtain ⟨C2, hC2⟩ : ∃ C2, C2 = SF.CC00.end_circle sp (confOf s2) j := ⟨_, rfl⟩
  have k1 : CC00.CircOk C1 k s := by
    have := CC00.circOk_at R0.kappa R0.sigma R0.clothoid (confOf s1) (i = 0) sp.forwards true
    rw [hC1]; rw [hsp] at this ⊢; exact this
  have k2 : CC00.CircOk C2 k s := by
    have := CC00.circOk_at R0.kappa R0.sigma R0.clothoid (confOf s2) (j = 0) (!sp.forwards) true
    rw [hC2]; rw [hsp] at this ⊢; exact this
  have z1 : SF.CC00.start_circle sp' (confOf (zs c s1)) i = zc c C1 := by
    rw [hC1]; unfold SF.CC00.start_circle
    rw [hP, show sp'.forwards = sp.forwards by rw [hsp, hsp'], ← circle_scaled]; rfl
  have z2 : SF.CC00.end_circle sp' (confOf (zs c s2)) j = zc c C2 := by
    rw [hC2]; unfold SF.CC00.end_circle
    rw [hP, show sp'.forwards = sp.forwards by rw [hsp, hsp'], ← circle_scaled]; rfl
  have upper : SF.CC00.get_distance sp' (zs c s1) (zs c s2)
      ≤ (SF.CC00.table sp' (SF.scratch (zc c C1) (zc c C2)) (zc c C1) (zc c C2) 4).length := by
    have h1 := (C04_array_index_min (fun n => (SF.CC00.path sp' (zs c s1) (zs c s2) n).length) 4 (by norm_num)).2.1 (2 * i + j) (by omega)
    have h2 : (SF.CC00.path sp' (zs c s1) (zs c s2) (2 * i + j)).length
        ≤ (SF.CC00.table sp' (SF.scratch (zc c C1) (zc c C2)) (zc c C1) (zc c C2) 4).length := by
      have e1 : (2 * i + j) / 2 = i := by omega
      have e2 : (2 * i + j) % 2 = j := by omega
      have := CC00.body_le sp' (SF.scratch (zc c C1) (zc c C2)) (zc c C1) (zc c C2) (i := 4) (by norm_num)
      rw [CC00.path_eq, e1, e2]
      change (SF.CC00.circles_dubins_path sp' (SF.CC00.start_circle sp' (confOf (zs c s1)) i)
        (SF.CC00.end_circle sp' (confOf (zs c s2)) j)).length ≤ _
      rw [z1, z2]; exact this
    exact le_trans h1 h2
  have n1 : ¬ SF.configuration_equal (zc c C1).start (zc c C2).start := by
    rw [← z1, ← z2]; exact O'.not_equal R'
  have n2 : ¬ SF.configuration_aligned (zc c C1).start (zc c C2).start := by
    rw [← z1, ← z2]; exact fun g => O'.line (onLine_of_aligned g)
  have n3 : ¬ SF.configuration_aligned (zc c C2).start (zc c C1).start := by
    rw [← z1, ← z2]; exact fun g => O'.line (onLine_of_aligned' g)
  have n4 : ¬ SF.configuration_on_hc_cc_circle (zc c C1) (zc c C2).start := by
    have := O'.not_on R' (l1 := i = 0) (f1 := sp'.forwards) (r1 := true)
    rw [← z2]
    rw [← z1]; exact this
  have hf : C2.forward = !C1.forward := by rw [hC1, hC2]; rfl
  have hrad : C1.radius ≤ radiusBound k s := by
    rw [hC1]
    have := circleAt_radius_le R0 (confOf s1) (i = 0) sp.forwards true
    rw [hsp] at this ⊢; exact this
  have hrad2 : C2.radius = C1.radius := by rw [k2.ok.radius, k1.ok.radius]
  have hdc : dist2 s1 s2 ≤ C1.radius + C2.radius + SF.center_distance C1 C2 := by
    have := CC00.start_dist_le k1 k2
    rw [hC1, hC2] at this ⊢; exact this
  have hA := ccA_pos R.kappa R.sigma R.clothoid
  have hB := ccB_pos R.kappa R.sigma R.clothoid
  have hlne : ∀ {a b : Bool}, ¬ a = b → b = !a := by decide
  have turn : ∀ {C : SF.Circle} {q : SF.Configuration}, CC00.CircOk C k s →
      cen (-(sg C.forward * ccA k s)) (sg C.left * ccB k s) (cfg q) = center C →
      (zc c C).cc_turn_length (zq c q) = c * C.cc_turn_length q := by
    intro C q hC hq
    refine turn_scaled hc C q fun _ g => ?_
    have := chord_lower R hks hC hq g
    rw [eps]
    refine ⟨by linarith, ?_⟩
    have h2 : c * (k / s / 30) ≤ c * SF.point_distance C.start.x C.start.y q.x q.y := mul_le_mul_of_nonneg_left this hc.le
    have h3 : c * (k / s / 30) = c * (k / s) / 30 := by ring
    linarith
  rw [← hsp, ← hsp', hd]
  refine upper.trans ?_
  have F' : CC00.Found sp (SF.scratch C1 C2) C1 C2 t r := by rw [hC1, hC2]; exact F
  cases F' with
  | E h => exact absurd (by rw [hC1, hC2] at h; exact h) (O.not_equal R0)
  | S h hf => exact absurd (onLine_of_aligned (by rw [hC1, hC2] at h; exact h)) O.line
  | Sb h hf => exact absurd (onLine_of_aligned' (by rw [hC1, hC2] at h; exact h)) O.line
  | T h => exact absurd (by rw [hC1, hC2] at h; exact h) (O.not_on R0 (l1 := i = 0) (f1 := sp.forwards) (r1 := true))
  | TT h =>
    exfalso
    unfold SF.CC00.TT_exists at h
    split_ifs at h
    have h1 := (abs_lt.1 h).2
    rw [eps] at h1
    have h2 : (SF.scratch C1 C2).distance = SF.center_distance C1 C2 := rfl
    linarith
  | TiST h =>
    have h' : SF.CC00.TiST_exists (SF.scratch (zc c C1) (zc c C2)) (zc c C1) (zc c C2) := by
      unfold SF.CC00.TiST_exists at h ⊢
      split_ifs at h with g1 g2
      rw [if_neg (show ¬ (zc c C1).left = (zc c C2).left from g1), if_neg (show ¬ (zc c C1).forward = (zc c C2).forward from g2)]
      change SF.center_distance (zc c C1) (zc c C2) ≥ 2 * (c * C1.radius)
      rw [center_scaled hc]
      have h : SF.center_distance C1 C2 ≥ 2 * C1.radius := h
      have := mul_le_mul_of_nonneg_left h hc.le
      linarith
    rw [table_tist n1 n2 n3 n4 h']
    unfold SF.CC00.TiST_exists at h
    split_ifs at h with hlr _
    have hlr' := hlne hlr
    obtain ⟨S1, S2, -⟩ := TiST_spec k1.ok.geom C2 hB h
    unfold SF.CC00.TiST_path
    dsimp only
    rw [tist_scaled hc, cfg_dist hc, turn k1 S1, turn k2 (by rw [hf, hlr', sg_not, sg_not, neg_mul, neg_neg, neg_mul, S2])]
    apply le_of_eq; ring
  | TeST h =>
    have h' : SF.CC00.TeST_exists (SF.scratch (zc c C1) (zc c C2)) (zc c C1) (zc c C2) := by
      unfold SF.CC00.TeST_exists at h ⊢
      split_ifs at h with g1 g2
      rw [if_neg (show ¬ (zc c C1).left ≠ (zc c C2).left from g1), if_neg (show ¬ (zc c C1).forward = (zc c C2).forward from g2)]
      change SF.center_distance (zc c C1) (zc c C2) ≥ 2 * (c * C1.radius) * C1.sin_mu
      rw [center_scaled hc]
      have h : SF.center_distance C1 C2 ≥ 2 * C1.radius * C1.sin_mu := h
      have := mul_le_mul_of_nonneg_left h hc.le
      linarith
    rw [table_test n1 n2 n3 n4 h']
    unfold SF.CC00.TeST_exists at h
    split_ifs at h with hlr _
    push Not at hlr
    obtain ⟨S1, S2, -⟩ := TeST_spec k1.ok.geom C2
    unfold SF.CC00.TeST_path
    dsimp only
    rw [test_scaled hc, cfg_dist hc, turn k1 S1, turn k2 (by rw [hf, ← hlr, sg_not, neg_mul, neg_neg, S2])]
    apply le_of_eq; ring
  | TTT h =>
    exfalso
    unfold SF.CC00.TTT_exists at h
    split_ifs at h
    have h2 : (SF.scratch C1 C2).distance = SF.center_distance C1 C2 := rfl
    linarith

end Spec.Units
