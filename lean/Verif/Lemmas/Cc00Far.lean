import Verif.Lemmas.Cc00Plan

/-!
# CC00-Dubins: states far apart
-/

noncomputable section

namespace Spec.CC00

open Real Props SF.CC00

theorem start_dist_le {c1 c2 : SF.Circle} {k s : ℝ} (h1 : CircOk c1 k s) (h2 : CircOk c2 k s) :
    SF.configuration_distance c1.start c2.start ≤ c1.radius + c2.radius + SF.center_distance c1 c2 := by
  rw [center_distance_eq, configuration_distance_eq]
  have e : (cfg c2.start).pos - (cfg c1.start).pos = (center c1 - (cfg c1.start).pos)
      - (center c2 - (cfg c2.start).pos) + (center c2 - center c1) := by ring
  rw [e]
  refine (norm_add_le _ _).trans ?_
  have := norm_sub_le (center c1 - (cfg c1.start).pos) (center c2 - (cfg c2.start).pos)
  rw [center_start h1, center_start h2] at this
  linarith

theorem on_circle_dist {c : SF.Circle} {k s : ℝ} (h : CircOk c k s) {q : SF.Configuration}
    (hq : SF.configuration_on_hc_cc_circle c q) :
    SF.configuration_distance c.start q ≤ 2 * c.radius + SF.epsilon := by
  unfold SF.configuration_on_hc_cc_circle at hq
  simp only at hq
  by_cases h1 : |SF.point_distance c.xc c.yc q.x q.y - c.radius| > SF.epsilon
  · simp [h1] at hq
  push Not at h1
  have hd : SF.point_distance c.xc c.yc q.x q.y = ‖center c - (cfg q).pos‖ := by
    rw [SF.point_distance, sqrt_eq_norm, norm_sub_rev]
    congr 1
  rw [hd] at h1
  have e : (cfg q).pos - (cfg c.start).pos = (center c - (cfg c.start).pos) - (center c - (cfg q).pos) := by ring
  rw [configuration_distance_eq, e]
  refine (norm_sub_le _ _).trans ?_
  rw [center_start h]
  have := abs_le.1 h1
  linarith

/-- Paths of one or two turns only between close states. -/
theorem found_far {sp : SF.HCSpace} {c1 c2 : SF.Circle} {k s : ℝ} (h1 : CircOk c1 k s) (h2 : CircOk c2 k s)
    {t : ℕ} {r : SF.Row} (h : Found sp (SF.scratch c1 c2) c1 c2 t r)
    (hfar : 4 * c1.radius + SF.epsilon < SF.configuration_distance c1.start c2.start) : t ≠ 2 ∧ t ≠ 3 := by
  have hR0 : 0 ≤ c1.radius := by rw [h1.ok.radius]; positivity
  have hrad2 : c2.radius = c1.radius := by rw [h2.ok.radius, h1.ok.radius]
  cases h with
  | T h => have := on_circle_dist h1 h; linarith
  | TT h =>
    unfold TT_exists at h
    split_ifs at h
    have := (abs_lt.1 h).2
    have e : (SF.scratch c1 c2).distance = SF.center_distance c1 c2 := rfl
    have := start_dist_le h1 h2
    linarith
  | _ => norm_num

theorem far_type {sp : SF.HCSpace} (h : InRange sp.kappa sp.sigma) (s1 s2 : SF.State) (hfin : dist2 s1 s2 ≤ 10 ^ 100)
    (hfar : 4 * sp.param.radius + SF.epsilon < dist2 s1 s2) :
    (cc00_dubins sp s1 s2).type ≠ 2 ∧ (cc00_dubins sp s1 s2).type ≠ 3 := by
  obtain ⟨i, j, t, r, hi, hj, he, hF⟩ := selected s1 s2 h.kappa h.sigma h.clothoid h.finite hfin
  rw [he]
  exact found_far (start_circle_ok h.kappa h.sigma h.clothoid (startOf s1) i)
    (end_circle_ok h.kappa h.sigma h.clothoid (startOf s2) j) hF hfar

/-- Distance of a touching point from the centre. -/
theorem dist_center {A B R : ℝ} {a b : ℝ} {q : Config} {z : ℂ} (h : cen a b q = z) (ha : a ^ 2 = A ^ 2)
    (hb : b ^ 2 = B ^ 2) (hR : R = √(A ^ 2 + B ^ 2)) : ‖q.pos - z‖ = R := by
  rw [← h, cen, ← norm_neg, neg_sub, add_sub_cancel_left, norm_cis_mul, ← sqrt_eq_norm, ha, hb, hR]

theorem sq_sg_mul (b : Bool) (x : ℝ) : (sg b * x) ^ 2 = x ^ 2 := by rw [mul_pow, sq, sg_sq, one_mul]

theorem deflection_cos (c : SF.Circle) (q : SF.Configuration) :
    cos (c.deflection q) = cos (q.theta - c.start.theta) := by
  obtain ⟨⟨n, hn⟩, _⟩ := deflection_spec c q
  rw [hn]
  rcases sg_pm c.forward with h | h <;> rcases sg_pm c.left with h' | h' <;> rw [h, h'] <;>
    rw [show ∀ a : ℝ, c.start.theta + a * c.deflection q + n * (2 * π) - c.start.theta
      = a * c.deflection q + n * (2 * π) from fun a => by ring, cos_add_int_mul_two_pi] <;> norm_num

theorem deflection_ge {c : SF.Circle} {q : SF.Configuration} (h : cos (q.theta - c.start.theta) < 0) :
    SF.epsilon ≤ c.deflection q := by
  by_contra hc
  push Not at hc
  have h0 := (deflection_spec c q).2.1
  rw [← deflection_cos] at h
  have : 0 < cos (c.deflection q) := by
    norm_num [SF.epsilon] at hc
    exact cos_pos_of_mem_Ioo ⟨by linarith [pi_gt_three], by linarith [pi_gt_three]⟩
  linarith

/-- A goal straight behind: both turns are large. -/
theorem tst_back {c1 c2 : SF.Circle} {k s : ℝ} (h1 : CircOk c1 k s) (h2 : CircOk c2 k s) (hf : c1.forward = true)
    (hR : c1.radius ≤ 5) (e1 : cfg c1.start = ⟨0, 0, 0⟩) (e2 : cfg c2.start = ⟨-100, 0, 0⟩)
    {q1 q2 : SF.Configuration} {b x : ℝ} (hb : b ^ 2 = ccB k s ^ 2)
    (S1 : cen (-(sg c1.forward * ccA k s)) (sg c1.left * ccB k s) (cfg q1) = center c1)
    (S2 : cen (sg c1.forward * ccA k s) b (cfg q2) = center c2) (S3 : q1.theta = q2.theta)
    (S4 : (cfg q2).pos - (cfg q1).pos = cis q1.theta * ((sg c1.forward * x : ℝ) : ℂ)) (hx : 0 ≤ x) :
    SF.epsilon ≤ c1.deflection q1 ∧ SF.epsilon ≤ c2.deflection q2 := by
  have hrad2 : c2.radius = c1.radius := by rw [h2.ok.radius, h1.ok.radius]
  have n1 := dist_center S1 (A := ccA k s) (B := ccB k s) (by rw [neg_sq, sq_sg_mul])
    (sq_sg_mul _ _) h1.ok.radius
  have n2 := dist_center S2 (A := ccA k s) (B := ccB k s) (sq_sg_mul _ _)
    hb h1.ok.radius
  have n3 := center_start h1
  have n4 := center_start h2
  rw [hrad2] at n4
  have p1 : (cfg c1.start).pos = 0 := by rw [e1]; simp [Config.pos]; rfl
  have p2 : (cfg c2.start).pos = -100 := by
    rw [e2]; apply Complex.ext <;> simp [Config.pos]
  rw [p1, sub_zero] at n3
  rw [p2] at n4
  have hsum : (cfg q2).pos - (cfg q1).pos
      = -100 + (((cfg q2).pos - center c2) + (center c2 - -100) - ((cfg q1).pos - center c1) - center c1) := by ring
  have hn : ‖((cfg q2).pos - center c2) + (center c2 - -100) - ((cfg q1).pos - center c1) - center c1‖ ≤ 20 := by
    refine (norm_sub_le _ _).trans ?_
    have a1 := norm_sub_le (((cfg q2).pos - center c2) + (center c2 - -100)) ((cfg q1).pos - center c1)
    have a2 := norm_add_le ((cfg q2).pos - center c2) (center c2 - -100)
    linarith
  generalize ((cfg q2).pos - center c2) + (center c2 - -100) - ((cfg q1).pos - center c1) - center c1 = z at hn hsum
  have hz := (Complex.abs_re_le_norm z).trans hn
  rw [S4, hf] at hsum
  have hre := congrArg Complex.re hsum
  have hcos : cos q1.theta * x = -100 + z.re := by
    simpa [cis, sg, -Complex.ofReal_mul, Complex.cos_ofReal_re] using hre
  have hneg : cos q1.theta < 0 := by
    by_contra hc
    push Not at hc
    have := mul_nonneg hc hx
    have := (abs_le.1 hz).2
    linarith
  have t1 : c1.start.theta = 0 := congrArg Config.theta e1
  have t2 : c2.start.theta = 0 := congrArg Config.theta e2
  exact ⟨deflection_ge (by rw [t1, sub_zero]; exact hneg), deflection_ge (by rw [t2, sub_zero, ← S3]; exact hneg)⟩

theorem startOf_zero (x : ℝ) {s : SF.State} (h : pose s = ⟨x, 0, 0⟩) : cfg (startOf s) = ⟨x, 0, 0⟩ := by
  have h1 : s.x = x := congrArg Config.x h
  have h2 : s.y = 0 := congrArg Config.y h
  have h3 : s.theta = 0 := congrArg Config.theta h
  have : SF.twopify 0 = 0 := SF.twopify_of_mem le_rfl (by positivity)
  simp only [startOf, SF.configuration, cfg, h1, h2, h3, this]

/-- The path to a goal straight behind. -/
theorem back_path {sp : SF.HCSpace} (hk : sp.kappa = 1) (hs : sp.sigma = 1) (hfw : sp.forwards = true)
    {s1 s2 : SF.State} (e1 : pose s1 = ⟨0, 0, 0⟩) (e2 : pose s2 = ⟨-100, 0, 0⟩) :
    (cc00_dubins sp s1 s2).type = 4 ∧
    ∀ x ∈ turns (cc00_dubins sp s1 s2).type (cc00_dubins sp s1 s2).row (startOf s2),
      SF.epsilon ≤ SF.Circle.deflection x.1 x.2 := by
  have h : InRange sp.kappa sp.sigma := by rw [hk, hs]; constructor <;> norm_num
  have hR : sp.param.radius ≤ 5 := by
    have := radius_le' h
    rw [hk, hs, radiusBound] at this
    linarith
  have hd : dist2 s1 s2 = 100 := by
    have h1 : s1.x = 0 := congrArg Config.x e1
    have h2 : s1.y = 0 := congrArg Config.y e1
    have h3 : s2.x = -100 := congrArg Config.x e2
    have h4 : s2.y = 0 := congrArg Config.y e2
    rw [dist2, h1, h2, h3, h4, show ((-100:ℝ) - 0) ^ 2 + (0 - 0) ^ 2 = 100 ^ 2 by norm_num]
    exact sqrt_sq (by norm_num)
  have hfar : 4 * sp.param.radius + SF.epsilon < dist2 s1 s2 := by rw [hd]; norm_num [SF.epsilon]; linarith
  obtain ⟨i, j, t, r, hi, hj, he, hF⟩ := selected s1 s2 h.kappa h.sigma h.clothoid h.finite (by rw [hd]; norm_num)
  have hft := far_type h s1 s2 (by rw [hd]; norm_num) hfar
  rw [he] at hft ⊢
  simp only at hft ⊢
  have h1 := start_circle_ok h.kappa h.sigma h.clothoid (startOf s1) i
  have h2 := end_circle_ok h.kappa h.sigma h.clothoid (startOf s2) j
  have c1 : cfg (start_circle sp (startOf s1) i).start = ⟨0, 0, 0⟩ := startOf_zero 0 e1
  have c2 : cfg (end_circle sp (startOf s2) j).start = ⟨-100, 0, 0⟩ := startOf_zero (-100) e2
  have hB := ccB_pos h.kappa h.sigma h.clothoid
  have hD : 90 ≤ SF.center_distance (start_circle sp (startOf s1) i) (end_circle sp (startOf s2) j) := by
    have := start_dist_le h1 h2
    change dist2 s1 s2 ≤ sp.param.radius + sp.param.radius + _ at this
    linarith
  have hc : SF.configuration_distance (start_circle sp (startOf s1) i).start (end_circle sp (startOf s2) j).start
      = 100 := hd
  have hR' : (start_circle sp (startOf s1) i).radius ≤ 5 := hR
  have hf1 : (start_circle sp (startOf s1) i).forward = true := hfw
  generalize start_circle sp (startOf s1) i = C1 at *
  generalize end_circle sp (startOf s2) j = C2 at *
  cases hF with
  | E h =>
    unfold SF.configuration_equal at h
    split_ifs at h with ha hb
    rw [hc] at hb; norm_num [SF.epsilon] at hb
  | S h _ =>
    exfalso
    unfold SF.configuration_aligned at h
    split_ifs at h with ha
    have x1 : C1.start.x = 0 := congrArg Config.x c1
    have x2 : C1.start.y = 0 := congrArg Config.y c1
    have x3 : C1.start.theta = 0 := congrArg Config.theta c1
    have x4 : C2.start.x = -100 := congrArg Config.x c2
    have x5 : C2.start.y = 0 := congrArg Config.y c2
    have : SF.atan2 (0 - 0) (-100 - 0) = π := by
      unfold SF.atan2
      have : (⟨-100 - 0, 0 - 0⟩ : ℂ) = ((-100 : ℝ) : ℂ) := by apply Complex.ext <;> simp
      rw [this, Complex.arg_ofReal_of_neg (by norm_num)]
    simp only [x1, x2, x3, x4, x5, this] at h
    rw [SF.twopify_of_mem pi_pos.le (by linarith [pi_pos]), sub_zero, abs_of_pos pi_pos] at h
    norm_num [SF.epsilon] at h
    linarith [pi_gt_three]
  | Sb h hb => rw [hfw] at hb; exact absurd hb (by simp)
  | T h => exact absurd rfl hft.1
  | TT h => exact absurd rfl hft.2
  | TiST h =>
    refine ⟨rfl, ?_⟩
    unfold TiST_exists at h
    split_ifs at h with hlr _
    obtain ⟨S1, S2, S3, S4, S5⟩ := TiST_spec h1.ok.geom C2 hB h
    have K := tst_back h1 h2 hf1 hR' c1 c2 (by rw [neg_sq, sq_sg_mul]) S1 S2 S3 S4 (by linarith)
    intro x hx
    simp only [turns, Option.bind_some, Option.map_some, Option.toList_some, List.mem_append, List.mem_singleton] at hx
    rcases hx with rfl | rfl
    · exact K.1
    · exact K.2
  | TeST h =>
    refine ⟨rfl, ?_⟩
    obtain ⟨S1, S2, S3, S4⟩ := TeST_spec h1.ok.geom C2
    have hA : ccA sp.kappa sp.sigma ≤ C1.radius := by
      rw [h1.ok.radius]; exact le_trans (le_abs_self _) (radius_bound _ _).1
    have K := tst_back h1 h2 hf1 hR' c1 c2 (sq_sg_mul _ _) S1 S2 S3 S4 (by linarith)
    intro x hx
    simp only [turns, Option.bind_some, Option.map_some, Option.toList_some, List.mem_append, List.mem_singleton] at hx
    rcases hx with rfl | rfl
    · exact K.1
    · exact K.2
  | TTT h =>
    exfalso
    unfold TTT_exists at h
    split_ifs at h
    have : (SF.scratch C1 C2).distance = SF.center_distance C1 C2 := rfl
    linarith

end Spec.CC00
