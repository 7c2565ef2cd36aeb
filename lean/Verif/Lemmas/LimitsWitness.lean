import Verif.Lemmas.CcOptimalAll
import Verif.Lemmas.Cc00Far

/-!
# CC00-Dubins: a single turn that exceeds the limits
-/

noncomputable section

namespace Spec

open Real Props

/-! ### Numbers: kappa = 1/1000, sigma = 1/125 -/

theorem wide_range : InRange (1 / 1000) (1 / 125) := by constructor <;> norm_num

theorem fresnelC_small {t : ℝ} (h0 : 0 ≤ t) (h1 : t ≤ 1 / 20) : t * (99 / 100) ≤ fresnelC t := by
  have hpi := pi_pos
  have := Poly.le_of_deriv_nonneg (a := 0) (b := t) (f := fun x => fresnelC x - x * (99 / 100))
    (f' := fun x => cos (π / 2 * x ^ 2) - 1 * (99 / 100)) h0
    (fun x _ _ => (Poly.hasDerivAt_fresnelC x).sub ((hasDerivAt_id' x).mul_const _)) ?_
  · simp only [fresnelC_zero] at this; linarith
  · intro x hx0 hx1
    have h1 := one_sub_sq_div_two_le_cos (x := π / 2 * x ^ 2)
    have h2 : x ^ 2 ≤ 1 / 400 := by nlinarith
    have h3 : π / 2 * x ^ 2 ≤ 1 / 100 := by nlinarith [pi_lt_four, sq_nonneg x]
    have h4 : 0 ≤ π / 2 * x ^ 2 := by positivity
    nlinarith

theorem wide_scale : cScale (1 / 125) * cArg (1 / 125) (1 / 1000 / (1 / 125)) = 1 / 8 ∧ cScale (1 / 125) ≤ 25 ∧
    15 ≤ cScale (1 / 125) := by
  have hp := pi_pos
  have hs : (0:ℝ) < 1 / 125 := by norm_num
  have hsq := cScale_sq hs
  have hc := cScale_pos hs
  refine ⟨?_, ?_, ?_⟩
  · unfold cScale cArg
    have h1 : √π ≠ 0 := (sqrt_pos.mpr pi_pos).ne'
    have h2 : √(1 / 125 : ℝ) ≠ 0 := (sqrt_pos.mpr hs).ne'
    have h3 : √(1 / 125 : ℝ) * √(1 / 125) = 1 / 125 := mul_self_sqrt hs.le
    generalize √(1 / 125 : ℝ) = w at h2 h3
    field_simp
    rw [sq, h3]; norm_num
  · have := pi_lt_four
    nlinarith
  · have := pi_gt_three
    nlinarith

theorem wide_A : 61 / 1000 ≤ ccA (1 / 1000) (1 / 125) ∧ ccA (1 / 1000) (1 / 125) ≤ 626 / 10000 := by
  obtain ⟨e, h25, h15⟩ := wide_scale
  rw [ccA_eq (by norm_num) (by norm_num)]
  obtain ⟨t, ht⟩ : ∃ t, t = cArg (1 / 125) (1 / 1000 / (1 / 125)) := ⟨_, rfl⟩
  rw [← ht] at e ⊢
  generalize cScale (1 / 125) = c at *
  have hc : 0 < c := by linarith
  have ht0 : 0 < t := by
    by_contra hn
    push Not at hn
    nlinarith
  have ht1 : t ≤ 1 / 20 := by nlinarith
  have hf := abs_le.1 (Poly.fresnel_accurate t).2
  have h1 := fresnelC_small ht0.le ht1
  have h2 := cenX_upper ht0
  have hpi := pi_pos
  have h3 : sin (π / 2 * t ^ 2) / (π * t) ≤ t / 2 := by
    rw [div_le_iff₀ (by positivity)]
    have := sin_le (show 0 ≤ π / 2 * t ^ 2 by positivity)
    nlinarith
  have h4 : 49 / 100 * t ≤ cenX t := by unfold cenX; linarith
  have h5 : c * (49 / 100 * t) = 49 / 800 := by linear_combination 49 / 100 * e
  have h6 : c * (t / 2) = 1 / 16 := by linear_combination 1 / 2 * e
  generalize (SF.fresnel t).2 - fresnelC t = x at hf ⊢
  constructor
  · nlinarith
  · nlinarith

theorem wide_B : ccB (1 / 1000) (1 / 125) ≤ 1001 ∧ 990 ≤ ccB (1 / 1000) (1 / 125) := by
  obtain ⟨e, h25, h15⟩ := wide_scale
  unfold ccB
  obtain ⟨t, ht⟩ : ∃ t, t = cArg (1 / 125) (1 / 1000 / (1 / 125)) := ⟨_, rfl⟩
  rw [← ht] at e ⊢
  generalize cScale (1 / 125) = c at *
  have hc : 0 < c := by linarith
  have ht0 : 0 < t := by
    by_contra hn
    push Not at hn
    nlinarith
  have hf := abs_le.1 (Poly.fresnel_accurate t).1
  have h1 := abs_le.1 (abs_fresnelS_le ht0.le)
  have h2 := cos_le_one ((1 / 1000 : ℝ) ^ 2 / (2 * (1 / 125)))
  have h3 : cos ((1 / 1000 : ℝ) ^ 2 / (2 * (1 / 125))) / (1 / 1000) ≤ 1000 := by linarith
  have h4 := one_sub_sq_div_two_le_cos (x := (1 / 1000 : ℝ) ^ 2 / (2 * (1 / 125)))
  have h5 : 999 ≤ cos ((1 / 1000 : ℝ) ^ 2 / (2 * (1 / 125))) / (1 / 1000) := by
    rw [le_div_iff₀ (by norm_num)]; norm_num at h4 ⊢; linarith
  constructor <;> nlinarith

theorem D1_small {a : ℝ} (h0 : 1 / 20000 ≤ a) (h1 : a ≤ 1 / 10000) :
    98 / 100 * √(2 * a / π) ≤ SF.Circle.D1 a ∧ SF.Circle.D1 a ≤ 101 / 100 * √(2 * a / π) := by
  have hp := pi_pos
  have hp4 := pi_lt_four
  have hp3 := pi_gt_three
  unfold SF.Circle.D1
  simp only
  obtain ⟨s, hs⟩ : ∃ s, s = √(2 * a / π) := ⟨_, rfl⟩
  rw [← hs]
  have hs2 : s ^ 2 = 2 * a / π := by rw [hs, sq_sqrt (by positivity)]
  have hs0 : 0 ≤ s := by rw [hs]; positivity
  have hlow : 1 / 40000 ≤ s ^ 2 := by
    rw [hs2, le_div_iff₀ hp]; nlinarith
  have hup : s ^ 2 ≤ 1 / 10000 := by
    rw [hs2, div_le_iff₀ hp]; nlinarith
  have hs1 : 1 / 200 ≤ s := by nlinarith
  have hs3 : s ≤ 1 / 20 := by nlinarith
  have f1 := abs_le.1 (Poly.fresnel_accurate s).1
  have f2 := abs_le.1 (Poly.fresnel_accurate s).2
  have g1 := abs_le.1 (abs_fresnelS_le hs0)
  have g2 := abs_le.1 (abs_fresnelC_le hs0)
  have g3 := fresnelC_small hs0 hs3
  have c1 := one_sub_sq_div_two_le_cos (x := a)
  have c2 := cos_le_one a
  have s1 := sin_le (show 0 ≤ a by linarith)
  have s0 := sin_nonneg_of_nonneg_of_le_pi (show 0 ≤ a by linarith) (by linarith)
  generalize (SF.fresnel s).1 = S at *
  generalize (SF.fresnel s).2 = C at *
  generalize fresnelS s = S' at *
  generalize fresnelC s = C' at *
  generalize cos a = co at *
  generalize sin a = si at *
  have hC : 989 / 1000 * s ≤ C := by norm_num at f2; linarith
  have hC' : C ≤ 1001 / 1000 * s := by norm_num at f2; linarith
  have hS : |S| ≤ 1001 / 1000 * s := by rw [abs_le]; norm_num at f1; constructor <;> linarith
  have hco : 9999 / 10000 ≤ co := by nlinarith
  have hsS : |si * S| ≤ 1 / 1000 * s := by
    rw [abs_mul, abs_of_nonneg s0]
    have := mul_le_mul (show si ≤ 1 / 10000 by linarith) hS (abs_nonneg _) (by norm_num)
    linarith
  have hsS' := abs_le.1 hsS
  have hl : 9999 / 10000 * (989 / 1000 * s) ≤ co * C :=
    mul_le_mul hco hC (by linarith) (by linarith)
  have hu : co * C ≤ 1 * (1001 / 1000 * s) := mul_le_mul c2 hC' (by linarith) (by norm_num)
  constructor
  · linarith
  · linarith

/-! ### Lengths of turns -/

/-- The three cases of a turn. -/
theorem turn_cases {c : SF.Circle} {k s : ℝ} (h : CircleOk c k s (ccA k s) (ccB k s)) (hk : 0 < k) (hs : 0 < s)
    (q : SF.Configuration) :
    (c.deflection q < SF.epsilon ∧ c.cc_turn_length q = 2 * ccA k s) ∨ 2 * (k / s) ≤ c.cc_turn_length q ∨
      (SF.epsilon ≤ c.deflection q ∧ c.deflection q < k ^ 2 / s ∧ c.deflection q < 4.5948 ∧
        SF.epsilon < SF.point_distance c.start.x c.start.y q.x q.y ∧
        c.cc_turn_length q = 2 * √(c.deflection q / (4 * π * SF.Circle.D1 (0.5 * c.deflection q) ^ 2
          / SF.point_distance c.start.x c.start.y q.x q.y ^ 2))) := by
  have hl : |c.kappa / c.sigma| = k / s := abs_kappa_sigma h hk hs
  have hdm : 2 * c.delta_min = k ^ 2 / s := by rw [h.delta_min]; field_simp
  unfold SF.Circle.cc_turn_length SF.Circle.cc_elementary_sharpness
  simp only [hl, hdm]
  generalize c.deflection q = d
  generalize SF.point_distance c.start.x c.start.y q.x q.y = D
  have hdef : 2 * (k / s) ≤ 2 * (k / s) + |c.kappa_inv * c.cc_circular_deflection d| := by
    linarith [abs_nonneg (c.kappa_inv * c.cc_circular_deflection d)]
  by_cases h1 : d < SF.epsilon
  · refine .inl ⟨h1, ?_⟩; rw [if_pos h1, mul_assoc, h.sin_mu]
  rw [if_neg h1]
  push Not at h1
  by_cases h2 : d < k ^ 2 / s
  swap
  · rw [if_neg h2]; exact .inr (.inl hdef)
  rw [if_pos h2]
  by_cases h3 : d < 4.5948 ∧ D > SF.epsilon
  swap
  · rw [if_neg h3]; exact .inr (.inl hdef)
  rw [if_pos h3]
  simp only
  have e : |if c.left = true then 4 * π * SF.Circle.D1 (0.5 * d) ^ 2 / D ^ 2 else -(4 * π * SF.Circle.D1 (0.5 * d) ^ 2 / D ^ 2)|
      = 4 * π * SF.Circle.D1 (0.5 * d) ^ 2 / D ^ 2 := by
    have : 0 ≤ 4 * π * SF.Circle.D1 (0.5 * d) ^ 2 / D ^ 2 := by have := pi_pos; positivity
    split_ifs
    · exact abs_of_nonneg this
    · rw [abs_neg, abs_of_nonneg this]
  rw [e]
  split_ifs with h4
  · exact .inr (.inr ⟨h1, h2, h3.1, h3.2, rfl⟩)
  · exact .inr (.inl hdef)

/-- Length of an elementary turn. -/
theorem elementary_len {d D : ℝ} (hd : 0 ≤ d) (hD : 0 < D) (h1 : 0 < SF.Circle.D1 (0.5 * d)) :
    2 * √(d / (4 * π * SF.Circle.D1 (0.5 * d) ^ 2 / D ^ 2)) * SF.Circle.D1 (0.5 * d) = D * √(2 * (0.5 * d) / π) := by
  have hp := pi_pos
  generalize SF.Circle.D1 (0.5 * d) = x at *
  have e : d / (4 * π * x ^ 2 / D ^ 2) = (D / (2 * x)) ^ 2 * (2 * (0.5 * d) / π) := by
    field_simp; ring
  rw [e, sqrt_mul (by positivity), sqrt_sq (by positivity)]
  field_simp

/-- Every turn of the wide circles is at least 12 cm long. -/
theorem wide_turn {c : SF.Circle} (h : CC00.CircOk c (1 / 1000) (1 / 125)) {q : SF.Configuration}
    (he : ‖cen (-(sg c.forward * ccA (1 / 1000) (1 / 125))) (sg c.left * ccB (1 / 1000) (1 / 125)) (cfg q) - center c‖
      ≤ SF.epsilon) : 12 / 100 ≤ c.cc_turn_length q := by
  have hA := wide_A
  have hB := ccB_pos wide_range.kappa wide_range.sigma wide_range.clothoid
  rcases turn_cases h.ok (by norm_num) (by norm_num) q with ⟨_, e⟩ | e | ⟨h1, h2, h3, h4, e⟩
  · rw [e]; linarith
  · norm_num at e; linarith
  · have hta := turn_angle c q true
    have hdist := turn_distance c q true
    rw [direction_eq, show sg true = 1 from rfl, mul_one] at hta
    obtain ⟨d, hd⟩ : ∃ d, d = c.deflection q := ⟨_, rfl⟩
    rw [← hd] at h1 h2 h3 e hta
    obtain ⟨D, hD⟩ : ∃ D, D = SF.point_distance c.start.x c.start.y q.x q.y := ⟨_, rfl⟩
    rw [← hD] at h4 e hdist
    norm_num [SF.epsilon] at h1 h2 h4
    have hD1 := D1_small (a := 0.5 * d) (by norm_num; linarith) (by norm_num; linarith)
    have hs0 : 0 < √(2 * (0.5 * d) / π) := sqrt_pos.2 (by have := pi_pos; positivity)
    have hl := elementary_len (d := d) (D := D) (by linarith) (by linarith) (by linarith)
    rw [← e] at hl
    have hcos := one_sub_sq_div_two_le_cos (x := d / 2)
    have hsin := sin_nonneg_of_nonneg_of_le_pi (x := d / 2) (by linarith) (by linarith [pi_gt_three])
    have hch := chord_dist (e := SF.epsilon) (A := ccA (1 / 1000) (1 / 125)) (B := ccB (1 / 1000) (1 / 125)) (a := d / 2)
      (d := sg c.forward) (l := sg c.left) (p := tFrom c q true) (r := tTo c q true) (sg_pm _) (sg_pm _)
      (by rw [show 2 * (d / 2) = d by ring]; exact hta)
      (by
        have : center c = cen (sg c.forward * ccA (1 / 1000) (1 / 125)) (sg c.left * ccB (1 / 1000) (1 / 125)) (tFrom c q true) := h.cen
        rw [← this]; exact he)
      (by
        have : 0 ≤ cos (d / 2) := by nlinarith
        have := mul_nonneg (by linarith [hA.1] : 0 ≤ ccA (1 / 1000) (1 / 125)) this
        have := mul_nonneg hB.le hsin
        linarith)
    rw [← hdist] at hch
    have hBs := mul_nonneg hB.le hsin
    have hch' := (abs_le.1 hch).1
    norm_num [SF.epsilon] at hch'
    have hc1 : 999 / 1000 ≤ cos (d / 2) := by nlinarith
    generalize ccA (1 / 1000) (1 / 125) = A at *
    generalize ccB (1 / 1000) (1 / 125) * sin (d / 2) = Bs at *
    have hD' : 1217 / 10000 ≤ D := by nlinarith
    generalize SF.Circle.D1 (0.5 * d) = x at *
    generalize √(2 * (0.5 * d) / π) = w at *
    generalize c.cc_turn_length q = L at *
    by_contra hn
    push Not at hn
    nlinarith

/-! ### Paths of two or three turns -/

namespace CC00

open SF.CC00

theorem TTT_long {c1 c2 : SF.Circle} (h1 : CircOk c1 (1 / 1000) (1 / 125)) (h2 : CircOk c2 (1 / 1000) (1 / 125))
    (hf : c2.forward = !c1.forward) (hlr : c2.left = c1.left)
    (x y : ℝ) (hd1 : ‖(⟨x, y⟩ : ℂ) - center c1‖ = 2 * c1.radius)
    (hd2 : ‖center c2 - ⟨x, y⟩‖ = 2 * c1.radius)
    (tgt : SF.Circle)
    (htgt : tgt = SF.circleCentered x y (!c1.left) c1.forward c1.regular (SF.hc_cc_circle_param (1 / 1000) (1 / 125)))
    (qa qb : SF.Configuration) (hqa : qa = TT_tangent_circles c1 tgt)
    (hqb : qb = TT_tangent_circles tgt c2) (mid : SF.Circle)
    (hmid : mid = SF.circleAt qa (!c1.left) c1.forward c1.regular (SF.hc_cc_circle_param (1 / 1000) (1 / 125))) :
    24 / 100 ≤ c1.cc_turn_length qa + mid.cc_turn_length qb + c2.cc_turn_length qb := by
  obtain ⟨hk, hs, hl, _⟩ := wide_range
  have hP := hc_param_ok hk hs hl
  have htc : center tgt = ⟨x, y⟩ := by rw [htgt]; rfl
  have htok : CircleOk tgt (1 / 1000) (1 / 125) (ccA (1 / 1000) (1 / 125)) (ccB (1 / 1000) (1 / 125)) := by
    rw [htgt]; exact circleCentered_ok hP _ _ _ _ _
  have hrad : tgt.radius = c1.radius := by rw [htok.radius, h1.ok.radius]
  have hmo : CircOk mid (1 / 1000) (1 / 125) := by rw [hmid]; exact circOk_at hk hs hl _ _ _ _
  have htl : tgt.left = !c1.left := by rw [htgt]; rfl
  have htf : tgt.forward = c1.forward := by rw [htgt]; rfl
  have hml : mid.left = !c1.left := by rw [hmid]; rfl
  have hmf : mid.forward = c1.forward := by rw [hmid]; rfl
  have hms : mid.start = qa := by rw [hmid]; rfl
  have D1 : SF.center_distance c1 tgt = 2 * c1.radius := by rw [center_distance_eq, htc]; exact hd1
  have D2 : SF.center_distance tgt c2 = 2 * c1.radius := by rw [center_distance_eq, htc]; exact hd2
  have S1 := TT_spec h1.ok.geom tgt
  have S2 := TT_spec htok.geom c2
  rw [D1, ← hqa, show 2 * c1.radius / 2 - c1.radius = 0 by ring, Complex.ofReal_zero, zero_mul, neg_zero,
    sub_eq_zero, sub_eq_zero] at S1
  rw [D2, ← hqb, hrad, show 2 * c1.radius / 2 - c1.radius = 0 by ring, Complex.ofReal_zero, zero_mul, neg_zero,
    sub_eq_zero, sub_eq_zero, htl, htf, sg_not, neg_mul, neg_neg] at S2
  have he : (0:ℝ) ≤ SF.epsilon := by norm_num [SF.epsilon]
  have E1 := wide_turn h1 (q := qa) (by rw [S1.1]; simpa using he)
  have E2 := wide_turn hmo (q := qb) (by rw [hmo.cen, hms, hml, hmf, sg_not, neg_mul, S1.2, S2.1]; simpa using he)
  have E3 := wide_turn h2 (q := qb) (by rw [hf, hlr, sg_not, neg_mul, neg_neg, S2.2]; simpa using he)
  linarith

/-- A path with more than one turn is at least 24 cm long. -/
theorem found_long {sp : SF.HCSpace} (hsk : sp.kappa = 1 / 1000) (hss : sp.sigma = 1 / 125) {c1 c2 : SF.Circle}
    (h1 : CircOk c1 (1 / 1000) (1 / 125)) (h2 : CircOk c2 (1 / 1000) (1 / 125)) (hf : c2.forward = !c1.forward)
    {t : ℕ} {r : SF.Row} (h : Found sp (SF.scratch c1 c2) c1 c2 t r) :
    t ≤ 1 ∨ (t = 2 ∧ r = { length := c1.cc_turn_length c2.start, cstart := some c1 }) ∨ 24 / 100 ≤ r.length := by
  have he : (0:ℝ) ≤ SF.epsilon := by norm_num [SF.epsilon]
  obtain ⟨hk, hs, hl, _⟩ := wide_range
  have hB := ccB_pos hk hs hl
  have hlne : ∀ {a b : Bool}, ¬ a = b → b = !a := by decide
  cases h with
  | E h => left; norm_num
  | S h hfw => left; norm_num
  | Sb h hfw => left; norm_num
  | T h => exact .inr (.inl ⟨rfl, rfl⟩)
  | TT h =>
    right; right
    unfold TT_exists at h
    split_ifs at h with hlr _
    have hlr' := hlne hlr
    have S := TT_spec h1.ok.geom c2
    have hd : ‖((SF.center_distance c1 c2 / 2 - c1.radius : ℝ) : ℂ)
        * cis (SF.atan2 (c2.yc - c1.yc) (c2.xc - c1.xc))‖ ≤ SF.epsilon := by
      rw [norm_mul, norm_cis, mul_one, Complex.norm_real, Real.norm_eq_abs]
      have h' := abs_lt.mp h
      simp only [SF.scratch] at h'
      rw [abs_le]; constructor <;> linarith
    have E1 := wide_turn h1 (q := (TT_path c1 c2).2) (by
      rw [show (TT_path c1 c2).2 = TT_tangent_circles c1 c2 from rfl, S.1]; exact hd)
    have E2 := wide_turn h2 (q := (TT_path c1 c2).2) (by
      rw [show (TT_path c1 c2).2 = TT_tangent_circles c1 c2 from rfl, hf, hlr', sg_not, sg_not, neg_mul,
          neg_neg, neg_mul, S.2, norm_neg]; exact hd)
    have : (TT_path c1 c2).1 = c1.cc_turn_length (TT_path c1 c2).2 + c2.cc_turn_length (TT_path c1 c2).2 := rfl
    simp only [this]
    linarith
  | TiST h =>
    right; right
    unfold TiST_exists at h
    split_ifs at h with hlr _
    have hlr' := hlne hlr
    obtain ⟨S1, S2, S3, S4, S5⟩ := TiST_spec h1.ok.geom c2 hB h
    have E1 := wide_turn h1 (q := (TiST_tangent_circles c1 c2).1) (by rw [S1]; simpa using he)
    have E2 := wide_turn h2 (q := (TiST_tangent_circles c1 c2).2)
      (by rw [hf, hlr', sg_not, sg_not, neg_mul, neg_neg, neg_mul, S2]; simpa using he)
    change _ ≤ c1.cc_turn_length _ + SF.configuration_distance _ _ + c2.cc_turn_length _
    have : 0 ≤ SF.configuration_distance (TiST_tangent_circles c1 c2).1 (TiST_tangent_circles c1 c2).2 := sqrt_nonneg _
    linarith
  | TeST h =>
    right; right
    unfold TeST_exists at h
    split_ifs at h with hlr _
    push Not at hlr
    obtain ⟨S1, S2, S3, S4⟩ := TeST_spec h1.ok.geom c2
    have E1 := wide_turn h1 (q := (TeST_tangent_circles c1 c2).1) (by rw [S1]; simpa using he)
    have E2 := wide_turn h2 (q := (TeST_tangent_circles c1 c2).2)
      (by rw [hf, ← hlr, sg_not, neg_mul, neg_neg, S2]; simpa using he)
    change _ ≤ c1.cc_turn_length _ + SF.configuration_distance _ _ + c2.cc_turn_length _
    have : 0 ≤ SF.configuration_distance (TeST_tangent_circles c1 c2).1 (TeST_tangent_circles c1 c2).2 := sqrt_nonneg _
    linarith
  | TTT h =>
    right; right
    unfold TTT_exists at h
    split_ifs at h with hlr _
    push Not at hlr
    have hP : sp.param = SF.hc_cc_circle_param (1 / 1000) (1 / 125) := by
      rw [show sp.param = SF.hc_cc_circle_param sp.kappa sp.sigma from rfl, hsk, hss]
    have hD0 : 0 ≤ SF.center_distance c1 c2 := sqrt_nonneg _
    have hp := center_polar c1 c2
    have e1 : (⟨c1.xc, c1.yc⟩ : ℂ) = center c1 := rfl
    have m1 := mid_dist h hD0 (SF.scratch c1 c2).angle 1 (by norm_num)
    have m2 := mid_dist h hD0 (SF.scratch c1 c2).angle (-1) (by norm_num)
    change center c2 = center c1 + ((SF.scratch c1 c2).distance : ℂ) * cis (SF.scratch c1 c2).angle at hp
    rw [hP]
    unfold TTT_path
    simp only
    split_ifs with hlt
    · refine TTT_long h1 h2 hf hlr.symm _ _ ?_ ?_ _ rfl _ _ rfl rfl _ rfl
      · rw [frame_cis, e1, add_sub_cancel_left]; simpa only [one_mul] using m1.1
      · rw [frame_cis, e1, hp, add_sub_add_left_eq_sub]; simpa only [one_mul] using m1.2
    · refine TTT_long h1 h2 hf hlr.symm _ _ ?_ ?_ _ rfl _ _ rfl rfl _ rfl
      · rw [frame_cis, e1, add_sub_cancel_left]; simpa only [neg_one_mul] using m2.1
      · rw [frame_cis, e1, hp, add_sub_add_left_eq_sub]; simpa only [neg_one_mul] using m2.2

/-! ### The states -/

def wideStart : SF.State := ⟨0, 0, 0, 0, 0⟩

/-- A goal at the end of a turn by 0.25e-4 to the left, but with heading 1.2e-4. -/
def wideGoal : SF.State :=
  ⟨ccA (1 / 1000) (1 / 125) + (ccA (1 / 1000) (1 / 125) * cos (1 / 40000) + ccB (1 / 1000) (1 / 125) * sin (1 / 40000)),
    ccB (1 / 1000) (1 / 125) + (ccA (1 / 1000) (1 / 125) * sin (1 / 40000) - ccB (1 / 1000) (1 / 125) * cos (1 / 40000)),
    12 / 100000, 0, 0⟩

theorem wideStart_theta : (startOf wideStart).theta = 0 := SF.twopify_of_mem le_rfl (by have := pi_pos; positivity)

theorem wideGoal_theta : (startOf wideGoal).theta = 12 / 100000 :=
  SF.twopify_of_mem (show (0:ℝ) ≤ 12 / 100000 by norm_num)
    (show (12 / 100000 : ℝ) < 2 * π by linarith [pi_gt_three])

theorem wideGoal_pos : 145 / 1000 ≤ wideGoal.x ∧ wideGoal.x ≤ 1503 / 10000 ∧ 0 ≤ wideGoal.y ∧ wideGoal.y ≤ 1 / 100000 := by
  have hA := wide_A
  obtain ⟨hB, hB'⟩ := wide_B
  have hB0 := ccB_pos wide_range.kappa wide_range.sigma wide_range.clothoid
  have c1 := one_sub_sq_div_two_le_cos (x := 1 / 40000)
  have c2 := cos_le_one (1 / 40000)
  have s1 := sin_le (show (0:ℝ) ≤ 1 / 40000 by norm_num)
  have s0 := sin_gt_sub_cube (show (0:ℝ) < 1 / 40000 by norm_num)
  simp only [wideGoal]
  generalize ccA (1 / 1000) (1 / 125) = A at *
  generalize ccB (1 / 1000) (1 / 125) = B at *
  generalize cos (1 / 40000) = co at *
  generalize sin (1 / 40000) = si at *
  refine ⟨?_, ?_, ?_, ?_⟩ <;> nlinarith

theorem wide_dist : 12 / 100 ≤ SF.point_distance (startOf wideStart).x (startOf wideStart).y (startOf wideGoal).x (startOf wideGoal).y ∧
    SF.point_distance (startOf wideStart).x (startOf wideStart).y (startOf wideGoal).x (startOf wideGoal).y ≤ 15032 / 100000 := by
  obtain ⟨h1, h2, h3, h4⟩ := wideGoal_pos
  change 12 / 100 ≤ √((wideGoal.x - 0) ^ 2 + (wideGoal.y - 0) ^ 2) ∧ √((wideGoal.x - 0) ^ 2 + (wideGoal.y - 0) ^ 2) ≤ _
  constructor
  · apply le_sqrt_of_sq_le; nlinarith
  · apply sqrt_le_iff.2; constructor
    · norm_num
    · nlinarith

theorem wide_not : ¬ SF.configuration_equal (startOf wideStart) (startOf wideGoal) ∧
    ¬ SF.configuration_aligned (startOf wideStart) (startOf wideGoal) ∧
    ¬ SF.configuration_aligned (startOf wideGoal) (startOf wideStart) := by
  unfold SF.configuration_equal SF.configuration_aligned
  rw [wideStart_theta, wideGoal_theta, if_pos (by norm_num [SF.epsilon]), if_pos (by norm_num [SF.epsilon]),
    if_pos (by norm_num [SF.epsilon, abs_of_neg])]
  exact ⟨id, id, id⟩

theorem wide_on {c : SF.Circle} (h : CircOk c (1 / 1000) (1 / 125)) (hl : c.left = true) (hf : c.forward = true)
    (hst : c.start = startOf wideStart) : SF.configuration_on_hc_cc_circle c (startOf wideGoal) := by
  have := on_circle_near h.ok wide_range.kappa wide_range.sigma wide_range.clothoid
    (q := { startOf wideGoal with theta := 1 / 40000 }) (by norm_num) (by simp only; linarith [pi_gt_three])
    (t := 12 / 100000) ?_ (by norm_num [SF.epsilon, abs_lt])
  · have e : ({ ({ startOf wideGoal with theta := 1 / 40000 } : SF.Configuration) with theta := 12 / 100000 } : SF.Configuration)
        = startOf wideGoal := by
      have := wideGoal_theta
      cases h : startOf wideGoal
      rw [h] at this
      simp only at this
      rw [this]
    rw [e] at this
    exact this
  · rw [h.cen, hst, hl, hf]
    have e0 : cfg (startOf wideStart) = ⟨0, 0, 0⟩ := by
      have := wideStart_theta
      unfold cfg
      rw [this]; rfl
    have e1 : cfg ({ startOf wideGoal with theta := 1 / 40000 } : SF.Configuration)
        = ⟨wideGoal.x, wideGoal.y, 1 / 40000⟩ := rfl
    rw [e0, e1]
    unfold cen Config.pos
    apply Complex.ext
    · simp [cis, sg, wideGoal]; ring
    · simp [cis, sg, wideGoal]; ring

theorem wide_deflection {c : SF.Circle} (hl : c.left = true) (hf : c.forward = true)
    (hst : c.start = startOf wideStart) : c.deflection (startOf wideGoal) = 12 / 100000 := by
  unfold SF.Circle.deflection
  simp only [hl, hf, hst, wideStart_theta, wideGoal_theta, sub_zero]
  exact SF.twopify_of_mem (by norm_num) (by linarith [pi_gt_three])

theorem wide_deflection_right {c : SF.Circle} (hl : c.left = false) (hf : c.forward = true)
    (hst : c.start = startOf wideStart) : c.deflection (startOf wideGoal) = 2 * π - 12 / 100000 := by
  unfold SF.Circle.deflection
  simp only [hl, hf, hst, wideStart_theta, wideGoal_theta, zero_sub]
  rw [← SF.twopify_of_mem (a := 2 * π - 12 / 100000) (by linarith [pi_gt_three]) (by linarith [pi_gt_three])]
  exact SF.twopify_congr ⟨-1, by push_cast; ring⟩

/-- A turn to the right would take a full circle. -/
theorem wide_right {c : SF.Circle} (h : CircOk c (1 / 1000) (1 / 125)) (hl : c.left = false) (hf : c.forward = true)
    (hst : c.start = startOf wideStart) : 24 / 100 ≤ c.cc_turn_length (startOf wideGoal) := by
  have hp := pi_gt_three
  have hd := wide_deflection_right hl hf hst
  rcases turn_cases h.ok (by norm_num) (by norm_num) (startOf wideGoal) with ⟨h1, _⟩ | e | ⟨h1, h2, _⟩
  · rw [hd] at h1; norm_num [SF.epsilon] at h1; linarith
  · norm_num at e; linarith
  · rw [hd] at h2; norm_num at h2; linarith

/-- Sharpness of the elementary path, and its peak curvature. -/
theorem wide_sharpness {D : ℝ} (h0 : 12 / 100 ≤ D) (h1 : D ≤ 15032 / 100000) {s0 L : ℝ}
    (hs : s0 = 4 * π * SF.Circle.D1 (0.5 * (12 / 100000)) ^ 2 / D ^ 2) (hL : L = √(12 / 100000 / s0)) :
    2 * (1 / 125) < s0 ∧ 0 < L ∧ 3 / 2 * (1 / 1000) < s0 * L ∧ 2 * L ≤ 16 / 100 := by
  have hp := pi_pos
  obtain ⟨hD, -⟩ := D1_small (a := 0.5 * (12 / 100000)) (by norm_num) (by norm_num)
  have hw : √(2 * (0.5 * (12 / 100000)) / π) ^ 2 = 12 / 100000 / π := by
    rw [sq_sqrt (by positivity)]; norm_num
  have hw0 : 0 ≤ √(2 * (0.5 * (12 / 100000)) / π) := sqrt_nonneg _
  generalize √(2 * (0.5 * (12 / 100000)) / π) = w at *
  generalize SF.Circle.D1 (0.5 * (12 / 100000)) = x at *
  have hx2 : 9604 / 10000 * (12 / 100000 / π) ≤ x ^ 2 := by rw [← hw]; nlinarith
  have hx3 : 4 * (9604 / 10000) * (12 / 100000) ≤ 4 * π * x ^ 2 := by
    have := mul_le_mul_of_nonneg_left hx2 (show 0 ≤ 4 * π by positivity)
    have e : 4 * π * (9604 / 10000 * (12 / 100000 / π)) = 4 * (9604 / 10000) * (12 / 100000) := by field_simp
    linarith
  have hD2 : D ^ 2 ≤ 226 / 10000 := by nlinarith
  have hD0 : 0 < D ^ 2 := by positivity
  have hs1 : 2039 / 100000 ≤ s0 := by
    rw [hs, le_div_iff₀ hD0]; nlinarith
  have hs0 : 0 < s0 := by linarith
  have hL2 : L ^ 2 = 12 / 100000 / s0 := by rw [hL, sq_sqrt (by positivity)]
  have hL0 : 0 < L := by rw [hL]; exact sqrt_pos.2 (by positivity)
  have hLs : s0 * L ^ 2 = 12 / 100000 := by rw [hL2]; field_simp
  refine ⟨by linarith, hL0, ?_, ?_⟩
  · have : (3 / 2 * (1 / 1000)) ^ 2 < (s0 * L) ^ 2 := by
      have e : (s0 * L) ^ 2 = s0 * (12 / 100000) := by rw [← hLs]; ring
      rw [e]; linarith
    exact lt_of_pow_lt_pow_left₀ 2 (by positivity) this
  · have : L ^ 2 ≤ (8 / 100) ^ 2 := by
      rw [hL2, div_le_iff₀ hs0]; nlinarith
    have := abs_le_of_sq_le_sq this (by norm_num)
    linarith [(abs_le.1 this).2]

theorem wide_controls {c : SF.Circle} (h : CircOk c (1 / 1000) (1 / 125)) (hl : c.left = true) (hf : c.forward = true)
    (hst : c.start = startOf wideStart) :
    c.cc_turn_length (startOf wideGoal) ≤ 16 / 100 ∧
    ∃ s0 L, SF.cc_turn_controls c (startOf wideGoal) true = [⟨L, 0, s0⟩, ⟨L, s0 * L, -s0⟩] ∧
      2 * (1 / 125) < s0 ∧ 3 / 2 * (1 / 1000) < s0 * L := by
  have hd := wide_deflection hl hf hst
  obtain ⟨hD0, hD1⟩ := wide_dist
  obtain ⟨s0, hs⟩ : ∃ s0, s0 = 4 * π * SF.Circle.D1 (0.5 * (12 / 100000)) ^ 2
    / SF.point_distance (startOf wideStart).x (startOf wideStart).y (startOf wideGoal).x (startOf wideGoal).y ^ 2 := ⟨_, rfl⟩
  obtain ⟨L, hL⟩ : ∃ L, L = √(12 / 100000 / s0) := ⟨_, rfl⟩
  obtain ⟨q1, q2, q3, q4⟩ := wide_sharpness hD0 hD1 hs hL
  have hlm : |c.kappa / c.sigma| = 1 / 8 := by
    rw [abs_kappa_sigma h.ok (by norm_num) (by norm_num)]; norm_num
  have hsh : c.cc_elementary_sharpness (startOf wideGoal) (12 / 100000) = some s0 := by
    unfold SF.Circle.cc_elementary_sharpness
    simp only
    rw [hst, if_pos ⟨by norm_num, by norm_num [SF.epsilon]; linarith⟩, hl, if_pos rfl, hs]
  have hdm : 2 * c.delta_min = 1 / 8000 := by rw [h.ok.delta_min]; norm_num
  have hs0 : |s0| = s0 := abs_of_pos (by linarith)
  constructor
  · unfold SF.Circle.cc_turn_length
    simp only [hd, hsh, hdm, hs0, ← hL]
    rw [if_neg (by norm_num [SF.epsilon]), if_pos (by norm_num)]
    split_ifs with h1
    · exact q4
    · push Not at h1; linarith
  · refine ⟨s0, L, ?_, q1, q3⟩
    unfold SF.cc_turn_controls SF.cc_elementary_controls
    simp only [hd, hsh, hdm, hs0, ← hL]
    rw [if_neg (by norm_num [SF.epsilon]), if_pos (by norm_num), if_pos]
    · simp [SF.direction, hf]
    · have e1 : SF.direction c.forward true = 1 := by simp [SF.direction, hf]
      simp only [SF.accumulate_length, SF.cc_default_controls, e1, hlm, List.foldl_cons, List.foldl_nil, one_mul, zero_add]
      rw [abs_of_pos q2]
      have := abs_nonneg (|c.kappa_inv| * c.cc_circular_deflection (12 / 100000))
      rw [abs_of_pos (show (0:ℝ) < 1 / 8 by norm_num)]
      linarith

/-- The planner turns too sharply. -/
theorem wide_found {sp : SF.HCSpace} (hsk : sp.kappa = 1 / 1000) (hss : sp.sigma = 1 / 125) (hsf : sp.forwards = true) :
    ∃ s0 L, get_controls sp wideStart wideGoal = some [⟨L, 0, s0⟩, ⟨L, s0 * L, -s0⟩] ∧
      2 * (1 / 125) < s0 ∧ 3 / 2 * (1 / 1000) < s0 * L := by
  have hr : InRange sp.kappa sp.sigma := by rw [hsk, hss]; exact wide_range
  have hP : sp.param = SF.hc_cc_circle_param (1 / 1000) (1 / 125) := by
    rw [show sp.param = SF.hc_cc_circle_param sp.kappa sp.sigma from rfl, hsk, hss]
  have hs : ∀ i, CircOk (start_circle sp (startOf wideStart) i) (1 / 1000) (1 / 125) := by
    intro i; unfold start_circle; rw [hP]
    exact circOk_at wide_range.kappa wide_range.sigma wide_range.clothoid _ _ _ _
  have he : ∀ j, CircOk (end_circle sp (startOf wideGoal) j) (1 / 1000) (1 / 125) := by
    intro j; unfold end_circle; rw [hP]
    exact circOk_at wide_range.kappa wide_range.sigma wide_range.clothoid _ _ _ _
  have hw := wide_controls (hs 0) rfl (by unfold start_circle SF.circleAt; exact hsf) rfl
  have hd : get_distance sp wideStart wideGoal ≤ 16 / 100 := by
    refine (dist_le_path 0 0 (by norm_num) (by norm_num)).trans ?_
    refine (body_le sp _ _ _ (i := 2) (by norm_num)).trans (le_trans (le_of_eq (table_T wide_not.1 ?_ ?_)) hw.1)
    · rintro (⟨_, h⟩ | ⟨_, h⟩)
      · exact wide_not.2.1 h
      · exact wide_not.2.2 h
    · exact wide_on (hs 0) rfl (by unfold start_circle SF.circleAt; exact hsf) rfl
  have hfar : dist2 wideStart wideGoal ≤ 10 ^ 100 := by
    have := wide_dist.2
    change √((wideGoal.x - 0) ^ 2 + (wideGoal.y - 0) ^ 2) ≤ _ at this
    unfold dist2
    refine le_trans (le_trans (le_of_eq ?_) this) (by norm_num)
    rfl
  obtain ⟨i, j, t, r, hi, hj, e, hfd⟩ := selected wideStart wideGoal hr.kappa hr.sigma hr.clothoid hr.finite hfar
  have hrl : r.length ≤ 16 / 100 := by
    have : get_distance sp wideStart wideGoal = r.length := by unfold get_distance; rw [e]; rfl
    rw [← this]; exact hd
  unfold get_controls
  rw [e]
  rcases found_long hsk hss (hs i) (he j) rfl hfd with ht | ⟨rfl, rfl⟩ | hlong
  · exfalso
    cases hfd with
    | E h => exact wide_not.1 h
    | S h _ => exact wide_not.2.1 h
    | Sb h _ => exact wide_not.2.2 h
    | _ => norm_num at ht
  · obtain rfl | rfl : i = 0 ∨ i = 1 := by omega
    · obtain ⟨s0, L, hc, h1, h2⟩ := hw.2
      exact ⟨s0, L, by rw [← hc]; rfl, h1, h2⟩
    · have := wide_right (hs 1) rfl (by unfold start_circle SF.circleAt; exact hsf) rfl
      change (start_circle sp (startOf wideStart) 1).cc_turn_length (startOf wideGoal) ≤ _ at hrl
      linarith
  · linarith

end CC00

end Spec
