import Verif.Lemmas.Turn

/-!
# Whole turns: end, length and limits
-/

noncomputable section

namespace Spec

open Real Props

theorem radius_bound (A B : ℝ) : |A| ≤ √(A ^ 2 + B ^ 2) ∧ |B| ≤ √(A ^ 2 + B ^ 2) :=
  ⟨abs_le_sqrt (by nlinarith [sq_nonneg B]), abs_le_sqrt (by nlinarith [sq_nonneg A])⟩

theorem chord_le_radius (A B a : ℝ) : |A * cos a + B * sin a| ≤ √(A ^ 2 + B ^ 2) := by
  apply abs_le_sqrt
  nlinarith [sq_nonneg (A * sin a - B * cos a), sin_sq_add_cos_sq a, sq_nonneg A, sq_nonneg B]

/-- Straight line instead of a turn with tiny deflection. -/
theorem cc_straight_end {c : SF.Circle} {k s A B : ℝ} (h : CircleOk c k s A B)
    (hA : 0 ≤ A) (hB : 0 ≤ B) {q : SF.Configuration} {order : Bool} {e : ℝ}
    (hsmall : c.deflection q < SF.epsilon)
    (he : ‖cen (-(SF.direction c.forward order * A)) (sg c.left * B) (tTo c q order)
      - cen (SF.direction c.forward order * A) (sg c.left * B) (tFrom c q order)‖ ≤ e) :
    Within (2 * e + 2 * c.radius * c.deflection q) (c.deflection q)
      (libAll ((if order then SF.straight_controls c.start q else SF.straight_controls q c.start).map seg)
        (tFrom c q order)) (tTo c q order) ∧
    |totalLength ((if order then SF.straight_controls c.start q else SF.straight_controls q c.start).map seg)
      - 2 * A| ≤ e + c.radius * c.deflection q := by
  have hd := direction_pm c.forward order
  have hl := sg_pm c.left
  have hta := turn_angle c q order
  have hdist := turn_distance c q order
  have h0 := (deflection_spec c q).2.1
  have hR := h.radius
  obtain ⟨q1, q2, hq, hq1, hq2⟩ : ∃ q1 q2, (if order then SF.straight_controls c.start q else
      SF.straight_controls q c.start) = SF.straight_controls q1 q2 ∧ tFrom c q order = cfg q1 ∧
      tTo c q order = cfg q2 := by
    cases order
    · exact ⟨q, c.start, rfl, rfl, rfl⟩
    · exact ⟨c.start, q, rfl, rfl, rfl⟩
  rw [hq]
  rw [hq1, hq2] at he hta hdist ⊢
  obtain ⟨f1, f2⟩ := straight_controls_end q1 q2
  generalize c.deflection q = delta at *
  obtain ⟨a, ha⟩ : ∃ a, a = delta / 2 := ⟨_, rfl⟩
  have ha2 : 2 * a = delta := by rw [ha]; ring
  rw [← ha2] at hta hsmall
  unfold SF.epsilon at hsmall
  have ha0 : 0 ≤ a := by linarith
  have hpi := pi_gt_three
  have hcos : 0 ≤ cos a := cos_nonneg_of_mem_Icc ⟨by linarith, by linarith⟩
  have hsin : 0 ≤ sin a := sin_nonneg_of_mem_Icc ⟨by linarith, by linarith⟩
  have hsa : sin a ≤ a := sin_le ha0
  have hpos : 0 ≤ A * cos a + B * sin a := by positivity
  have hcd := chord_dist hd hl hta he hpos
  have hch := turn_chord (A := A) (B := B) hd hl hta
  have hRb := chord_le_radius A B a
  have hR0 : 0 ≤ √(A ^ 2 + B ^ 2) := sqrt_nonneg _
  rw [← hR] at hRb hR0
  have hlen : totalLength ((SF.straight_controls q1 q2).map seg) = ‖(cfg q2).pos - (cfg q1).pos‖ := by
    have e2 : SF.point_distance q1.x q1.y q2.x q2.y = ‖(cfg q2).pos - (cfg q1).pos‖ := by
      unfold SF.point_distance; rw [sqrt_eq_norm]; rfl
    simp only [SF.straight_controls, List.map_cons, List.map_nil, seg, totalLength, List.sum_cons,
      List.sum_nil, add_zero, e2]
    have := SF.sgn_sq (cos q1.theta * (q2.x - q1.x) + sin q1.theta * (q2.y - q1.y))
    rw [abs_mul, abs_norm]
    have h1 : |SF.sgn (cos q1.theta * (q2.x - q1.x) + sin q1.theta * (q2.y - q1.y))| = 1 := by
      unfold SF.sgn; split_ifs <;> simp
    rw [h1, one_mul]
  constructor
  · obtain ⟨n, hn⟩ := hta
    refine ⟨?_, (cfg q1).theta + SF.direction c.forward order * sg c.left * (2 * a), ⟨-n, ?_⟩, ?_⟩
    · rw [Config.dist_eq, f2, norm_cis_mul]
      refine (straight_error _).trans ?_
      -- lateral offset of the target
      have e1 : cis (-q1.theta) * ((cfg q2).pos - (cfg q1).pos)
          = cis (SF.direction c.forward order * sg c.left * a) *
            ((SF.direction c.forward order * (2 * (A * cos a + B * sin a)) : ℝ) : ℂ)
          + cis (-q1.theta) * (cen (-(SF.direction c.forward order * A)) (sg c.left * B) (cfg q2)
            - cen (SF.direction c.forward order * A) (sg c.left * B) (cfg q1)) := by
        rw [hch]
        have : cis (-q1.theta) * cis ((cfg q1).theta + SF.direction c.forward order * sg c.left * a)
            = cis (SF.direction c.forward order * sg c.left * a) := by
          rw [← cis_add]; congr 1; simp [cfg]
        rw [← this]
        ring
      rw [e1, Complex.add_im]
      have e2 : |(cis (-q1.theta) * (cen (-(SF.direction c.forward order * A)) (sg c.left * B) (cfg q2)
            - cen (SF.direction c.forward order * A) (sg c.left * B) (cfg q1))).im| ≤ e := by
        refine (Complex.abs_im_le_norm _).trans ?_
        rw [norm_cis_mul]; exact he
      have e3 : |(cis (SF.direction c.forward order * sg c.left * a) *
            ((SF.direction c.forward order * (2 * (A * cos a + B * sin a)) : ℝ) : ℂ)).im|
          ≤ c.radius * delta := by
        rw [Complex.mul_im, Complex.ofReal_im, Complex.ofReal_re, mul_zero, zero_add]
        unfold cis
        have e4 : |sin (SF.direction c.forward order * sg c.left * a) *
            (SF.direction c.forward order * (2 * (A * cos a + B * sin a)))|
            = sin a * (2 * (A * cos a + B * sin a)) := by
          rw [abs_mul, abs_pm_mul hd (by linarith)]
          rcases pm_mul hd hl with e | e <;> rw [e]
          · rw [one_mul, abs_of_nonneg hsin]
          · rw [neg_one_mul, sin_neg, abs_neg, abs_of_nonneg hsin]
        dsimp only
        rw [e4, ← ha2]
        rw [abs_of_nonneg hpos] at hRb
        nlinarith
      have := abs_add_le (cis (SF.direction c.forward order * sg c.left * a) *
            ((SF.direction c.forward order * (2 * (A * cos a + B * sin a)) : ℝ) : ℂ)).im
          (cis (-q1.theta) * (cen (-(SF.direction c.forward order * A)) (sg c.left * B) (cfg q2)
            - cen (SF.direction c.forward order * A) (sg c.left * B) (cfg q1))).im
      linarith
    · rw [hn]; push_cast; ring
    · rw [f1, show (cfg q1).theta = q1.theta from rfl, sub_add_cancel_left, abs_neg, ha2]
      rw [abs_mul, abs_of_nonneg h0]
      rcases pm_mul hd hl with e | e <;> rw [e] <;> simp
  · rw [hlen]
    have hA' := (radius_bound A B).1
    have hB' := (radius_bound A B).2
    rw [← hR, abs_of_nonneg hA] at hA'
    rw [← hR, abs_of_nonneg hB] at hB'
    have hc1 : cos a ≤ 1 := cos_le_one a
    have hc2 : 1 - a ^ 2 / 2 ≤ cos a := one_sub_sq_div_two_le_cos
    have k1 : 2 * (A * cos a + B * sin a) - 2 * A ≤ c.radius * delta := by
      have : B * sin a ≤ c.radius * a := by nlinarith
      nlinarith
    have k2 : -(c.radius * delta) ≤ 2 * (A * cos a + B * sin a) - 2 * A := by
      have : A * (1 - cos a) ≤ c.radius * a := by
        have : 1 - cos a ≤ a := by nlinarith
        nlinarith
      nlinarith
    have := abs_le.1 hcd
    rw [abs_le]; constructor <;> linarith

/-- End of a CC turn under the library's formulas. -/
theorem cc_turn_lib {c : SF.Circle} {k s : ℝ} (h : CircleOk c k s (ccA k s) (ccB k s))
    (hk : k > SF.epsilon) (hs : 0 < s) (hl : k / s > SF.epsilon)
    {q : SF.Configuration} {order : Bool} {e : ℝ}
    (he : ‖cen (-(SF.direction c.forward order * ccA k s)) (sg c.left * ccB k s) (tTo c q order)
      - cen (SF.direction c.forward order * ccA k s) (sg c.left * ccB k s) (tFrom c q order)‖ ≤ e) :
    (SF.epsilon ≤ c.deflection q →
      Near (2 * e) (libAll ((SF.cc_turn_controls c q order).map seg) (tFrom c q order)) (tTo c q order)) ∧
    (c.deflection q < SF.epsilon →
      Within (2 * e + 2 * c.radius * c.deflection q) (c.deflection q)
        (libAll ((SF.cc_turn_controls c q order).map seg) (tFrom c q order)) (tTo c q order)) := by
  have hk0 : 0 < k := by unfold SF.epsilon at hk; linarith
  have e0 : 0 ≤ e := (norm_nonneg _).trans he
  have hdef : Near (2 * e) (libAll ((SF.cc_default_controls c (c.deflection q) order).map seg)
      (tFrom c q order)) (tTo c q order) := by
    obtain ⟨f1, f2⟩ := cc_default_end h hk0 hs (c.deflection q) order (tFrom c q order)
    have ht := f2.trans (turn_angle c q order).symm
    refine ⟨?_, ht⟩
    rw [dist_of_cen (a := -(SF.direction c.forward order * ccA k s)) (b := sg c.left * ccB k s) ht, f1,
      norm_sub_rev]
    linarith
  constructor
  · intro hge
    unfold SF.cc_turn_controls
    simp only [if_neg (not_lt.2 hge)]
    split_ifs with h1
    · rcases hcs : SF.cc_elementary_controls c q (c.deflection q) order with _ | cs
      · exact hdef
      · dsimp only
        split_ifs with h2
        · exact cc_elementary_end h hk hs hge h1 hcs he
        · exact hdef
    · exact hdef
  · intro hlt
    have := (cc_straight_end h (ccA_pos hk hs hl).le (ccB_pos hk hs hl).le hlt he).1
    unfold SF.cc_turn_controls
    simp only [if_pos hlt]
    exact this

/-- Length of the default turn. -/
theorem default_length (c : SF.Circle) (delta : ℝ) (order : Bool) :
    SF.accumulate_length (SF.cc_default_controls c delta order)
      = 2 * |c.kappa / c.sigma| + |c.kappa_inv * c.cc_circular_deflection delta| := by
  have hd : |SF.direction c.forward order| = 1 := by
    rcases direction_pm c.forward order with e | e <;> rw [e] <;> simp
  rw [accumulate_eq]
  simp only [SF.cc_default_controls, List.map_cons, List.map_nil, seg, totalLength, List.sum_cons,
    List.sum_nil, abs_mul, hd, abs_abs]
  ring

theorem elementary_length {c : SF.Circle} {q : SF.Configuration} {delta : ℝ} {order : Bool} :
    (SF.cc_elementary_controls c q delta order).map SF.accumulate_length
      = (c.cc_elementary_sharpness q delta).map fun sigma0 => 2 * √(delta / |sigma0|) := by
  have hd : |SF.direction c.forward order| = 1 := by
    rcases direction_pm c.forward order with e | e <;> rw [e] <;> simp
  unfold SF.cc_elementary_controls
  rcases c.cc_elementary_sharpness q delta with _ | s0
  · rfl
  · simp only [Option.map_some, accumulate_eq, List.map_cons, List.map_nil, seg, totalLength, List.sum_cons,
      List.sum_nil, abs_mul, hd, abs_of_nonneg (sqrt_nonneg _)]
    congr 1; ring

/-- Length of a CC turn. -/
theorem cc_turn_length_eq (c : SF.Circle) (q : SF.Configuration) (order : Bool)
    (hge : SF.epsilon ≤ c.deflection q) :
    totalLength ((SF.cc_turn_controls c q order).map seg) = c.cc_turn_length q := by
  rw [← accumulate_eq]
  unfold SF.cc_turn_controls SF.Circle.cc_turn_length
  simp only [if_neg (not_lt.2 hge)]
  have hel := elementary_length (c := c) (q := q) (delta := c.deflection q) (order := order)
  split_ifs with h1
  · rcases hcs : SF.cc_elementary_controls c q (c.deflection q) order with _ | cs
    · rw [hcs] at hel
      rcases hsh : c.cc_elementary_sharpness q (c.deflection q) with _ | s0
      · dsimp only; rw [default_length]
      · rw [hsh] at hel; simp at hel
    · rw [hcs] at hel
      rcases hsh : c.cc_elementary_sharpness q (c.deflection q) with _ | s0
      · rw [hsh] at hel; simp at hel
      · rw [hsh] at hel
        simp only [Option.map_some, Option.some.injEq] at hel
        dsimp only
        rw [default_length, hel]
        split_ifs with h2
        · exact hel
        · exact default_length _ _ _
  · exact default_length _ _ _

/-- Length of a CC turn with tiny deflection. -/
theorem cc_turn_length_tiny {c : SF.Circle} {k s A B : ℝ} (h : CircleOk c k s A B)
    (hA : 0 ≤ A) (hB : 0 ≤ B) {q : SF.Configuration} {order : Bool} {e : ℝ}
    (hsmall : c.deflection q < SF.epsilon)
    (he : ‖cen (-(SF.direction c.forward order * A)) (sg c.left * B) (tTo c q order)
      - cen (SF.direction c.forward order * A) (sg c.left * B) (tFrom c q order)‖ ≤ e) :
    |totalLength ((SF.cc_turn_controls c q order).map seg) - c.cc_turn_length q|
      ≤ e + c.radius * c.deflection q := by
  have := (cc_straight_end h hA hB hsmall he).2
  unfold SF.cc_turn_controls SF.Circle.cc_turn_length
  simp only [if_pos hsmall]
  rw [mul_assoc 2, h.sin_mu]
  exact this

/-! ### HC and RS turns -/

theorem hc_turn_lib {c : SF.Circle} {k s A B : ℝ} (h : CircleOk c k s A B)
    (hk : 0 < k) (hs : 0 < s) (q : SF.Configuration) (order : Bool) (p : Config) :
    (if order then cen 0 (1 / (sg c.left * k)) (libAll ((SF.hc_turn_controls c q order).map seg) p)
        = cen (SF.direction c.forward order * ccA k s) (sg c.left * ccB k s) p
      else cen (-(SF.direction c.forward order * ccA k s)) (sg c.left * ccB k s)
          (libAll ((SF.hc_turn_controls c q order).map seg) p) = cen 0 (1 / (sg c.left * k)) p) ∧
    AngleEq (libAll ((SF.hc_turn_controls c q order).map seg) p).theta
      (p.theta + SF.direction c.forward order * sg c.left * c.deflection q) := by
  have hd := direction_pm c.forward order
  have hl := sg_pm c.left
  have hcirc := hc_circular_spec c (c.deflection q)
  rw [h.delta_min] at hcirc
  unfold SF.hc_turn_controls
  simp only [abs_kappa_sigma h hk hs, abs_kappa_inv h hk]
  rw [h.kappa, h.sigma]
  generalize SF.direction c.forward order = d at *
  generalize c.hc_circular_deflection (c.deflection q) = w at *
  generalize c.deflection q = delta at *
  generalize sg c.left = l at *
  have hlk : l * k ≠ 0 := by rcases hl with rfl | rfl <;> simp [hk.ne']
  have hw : AngleEq (d * l * w) (d * l * (delta - k ^ 2 / (2 * s))) := by
    rcases pm_mul hd hl with e | e <;> rw [e]
    · simpa using hcirc
    · simpa using hcirc.neg
  have e : d * (1 / k * w) * (l * k) = d * l * w := by field_simp
  cases order
  · simp only [Bool.false_eq_true, if_false, List.nil_append, List.cons_append, List.map_cons, List.map_nil,
      seg, libAll]
    obtain ⟨j1, j2⟩ := lib_arc (len := d * (1 / k * w)) hlk p
    generalize libArrive ⟨d * (1 / k * w), l * k, 0⟩ p = p2 at *
    obtain ⟨m1, m2⟩ := full_out hk hs hd hl p2
    refine ⟨by rw [m1, j1], m2.trans ?_⟩
    rw [j2, e]
    refine ((hw.add_left p.theta).add_right _).trans (AngleEq.of_eq ?_)
    ring
  · simp only [if_true, List.nil_append, List.cons_append, List.append_nil, List.map_cons, List.map_nil,
      seg, libAll]
    obtain ⟨i1, i2⟩ := full_in hk hs hd hl p
    generalize libArrive ⟨d * (k / s), 0, l * s⟩ p = p1 at *
    obtain ⟨j1, j2⟩ := lib_arc (len := d * (1 / k * w)) hlk p1
    refine ⟨by rw [j1, i1], ?_⟩
    rw [j2, e]
    refine (i2.add hw).trans (AngleEq.of_eq ?_)
    ring

theorem rs_turn_lib {c : SF.Circle} {k : ℝ} (h1 : c.kappa = sg c.left * k)
    (h2 : c.kappa_inv = sg c.left * (1 / k))
    (hk : 0 < k) (q : SF.Configuration) (order : Bool) (p : Config) :
    cen 0 (1 / (sg c.left * k)) (libAll ((SF.rs_turn_controls c q order).map seg) p)
        = cen 0 (1 / (sg c.left * k)) p ∧
    AngleEq (libAll ((SF.rs_turn_controls c q order).map seg) p).theta
      (p.theta + SF.direction c.forward order * sg c.left * c.deflection q) := by
  have hd := direction_pm c.forward order
  have hl := sg_pm c.left
  have hcirc := rs_circular_spec c (c.deflection q)
  have habs : |c.kappa_inv| = 1 / k := by rw [h2]; exact abs_pm_mul (sg_pm _) (by positivity)
  unfold SF.rs_turn_controls
  simp only [habs, h1, List.map_cons, List.map_nil, seg, libAll]
  generalize SF.direction c.forward order = d at *
  generalize c.rs_circular_deflection (c.deflection q) = w at *
  generalize c.deflection q = delta at *
  generalize sg c.left = l at *
  have hlk : l * k ≠ 0 := by rcases hl with rfl | rfl <;> simp [hk.ne']
  have hw : AngleEq (d * l * w) (d * l * delta) := by
    rcases pm_mul hd hl with e | e <;> rw [e]
    · simpa using hcirc
    · simpa using hcirc.neg
  have e : d * (1 / k * w) * (l * k) = d * l * w := by field_simp
  obtain ⟨j1, j2⟩ := lib_arc (len := d * (1 / k * w)) hlk p
  refine ⟨j1, ?_⟩
  rw [j2, e]
  exact hw.add_left _

theorem hc_turn_length_eq (c : SF.Circle) (q : SF.Configuration) (order : Bool) :
    totalLength ((SF.hc_turn_controls c q order).map seg) = c.hc_turn_length q := by
  have hd : |SF.direction c.forward order| = 1 := by
    rcases direction_pm c.forward order with e | e <;> rw [e] <;> simp
  unfold SF.hc_turn_controls SF.Circle.hc_turn_length
  cases order
  · simp [seg, totalLength, abs_mul, hd]; ring
  · simp [seg, totalLength, abs_mul, hd]

theorem rs_turn_length_eq (c : SF.Circle) (q : SF.Configuration) (order : Bool) :
    totalLength ((SF.rs_turn_controls c q order).map seg) = c.rs_turn_length q := by
  have hd : |SF.direction c.forward order| = 1 := by
    rcases direction_pm c.forward order with e | e <;> rw [e] <;> simp
  unfold SF.rs_turn_controls SF.Circle.rs_turn_length
  simp [seg, totalLength, abs_mul, hd]

/-! ### Curvature and sharpness -/

/-- A centre that is wrong by `E` makes the chord of no elementary path shorter than by the factor `1 / m`. -/
def Slack (k s E m : ℝ) : Prop :=
  1 ≤ m ∧ (E = 0 ∨ ∀ a, 0 ≤ a → a < 2.2974 → a ≤ k ^ 2 / (2 * s) →
    m * E ≤ (m - 1) * (2 * (ccA k s * cos a + ccB k s * sin a)))

theorem Slack.mono {k s E E' m : ℝ} (h : Slack k s E' m) (h0 : 0 ≤ E) (hE : E ≤ E') : Slack k s E m := by
  refine ⟨h.1, ?_⟩
  rcases h.2 with h2 | h2
  · exact .inl (le_antisymm (h2 ▸ hE) h0)
  · exact .inr fun a a0 a1 a2 => (mul_le_mul_of_nonneg_left hE (zero_le_one.trans h.1)).trans (h2 a a0 a1 a2)

theorem slack_zero (k s : ℝ) : Slack k s 0 1 := ⟨le_rfl, .inl rfl⟩

theorem elementary_limits_up {c : SF.Circle} {k s E m : ℝ} (h : CircleOk c k s (ccA k s) (ccB k s))
    (hk : k > SF.epsilon) (hs : 0 < s) {q : SF.Configuration} {order : Bool} {cs : List SF.Control}
    (hdl : SF.epsilon ≤ c.deflection q) (hdm : c.deflection q < 2 * c.delta_min)
    (hcs : SF.cc_elementary_controls c q (c.deflection q) order = some cs)
    (he : ‖cen (-(SF.direction c.forward order * ccA k s)) (sg c.left * ccB k s) (tTo c q order)
      - cen (SF.direction c.forward order * ccA k s) (sg c.left * ccB k s) (tFrom c q order)‖ ≤ E)
    (hm : Slack k s E m) :
    ∃ s0 L, 0 < s0 ∧ 0 < L ∧ s0 ≤ m ^ 2 * (s * (1 + 2 / 10 ^ 8)) ∧ s0 * L ≤ m * (k * (1 + 1 / 10 ^ 8)) ∧
      cs = [⟨SF.direction c.forward order * L, 0, sg c.left * s0⟩,
        ⟨SF.direction c.forward order * L, sg c.left * s0 * L, -(sg c.left * s0)⟩] := by
  have hd := direction_pm c.forward order
  have hl := sg_pm c.left
  have hta := turn_angle c q order
  have hdist := turn_distance c q order
  have hrange := elementary_range hcs
  have hk0 : 0 < k := by unfold SF.epsilon at hk; linarith
  rw [h.delta_min] at hdm
  generalize c.deflection q = delta at *
  obtain ⟨a, ha⟩ : ∃ a, a = delta / 2 := ⟨_, rfl⟩
  have ha2 : 2 * a = delta := by rw [ha]; ring
  have hd5 : 0.5 * delta = a := by rw [ha]; ring
  rw [← ha2] at hta
  obtain ⟨hD, hchord⟩ := chord_pos hk hs (a := a) (by linarith) (by linarith) (by linarith)
  obtain ⟨hc1, hc2, s0, L, hs0, hs0p, hLd, hcseq⟩ := elementary_data hcs (by rw [hd5]; exact hD.ne')
  have hcs0 := cScale_pos hs
  have hdelta : 0 < delta := by unfold SF.epsilon at hdl; linarith
  have hpos : 0 ≤ ccA k s * cos a + ccB k s * sin a := by
    refine le_trans ?_ hchord
    have : (0:ℝ) ≤ 1 - 5 / 10 ^ 9 := by norm_num
    positivity
  have hcd := chord_dist hd hl hta he hpos
  rw [← hdist] at hcd
  obtain ⟨D, hDd⟩ : ∃ D, D = SF.point_distance c.start.x c.start.y q.x q.y := ⟨_, rfl⟩
  rw [← hDd] at hcd hs0
  have hD0 : 0 < D := by rw [hDd]; exact lt_trans (by norm_num [SF.epsilon]) hc2
  have hm1 := hm.1
  have hDm : 2 * (ccA k s * cos a + ccB k s * sin a) ≤ m * D := by
    have h1 := (abs_le.1 hcd).1
    rcases hm.2 with h2 | h2
    · rw [h2] at h1; nlinarith
    · have := h2 a (by linarith) (by linarith) (by linarith)
      have := mul_le_mul_of_nonneg_left h1 (zero_le_one.trans hm1)
      nlinarith
  have hL : 0 < L := by rw [hLd]; exact sqrt_pos.2 (by positivity)
  have hsL : s0 * L ^ 2 = delta := by rw [hLd, sq_sqrt (by positivity)]; field_simp
  have hm2 : 0 < m ^ 2 := by positivity
  -- sharpness
  have hb : s0 * (1 - 5 / 10 ^ 9) ^ 2 ≤ m ^ 2 * s := by
    rw [hs0, hd5]
    rw [div_mul_eq_mul_div, div_le_iff₀ (by positivity)]
    have h2 : (SF.Circle.D1 a * cScale s * (1 - 5 / 10 ^ 9)) ^ 2
        ≤ (ccA k s * cos a + ccB k s * sin a) ^ 2 := by
      apply pow_le_pow_left₀ _ hchord
      have : (0:ℝ) ≤ 1 - 5 / 10 ^ 9 := by norm_num
      positivity
    rw [mul_pow, mul_pow, cScale_sq hs] at h2
    have h3 : s * (SF.Circle.D1 a ^ 2 * (π / s) * (1 - 5 / 10 ^ 9) ^ 2)
        = π * SF.Circle.D1 a ^ 2 * (1 - 5 / 10 ^ 9) ^ 2 := by field_simp
    have h4 := pow_le_pow_left₀ (by positivity) hDm 2
    calc 4 * π * SF.Circle.D1 a ^ 2 * (1 - 5 / 10 ^ 9) ^ 2
        = 4 * (s * (SF.Circle.D1 a ^ 2 * (π / s) * (1 - 5 / 10 ^ 9) ^ 2)) := by rw [h3]; ring
      _ ≤ 4 * (s * (ccA k s * cos a + ccB k s * sin a) ^ 2) := by gcongr
      _ = s * (2 * (ccA k s * cos a + ccB k s * sin a)) ^ 2 := by ring
      _ ≤ s * (m * D) ^ 2 := by gcongr
      _ = _ := by ring
  have e3 : s0 ≤ m ^ 2 * (s * (1 + 2 / 10 ^ 8)) := by
    have : 0 < m ^ 2 * s := by positivity
    rw [← mul_assoc]
    generalize m ^ 2 * s = y at hb this
    norm_num at hb ⊢
    nlinarith
  refine ⟨s0, L, hs0p, hL, e3, ?_, hcseq⟩
  have h1 : (s0 * L) ^ 2 ≤ (m * (k * (1 + 1 / 10 ^ 8))) ^ 2 := by
    have e1 : (s0 * L) ^ 2 = s0 * delta := by rw [← hsL]; ring
    rw [e1]
    have e2 : delta * s ≤ k ^ 2 := by
      have : 2 * (k ^ 2 / (2 * s)) * s = k ^ 2 := by field_simp
      rw [← this]
      exact mul_le_mul_of_nonneg_right hdm.le hs.le
    calc s0 * delta ≤ m ^ 2 * (s * (1 + 2 / 10 ^ 8)) * delta := by gcongr
      _ = m ^ 2 * (delta * s * (1 + 2 / 10 ^ 8)) := by ring
      _ ≤ m ^ 2 * (k ^ 2 * (1 + 2 / 10 ^ 8)) := by gcongr
      _ ≤ m ^ 2 * (k ^ 2 * (1 + 1 / 10 ^ 8) ^ 2) := by gcongr; norm_num
      _ = _ := by ring
  exact (pow_le_pow_iff_left₀ (by positivity) (by positivity) two_ne_zero).1 h1

theorem elementary_limits {c : SF.Circle} {k s : ℝ} (h : CircleOk c k s (ccA k s) (ccB k s))
    (hk : k > SF.epsilon) (hs : 0 < s) {q : SF.Configuration} {order : Bool} {cs : List SF.Control}
    (hdl : SF.epsilon ≤ c.deflection q) (hdm : c.deflection q < 2 * c.delta_min)
    (hcs : SF.cc_elementary_controls c q (c.deflection q) order = some cs)
    (he : cen (-(SF.direction c.forward order * ccA k s)) (sg c.left * ccB k s) (tTo c q order)
      = cen (SF.direction c.forward order * ccA k s) (sg c.left * ccB k s) (tFrom c q order)) :
    ∃ s0 L, 0 < s0 ∧ 0 < L ∧ s0 ≤ s * (1 + 2 / 10 ^ 8) ∧ s0 * L ≤ k * (1 + 1 / 10 ^ 8) ∧
      cs = [⟨SF.direction c.forward order * L, 0, sg c.left * s0⟩,
        ⟨SF.direction c.forward order * L, sg c.left * s0 * L, -(sg c.left * s0)⟩] := by
  have := elementary_limits_up h hk hs hdl hdm hcs (le_of_eq (norm_eq_zero.2 (sub_eq_zero.2 he))) (slack_zero k s)
  simpa only [one_pow, one_mul] using this

/-- Curvature along one linear piece is bounded by its ends. -/
theorem linear_abs_le {a b t L K : ℝ} (h0 : |a| ≤ K) (h1 : |a + b * L| ≤ K) (ht0 : 0 ≤ t) (htL : t ≤ L) :
    |a + b * t| ≤ K := by
  rw [abs_le] at h0 h1 ⊢
  rcases le_total 0 b with hb | hb
  · constructor <;> nlinarith
  · constructor <;> nlinarith

end Spec
