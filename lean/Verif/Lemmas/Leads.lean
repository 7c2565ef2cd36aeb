import Verif.Lemmas.CcTangent

/-!
# Pieces of a path with their errors
-/

noncomputable section

namespace Spec

open Real Props

/-- The segments `cs` lead from `p` to `q` with position error `a` (besides that of the Fresnel
integrals) and heading error `b`; their length is `len` up to `c`. -/
structure Leads (cs : List Segment) (p q : Config) (len a b c : ℝ) : Prop where
  arrives : Within (a + pathTol cs) b (arriveAll cs p) q
  length : |totalLength cs - len| ≤ c

theorem Leads.mono {cs : List Segment} {p q : Config} {len a b c a' b' c' : ℝ} (h : Leads cs p q len a b c)
    (ha : a ≤ a') (hb : b ≤ b') (hc : c ≤ c') : Leads cs p q len a' b' c' :=
  ⟨h.arrives.mono (by linarith) hb, h.length.trans hc⟩

theorem Leads.append {cs ds : List Segment} {p q r : Config} {len a b c len' a' b' c' : ℝ}
    (h : Leads cs p q len a b c) (h' : Leads ds q r len' a' b' c') :
    Leads (cs ++ ds) p r (len + len') (a + a' + b * totalLength ds) (b + b') (c + c') := by
  constructor
  · refine (h.arrives.chain h'.arrives).mono ?_ le_rfl
    rw [pathTol_append]; linarith
  · rw [totalLength_append]
    have := abs_le.mp h.length
    have := abs_le.mp h'.length
    rw [abs_le]; constructor <;> linarith

theorem leads_of_lib {cs : List Segment} {p q : Config} {len a b c : ℝ} (h : Within a b (libAll cs p) q)
    (hl : |totalLength cs - len| ≤ c) : Leads cs p q len a b c := by
  refine ⟨?_, hl⟩
  have h1 : Near 0 p p := Near.of_same le_rfl ⟨rfl, rfl, AngleEq.refl _⟩
  have h2 := (libAll_near (cs := cs) h1).within.trans h
  exact h2.mono (by linarith) (by linarith)

/-- Part of the deflection lost when a turn is replaced by a line. -/
def tiny (c : SF.Circle) (q : SF.Configuration) : ℝ :=
  if c.deflection q < SF.epsilon then c.deflection q else 0

theorem tiny_nonneg (c : SF.Circle) (q : SF.Configuration) : 0 ≤ tiny c q := by
  unfold tiny; split_ifs
  · exact (deflection_spec c q).2.1
  · exact le_rfl

theorem tiny_le (c : SF.Circle) (q : SF.Configuration) : tiny c q ≤ SF.epsilon := by
  unfold tiny; split_ifs with h
  · exact h.le
  · norm_num [SF.epsilon]

/-- A CC turn whose centre is missed by `e`. -/
theorem cc_turn_leads {c : SF.Circle} {k s : ℝ} (h : CircleOk c k s (ccA k s) (ccB k s))
    (hk : k > SF.epsilon) (hs : 0 < s) (hl : k / s > SF.epsilon)
    {q : SF.Configuration} {order : Bool} {e : ℝ}
    (he : ‖cen (-(SF.direction c.forward order * ccA k s)) (sg c.left * ccB k s) (tTo c q order)
      - cen (SF.direction c.forward order * ccA k s) (sg c.left * ccB k s) (tFrom c q order)‖ ≤ e) :
    Leads ((SF.cc_turn_controls c q order).map seg) (tFrom c q order) (tTo c q order)
      (c.cc_turn_length q) (2 * e + 2 * c.radius * tiny c q) (tiny c q) (e + c.radius * tiny c q) := by
  have he0 : 0 ≤ e := (norm_nonneg _).trans he
  have h1 := cc_turn_lib h hk hs hl he
  by_cases hd : c.deflection q < SF.epsilon
  · have : tiny c q = c.deflection q := if_pos hd
    rw [this]
    exact leads_of_lib (h1.2 hd)
      (cc_turn_length_tiny h (ccA_pos hk hs hl).le (ccB_pos hk hs hl).le hd he)
  · have : tiny c q = 0 := if_neg hd
    rw [this]
    push Not at hd
    refine leads_of_lib ((h1.1 hd).within.mono (by linarith) le_rfl) ?_
    rw [cc_turn_length_eq c q order hd, sub_self, abs_zero]; linarith

/-- From the start of a circle to `q`. -/
theorem cc_turn_leads_to {c : SF.Circle} {k s e : ℝ} (h : CircleOk c k s (ccA k s) (ccB k s))
    (hk : k > SF.epsilon) (hs : 0 < s) (hl : k / s > SF.epsilon)
    (hc : center c = cen (sg c.forward * ccA k s) (sg c.left * ccB k s) (cfg c.start))
    {q : SF.Configuration}
    (he : ‖cen (-(sg c.forward * ccA k s)) (sg c.left * ccB k s) (cfg q) - center c‖ ≤ e) :
    Leads ((SF.cc_turn_controls c q true).map seg) (cfg c.start) (cfg q)
      (c.cc_turn_length q) (2 * e + 2 * c.radius * tiny c q) (tiny c q) (e + c.radius * tiny c q) := by
  have hd : SF.direction c.forward true = sg c.forward := by rw [direction_eq]; simp [sg]
  have := cc_turn_leads h hk hs hl (q := q) (order := true) (e := e)
    (by rw [hd]; simpa [tTo, tFrom, ← hc] using he)
  simpa [tTo, tFrom] using this

/-- From `q` to the start of a circle. -/
theorem cc_turn_leads_from {c : SF.Circle} {k s e : ℝ} (h : CircleOk c k s (ccA k s) (ccB k s))
    (hk : k > SF.epsilon) (hs : 0 < s) (hl : k / s > SF.epsilon)
    (hc : center c = cen (sg c.forward * ccA k s) (sg c.left * ccB k s) (cfg c.start))
    {q : SF.Configuration}
    (he : ‖cen (-(sg c.forward * ccA k s)) (sg c.left * ccB k s) (cfg q) - center c‖ ≤ e) :
    Leads ((SF.cc_turn_controls c q false).map seg) (cfg q) (cfg c.start)
      (c.cc_turn_length q) (2 * e + 2 * c.radius * tiny c q) (tiny c q) (e + c.radius * tiny c q) := by
  have hd : SF.direction c.forward false = -sg c.forward := by rw [direction_eq]; simp [sg]
  have := cc_turn_leads h hk hs hl (q := q) (order := false) (e := e)
    (by rw [hd, neg_mul, neg_neg]
        rw [← norm_neg, neg_sub]
        simpa [tTo, tFrom, ← hc] using he)
  simpa [tTo, tFrom] using this

theorem configuration_distance_eq (q1 q2 : SF.Configuration) :
    SF.configuration_distance q1 q2 = ‖(cfg q2).pos - (cfg q1).pos‖ := by
  rw [SF.configuration_distance, SF.point_distance, sqrt_eq_norm]; rfl

theorem straight_length (q1 q2 : SF.Configuration) :
    totalLength ((SF.straight_controls q1 q2).map seg) = SF.configuration_distance q1 q2 := by
  have h0 : 0 ≤ SF.configuration_distance q1 q2 := sqrt_nonneg _
  have hs : ∀ x, |SF.sgn x * SF.configuration_distance q1 q2| = SF.configuration_distance q1 q2 := by
    intro x
    unfold SF.sgn; split_ifs <;> simp [abs_of_nonneg h0]
  simp only [SF.straight_controls, List.map_cons, List.map_nil, totalLength, seg, List.sum_cons,
    List.sum_nil, add_zero]
  exact hs _

/-- A straight line whose direction is missed by `e`. -/
theorem straight_leads {q1 q2 : SF.Configuration} {e b : ℝ}
    (he : |(cis (-q1.theta) * ((cfg q2).pos - (cfg q1).pos)).im| ≤ e)
    (hb : ∃ a, AngleEq a q2.theta ∧ |q1.theta - a| ≤ b) :
    Leads ((SF.straight_controls q1 q2).map seg) (cfg q1) (cfg q2) (SF.configuration_distance q1 q2)
      (2 * e) b 0 := by
  obtain ⟨h1, h2⟩ := straight_controls_end q1 q2
  refine leads_of_lib ⟨?_, ?_⟩ ?_
  · rw [Config.dist_eq, h2, norm_cis_mul]
    exact (straight_error _).trans (by linarith)
  · rw [h1]; exact hb
  · rw [straight_length, sub_self, abs_zero]

theorem straight_leads_exact {q1 q2 : SF.Configuration} {x : ℝ}
    (he : (cfg q2).pos - (cfg q1).pos = cis q1.theta * (x : ℂ)) (hb : q1.theta = q2.theta) :
    Leads ((SF.straight_controls q1 q2).map seg) (cfg q1) (cfg q2) (SF.configuration_distance q1 q2)
      0 0 0 := by
  have := straight_leads (q1 := q1) (q2 := q2) (e := 0) (b := 0)
    (by rw [he, ← mul_assoc, cis_neg_mul, one_mul]; simp) ⟨q2.theta, AngleEq.refl _, by rw [hb]; simp⟩
  simpa using this

/-- Heading at a point on the outer circle. -/
theorem tangent_heading {c : SF.Circle} {A B : ℝ} (h : GeomOk c A B) (g t : ℝ)
    (ht : t = g + sg c.left * (π / 2) - sg c.left * sg c.forward * c.mu) :
    cis t * (⟨sg c.forward * A, -(sg c.left * B)⟩ : ℂ) = (c.radius : ℂ) * cis g := by
  subst ht
  rw [← h.sin_mu, ← h.cos_mu, h.sin_mu_eq, h.cos_mu_eq, sub_eq_add_neg, add_assoc, cis_add, mul_assoc, mul_comm (cis g)]
  congr 1
  have h1 := sin_sq_add_cos_sq c.mu
  generalize c.mu = m at h1 ⊢
  cases c.left <;> cases c.forward <;> apply Complex.ext <;>
    simp [cis, sg, cos_add, sin_add] <;> first | linear_combination c.radius * h1 | ring

/-- A configuration that passes the test `configuration_on_hc_cc_circle`. -/
theorem on_circle_center {c : SF.Circle} {A B : ℝ} (h : GeomOk c A B) {q : SF.Configuration}
    (hq : SF.configuration_on_hc_cc_circle c q) :
    ‖cen (-(sg c.forward * A)) (sg c.left * B) (cfg q) - center c‖ ≤ SF.epsilon * (1 + c.radius) := by
  unfold SF.configuration_on_hc_cc_circle at hq
  by_cases h1 : |SF.point_distance c.xc c.yc q.x q.y - c.radius| > SF.epsilon
  · simp [h1] at hq
  simp only [h1, if_false] at hq
  push Not at h1
  obtain ⟨g, hg⟩ : ∃ g, g = SF.atan2 (q.y - c.yc) (q.x - c.xc) := ⟨_, rfl⟩
  obtain ⟨t, ht⟩ : ∃ t, t = g + sg c.left * (π / 2) - sg c.left * sg c.forward * c.mu := ⟨_, rfl⟩
  have hq2 : |q.theta - SF.twopify t| < SF.epsilon := by
    rw [← hg] at hq
    rw [ht]
    cases hl : c.left <;> cases hf : c.forward <;> simp [hl, hf, sg] at hq ⊢ <;>
      convert hq using 4 <;> ring
  have hk := tangent_heading h g t ht
  have hr : SF.point_distance c.xc c.yc q.x q.y = ‖(cfg q).pos - center c‖ := by
    rw [SF.point_distance, sqrt_eq_norm]; rfl
  have hpos : (cfg q).pos - center c = ((SF.point_distance c.xc c.yc q.x q.y : ℝ) : ℂ) * cis g := by
    rw [hr, hg]; exact (norm_mul_cis_arg _).symm
  have hneg : (⟨-(sg c.forward * A), sg c.left * B⟩ : ℂ) = -⟨sg c.forward * A, -(sg c.left * B)⟩ := by
    apply Complex.ext <;> simp
  obtain ⟨z, hz⟩ : ∃ z : ℂ, z = ⟨sg c.forward * A, -(sg c.left * B)⟩ := ⟨_, rfl⟩
  have hR0 : 0 ≤ c.radius := by rw [h.radius]; positivity
  have hzn : ‖z‖ = c.radius := by
    have := congrArg norm hk
    rw [← hz, norm_cis_mul, norm_mul, norm_cis, mul_one, Complex.norm_real, Real.norm_of_nonneg hR0] at this
    exact this
  have e : cen (-(sg c.forward * A)) (sg c.left * B) (cfg q) - center c
      = ((SF.point_distance c.xc c.yc q.x q.y - c.radius : ℝ) : ℂ) * cis g
        + (cis (SF.twopify t) - cis q.theta) * z := by
    rw [cen, hneg, ← hz, cis_twopify]
    rw [← hz] at hk
    push_cast
    have : (cfg q).theta = q.theta := rfl
    rw [this]
    linear_combination hpos - hk
  rw [e]
  refine (norm_add_le _ _).trans ?_
  rw [norm_mul, norm_mul, norm_cis, Complex.norm_real, Real.norm_eq_abs, hzn, mul_one]
  have := norm_cis_sub (SF.twopify t) q.theta
  rw [abs_sub_comm] at hq2
  nlinarith

/-- Straight line between aligned configurations. -/
theorem aligned_im {q1 q2 : SF.Configuration} (h : SF.configuration_aligned q1 q2) :
    |q2.theta - q1.theta| ≤ SF.epsilon ∧
    |(cis (-q1.theta) * ((cfg q2).pos - (cfg q1).pos)).im| ≤ SF.epsilon * SF.configuration_distance q1 q2 ∧
    |(cis (-q2.theta) * ((cfg q1).pos - (cfg q2).pos)).im|
      ≤ 2 * SF.epsilon * SF.configuration_distance q1 q2 := by
  unfold SF.configuration_aligned at h
  by_cases h1 : |q2.theta - q1.theta| > SF.epsilon
  · simp [h1] at h
  simp only [h1, if_false] at h
  push Not at h1
  obtain ⟨g, hg⟩ : ∃ g, g = SF.atan2 (q2.y - q1.y) (q2.x - q1.x) := ⟨_, rfl⟩
  have hpos : (cfg q2).pos - (cfg q1).pos = ((SF.configuration_distance q1 q2 : ℝ) : ℂ) * cis g := by
    rw [configuration_distance_eq, hg]; exact (norm_mul_cis_arg _).symm
  have h0 : 0 ≤ SF.configuration_distance q1 q2 := sqrt_nonneg _
  rw [← hg] at h
  have him : ∀ t, (cis (-t) * ((cfg q2).pos - (cfg q1).pos)).im
      = SF.configuration_distance q1 q2 * sin (SF.twopify g - t) := by
    intro t
    rw [hpos, ← cis_twopify g]
    have : cis (-t) * (((SF.configuration_distance q1 q2 : ℝ) : ℂ) * cis (SF.twopify g))
        = ((SF.configuration_distance q1 q2 : ℝ) : ℂ) * cis (SF.twopify g - t) := by
      rw [sub_eq_add_neg, cis_add]; ring
    rw [this]; simp [cis]
  refine ⟨h1, ?_, ?_⟩
  · rw [him, abs_mul, abs_of_nonneg h0, mul_comm]
    exact mul_le_mul_of_nonneg_right ((abs_sin_le_abs).trans h) h0
  · rw [← neg_sub (cfg q2).pos, mul_neg, Complex.neg_im, abs_neg, him, abs_mul, abs_of_nonneg h0, mul_comm]
    refine mul_le_mul_of_nonneg_right ((abs_sin_le_abs).trans ?_) h0
    have := abs_le.mp h
    have := abs_le.mp h1
    rw [abs_le]; constructor <;> linarith

end Spec
