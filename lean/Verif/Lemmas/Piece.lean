import Verif.Lemmas.TurnShape

/-!
# Pieces of a path: end, length, curvature, limits, driving direction
-/

noncomputable section

namespace Spec

open Real Props

/-- The controls `cs`, with `n` turns, lead from `p` (curvature `k0`) to `q` (curvature `k1`), curvature
continuous.  `E` is the sum of the errors of the centres, `tau` a bound for the deflections lost in turns replaced
by lines, `R` a radius.  The limits `k` and `s` are exceeded by the factors `m` and `m ^ 2` at most,
where `m` depends on `E` (`Slack`); `m = 1` if all centres are exact. -/
structure Track (k s R tau k0 k1 : ℝ) (n : ℕ) (E : ℝ) (cs : List SF.Control) (p q : Config) (len : ℝ) : Prop where
  nonneg : 0 ≤ E
  leads : Leads (cs.map seg) p q len (2 * E + n * (2 * R * tau + tau * totalLength (cs.map seg))) (n * tau)
    (E + n * (R * tau))
  cont : CurvatureContinuous k0 (cs.map seg) k1
  limitsUp : ∀ m, Slack k s E m → CurvatureAtMost (m * (k * (1 + 1 / 10 ^ 8))) (cs.map seg) ∧
    SharpnessAtMost (m ^ 2 * (s * (1 + 2 / 10 ^ 8))) (cs.map seg)
  flat : ∀ c ∈ cs, c.sigma = 0 → c.kappa = 0 ∨ |c.kappa| > SF.epsilon

theorem Track.limits {k s R tau k0 k1 E : ℝ} {n : ℕ} {cs : List SF.Control} {p q : Config} {len : ℝ}
    (h : Track k s R tau k0 k1 n E cs p q len) (h0 : E = 0) :
    CurvatureAtMost (k * (1 + 1 / 10 ^ 8)) (cs.map seg) ∧ SharpnessAtMost (s * (1 + 2 / 10 ^ 8)) (cs.map seg) := by
  have := h.limitsUp 1 ⟨le_rfl, .inl h0⟩
  simpa only [one_pow, one_mul] using this

theorem Track.append {k s R tau k0 k1 k2 E E' : ℝ} {n n' : ℕ} {cs ds : List SF.Control} {p q r : Config}
    {len len' : ℝ} (h : Track k s R tau k0 k1 n E cs p q len) (h' : Track k s R tau k1 k2 n' E' ds q r len')
    (ht : 0 ≤ tau) : Track k s R tau k0 k2 (n + n') (E + E') (cs ++ ds) p r (len + len') := by
  refine ⟨add_nonneg h.nonneg h'.nonneg, ?_, ?_, fun m hm => ?_,
    fun c hc => (List.mem_append.1 hc).elim (h.flat c) (h'.flat c)⟩
  · rw [List.map_append, totalLength_append]
    have l1 := mul_nonneg (Nat.cast_nonneg (α := ℝ) n') (mul_nonneg ht (totalLength_nonneg (cs.map seg)))
    refine (h.leads.append h'.leads).mono ?_ ?_ ?_ <;> push_cast <;> linarith
  · rw [List.map_append]; exact h.cont.append h'.cont
  · have e1 := h.limitsUp m (hm.mono h.nonneg (by linarith [h'.nonneg]))
    have e2 := h'.limitsUp m (hm.mono h'.nonneg (by linarith [h.nonneg]))
    rw [List.map_append]
    exact ⟨e1.1.append e2.1, e1.2.append e2.2⟩

/-- Larger bounds. -/
theorem Track.mono {k s R tau k0 k1 E E' : ℝ} {n : ℕ} {cs : List SF.Control} {p q : Config} {len : ℝ}
    (h : Track k s R tau k0 k1 n E cs p q len) (hE : E ≤ E') : Track k s R tau k0 k1 n E' cs p q len :=
  ⟨h.nonneg.trans hE, h.leads.mono (by linarith) le_rfl (by linarith), h.cont,
    fun m hm => h.limitsUp m (hm.mono h.nonneg hE), h.flat⟩

section
variable {c : SF.Circle} {k s e : ℝ} (h : CircleOk c k s (ccA k s) (ccB k s))
    (hk : k > SF.epsilon) (hs : 0 < s) (hl : k / s > SF.epsilon)
    (hc : center c = cen (sg c.forward * ccA k s) (sg c.left * ccB k s) (cfg c.start))
    {q : SF.Configuration}
    (he : ‖cen (-(sg c.forward * ccA k s)) (sg c.left * ccB k s) (cfg q) - center c‖ ≤ e)

include hc he in
theorem turn_center_norm (order : Bool) :
    ‖cen (-(SF.direction c.forward order * ccA k s)) (sg c.left * ccB k s) (tTo c q order)
      - cen (SF.direction c.forward order * ccA k s) (sg c.left * ccB k s) (tFrom c q order)‖ ≤ e := by
  cases order
  · have hd : SF.direction c.forward false = -sg c.forward := by rw [direction_eq]; simp [sg]
    rw [hd, neg_mul, neg_neg, ← norm_neg, neg_sub]
    simpa [tTo, tFrom, ← hc] using he
  · have hd : SF.direction c.forward true = sg c.forward := by rw [direction_eq]; simp [sg]
    rw [hd]; simpa [tTo, tFrom, ← hc] using he

include h hk hs hl hc he in
theorem cc_turn_track (order : Bool) {tau : ℝ} (ht : tiny c q ≤ tau) :
    Track k s c.radius tau 0 0 1 e (SF.cc_turn_controls c q order) (tFrom c q order) (tTo c q order)
      (c.cc_turn_length q) := by
  have hk0 : 0 < k := lt_trans (by norm_num [SF.epsilon]) hk
  have hn := turn_center_norm hc he order
  have S := cc_turn_shape h hk hs q order
  have t0 := tiny_nonneg c q
  have hR0 : 0 ≤ c.radius := by rw [h.radius]; positivity
  refine ⟨(norm_nonneg _).trans he, ?_, S.continuous hk0 hs (direction_pm _ _), fun m hm => ?_,
    S.flat hk (sg_pm _)⟩
  · have e1 := mul_le_mul_of_nonneg_left ht hR0
    have e2 := mul_nonneg (t0.trans ht) (totalLength_nonneg ((SF.cc_turn_controls c q order).map seg))
    refine (cc_turn_leads h hk hs hl hn).mono ?_ ?_ ?_ <;> push_cast <;> linarith
  · exact S.limits hk0 hs (direction_pm _ _) (sg_pm _) hm.1 fun s0 L hh => hh e m hn hm

include h hk hs hl hc he in
theorem cc_turn_track_to {tau : ℝ} (ht : tiny c q ≤ tau) :
    Track k s c.radius tau 0 0 1 e (SF.cc_turn_controls c q true) (cfg c.start) (cfg q) (c.cc_turn_length q) :=
  cc_turn_track h hk hs hl hc he true ht

include h hk hs hl hc he in
theorem cc_turn_track_from {tau : ℝ} (ht : tiny c q ≤ tau) :
    Track k s c.radius tau 0 0 1 e (SF.cc_turn_controls c q false) (cfg q) (cfg c.start) (c.cc_turn_length q) :=
  cc_turn_track h hk hs hl hc he false ht

end

theorem straight_cont (q1 q2 : SF.Configuration) :
    CurvatureContinuous 0 ((SF.straight_controls q1 q2).map seg) 0 := by
  simp [SF.straight_controls, seg, CurvatureContinuous]

theorem straight_limits {K S : ℝ} (hK : 0 ≤ K) (hS : 0 ≤ S) (q1 q2 : SF.Configuration) :
    CurvatureAtMost K ((SF.straight_controls q1 q2).map seg) ∧
    SharpnessAtMost S ((SF.straight_controls q1 q2).map seg) := by
  refine ⟨?_, ?_⟩
  · intro c hc t _ _
    simp only [SF.straight_controls, List.map_cons, List.map_nil, List.mem_singleton, seg] at hc
    subst hc; simpa using hK
  · intro c hc
    simp only [SF.straight_controls, List.map_cons, List.map_nil, List.mem_singleton, seg] at hc
    subst hc; simpa using hS

theorem straight_track {k s R tau x : ℝ} (hk : 0 < k) (hs : 0 < s) {q1 q2 : SF.Configuration}
    (he : (cfg q2).pos - (cfg q1).pos = cis q1.theta * (x : ℂ)) (hb : q1.theta = q2.theta) :
    Track k s R tau 0 0 0 0 (SF.straight_controls q1 q2) (cfg q1) (cfg q2) (SF.configuration_distance q1 q2) :=
  ⟨le_rfl, by simpa using straight_leads_exact he hb, straight_cont q1 q2,
    fun m hm => by
      have : 0 ≤ m := zero_le_one.trans hm.1
      exact straight_limits (by positivity) (by positivity) q1 q2,
    fun c hc _ => .inl (by rw [SF.straight_controls, List.mem_singleton] at hc; rw [hc])⟩

theorem direction_to (f : Bool) : SF.direction f true = sg f := by rw [direction_eq]; simp [sg]

theorem direction_from (f : Bool) : SF.direction f false = -sg f := by rw [direction_eq]; simp [sg]

/-- All controls drive in direction `d`. -/
def OneWay (d : ℝ) (cs : List SF.Control) : Prop := ∀ c ∈ cs, 0 ≤ d * c.delta_s

theorem OneWay.append {d : ℝ} {a b : List SF.Control} (h : OneWay d a) (h' : OneWay d b) : OneWay d (a ++ b) := by
  intro c hc
  rcases List.mem_append.1 hc with hc | hc
  · exact h c hc
  · exact h' c hc

theorem oneWay_straight {d : ℝ} (hd : d = 1 ∨ d = -1) {q1 q2 : SF.Configuration}
    (h : 0 < d * (cis (-q1.theta) * ((cfg q2).pos - (cfg q1).pos)).re ∨ (cfg q2).pos = (cfg q1).pos) :
    OneWay d (SF.straight_controls q1 q2) := by
  intro c hc
  have hdot : (cis (-q1.theta) * ((cfg q2).pos - (cfg q1).pos)).re
      = cos q1.theta * (q2.x - q1.x) + sin q1.theta * (q2.y - q1.y) := by
    simp [cis, Config.pos, cfg]
  rw [hdot] at h
  simp only [SF.straight_controls, List.mem_singleton] at hc
  subst hc
  simp only
  have h0 : 0 ≤ SF.point_distance q1.x q1.y q2.x q2.y := sqrt_nonneg _
  rcases h with h | h
  · rw [← mul_assoc]
    refine mul_nonneg ?_ h0
    unfold SF.sgn
    rcases hd with rfl | rfl
    · rw [if_neg (by linarith)]; norm_num
    · rw [if_pos (by linarith)]; norm_num
  · have hz : SF.point_distance q1.x q1.y q2.x q2.y = 0 := by
      have := configuration_distance_eq q1 q2
      rw [h, sub_self, norm_zero] at this
      exact this
    rw [hz]; simp

theorem oneWay_straight_exact {d x : ℝ} (hd : d = 1 ∨ d = -1) (hx : 0 ≤ x) {q1 q2 : SF.Configuration}
    (he : (cfg q2).pos - (cfg q1).pos = cis q1.theta * ((d * x : ℝ) : ℂ)) :
    OneWay d (SF.straight_controls q1 q2) := by
  apply oneWay_straight hd
  rcases hx.lt_or_eq with hx | hx
  · left
    rw [he, ← mul_assoc, cis_neg_mul, one_mul, Complex.ofReal_re]
    rcases hd with rfl | rfl <;> linarith
  · right
    rw [← hx, mul_zero, Complex.ofReal_zero, mul_zero] at he
    exact sub_eq_zero.1 he

/-- A turn with tiny deflection is driven as a line in the right direction. -/
theorem oneWay_turn {c : SF.Circle} {k s e : ℝ} (h : CircleOk c k s (ccA k s) (ccB k s))
    (hk : k > SF.epsilon) (hs : 0 < s) (hl : k / s > SF.epsilon)
    (hc : center c = cen (sg c.forward * ccA k s) (sg c.left * ccB k s) (cfg c.start))
    {q : SF.Configuration}
    (he : ‖cen (-(sg c.forward * ccA k s)) (sg c.left * ccB k s) (cfg q) - center c‖ ≤ e)
    (hr : c.regular = true) (heA : e ≤ ccA k s) (order : Bool) :
    OneWay (SF.direction c.forward order) (SF.cc_turn_controls c q order) := by
  have hk0 : 0 < k := lt_trans (by norm_num [SF.epsilon]) hk
  have hd := direction_pm c.forward order
  have hlr := sg_pm c.left
  by_cases hdel : SF.epsilon ≤ c.deflection q
  · exact (cc_turn_shape h hk hs q order).one_way hk0 hs hd hr hdel
  · push Not at hdel
    have hn := turn_center_norm hc he order
    have hta := turn_angle c q order
    obtain ⟨_, h0, _⟩ := deflection_spec c q
    have hcs : SF.cc_turn_controls c q order
        = if order then SF.straight_controls c.start q else SF.straight_controls q c.start := by
      unfold SF.cc_turn_controls; simp only [hdel, if_true]
    obtain ⟨q1, q2, hq, hq1, hq2⟩ : ∃ q1 q2, (if order then SF.straight_controls c.start q else
        SF.straight_controls q c.start) = SF.straight_controls q1 q2 ∧ tFrom c q order = cfg q1 ∧
        tTo c q order = cfg q2 := by
      cases order
      · exact ⟨q, c.start, by simp, rfl, rfl⟩
      · exact ⟨c.start, q, by simp, rfl, rfl⟩
    rw [hcs, hq]
    apply oneWay_straight hd
    left
    rw [hq1, hq2] at hn hta
    obtain ⟨a, ha⟩ : ∃ a, a = c.deflection q / 2 := ⟨_, rfl⟩
    have ha2 : c.deflection q = 2 * a := by rw [ha]; ring
    rw [ha2] at hta h0 hdel
    have hch := turn_chord (A := ccA k s) (B := ccB k s) hd hlr hta
    obtain ⟨E, hE⟩ : ∃ E, E = cen (-(SF.direction c.forward order * ccA k s)) (sg c.left * ccB k s) (cfg q2)
      - cen (SF.direction c.forward order * ccA k s) (sg c.left * ccB k s) (cfg q1) := ⟨_, rfl⟩
    rw [← hE] at hn hch
    have hA := ccA_pos hk hs hl
    have hB := ccB_pos hk hs hl
    have ha1 : a < 1 / 1000 := by unfold SF.epsilon at hdel; linarith
    have hcosa : 0.999 ≤ cos a := by
      have := one_sub_sq_div_two_le_cos (x := a)
      nlinarith
    have hsina : 0 ≤ sin a := sin_nonneg_of_nonneg_of_le_pi (by linarith) (by linarith [pi_gt_three])
    generalize SF.direction c.forward order = d at *
    generalize sg c.left = l at *
    have hth : (cfg q1).theta = q1.theta := rfl
    rw [hth] at hch
    have e1 : cis (-q1.theta) * ((cfg q2).pos - (cfg q1).pos)
        = cis (d * l * a) * ((d * (2 * (ccA k s * cos a + ccB k s * sin a)) : ℝ) : ℂ) + cis (-q1.theta) * E := by
      rw [hch, cis_add]
      linear_combination (cis (d * l * a) * ((d * (2 * (ccA k s * cos a + ccB k s * sin a)) : ℝ) : ℂ))
        * cis_neg_mul q1.theta
    have hEb : |(cis (-q1.theta) * E).re| ≤ e :=
      (Complex.abs_re_le_norm _).trans (by rw [norm_cis_mul]; exact hn)
    have e2 : (cis (d * l * a) * ((d * (2 * (ccA k s * cos a + ccB k s * sin a)) : ℝ) : ℂ)).re
        = d * (2 * (ccA k s * cos a + ccB k s * sin a)) * cos a := by
      have : cos (d * l * a) = cos a := by
        rcases hd with rfl | rfl <;> rcases hlr with rfl | rfl <;> simp
      rw [mul_comm, Complex.re_ofReal_mul]
      change _ * cos (d * l * a) = _
      rw [this]
    rw [e1, Complex.add_re, e2]
    have hX : ccA k s * 0.999 ≤ ccA k s * cos a + ccB k s * sin a := by nlinarith [mul_nonneg hB.le hsina]
    have hX2 : ccA k s * 1.9 ≤ 2 * (ccA k s * cos a + ccB k s * sin a) * cos a := by nlinarith
    have := abs_le.1 hEb
    rcases hd with rfl | rfl <;> nlinarith

/-- A line between aligned configurations goes forwards, its reverse backwards. -/
theorem aligned_way {q1 q2 : SF.Configuration} (h : SF.configuration_aligned q1 q2) :
    OneWay (sg true) (SF.straight_controls q1 q2) ∧ OneWay (sg false) (SF.straight_controls q2 q1) := by
  unfold SF.configuration_aligned at h
  by_cases h1 : |q2.theta - q1.theta| > SF.epsilon
  · simp [h1] at h
  simp only [h1, if_false] at h
  push Not at h1
  obtain ⟨g, hg⟩ : ∃ g, g = SF.atan2 (q2.y - q1.y) (q2.x - q1.x) := ⟨_, rfl⟩
  have hpos : (cfg q2).pos - (cfg q1).pos = ((SF.configuration_distance q1 q2 : ℝ) : ℂ) * cis g := by
    rw [configuration_distance_eq, hg]; exact (norm_mul_cis_arg _).symm
  have h0 : 0 ≤ SF.configuration_distance q1 q2 := sqrt_nonneg _
  rw [← hg] at h
  have hre : ∀ t, (cis (-t) * ((cfg q2).pos - (cfg q1).pos)).re
      = SF.configuration_distance q1 q2 * cos (SF.twopify g - t) := by
    intro t
    rw [hpos, ← cis_twopify g]
    have : cis (-t) * (((SF.configuration_distance q1 q2 : ℝ) : ℂ) * cis (SF.twopify g))
        = ((SF.configuration_distance q1 q2 : ℝ) : ℂ) * cis (SF.twopify g - t) := by
      rw [sub_eq_add_neg, cis_add]; ring
    rw [this]; simp [cis]
  have hcos : ∀ t, |SF.twopify g - t| ≤ 2 * SF.epsilon → 0 < cos (SF.twopify g - t) := by
    intro t ht
    have := abs_le.1 ht
    norm_num [SF.epsilon] at this
    exact cos_pos_of_mem_Ioo ⟨by linarith [pi_gt_three], by linarith [pi_gt_three]⟩
  have he : (0:ℝ) < SF.epsilon := by norm_num [SF.epsilon]
  rcases h0.lt_or_eq with hp | hz
  · constructor
    · apply oneWay_straight (sg_pm _)
      left
      rw [hre]
      have := hcos q1.theta (by linarith)
      simp only [sg, if_true, one_mul]; positivity
    · apply oneWay_straight (sg_pm _)
      left
      rw [← neg_sub (cfg q2).pos, mul_neg, Complex.neg_re, hre]
      have := hcos q2.theta (by
        have := abs_le.1 h; have := abs_le.1 h1
        rw [abs_le]; constructor <;> linarith)
      have : 0 < SF.configuration_distance q1 q2 * cos (SF.twopify g - q2.theta) := by positivity
      simp only [sg]; simpa using this
  · have he : (cfg q2).pos = (cfg q1).pos := by
      rw [← hz] at hpos; simpa [sub_eq_zero] using hpos
    exact ⟨oneWay_straight (sg_pm _) (.inr he), oneWay_straight (sg_pm _) (.inr he.symm)⟩

end Spec
