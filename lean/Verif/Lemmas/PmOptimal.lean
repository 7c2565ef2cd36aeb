import Verif.Lemmas.CcOptimalAll
import Verif.Lemmas.PmPlan
import Verif.Spec.PmOptimal

/-!
# CC-Dubins with curvature at the ends: turns and tangents of the competitors
-/

noncomputable section

namespace Spec

open Real Props
open CC00 (CircOk circOk_at startOf cfg_startOf middle_unique idx)

theorem hc_circular_regular {c : SF.Circle} (hr : c.regular = true) {delta : ℝ} (h0 : 0 ≤ delta)
    (h1 : delta < 2 * π) :
    0 ≤ c.hc_circular_deflection delta ∧ c.hc_circular_deflection delta < 2 * π := by
  have a := SF.twopify_nonneg c.delta_min
  have b := SF.twopify_lt c.delta_min
  unfold SF.Circle.hc_circular_deflection
  simp only [hr, if_true]
  generalize SF.twopify c.delta_min = m at a b
  split_ifs <;> constructor <;> linarith

/-- A turn with the heading change of a clothoid and an arc is not longer. -/
theorem half_le {c : SF.Circle} {k s : ℝ} (h : CircleOk c k s (ccA k s) (ccB k s)) (hk : 0 < k)
    (hs : 0 < s) (hr : c.regular = true) {q : SF.Configuration} {a : ℝ} (ha : 0 ≤ a)
    (hd : AngleEq (c.deflection q) (k ^ 2 / (2 * s) + k * a)) :
    c.hc_turn_length q ≤ k / s + a := by
  obtain ⟨_, d0, d1⟩ := deflection_spec c q
  obtain ⟨w0, w1⟩ := hc_circular_regular hr d0 d1
  have hw : AngleEq (c.hc_circular_deflection (c.deflection q)) (k * a) := by
    refine (hc_circular_spec c _).trans ((hd.sub (AngleEq.refl _)).trans (AngleEq.of_eq ?_))
    rw [h.delta_min]; ring
  have hle := le_of_angleEq hw w1 (by positivity)
  unfold SF.Circle.hc_turn_length
  simp only
  rw [abs_kappa_sigma h hk hs, abs_mul, abs_kappa_inv h hk, abs_of_nonneg w0]
  have := mul_le_mul_of_nonneg_left hle (show 0 ≤ 1 / k by positivity)
  rw [show 1 / k * (k * a) = a by field_simp] at this
  linarith

/-- `q`, at the maximum curvature, is the end of a turn from `p`, at curvature zero. -/
structure Opened (k s : ℝ) (l d : Bool) (p q : Config) (len : ℝ) : Prop where
  cen : cen 0 (1 / (sg l * k)) q = cen (sg d * ccA k s) (sg l * ccB k s) p
  nonneg : 0 ≤ len
  turn : ∀ (c : SF.Circle) (r : SF.Configuration), CircleOk c k s (ccA k s) (ccB k s) →
    c.regular = true → c.left = l → c.forward = d → SameConfig (cfg c.start) p → SameConfig (cfg r) q →
    c.hc_turn_length r ≤ len

/-- `q`, at curvature zero, is the end of a turn from `p`, at the maximum curvature. -/
structure Closed (k s : ℝ) (l d : Bool) (p q : Config) (len : ℝ) : Prop where
  cen : Spec.cen (-(sg d * ccA k s)) (sg l * ccB k s) q = Spec.cen 0 (1 / (sg l * k)) p
  nonneg : 0 ≤ len
  turn : ∀ (c : SF.Circle) (r : SF.Configuration), CircleOk c k s (ccA k s) (ccB k s) →
    c.regular = true → c.left = l → c.forward = (!d) → SameConfig (cfg c.start) q → SameConfig (cfg r) p →
    c.hc_turn_length r ≤ len

theorem half_length {k s a : ℝ} (hk : 0 < k) (hs : 0 < s) (ha : 0 ≤ a) (l d : Bool) :
    totalLength (openTurn k s (sg d) (sg l) a) = k / s + a ∧
    totalLength (closeTurn k s (sg d) (sg l) a) = k / s + a := by
  have hks : 0 < k / s := by positivity
  constructor <;>
    simp only [totalLength, openTurn, closeTurn, List.map_cons, List.map_nil, List.sum_cons, List.sum_nil] <;>
    rw [abs_pm_mul (sg_pm d) hks.le, abs_pm_mul (sg_pm d) ha] <;> ring

theorem sg_k_ne {k : ℝ} (hk : 0 < k) (l : Bool) : sg l * k ≠ 0 := by
  rcases sg_pm l with e | e <;> rw [e] <;> simp [hk.ne']

theorem open_opened {k s : ℝ} (hk : 0 < k) (hs : 0 < s) (l d : Bool) {a : ℝ} (ha : 0 ≤ a) (p : Config) :
    Opened k s l d p (libAll (openTurn k s (sg d) (sg l) a) p) (totalLength (openTurn k s (sg d) (sg l) a)) := by
  rw [(half_length hk hs ha l d).1]
  unfold openTurn
  simp only [libAll]
  obtain ⟨i1, i2⟩ := full_in hk hs (sg_pm d) (sg_pm l) p
  generalize libArrive ⟨sg d * (k / s), 0, sg l * s⟩ p = p1 at *
  obtain ⟨j1, j2⟩ := lib_arc (len := sg d * a) (sg_k_ne hk l) p1
  generalize libArrive ⟨sg d * a, sg l * k, 0⟩ p1 = p2 at *
  have e2 : AngleEq p2.theta (p.theta + sg d * sg l * (k ^ 2 / (2 * s) + k * a)) := by
    rw [j2]
    refine (i2.add_right _).trans (AngleEq.of_eq ?_)
    ring
  refine ⟨by rw [j1, i1], by positivity, ?_⟩
  rintro c r hc hr rfl rfl hp hq
  exact half_le hc hk hs hr ha (deflection_to hp hq e2)

theorem close_closed {k s : ℝ} (hk : 0 < k) (hs : 0 < s) (l d : Bool) {a : ℝ} (ha : 0 ≤ a) (p : Config) :
    Closed k s l d p (libAll (closeTurn k s (sg d) (sg l) a) p) (totalLength (closeTurn k s (sg d) (sg l) a)) := by
  rw [(half_length hk hs ha l d).2]
  unfold closeTurn
  simp only [libAll]
  obtain ⟨j1, j2⟩ := lib_arc (len := sg d * a) (sg_k_ne hk l) p
  generalize libArrive ⟨sg d * a, sg l * k, 0⟩ p = p1 at *
  obtain ⟨m1, m2⟩ := full_out hk hs (sg_pm d) (sg_pm l) p1
  generalize libArrive ⟨sg d * (k / s), sg l * k, -(sg l * s)⟩ p1 = p2 at *
  have e2 : AngleEq p2.theta (p.theta + sg d * sg l * (k ^ 2 / (2 * s) + k * a)) := by
    refine m2.trans ?_
    rw [j2]
    exact AngleEq.of_eq (by ring)
  refine ⟨by rw [m1, j1], by positivity, ?_⟩
  rintro c r hc hr rfl hf hp hq
  refine half_le hc hk hs hr ha (deflection_to hp hq (AngleEq.symm ((e2.add_right _).trans (AngleEq.of_eq ?_))))
  rw [hf, sg_not]; ring

theorem Opened.congr {k s : ℝ} {l d : Bool} {p q p' q' : Config} {len : ℝ} (h : Opened k s l d p q len)
    (hp : SameConfig p p') (hq : SameConfig q q') : Opened k s l d p' q' len :=
  ⟨by rw [← cen_congr hp, ← cen_congr hq]; exact h.cen, h.nonneg,
    fun c r h1 h2 h3 h4 h5 h6 => h.turn c r h1 h2 h3 h4 (h5.trans hp.symm) (h6.trans hq.symm)⟩

theorem Closed.congr {k s : ℝ} {l d : Bool} {p q p' q' : Config} {len : ℝ} (h : Closed k s l d p q len)
    (hp : SameConfig p p') (hq : SameConfig q q') : Closed k s l d p' q' len :=
  ⟨by rw [← cen_congr hp, ← cen_congr hq]; exact h.cen, h.nonneg,
    fun c r h1 h2 h3 h4 h5 h6 => h.turn c r h1 h2 h3 h4 (h5.trans hq.symm) (h6.trans hp.symm)⟩

/-! ### The tangents of the competitor are those of the planner -/

/-- The tangent configuration of two circles. -/
theorem tt_fit {c1 c2 : SF.Circle} {A B : ℝ} (h1 : GeomOk c1 A B) (hA : 0 < A) {q : Config}
    (g1 : cen (-(sg c1.forward * A)) (sg c1.left * B) q = center c1)
    (g2 : cen (sg c1.forward * A) (-(sg c1.left * B)) q = center c2) :
    SameConfig (cfg (SF.CC00.TT_tangent_circles c1 c2)) q := by
  have hneg : ∀ a b : ℝ, (⟨-a, b⟩ : ℂ) = -⟨a, -b⟩ := by intro a b; apply Complex.ext <;> simp
  have hD : SF.center_distance c1 c2 = 2 * c1.radius := by
    rw [center_distance_eq, ← g1, ← g2]
    have : cen (sg c1.forward * A) (-(sg c1.left * B)) q - cen (-(sg c1.forward * A)) (sg c1.left * B) q
        = cis q.theta * (2 * (⟨sg c1.forward * A, -(sg c1.left * B)⟩ : ℂ)) := by
      unfold cen; rw [hneg]; ring
    have hR : ‖(⟨sg c1.forward * A, -(sg c1.left * B)⟩ : ℂ)‖ = c1.radius := by
      rw [← sqrt_eq_norm, h1.radius, neg_sq, mul_pow, mul_pow, sq (sg _), sq (sg _), sg_sq, sg_sq,
        one_mul, one_mul]
    rw [this, norm_cis_mul, norm_mul, hR]
    simp
  have S := TT_spec h1 c2
  rw [hD, show 2 * c1.radius / 2 - c1.radius = 0 by ring, Complex.ofReal_zero, zero_mul, neg_zero, sub_eq_zero,
    sub_eq_zero] at S
  exact (tangent_unique (l1 := sg c1.left) (l2 := -sg c1.left) (x := 0) (x' := 0) (q1 := q) (q2 := q)
    (C1 := center c1) (C2 := center c2) (B := B) (sg_pm c1.forward) hA le_rfl (by linarith) g1
    (by rw [neg_mul]; exact g2) (by simp) (AngleEq.refl _) S.1 (by rw [neg_mul]; exact S.2) (by simp)
    (AngleEq.refl _)).1

/-- The common tangent line of two circles. -/
theorem line_fit {c1 c2 : SF.Circle} {A B : ℝ} (h1 : GeomOk c1 A B) (hA : 0 < A) (hB : 0 < B)
    (hne : c1.forward ≠ c2.forward) {q1 q2 : Config} {x : ℝ} (hx : 0 ≤ x)
    (g1 : cen (-(sg c1.forward * A)) (sg c1.left * B) q1 = center c1)
    (g2 : cen (sg c1.forward * A) (sg c2.left * B) q2 = center c2)
    (hq : q2.pos = q1.pos + cis q1.theta * ((sg c1.forward * x : ℝ) : ℂ))
    (hqt : AngleEq q2.theta q1.theta) :
    (SF.CC00.TiST_exists (SF.scratch c1 c2) c1 c2 ∧ SameConfig (cfg (SF.CC00.TiST_tangent_circles c1 c2).1) q1 ∧
      SameConfig (cfg (SF.CC00.TiST_tangent_circles c1 c2).2) q2) ∨
    (¬ SF.CC00.TiST_exists (SF.scratch c1 c2) c1 c2 ∧ SF.CC00.TeST_exists (SF.scratch c1 c2) c1 c2 ∧
      SameConfig (cfg (SF.CC00.TeST_tangent_circles c1 c2).1) q1 ∧
      SameConfig (cfg (SF.CC00.TeST_tangent_circles c1 c2).2) q2) := by
  have hDn : SF.center_distance c1 c2 = √((x + 2 * A) ^ 2 + ((sg c2.left - sg c1.left) * B) ^ 2) := by
    have e : center c2 - center c1 = cis q1.theta * (⟨sg c1.forward * (x + 2 * A),
        (sg c2.left - sg c1.left) * B⟩ : ℂ) := by
      rw [← g1, ← g2]
      unfold cen
      rw [hq, hqt.cis_eq]
      have : (⟨sg c1.forward * (x + 2 * A), (sg c2.left - sg c1.left) * B⟩ : ℂ) = ((sg c1.forward * x : ℝ) : ℂ)
          + ⟨sg c1.forward * A, sg c2.left * B⟩ - ⟨-(sg c1.forward * A), sg c1.left * B⟩ := by
        apply Complex.ext
        · simp; ring
        · simp; ring
      rw [this]; ring
    rw [center_distance_eq, e, norm_cis_mul, ← sqrt_eq_norm, mul_pow (sg c1.forward), sq (sg c1.forward),
      sg_sq, one_mul]
  by_cases hside : c1.left = c2.left
  · right
    have hD : SF.center_distance c1 c2 = x + 2 * A := by
      rw [hDn, hside, sub_self, zero_mul, zero_pow (by norm_num), add_zero, sqrt_sq (by linarith)]
    have e6 : SF.CC00.TeST_exists (SF.scratch c1 c2) c1 c2 := by
      unfold SF.CC00.TeST_exists
      rw [if_neg (by simp [hside]), if_neg hne]
      change _ ≤ SF.center_distance c1 c2
      rw [mul_assoc, h1.sin_mu, hD]; linarith
    have e7 : ¬ SF.CC00.TiST_exists (SF.scratch c1 c2) c1 c2 := by
      unfold SF.CC00.TiST_exists; rw [if_pos hside]; exact id
    obtain ⟨S1, S2, S3, S4⟩ := TeST_spec h1 c2
    obtain ⟨u1, u2, _⟩ := tangent_unique (x' := SF.center_distance c1 c2 - 2 * A)
      (sg_pm c1.forward) hA hx (by rw [hD]; linarith) g1 g2 hq hqt S1 (by rw [← hside]; exact S2)
      (by rw [← sub_eq_iff_eq_add']; exact S4) (AngleEq.of_eq S3.symm)
    exact ⟨e7, e6, u1, u2⟩
  · left
    have hll : c2.left = !c1.left := not_of_ne hside
    have hR2 : c1.radius ^ 2 = A ^ 2 + B ^ 2 := by
      rw [h1.radius, sq_sqrt (by positivity)]
    have hDsq : SF.center_distance c1 c2 ^ 2 = (x + 2 * A) ^ 2 + 4 * B ^ 2 := by
      rw [hDn, sq_sqrt (by positivity), hll, sg_not]
      have := sg_sq c1.left
      linear_combination 4 * B ^ 2 * this
    have hD0 : 0 ≤ SF.center_distance c1 c2 := sqrt_nonneg _
    have hR0 : 0 ≤ c1.radius := by rw [h1.radius]; positivity
    have hD : 2 * c1.radius ≤ SF.center_distance c1 c2 := by nlinarith
    have e7 : SF.CC00.TiST_exists (SF.scratch c1 c2) c1 c2 := by
      unfold SF.CC00.TiST_exists; rw [if_neg hside, if_neg hne]; exact hD
    obtain ⟨S1, S2, S3, S4, S5⟩ := TiST_spec h1 c2 hB hD
    obtain ⟨u1, u2, _⟩ := tangent_unique
      (x' := √(SF.center_distance c1 c2 ^ 2 - 4 * B ^ 2) - 2 * A)
      (sg_pm c1.forward) hA hx (by rw [sub_add_cancel]; positivity) g1 g2 hq hqt S1
      (by rw [hll, sg_not, neg_mul]; exact S2)
      (by rw [← sub_eq_iff_eq_add']; exact S4) (AngleEq.of_eq S3.symm)
    exact ⟨e7, u1, u2⟩

theorem line_len {r1 r2 : SF.Configuration} {q1 q2 : Config} {x : ℝ} {d : Bool} (hx : 0 ≤ x)
    (hq : q2.pos = q1.pos + cis q1.theta * ((sg d * x : ℝ) : ℂ)) (e1 : SameConfig (cfg r1) q1)
    (e2 : SameConfig (cfg r2) q2) : SF.configuration_distance r1 r2 = x := by
  rw [configuration_distance_eq, (sameConfig_iff.1 e1).1, (sameConfig_iff.1 e2).1, hq, add_sub_cancel_left,
    norm_cis_mul, Complex.norm_real, Real.norm_eq_abs, abs_pm_mul (sg_pm _) hx]

/-- The centre of the middle circle. -/
theorem middle_fit {c1 c2 : SF.Circle} {A B : ℝ} (h1 : GeomOk c1 A B)
    (hne : c1.forward ≠ c2.forward) (hlr : c1.left = c2.left) (hc : center c1 ≠ center c2) {q1 q2 : Config} {M : ℂ}
    (g1 : cen (-(sg c1.forward * A)) (sg c1.left * B) q1 = center c1)
    (gm : cen (sg c1.forward * A) (-(sg c1.left * B)) q1 = M)
    (gm' : cen (-(sg c1.forward * A)) (-(sg c1.left * B)) q2 = M)
    (g2 : cen (sg c1.forward * A) (sg c1.left * B) q2 = center c2) :
    SF.CC00.TTT_exists (SF.scratch c1 c2) c1 c2 ∧
    ∃ y, (y = √((2 * c1.radius) ^ 2 - (0.5 * SF.center_distance c1 c2) ^ 2) ∨
        y = -√((2 * c1.radius) ^ 2 - (0.5 * SF.center_distance c1 c2) ^ 2)) ∧
      (⟨(SF.global_frame_change c1.xc c1.yc (SF.atan2 (c2.yc - c1.yc) (c2.xc - c1.xc))
          (0.5 * SF.center_distance c1 c2) y).1,
        (SF.global_frame_change c1.xc c1.yc (SF.atan2 (c2.yc - c1.yc) (c2.xc - c1.xc))
          (0.5 * SF.center_distance c1 c2) y).2⟩ : ℂ) = M := by
  have hneg : ∀ a b : ℝ, (⟨-a, b⟩ : ℂ) = -⟨a, -b⟩ := by intro a b; apply Complex.ext <;> simp
  have hR : ‖(⟨sg c1.forward * A, -(sg c1.left * B)⟩ : ℂ)‖ = c1.radius := by
    rw [← sqrt_eq_norm, h1.radius, neg_sq, mul_pow, mul_pow, sq (sg _), sq (sg _), sg_sq, sg_sq,
      one_mul, one_mul]
  have hR' : ‖(⟨sg c1.forward * A, sg c1.left * B⟩ : ℂ)‖ = c1.radius := by
    rw [← hR, ← sqrt_eq_norm, ← sqrt_eq_norm, neg_sq]
  have hMC1 : M - center c1 = cis q1.theta * (2 * (⟨sg c1.forward * A, -(sg c1.left * B)⟩ : ℂ)) := by
    rw [← gm, ← g1]; unfold cen; rw [hneg]; ring
  have hC2M : center c2 - M = cis q2.theta * (2 * (⟨sg c1.forward * A, sg c1.left * B⟩ : ℂ)) := by
    rw [← gm', ← g2]; unfold cen; rw [hneg, neg_neg]; ring
  have n1 : ‖M - center c1‖ = 2 * c1.radius := by rw [hMC1, norm_cis_mul, norm_mul, hR]; simp
  have n2 : ‖center c2 - M‖ = 2 * c1.radius := by rw [hC2M, norm_cis_mul, norm_mul, hR']; simp
  have hp := center_polar c1 c2
  have hDpos : 0 < SF.center_distance c1 c2 := by
    rw [center_distance_eq, norm_pos_iff, sub_ne_zero]; exact hc.symm
  have hD4 : SF.center_distance c1 c2 ≤ 4 * c1.radius := by
    rw [center_distance_eq, show center c2 - center c1 = (center c2 - M) + (M - center c1) by ring]
    refine (norm_add_le _ _).trans ?_
    rw [n1, n2]; linarith
  refine ⟨by unfold SF.CC00.TTT_exists; rw [if_neg (by simp [hlr]), if_neg hne]; exact hD4, ?_⟩
  have hM2 := middle_unique (M := M - center c1) (g := SF.atan2 (c2.yc - c1.yc) (c2.xc - c1.xc))
    (R := c1.radius) hDpos n1 (by
      rw [show ((SF.center_distance c1 c2 : ℝ) : ℂ) * cis (SF.atan2 (c2.yc - c1.yc) (c2.xc - c1.xc))
        - (M - center c1) = center c2 - M by rw [hp]; ring]; exact n2)
  rcases hM2 with hM2 | hM2
  · exact ⟨_, Or.inl rfl, (frame_cis _ _ _ _ _).trans (by rw [← hM2]; exact add_sub_cancel _ _)⟩
  · exact ⟨_, Or.inr rfl, (frame_cis _ _ _ _ _).trans (by rw [← hM2]; exact add_sub_cancel _ _)⟩

end Spec
