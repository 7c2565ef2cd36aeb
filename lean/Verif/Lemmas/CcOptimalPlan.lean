import Verif.Lemmas.CcOptimal

/-!
# CC00-Dubins: the planned path is not longer than any word
-/

noncomputable section

namespace Spec

open Real Props

theorem frame_unique {t t' x x' b d : ℝ} (hd : d = 1 ∨ d = -1) (hx : 0 < x) (hx' : 0 ≤ x')
    (h : cis t * (⟨d * x, b⟩ : ℂ) = cis t' * (⟨d * x', b⟩ : ℂ)) : x = x' ∧ AngleEq t t' := by
  have hn := congrArg (‖·‖) h
  simp only [norm_cis_mul] at hn
  rw [← sqrt_eq_norm, ← sqrt_eq_norm, sqrt_inj (by positivity) (by positivity)] at hn
  have hd2 : d ^ 2 = 1 := by rcases hd with rfl | rfl <;> norm_num
  have e : x = x' := by
    rw [mul_pow, mul_pow, hd2] at hn
    nlinarith
  refine ⟨e, ?_⟩
  rw [← e] at h
  apply cis_inj
  refine mul_right_cancel₀ ?_ h
  intro h0
  have := congrArg Complex.re h0
  simp only [Complex.zero_re] at this
  rcases hd with rfl | rfl <;> simp at this <;> linarith

/-- Common tangents of two circles are unique. -/
theorem tangent_unique {d A B l1 l2 x x' : ℝ} (hd : d = 1 ∨ d = -1) (hA : 0 < A) (hx : 0 ≤ x)
    (hx' : 0 ≤ x' + 2 * A) {q1 q2 r1 r2 : Config} {C1 C2 : ℂ}
    (hq1 : cen (-(d * A)) (l1 * B) q1 = C1) (hq2 : cen (d * A) (l2 * B) q2 = C2)
    (hq : q2.pos = q1.pos + cis q1.theta * ((d * x : ℝ) : ℂ)) (hqt : AngleEq q2.theta q1.theta)
    (hr1 : cen (-(d * A)) (l1 * B) r1 = C1) (hr2 : cen (d * A) (l2 * B) r2 = C2)
    (hr : r2.pos = r1.pos + cis r1.theta * ((d * x' : ℝ) : ℂ)) (hrt : AngleEq r2.theta r1.theta) :
    SameConfig r1 q1 ∧ SameConfig r2 q2 ∧ x = x' := by
  have key : ∀ {q1 q2 : Config} {x : ℝ}, cen (-(d * A)) (l1 * B) q1 = C1 → cen (d * A) (l2 * B) q2 = C2 →
      q2.pos = q1.pos + cis q1.theta * ((d * x : ℝ) : ℂ) → AngleEq q2.theta q1.theta →
      C2 - C1 = cis q1.theta * (⟨d * (x + 2 * A), (l2 - l1) * B⟩ : ℂ) := by
    intro q1 q2 x h1 h2 h3 h4
    rw [← h1, ← h2]
    unfold cen
    rw [h3, h4.cis_eq]
    have : (⟨d * (x + 2 * A), (l2 - l1) * B⟩ : ℂ) = ((d * x : ℝ) : ℂ) + ⟨d * A, l2 * B⟩
        - ⟨-(d * A), l1 * B⟩ := by
      apply Complex.ext
      · simp; ring
      · simp; ring
    rw [this]; ring
  have k1 := key hq1 hq2 hq hqt
  have k2 := key hr1 hr2 hr hrt
  obtain ⟨e1, e2⟩ := frame_unique hd (by linarith : 0 < x + 2 * A) hx' (k1.symm.trans k2)
  refine ⟨same_of_cen (hr1.trans hq1.symm) e2.symm,
    same_of_cen (hr2.trans hq2.symm) (hrt.trans (e2.symm.trans hqt.symm)), by linarith⟩

/-- The goal of a turn is recognised as lying on the circle, even if its heading is slightly wrong. -/
theorem on_circle_near {c : SF.Circle} {k s : ℝ} (h : CircleOk c k s (ccA k s) (ccB k s))
    (hk : k > SF.epsilon) (hs : 0 < s) (hl : k / s > SF.epsilon) {q : SF.Configuration}
    (hq0 : 0 ≤ q.theta) (hq1 : q.theta < 2 * π)
    (hc : cen (-(sg c.forward * ccA k s)) (sg c.left * ccB k s) (cfg q) = center c)
    {t : ℝ} (ht : |t - q.theta| < SF.epsilon) :
    SF.configuration_on_hc_cc_circle c { q with theta := t } := by
  have hA := ccA_pos hk hs hl
  have hB := ccB_pos hk hs hl
  have hR : 0 < c.radius := by rw [h.radius]; positivity
  obtain ⟨e, he⟩ : ∃ e : ℂ, e = (⟨sg c.forward * ccA k s, -(sg c.left * ccB k s)⟩ : ℂ) := ⟨_, rfl⟩
  have hpos : (cfg q).pos - center c = cis q.theta * e := by
    rw [← hc, cen, he]
    have : (⟨-(sg c.forward * ccA k s), sg c.left * ccB k s⟩ : ℂ)
        = -⟨sg c.forward * ccA k s, -(sg c.left * ccB k s)⟩ := by apply Complex.ext <;> simp
    rw [this]; change _ = cis (cfg q).theta * _; ring
  have hen : ‖e‖ = c.radius := by
    rw [he, ← sqrt_eq_norm, h.radius]
    congr 1
    have h1 := sg_sq c.forward
    have h2 := sg_sq c.left
    rw [neg_sq, mul_pow, mul_pow, sq (sg _), sq (sg _), h1, h2, one_mul, one_mul]
  have hz : (⟨q.x - c.xc, q.y - c.yc⟩ : ℂ) = (cfg q).pos - center c := by
    apply Complex.ext <;> rfl
  have hd : SF.point_distance c.xc c.yc q.x q.y = c.radius := by
    unfold SF.point_distance
    rw [sqrt_eq_norm, hz, hpos, norm_cis_mul, hen]
  have harg : SF.atan2 (q.y - c.yc) (q.x - c.xc) = Complex.arg ((cfg q).pos - center c) := by
    rw [← hz]; rfl
  have hpol := norm_mul_cis_arg ((cfg q).pos - center c)
  rw [← harg, hpos, norm_cis_mul, hen] at hpol
  obtain ⟨g, hg⟩ : ∃ g, g = SF.atan2 (q.y - c.yc) (q.x - c.xc) := ⟨_, rfl⟩
  have key : cis (g + sg c.left * (π / 2) - sg c.left * sg c.forward * c.mu) * e = (c.radius : ℂ) * cis g := by
    rw [he, ← h.sin_mu, ← h.cos_mu, h.sin_mu_eq, h.cos_mu_eq, sub_eq_add_neg, add_assoc, cis_add, mul_assoc,
      mul_comm (cis g)]
    congr 1
    have h1 := sin_sq_add_cos_sq c.mu
    generalize c.mu = m at h1 ⊢
    cases c.left <;> cases c.forward <;> apply Complex.ext <;>
      simp [cis, sg, cos_add, sin_add] <;> first | linear_combination c.radius * h1 | ring
  have he0 : e ≠ 0 := by rw [← norm_pos_iff, hen]; exact hR
  have hang : AngleEq (g + sg c.left * (π / 2) - sg c.left * sg c.forward * c.mu) q.theta := by
    apply cis_inj
    refine mul_right_cancel₀ he0 ?_
    rw [key, ← hpol, hg]
  have htw : ∀ w, w = g + sg c.left * (π / 2) - sg c.left * sg c.forward * c.mu →
      |t - SF.twopify w| < SF.epsilon := by
    rintro w rfl
    rw [SF.twopify_congr hang, SF.twopify_of_mem hq0 hq1]
    exact ht
  unfold SF.configuration_on_hc_cc_circle
  simp only
  rw [if_neg (by rw [hd]; norm_num [SF.epsilon]), ← hg]
  apply htw
  cases c.left <;> cases c.forward <;> simp [sg] <;> ring

/-- The goal of a turn is recognised as lying on the circle. -/
theorem on_circle {c : SF.Circle} {k s : ℝ} (h : CircleOk c k s (ccA k s) (ccB k s))
    (hk : k > SF.epsilon) (hs : 0 < s) (hl : k / s > SF.epsilon) {q : SF.Configuration}
    (hq0 : 0 ≤ q.theta) (hq1 : q.theta < 2 * π)
    (hc : cen (-(sg c.forward * ccA k s)) (sg c.left * ccB k s) (cfg q) = center c) :
    SF.configuration_on_hc_cc_circle c q :=
  on_circle_near h hk hs hl hq0 hq1 hc (by norm_num [SF.epsilon])

namespace CC00

open SF.CC00

/-- None of the shortcuts applies. -/
structure Clear (sp : SF.HCSpace) (c1 c2 : SF.Circle) : Prop where
  eq : ¬ SF.configuration_equal c1.start c2.start
  fwd : ¬ (sp.forwards ∧ SF.configuration_aligned c1.start c2.start)
  bwd : ¬ (¬ sp.forwards ∧ SF.configuration_aligned c2.start c1.start)
  off : ¬ SF.configuration_on_hc_cc_circle c1 c2.start

open Classical in
theorem table_clear {sp : SF.HCSpace} {m : SF.Scratch} {c1 c2 : SF.Circle} (h : Clear sp c1 c2) :
    (TST_exists m c1 c2 → (table sp m c1 c2 4).length = (TST_path m c1 c2).length) ∧
    (TTT_exists m c1 c2 → (table sp m c1 c2 5).length = (TTT_path sp.param m c1 c2).1) := by
  unfold table
  rw [if_neg h.eq, if_neg h.fwd, if_neg h.bwd, if_neg h.off]
  constructor
  · intro e
    simp only [if_pos e]
    by_cases e3 : TTT_exists m c1 c2
    · rw [if_pos e3, set_other _ _ (by norm_num), set_same]
    · rw [if_neg e3, set_same]
  · intro e
    simp only [if_pos e]
    rw [set_same]

theorem tst_le {sp : SF.HCSpace} (hk : sp.kappa > SF.epsilon) (hs : 0 < sp.sigma)
    (hl : sp.kappa / sp.sigma > SF.epsilon) {c1 c2 : SF.Circle} (h1 : CircOk c1 sp.kappa sp.sigma)
    (h2 : CircOk c2 sp.kappa sp.sigma) (hf : c2.forward = !c1.forward) (hr1 : c1.regular = true)
    (hr2 : c2.regular = true) (hcl : Clear sp c1 c2) {q1 q2 : Config} {x L1 L2 : ℝ}
    (t1 : Turned true sp.kappa sp.sigma c1.left c1.forward (cfg c1.start) q1 L1)
    (t2 : Turned true sp.kappa sp.sigma c2.left c1.forward q2 (cfg c2.start) L2) (hx : 0 ≤ x)
    (hq : q2.pos = q1.pos + cis q1.theta * ((sg c1.forward * x : ℝ) : ℂ))
    (hqt : AngleEq q2.theta q1.theta) :
    (circles_dubins_path sp c1 c2).length ≤ L1 + x + L2 := by
  have hA := ccA_pos hk hs hl
  have hB := ccB_pos hk hs hl
  have hne : c1.forward ≠ c2.forward := by rw [hf]; cases c1.forward <;> simp
  have g1 := t1.cen.trans h1.cen.symm
  have g2 : Spec.cen (sg c1.forward * ccA sp.kappa sp.sigma) (sg c2.left * ccB sp.kappa sp.sigma) q2 = center c2 := by
    rw [← t2.cen, h2.cen, hf, sg_not, neg_mul]
  have hDn : SF.center_distance c1 c2 = √((x + 2 * ccA sp.kappa sp.sigma) ^ 2
      + ((sg c2.left - sg c1.left) * ccB sp.kappa sp.sigma) ^ 2) := by
    have e : center c2 - center c1 = cis q1.theta * (⟨sg c1.forward * (x + 2 * ccA sp.kappa sp.sigma),
        (sg c2.left - sg c1.left) * ccB sp.kappa sp.sigma⟩ : ℂ) := by
      rw [← g1, ← g2]
      unfold Spec.cen
      rw [hq, hqt.cis_eq]
      have : (⟨sg c1.forward * (x + 2 * ccA sp.kappa sp.sigma),
          (sg c2.left - sg c1.left) * ccB sp.kappa sp.sigma⟩ : ℂ) = ((sg c1.forward * x : ℝ) : ℂ)
          + ⟨sg c1.forward * ccA sp.kappa sp.sigma, sg c2.left * ccB sp.kappa sp.sigma⟩
          - ⟨-(sg c1.forward * ccA sp.kappa sp.sigma), sg c1.left * ccB sp.kappa sp.sigma⟩ := by
        apply Complex.ext
        · simp; ring
        · simp; ring
      rw [this]; ring
    rw [center_distance_eq, e, norm_cis_mul, ← sqrt_eq_norm, mul_pow (sg c1.forward), sq (sg c1.forward),
      sg_sq, one_mul]
  have fin : ∀ r1 r2 : SF.Configuration, SameConfig (cfg r1) q1 → SameConfig (cfg r2) q2 →
      c1.cc_turn_length r1 + SF.configuration_distance r1 r2 + c2.cc_turn_length r2 ≤ L1 + x + L2 := by
    intro r1 r2 e1 e2
    have a1 := t1.ahead c1 r1 h1.ok hr1 rfl rfl (SameConfig.refl _) e1
    have a2 := t2.back c2 r2 h2.ok hr2 rfl hf (SameConfig.refl _) e2
    have a3 : SF.configuration_distance r1 r2 = x := by
      rw [configuration_distance_eq, (sameConfig_iff.1 e1).1, (sameConfig_iff.1 e2).1, hq, add_sub_cancel_left,
        norm_cis_mul, Complex.norm_real, Real.norm_eq_abs, abs_pm_mul (sg_pm _) hx]
    linarith
  refine (body_le sp (SF.scratch c1 c2) c1 c2 (i := 4) (by norm_num)).trans ?_
  by_cases hside : c1.left = c2.left
  · have hD : SF.center_distance c1 c2 = x + 2 * ccA sp.kappa sp.sigma := by
      rw [hDn, hside, sub_self, zero_mul, zero_pow (by norm_num), add_zero, sqrt_sq (by linarith)]
    have e6 : TeST_exists (SF.scratch c1 c2) c1 c2 := by
      unfold TeST_exists
      rw [if_neg (by simp [hside]), if_neg hne]
      change _ ≤ SF.center_distance c1 c2
      rw [mul_assoc, h1.ok.sin_mu, hD]; linarith
    have e7 : ¬ TiST_exists (SF.scratch c1 c2) c1 c2 := by
      unfold TiST_exists; rw [if_pos hside]; exact id
    rw [(table_clear hcl).1 (Or.inr e6)]
    unfold TST_path
    rw [if_neg e7, if_pos e6]
    obtain ⟨S1, S2, S3, S4⟩ := TeST_spec h1.ok.geom c2
    obtain ⟨u1, u2, _⟩ := tangent_unique (x' := SF.center_distance c1 c2 - 2 * ccA sp.kappa sp.sigma)
      (sg_pm c1.forward) hA hx (by rw [hD]; linarith) g1 g2 hq hqt S1 (by rw [← hside]; exact S2)
      (by rw [← sub_eq_iff_eq_add']; exact S4) (AngleEq.of_eq S3.symm)
    exact fin _ _ u1 u2
  · have hll : c2.left = !c1.left := by revert hside; cases c1.left <;> cases c2.left <;> simp
    have hR2 : c1.radius ^ 2 = ccA sp.kappa sp.sigma ^ 2 + ccB sp.kappa sp.sigma ^ 2 := by
      rw [h1.ok.radius, sq_sqrt (by positivity)]
    have hDsq : SF.center_distance c1 c2 ^ 2 = (x + 2 * ccA sp.kappa sp.sigma) ^ 2
        + 4 * ccB sp.kappa sp.sigma ^ 2 := by
      rw [hDn, sq_sqrt (by positivity), hll, sg_not]
      have := sg_sq c1.left
      linear_combination 4 * ccB sp.kappa sp.sigma ^ 2 * this
    have hD0 : 0 ≤ SF.center_distance c1 c2 := sqrt_nonneg _
    have hR0 : 0 ≤ c1.radius := by rw [h1.ok.radius]; positivity
    have hD : 2 * c1.radius ≤ SF.center_distance c1 c2 := by nlinarith
    have e7 : TiST_exists (SF.scratch c1 c2) c1 c2 := by
      unfold TiST_exists; rw [if_neg hside, if_neg hne]; exact hD
    rw [(table_clear hcl).1 (Or.inl e7)]
    unfold TST_path
    rw [if_pos e7]
    obtain ⟨S1, S2, S3, S4, S5⟩ := TiST_spec h1.ok.geom c2 hB hD
    obtain ⟨u1, u2, _⟩ := tangent_unique
      (x' := √(SF.center_distance c1 c2 ^ 2 - 4 * ccB sp.kappa sp.sigma ^ 2) - 2 * ccA sp.kappa sp.sigma)
      (sg_pm c1.forward) hA hx (by rw [sub_add_cancel]; positivity) g1 g2 hq hqt S1
      (by rw [hll, sg_not, neg_mul]; exact S2)
      (by rw [← sub_eq_iff_eq_add']; exact S4) (AngleEq.of_eq S3.symm)
    exact fin _ _ u1 u2

/-- The two middle circles of a `TTT` path. -/
theorem middle_unique {R D g : ℝ} {M : ℂ} (hD : 0 < D) (h1 : ‖M‖ = 2 * R)
    (h2 : ‖(D : ℂ) * cis g - M‖ = 2 * R) :
    M = cis g * (⟨0.5 * D, √((2 * R) ^ 2 - (0.5 * D) ^ 2)⟩ : ℂ) ∨
    M = cis g * (⟨0.5 * D, -√((2 * R) ^ 2 - (0.5 * D) ^ 2)⟩ : ℂ) := by
  obtain ⟨z, hz⟩ : ∃ z, z = cis (-g) * M := ⟨_, rfl⟩
  have hM : M = cis g * z := by rw [hz, ← mul_assoc, cis_mul_neg, one_mul]
  have n1 : z.re ^ 2 + z.im ^ 2 = (2 * R) ^ 2 := by
    rw [← h1, hM, norm_cis_mul, ← Complex.normSq_eq_norm_sq, Complex.normSq_apply]; ring
  have n2 : (D - z.re) ^ 2 + z.im ^ 2 = (2 * R) ^ 2 := by
    rw [← h2, hM, mul_comm (D : ℂ), ← mul_sub, norm_cis_mul, ← Complex.normSq_eq_norm_sq,
      Complex.normSq_apply]
    simp; ring
  have hre : z.re = 0.5 * D := by nlinarith
  have him : z.im ^ 2 = (2 * R) ^ 2 - (0.5 * D) ^ 2 := by rw [← hre]; linarith
  rw [← him, sqrt_sq_eq_abs, hM]
  rcases le_total 0 z.im with h | h
  · left; congr 1; rw [abs_of_nonneg h]; apply Complex.ext <;> simp [hre]
  · right; congr 1; rw [abs_of_nonpos h, neg_neg]; apply Complex.ext <;> simp [hre]

theorem ttt_le {sp : SF.HCSpace} (hk : sp.kappa > SF.epsilon) (hs : 0 < sp.sigma)
    (hl : sp.kappa / sp.sigma > SF.epsilon) {c1 c2 : SF.Circle} (h1 : CircOk c1 sp.kappa sp.sigma)
    (h2 : CircOk c2 sp.kappa sp.sigma) (hf : c2.forward = !c1.forward) (hlr : c2.left = c1.left)
    (hr1 : c1.regular = true) (hr2 : c2.regular = true) (hcl : Clear sp c1 c2)
    (hne : center c1 ≠ center c2) {q1 q2 : Config} {L1 L2 L3 : ℝ}
    (t1 : Turned true sp.kappa sp.sigma c1.left c1.forward (cfg c1.start) q1 L1)
    (t2 : Turned true sp.kappa sp.sigma (!c1.left) c1.forward q1 q2 L2)
    (t3 : Turned true sp.kappa sp.sigma c1.left c1.forward q2 (cfg c2.start) L3) :
    (circles_dubins_path sp c1 c2).length ≤ L1 + L2 + L3 := by
  have hA := ccA_pos hk hs hl
  have hB := ccB_pos hk hs hl
  have hP := hc_param_ok hk hs hl
  have hnef : c1.forward ≠ c2.forward := by rw [hf]; cases c1.forward <;> simp
  obtain ⟨A, hA'⟩ : ∃ A, A = ccA sp.kappa sp.sigma := ⟨_, rfl⟩
  obtain ⟨B, hB'⟩ : ∃ B, B = ccB sp.kappa sp.sigma := ⟨_, rfl⟩
  obtain ⟨M, hM⟩ : ∃ M, M = Spec.cen (sg c1.forward * A) (-(sg c1.left * B)) q1 := ⟨_, rfl⟩
  have g1 := t1.cen.trans h1.cen.symm
  have g2 := t2.cen
  have g3 : Spec.cen (sg c1.forward * ccA sp.kappa sp.sigma) (sg c1.left * ccB sp.kappa sp.sigma) q2 = center c2 := by
    rw [← t3.cen, h2.cen, hf, hlr, sg_not, neg_mul]
  rw [sg_not, neg_mul, ← hA', ← hB', ← hM] at g2
  rw [← hA', ← hB'] at g1 g3
  have hR : ‖(⟨sg c1.forward * A, -(sg c1.left * B)⟩ : ℂ)‖ = c1.radius := by
    rw [← sqrt_eq_norm, h1.ok.radius, hA', hB', neg_sq, mul_pow, mul_pow, sq (sg _), sq (sg _), sg_sq, sg_sq,
      one_mul, one_mul]
  have hneg : ∀ a b : ℝ, (⟨-a, b⟩ : ℂ) = -⟨a, -b⟩ := by intro a b; apply Complex.ext <;> simp
  have hMC1 : M - center c1 = cis q1.theta * (2 * (⟨sg c1.forward * A, -(sg c1.left * B)⟩ : ℂ)) := by
    rw [hM, ← g1]; unfold Spec.cen; rw [hneg]; ring
  have hC2M : center c2 - M = cis q2.theta * (2 * (⟨sg c1.forward * A, sg c1.left * B⟩ : ℂ)) := by
    rw [← g2, ← g3]; unfold Spec.cen; rw [hneg, neg_neg]; ring
  have hR' : ‖(⟨sg c1.forward * A, sg c1.left * B⟩ : ℂ)‖ = c1.radius := by
    rw [← hR, ← sqrt_eq_norm, ← sqrt_eq_norm, neg_sq]
  have n1 : ‖M - center c1‖ = 2 * c1.radius := by rw [hMC1, norm_cis_mul, norm_mul, hR]; simp
  have n2 : ‖center c2 - M‖ = 2 * c1.radius := by rw [hC2M, norm_cis_mul, norm_mul, hR']; simp
  have hp := center_polar c1 c2
  have hDpos : 0 < SF.center_distance c1 c2 := by
    rw [center_distance_eq, norm_pos_iff, sub_ne_zero]; exact hne.symm
  have hD4 : SF.center_distance c1 c2 ≤ 4 * c1.radius := by
    rw [center_distance_eq, show center c2 - center c1 = (center c2 - M) + (M - center c1) by ring]
    refine (norm_add_le _ _).trans ?_
    rw [n1, n2]; linarith
  have e5 : TTT_exists (SF.scratch c1 c2) c1 c2 := by
    unfold TTT_exists; rw [if_neg (by simp [hlr]), if_neg hnef]; exact hD4
  -- a middle circle with the centre of the competitor's
  have fin : ∀ (x y : ℝ), (⟨x, y⟩ : ℂ) = M → ∀ tgt qa qb mid,
      tgt = SF.circleCentered x y (!c1.left) c1.forward c1.regular (SF.hc_cc_circle_param sp.kappa sp.sigma) →
      qa = TT_tangent_circles c1 tgt → qb = TT_tangent_circles tgt c2 →
      mid = SF.circleAt qa (!c1.left) c1.forward c1.regular (SF.hc_cc_circle_param sp.kappa sp.sigma) →
      c1.cc_turn_length qa + mid.cc_turn_length qb + c2.cc_turn_length qb ≤ L1 + L2 + L3 := by
    intro x y hxy tgt qa qb mid htgt hqa hqb hmid
    have htc : center tgt = M := by rw [htgt, ← hxy]; rfl
    have htok : CircleOk tgt sp.kappa sp.sigma (ccA sp.kappa sp.sigma) (ccB sp.kappa sp.sigma) := by
      rw [htgt]; exact circleCentered_ok hP _ _ _ _ _
    have hrad : tgt.radius = c1.radius := by rw [htok.radius, h1.ok.radius]
    have hmo : CircOk mid sp.kappa sp.sigma := by rw [hmid]; exact circOk_at hk hs hl _ _ _ _
    have htl : tgt.left = !c1.left := by rw [htgt]; rfl
    have htf : tgt.forward = c1.forward := by rw [htgt]; rfl
    have hms : mid.start = qa := by rw [hmid]; rfl
    have D1 : SF.center_distance c1 tgt = 2 * c1.radius := by rw [center_distance_eq, htc, n1]
    have D2 : SF.center_distance tgt c2 = 2 * c1.radius := by rw [center_distance_eq, htc, n2]
    have S1 := TT_spec h1.ok.geom tgt
    have S2 := TT_spec htok.geom c2
    rw [D1, ← hqa, show 2 * c1.radius / 2 - c1.radius = 0 by ring, Complex.ofReal_zero, zero_mul, neg_zero,
      sub_eq_zero, sub_eq_zero, htc] at S1
    rw [D2, ← hqb, hrad, show 2 * c1.radius / 2 - c1.radius = 0 by ring, Complex.ofReal_zero, zero_mul, neg_zero,
      sub_eq_zero, sub_eq_zero, htl, htf, sg_not, neg_mul, neg_neg, htc] at S2
    have u1 := (tangent_unique (l1 := sg c1.left) (l2 := -sg c1.left) (x := 0) (x' := 0) (q1 := q1) (q2 := q1)
      (C1 := center c1) (C2 := M) (B := ccB sp.kappa sp.sigma)
      (r1 := cfg qa) (r2 := cfg qa)
      (sg_pm c1.forward) hA le_rfl (by linarith) (by rw [← hA', ← hB']; exact g1)
      (by rw [neg_mul, ← hA', ← hB']; exact hM.symm)
      (by simp) (AngleEq.refl _) S1.1 (by rw [neg_mul]; exact S1.2) (by simp) (AngleEq.refl _)).1
    have u2 := (tangent_unique (l1 := -sg c1.left) (l2 := sg c1.left) (x := 0) (x' := 0) (q1 := q2) (q2 := q2)
      (C1 := M) (C2 := center c2) (B := ccB sp.kappa sp.sigma)
      (r1 := cfg qb) (r2 := cfg qb)
      (sg_pm c1.forward) hA le_rfl (by linarith) (by rw [neg_mul, ← hA', ← hB']; exact g2)
      (by rw [← hA', ← hB']; exact g3)
      (by simp) (AngleEq.refl _) (by rw [neg_mul]; exact S2.1) S2.2 (by simp) (AngleEq.refl _)).1
    have a1 := t1.ahead c1 qa h1.ok hr1 rfl rfl (SameConfig.refl _) u1
    have a2 := t2.ahead mid qb hmo.ok (by rw [hmid]; exact hr1) (by rw [hmid]; rfl) (by rw [hmid]; rfl)
      (by rw [hms]; exact u1) u2
    have a3 := t3.back c2 qb h2.ok hr2 hlr hf (SameConfig.refl _) u2
    linarith
  refine (body_le sp (SF.scratch c1 c2) c1 c2 (i := 5) (by norm_num)).trans ?_
  rw [(table_clear hcl).2 e5]
  have hM2 := middle_unique (M := M - center c1) (g := SF.atan2 (c2.yc - c1.yc) (c2.xc - c1.xc))
    (R := c1.radius) hDpos n1 (by
      rw [show ((SF.center_distance c1 c2 : ℝ) : ℂ) * cis (SF.atan2 (c2.yc - c1.yc) (c2.xc - c1.xc))
        - (M - center c1) = center c2 - M by rw [hp]; ring]; exact n2)
  unfold TTT_path TTT_tangent_circles
  simp only
  have fr : ∀ a b : ℝ, (⟨(SF.global_frame_change c1.xc c1.yc (SF.atan2 (c2.yc - c1.yc) (c2.xc - c1.xc)) a b).1,
      (SF.global_frame_change c1.xc c1.yc (SF.atan2 (c2.yc - c1.yc) (c2.xc - c1.xc)) a b).2⟩ : ℂ)
      = center c1 + cis (SF.atan2 (c2.yc - c1.yc) (c2.xc - c1.xc)) * ⟨a, b⟩ := by
    intro a b; exact frame_cis _ _ _ _ _
  rcases hM2 with hM2 | hM2
  · have := fin _ _ ((fr _ _).trans (by rw [← hM2]; ring)) _ _ _ _ rfl rfl rfl rfl
    split_ifs with hlt
    · exact this
    · exact (not_lt.1 hlt).trans this
  · have := fin _ _ ((fr _ _).trans (by rw [← hM2]; ring)) _ _ _ _ rfl rfl rfl rfl
    split_ifs with hlt
    · exact hlt.le.trans this
    · exact this

end CC00

end Spec
