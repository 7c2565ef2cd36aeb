import Verif.Lemmas.TurnAll
import Verif.Props.Clothoid

/-!
# Properties C32-C35: turns of the HC/CC state spaces
-/

noncomputable section

namespace Props

open SF Spec Real

/-! ## C32 -/

/-- **C32.** Driving a control and then its `reverse_control` leads back exactly to the start, the
curvature at the end is the start curvature, and the reverse starts with the curvature at
which the control ended. -/
theorem C32_reverse (c : Control) (p q r : Config)
    (h : DrivesAll [seg c, seg (reverse_control c)] p r) (hq : DrivesAll [seg c] p q) :
    r = p ∧ DrivesAll [seg (reverse_control c)] q p ∧
    (reverse_control c).kappa = c.kappa + c.sigma * |c.delta_s| ∧
    (reverse_control c).kappa + (reverse_control c).sigma * |(reverse_control c).delta_s| = c.kappa := by
  have key : ∀ p q, Drives (seg c).dir c.kappa c.sigma |c.delta_s| p q →
      Drives (seg (reverse_control c)).dir (reverse_control c).kappa (reverse_control c).sigma
        |(reverse_control c).delta_s| q p := by
    rintro p q ⟨X, Y, T, hX, hY, hT, x0, y0, t0, x1, y1, t1⟩
    have hlen : |(reverse_control c).delta_s| = |c.delta_s| := abs_neg _
    rw [hlen]
    rcases eq_or_ne c.delta_s 0 with h0 | h0
    · rw [h0, abs_zero] at x1 y1 t1 ⊢
      have hpq : p = q := by
        ext
        · rw [← x0, x1]
        · rw [← y0, y1]
        · rw [← t0, t1]
      rw [hpq]
      have := drives_arrive (seg (reverse_control c)).dir (reverse_control c).kappa
        (reverse_control c).sigma 0 q
      rwa [arrive_zero] at this
    · have hdir : (seg (reverse_control c)).dir = -(seg c).dir := by
        unfold Segment.dir seg reverse_control
        rcases lt_or_gt_of_ne h0 with h | h
        · rw [if_neg (by dsimp only; linarith), if_pos h]; norm_num
        · rw [if_pos (by dsimp only; linarith), if_neg (by dsimp only; linarith)]
      rw [hdir]
      obtain ⟨L, hL⟩ : ∃ L, L = |c.delta_s| := ⟨_, rfl⟩
      have hk : (reverse_control c).kappa = c.kappa + L * c.sigma := by
        simp only [reverse_control, abs_neg, hL]
      rw [hk, show (reverse_control c).sigma = -c.sigma from rfl, ← hL]
      rw [← hL] at x1 y1 t1
      have hsub : ∀ s, HasDerivAt (fun s : ℝ => L - s) (-1) s := fun s =>
        ((hasDerivAt_const s L).sub (hasDerivAt_id' s)).congr_deriv (by norm_num)
      refine ⟨fun s => X (L - s), fun s => Y (L - s), fun s => T (L - s), ?_, ?_, ?_, ?_, ?_, ?_, ?_, ?_, ?_⟩
      · intro s
        exact ((hX (L - s)).comp s (hsub s)).congr_deriv (by ring)
      · intro s
        exact ((hY (L - s)).comp s (hsub s)).congr_deriv (by ring)
      · intro s
        exact ((hT (L - s)).comp s (hsub s)).congr_deriv (by ring)
      all_goals simp [x0, y0, t0, x1, y1, t1]
  have hlen : |(reverse_control c).delta_s| = |c.delta_s| := abs_neg _
  have hk : (reverse_control c).kappa = c.kappa + c.sigma * |c.delta_s| := by
    simp only [reverse_control, abs_neg]; ring
  cases h with
  | cons h1 h2 =>
    cases h2 with
    | cons h2 h3 =>
      cases h3
      cases hq with
      | cons g1 g2 =>
        cases g2
        have e := key _ _ h1
        have e2 := (drives_iff.1 e).trans (drives_iff.1 h2).symm
        refine ⟨e2.symm, .cons (key _ _ g1) (.nil _), hk, ?_⟩
        rw [hlen, hk]
        simp only [reverse_control]; ring

/-- **C32.** Reversing twice gives the control back. -/
theorem C32_involution (c : Control) : reverse_control (reverse_control c) = c := by
  rcases c with ⟨s, k, g⟩
  simp only [reverse_control, abs_neg, neg_neg]
  congr 1; ring

/-- A clothoid driven backwards. -/
example : reverse_control ⟨-2, 1, 3⟩ = ⟨2, 7, -3⟩ := by
  simp only [reverse_control]; norm_num

/-! ## C33 -/

theorem drives_of_lib {cs : List Segment} {p r : Config} {a b : ℝ} (h : Within a b (libAll cs p) r) :
    ∃ e, DrivesAll cs p e ∧ Within (a + pathTol cs) b e r := by
  refine ⟨arriveAll cs p, drivesAll_iff.2 rfl, ?_⟩
  have h1 := (libAll_near (cs := cs) (Near.of_same (e := 0) le_rfl (SameConfig.refl p))).within
  exact (h1.trans h).mono (by linarith) (by linarith)

theorem drives_of_lib_near {cs : List Segment} {p r : Config} {a : ℝ} (h : Near a (libAll cs p) r) :
    ∃ e, DrivesAll cs p e ∧ Near (a + pathTol cs) e r := by
  obtain ⟨e, h1, h2⟩ := drives_of_lib h.within
  exact ⟨e, h1, h2.near⟩

theorem inner_center {k : ℝ} {c : Circle} {q : Configuration} (h : OnInner k c q) :
    cen 0 (1 / (sg c.left * k)) (cfg q) = center c := by
  have h1 := sameCenter_iff.1 h
  rw [circleAt_center (A := 0) (B := 1 / k) (by simp [rs_param_ok]) (by simp [rs_param_ok])] at h1
  rw [← h1, mul_zero]
  congr 1
  rcases sg_pm c.left with e | e <;> rw [e] <;> field_simp

/-- **C33, RS turns.** Exact, for every circle, target, flags and order. -/
theorem C33_rs_turn {k : ℝ} (hk : 0 < k) (start q : Configuration) (left forward regular : Bool)
    (hq : OnInner k (circleAt start left forward regular (rs_circle_param k)) q) :
    (∃ e, DrivesAll ((rs_turn_controls (circleAt start left forward regular (rs_circle_param k)) q
        true).map seg) (cfg start) e ∧ SameConfig e (cfg q)) ∧
    ∃ e, DrivesAll ((rs_turn_controls (circleAt start left forward regular (rs_circle_param k)) q
        false).map seg) (cfg q) e ∧ SameConfig e (cfg start) := by
  obtain ⟨c, hc⟩ : ∃ c, c = circleAt start left forward regular (rs_circle_param k) := ⟨_, rfl⟩
  rw [← hc] at hq ⊢
  have hst : c.start = start := by rw [hc]; rfl
  have h1 : c.kappa = sg c.left * k := by rw [hc]; cases left <;> simp [circleAt, sg, rs_param_ok]
  have h2 : c.kappa_inv = sg c.left * (1 / k) := by
    rw [hc]; cases left <;> simp [circleAt, sg, rs_param_ok]
  have hcen : cen 0 (1 / (sg c.left * k)) (cfg start) = center c := by
    have : OnInner k c start := by
      rw [hc]; exact ⟨rfl, rfl⟩
    exact inner_center this
  have hq' := inner_center hq
  have hp0 : ∀ cs : List Control, (∀ a ∈ cs, a.sigma = 0) → pathTol (cs.map seg) = 0 := by
    intro cs h
    unfold pathTol
    apply List.sum_eq_zero
    intro x hx
    simp only [List.map_map, List.mem_map] at hx
    obtain ⟨a, ha, rfl⟩ := hx
    simp [segTol, seg, h a ha]
  have fin : ∀ order, ∃ e, DrivesAll ((rs_turn_controls c q order).map seg) (tFrom c q order) e ∧
      SameConfig e (tTo c q order) := by
    intro order
    obtain ⟨f1, f2⟩ := rs_turn_lib h1 h2 hk q order (tFrom c q order)
    have ht := f2.trans (turn_angle c q order).symm
    have hs : SameConfig (libAll ((rs_turn_controls c q order).map seg) (tFrom c q order)) (tTo c q order) := by
      refine same_of_cen (a := 0) (b := 1 / (sg c.left * k)) ?_ ht
      rw [f1]
      cases order
      · exact hq'.trans ((congrArg _ (congrArg cfg hst)).trans hcen).symm
      · exact ((congrArg _ (congrArg cfg hst)).trans hcen).trans hq'.symm
    obtain ⟨e, he1, he2⟩ := drives_of_lib_near (Near.of_same (e := 0) le_rfl hs)
    refine ⟨e, he1, ?_⟩
    rw [hp0 _ (by simp [rs_turn_controls]), add_zero] at he2
    rw [sameConfig_iff]
    refine ⟨?_, he2.2⟩
    have := he2.1
    rw [Config.dist_eq] at this
    exact sub_eq_zero.1 (norm_eq_zero.1 (le_antisymm this (norm_nonneg _)))
  refine ⟨?_, ?_⟩
  · have := fin true
    simpa [tFrom, tTo, hst] using this
  · have := fin false
    simpa [tFrom, tTo, hst] using this

/-- **C33, HC turns.** For every circle, target, flags and order, up to the clothoid accuracy.
Precondition: curvature and clothoid length above the resolution. -/
theorem C33_hc_turn {k s : ℝ} (hk : k > SF.epsilon) (hs : 0 < s) (hl : k / s > SF.epsilon)
    (start q : Configuration) (left forward regular : Bool)
    (hq : OnInner k (circleAt start left forward regular (hc_cc_circle_param k s)) q) :
    (∃ e, DrivesAll ((hc_turn_controls (circleAt start left forward regular (hc_cc_circle_param k s)) q
        true).map seg) (cfg start) e ∧ Near (5 / 10 ^ 16 / √s) e (cfg q)) ∧
    ∃ e, DrivesAll ((hc_turn_controls (circleAt start left forward regular (hc_cc_circle_param k s)) q
        false).map seg) (cfg q) e ∧ Near (5 / 10 ^ 16 / √s) e (cfg start) := by
  have hk0 : 0 < k := by unfold SF.epsilon at hk; linarith
  have hP := hc_param_ok hk hs hl
  have hok := circleAt_ok hP start left forward regular
  have hcen := circleAt_center hP.sin_mu hP.cos_mu start left forward regular
  obtain ⟨c, hc⟩ : ∃ c, c = circleAt start left forward regular (hc_cc_circle_param k s) := ⟨_, rfl⟩
  rw [← hc] at hq hok hcen ⊢
  have hst : c.start = start := by rw [hc]; rfl
  have hf : c.forward = forward := by rw [hc]; rfl
  have hle : c.left = left := by rw [hc]; rfl
  have hq' := inner_center hq
  have hs0 : sg c.left * s ≠ 0 := by rcases sg_pm c.left with e | e <;> rw [e] <;> simp [hs.ne']
  have habs : |sg c.left * s| = s := abs_pm_mul (sg_pm _) hs.le
  have hp0 : ∀ order, pathTol ((hc_turn_controls c q order).map seg) = 5 / 10 ^ 16 / √s := by
    intro order
    have h1 : c.sigma ≠ 0 := by rw [hok.sigma]; exact hs0
    rw [← hok.sigma] at habs
    cases order
    · simp [hc_turn_controls, pathTol, segTol, seg, h1, habs]
    · simp [hc_turn_controls, pathTol, segTol, seg, h1, habs]
  have fin : ∀ order, ∃ e, DrivesAll ((hc_turn_controls c q order).map seg) (tFrom c q order) e ∧
      Near (5 / 10 ^ 16 / √s) e (tTo c q order) := by
    intro order
    obtain ⟨f1, f2⟩ := hc_turn_lib hok hk0 hs q order (tFrom c q order)
    have ht := f2.trans (turn_angle c q order).symm
    have hs : SameConfig (libAll ((hc_turn_controls c q order).map seg) (tFrom c q order)) (tTo c q order) := by
      cases order
      · simp only [Bool.false_eq_true, if_false] at f1
        refine same_of_cen (a := -(direction c.forward false * ccA k s)) (b := sg c.left * ccB k s) ?_ ht
        rw [f1, show tFrom c q false = cfg q from rfl, hq', hcen, show tTo c q false = cfg c.start from rfl,
          hst, hf, hle, direction_eq]
        congr 1
        simp [sg]
      · simp only [if_true] at f1
        refine same_of_cen (a := 0) (b := 1 / (sg c.left * k)) ?_ ht
        rw [f1, show tTo c q true = cfg q from rfl, hq', hcen, show tFrom c q true = cfg c.start from rfl,
          hst, hf, hle, direction_eq]
        congr 1
        simp [sg]
    obtain ⟨e, he1, he2⟩ := drives_of_lib_near (Near.of_same (e := 0) le_rfl hs)
    refine ⟨e, he1, ?_⟩
    rwa [hp0, zero_add] at he2
  refine ⟨?_, ?_⟩
  · have := fin true
    simpa [tFrom, tTo, hst] using this
  · have := fin false
    simpa [tFrom, tTo, hst] using this

/-- The centre condition of a CC turn. -/
theorem endsCC_center {k s : ℝ} (hk : k > SF.epsilon) (hs : 0 < s) (hl : k / s > SF.epsilon)
    {start q : Configuration} {left forward regular : Bool}
    (hq : EndsCC (hc_cc_circle_param k s)
      (circleAt start left forward regular (hc_cc_circle_param k s)) q) (order : Bool) :
    cen (-(direction forward order * ccA k s)) (sg left * ccB k s)
        (tTo (circleAt start left forward regular (hc_cc_circle_param k s)) q order)
      = cen (direction forward order * ccA k s) (sg left * ccB k s)
        (tFrom (circleAt start left forward regular (hc_cc_circle_param k s)) q order) := by
  have hP := hc_param_ok hk hs hl
  have h1 := sameCenter_iff.1 hq
  rw [circleAt_center hP.sin_mu hP.cos_mu, circleAt_center hP.sin_mu hP.cos_mu] at h1
  change cen (sg (!forward) * ccA k s) (sg left * ccB k s) (cfg q)
    = cen (sg forward * ccA k s) (sg left * ccB k s) (cfg start) at h1
  rw [sg_not, neg_mul] at h1
  rw [direction_eq]
  cases order
  · simp only [sg, Bool.false_eq_true, if_false, mul_neg_one, neg_mul, neg_neg]
    exact h1.symm
  · simp only [sg, if_true, mul_one]
    exact h1

/-- **C33, CC turns.** Full statement: for every deflection.  Proved here for deflections that are
zero or at least the resolution `1e-4`; missing are deflections strictly between, for which the
statement is false (`C33_cc_turn_tiny_false`) and `C33_cc_turn_tiny_partial` gives the error. -/
theorem C33_cc_turn_partial {k s : ℝ} (hk : k > SF.epsilon) (hs : 0 < s) (hl : k / s > SF.epsilon)
    (start q : Configuration) (left forward regular : Bool)
    (hq : EndsCC (hc_cc_circle_param k s)
      (circleAt start left forward regular (hc_cc_circle_param k s)) q)
    (hd : (circleAt start left forward regular (hc_cc_circle_param k s)).deflection q = 0 ∨
      SF.epsilon ≤ (circleAt start left forward regular (hc_cc_circle_param k s)).deflection q) :
    (∃ e, DrivesAll ((cc_turn_controls (circleAt start left forward regular (hc_cc_circle_param k s)) q
        true).map seg) (cfg start) e ∧
      Near (pathTol ((cc_turn_controls (circleAt start left forward regular (hc_cc_circle_param k s)) q
        true).map seg)) e (cfg q)) ∧
    ∃ e, DrivesAll ((cc_turn_controls (circleAt start left forward regular (hc_cc_circle_param k s)) q
        false).map seg) (cfg q) e ∧
      Near (pathTol ((cc_turn_controls (circleAt start left forward regular (hc_cc_circle_param k s)) q
        false).map seg)) e (cfg start) := by
  have hP := hc_param_ok hk hs hl
  have hok := circleAt_ok hP start left forward regular
  have hcc := endsCC_center hk hs hl hq
  obtain ⟨c, hc⟩ : ∃ c, c = circleAt start left forward regular (hc_cc_circle_param k s) := ⟨_, rfl⟩
  rw [← hc] at hq hok hcc hd ⊢
  have hst : c.start = start := by rw [hc]; rfl
  have hf : c.forward = forward := by rw [hc]; rfl
  have hle : c.left = left := by rw [hc]; rfl
  rw [← hf, ← hle] at hcc
  have fin : ∀ order, ∃ e, DrivesAll ((cc_turn_controls c q order).map seg) (tFrom c q order) e ∧
      Near (pathTol ((cc_turn_controls c q order).map seg)) e (tTo c q order) := by
    intro order
    have he := le_of_eq (norm_eq_zero.2 (sub_eq_zero.2 (hcc order)))
    obtain ⟨f1, f2⟩ := cc_turn_lib hok hk hs hl he
    have hnear : Near 0 (libAll ((cc_turn_controls c q order).map seg) (tFrom c q order)) (tTo c q order) := by
      rcases hd with h0 | h1
      · have := f2 (by rw [h0]; unfold SF.epsilon; norm_num)
        rw [h0, mul_zero, mul_zero, add_zero] at this
        exact this.near
      · have := f1 h1
        rwa [mul_zero] at this
    have := drives_of_lib_near hnear
    rwa [zero_add] at this
  refine ⟨?_, ?_⟩
  · have := fin true
    simpa [tFrom, tTo, hst] using this
  · have := fin false
    simpa [tFrom, tTo, hst] using this

/-- **C33, CC turns with tiny deflection.** The end heading is off by the deflection and the
end position by at most `2 R` times the deflection, with `R` the radius of the circle. -/
theorem C33_cc_turn_tiny_partial {k s : ℝ} (hk : k > SF.epsilon) (hs : 0 < s) (hl : k / s > SF.epsilon)
    (start q : Configuration) (left forward regular : Bool)
    (hq : EndsCC (hc_cc_circle_param k s)
      (circleAt start left forward regular (hc_cc_circle_param k s)) q)
    (delta : ℝ)
    (hdelta : delta = (circleAt start left forward regular (hc_cc_circle_param k s)).deflection q)
    (hd : delta < SF.epsilon) :
    (∃ e, DrivesAll ((cc_turn_controls (circleAt start left forward regular (hc_cc_circle_param k s)) q
        true).map seg) (cfg start) e ∧
      Within (2 * (hc_cc_circle_param k s).radius * delta) delta e (cfg q)) ∧
    ∃ e, DrivesAll ((cc_turn_controls (circleAt start left forward regular (hc_cc_circle_param k s)) q
        false).map seg) (cfg q) e ∧
      Within (2 * (hc_cc_circle_param k s).radius * delta) delta e (cfg start) := by
  have hP := hc_param_ok hk hs hl
  have hok := circleAt_ok hP start left forward regular
  have hcc := endsCC_center hk hs hl hq
  have hR : (circleAt start left forward regular (hc_cc_circle_param k s)).radius
    = (hc_cc_circle_param k s).radius := rfl
  obtain ⟨c, hc⟩ : ∃ c, c = circleAt start left forward regular (hc_cc_circle_param k s) := ⟨_, rfl⟩
  rw [← hc] at hq hok hcc hdelta hR ⊢
  have hst : c.start = start := by rw [hc]; rfl
  have hf : c.forward = forward := by rw [hc]; rfl
  have hle : c.left = left := by rw [hc]; rfl
  rw [← hf, ← hle] at hcc
  rw [hdelta] at hd
  have fin : ∀ order, ∃ e, DrivesAll ((cc_turn_controls c q order).map seg) (tFrom c q order) e ∧
      Within (2 * (hc_cc_circle_param k s).radius * delta) delta e (tTo c q order) := by
    intro order
    have he := le_of_eq (norm_eq_zero.2 (sub_eq_zero.2 (hcc order)))
    have f2 := (cc_turn_lib hok hk hs hl he).2 hd
    rw [← hR, hdelta]
    obtain ⟨e, he1, he2⟩ := drives_of_lib f2
    refine ⟨e, he1, he2.mono (le_of_eq ?_) le_rfl⟩
    have h0 : pathTol ((cc_turn_controls c q order).map seg) = 0 := by
      unfold cc_turn_controls
      simp only [if_pos hd]
      cases order <;> simp [straight_controls, pathTol, segTol, seg]
    rw [h0]; ring
  refine ⟨?_, ?_⟩
  · have := fin true
    simpa [tFrom, tTo, hst] using this
  · have := fin false
    simpa [tFrom, tTo, hst] using this

/-- Every heading belongs to a point of a CC circle: the hypothesis of C33 can be met for every
deflection. -/
theorem exists_endsCC (P : CircleParam) (c : Circle) (theta : ℝ) :
    ∃ q, q.theta = theta ∧ q.kappa = 0 ∧ EndsCC P c q := by
  obtain ⟨z, hz⟩ : ∃ z, z = center c - cis theta * ⟨sg (!c.forward) * (P.radius * P.sin_mu),
    sg c.left * (P.radius * P.cos_mu)⟩ := ⟨_, rfl⟩
  refine ⟨⟨z.re, z.im, theta, 0⟩, rfl, rfl, ?_⟩
  unfold EndsCC
  rw [sameCenter_iff, circleAt_center rfl rfl]
  unfold cen cfg
  have : (⟨z.re, z.im, theta⟩ : Config).pos = z := rfl
  rw [this, hz]; ring

theorem exists_onInner {k : ℝ} (c : Circle) (theta : ℝ) :
    ∃ q, q.theta = theta ∧ OnInner k c q := by
  obtain ⟨z, hz⟩ : ∃ z, z = center c - cis theta * ⟨sg c.forward *
    ((rs_circle_param k).radius * (rs_circle_param k).sin_mu),
    sg c.left * ((rs_circle_param k).radius * (rs_circle_param k).cos_mu)⟩ := ⟨_, rfl⟩
  refine ⟨⟨z.re, z.im, theta, 0⟩, rfl, ?_⟩
  unfold OnInner
  rw [sameCenter_iff, circleAt_center rfl rfl]
  unfold cen cfg
  have : (⟨z.re, z.im, theta⟩ : Config).pos = z := rfl
  rw [this, hz]; ring

/-- Deflection of a left forward circle that starts with heading zero. -/
theorem deflection_lf {q0 q : Configuration} {r : Bool} {P : CircleParam} (h0 : q0.theta = 0)
    (h1 : 0 ≤ q.theta) (h2 : q.theta < 2 * π) : (circleAt q0 true true r P).deflection q = q.theta := by
  unfold Circle.deflection
  simp only [circleAt, h0, sub_zero, Bool.and_self, Bool.true_or, if_true]
  exact twopify_of_mem h1 h2

/-- The hypotheses of C33 for CC turns are met by a left turn of deflection 2 with
curvature 1 and sharpness 1, and the inner circle has points of every heading. -/
example : ∃ q, EndsCC (hc_cc_circle_param 1 1)
      (circleAt ⟨0, 0, 0, 0⟩ true true true (hc_cc_circle_param 1 1)) q ∧
    SF.epsilon ≤ (circleAt ⟨0, 0, 0, 0⟩ true true true (hc_cc_circle_param 1 1)).deflection q ∧
    (1:ℝ) > SF.epsilon ∧ (1:ℝ) / 1 > SF.epsilon := by
  obtain ⟨q, h1, _, h2⟩ := exists_endsCC (hc_cc_circle_param 1 1)
    (circleAt ⟨0, 0, 0, 0⟩ true true true (hc_cc_circle_param 1 1)) 2
  refine ⟨q, h2, ?_, by unfold SF.epsilon; norm_num, by unfold SF.epsilon; norm_num⟩
  rw [deflection_lf rfl (by rw [h1]; norm_num) (by rw [h1]; linarith [pi_gt_three]), h1]
  unfold SF.epsilon; norm_num

example : ∃ q, q.theta = 3 ∧ OnInner 1 (circleAt ⟨0, 0, 0, 0⟩ true true true (hc_cc_circle_param 1 1)) q :=
  exists_onInner _ _

example : ∃ q, q.theta = 3 ∧ OnInner 1 (circleAt ⟨0, 0, 0, 0⟩ false true false (rs_circle_param 1)) q :=
  exists_onInner _ _

/-- **C33 is false for CC turns of tiny deflection**: the turn of deflection `5e-5` on a circle of
curvature 1 and sharpness 1 does not end with the heading of its target. -/
theorem C33_cc_turn_tiny_false : ∃ start q : Configuration,
    EndsCC (hc_cc_circle_param 1 1) (circleAt start true true true (hc_cc_circle_param 1 1)) q ∧
    ∀ e, DrivesAll ((cc_turn_controls (circleAt start true true true (hc_cc_circle_param 1 1)) q
        true).map seg) (cfg start) e → ¬ AngleEq e.theta q.theta := by
  obtain ⟨q, h1, _, h2⟩ := exists_endsCC (hc_cc_circle_param 1 1)
    (circleAt ⟨0, 0, 0, 0⟩ true true true (hc_cc_circle_param 1 1)) (1 / 20000)
  refine ⟨⟨0, 0, 0, 0⟩, q, h2, ?_⟩
  intro e he
  have hd : (circleAt ⟨0, 0, 0, 0⟩ true true true (hc_cc_circle_param 1 1)).deflection q < SF.epsilon := by
    rw [deflection_lf rfl (by rw [h1]; norm_num) (by rw [h1]; linarith [pi_gt_three]), h1]
    unfold SF.epsilon; norm_num
  rw [drivesAll_iff] at he
  have ht : e.theta = 0 := by
    rw [he]
    unfold cc_turn_controls
    simp only [if_pos hd, if_true]
    simp [straight_controls, seg, arriveAll, arrive, heading, cfg, circleAt]
  rintro ⟨n, hn⟩
  rw [ht, h1] at hn
  have hp := pi_gt_three
  have hn0 : (n:ℝ) * (2 * π) = -(1 / 20000) := by linarith
  rcases lt_trichotomy n 0 with h | h | h
  · have : (n:ℝ) ≤ -1 := by exact_mod_cast Int.le_sub_one_of_lt h
    nlinarith
  · rw [h] at hn0; norm_num at hn0
  · have : (1:ℝ) ≤ n := by exact_mod_cast h
    nlinarith

/-- **C33 is false for short clothoids**: with curvature 1 and sharpness 20000 the constructor
neglects the clothoids, and a turn with `hc_turn_controls` misses its target by more
than the accuracy of the clothoids. -/
theorem C33_short_clothoid_false : ∃ start q : Configuration,
    OnInner 1 (circleAt start true true true (hc_cc_circle_param 1 20000)) q ∧
    ∀ e, DrivesAll ((hc_turn_controls (circleAt start true true true (hc_cc_circle_param 1 20000)) q
        true).map seg) (cfg start) e → ¬ Near (1 / 10 ^ 10) e (cfg q) := by
  obtain ⟨q, _, hq⟩ := exists_onInner (k := 1)
    (circleAt ⟨0, 0, 0, 0⟩ true true true (hc_cc_circle_param 1 20000)) 1
  refine ⟨⟨0, 0, 0, 0⟩, q, hq, ?_⟩
  intro e he hnear
  have hP := hc_param_ok_short (k := 1) (s := 20000) one_pos (by norm_num) (by unfold SF.epsilon; norm_num)
  have hok := circleAt_ok hP ⟨0, 0, 0, 0⟩ true true true
  have hcen := circleAt_center hP.sin_mu hP.cos_mu ⟨0, 0, 0, 0⟩ true true true
  have hq' := inner_center hq
  have hst : (circleAt ⟨0, 0, 0, 0⟩ true true true (hc_cc_circle_param 1 20000)).start = ⟨0, 0, 0, 0⟩ := rfl
  have hle : (circleAt ⟨0, 0, 0, 0⟩ true true true (hc_cc_circle_param 1 20000)).left = true := rfl
  have hfo : (circleAt ⟨0, 0, 0, 0⟩ true true true (hc_cc_circle_param 1 20000)).forward = true := rfl
  have hta := turn_angle (circleAt ⟨0, 0, 0, 0⟩ true true true (hc_cc_circle_param 1 20000)) q true
  obtain ⟨f1, f2⟩ := hc_turn_lib hok one_pos (by norm_num) q true (cfg ⟨0, 0, 0, 0⟩)
  have hp0 : pathTol ((hc_turn_controls (circleAt ⟨0, 0, 0, 0⟩ true true true
      (hc_cc_circle_param 1 20000)) q true).map seg) ≤ 5 / 10 ^ 16 := by
    have h1 : (circleAt ⟨0, 0, 0, 0⟩ true true true (hc_cc_circle_param 1 20000)).sigma = 20000 := rfl
    have h2 : (1:ℝ) ≤ √20000 := by rw [one_le_sqrt]; norm_num
    have : pathTol ((hc_turn_controls (circleAt ⟨0, 0, 0, 0⟩ true true true
      (hc_cc_circle_param 1 20000)) q true).map seg) = 5 / 10 ^ 16 / √20000 := by
      simp [hc_turn_controls, pathTol, segTol, seg, h1]
    rw [this]
    exact div_le_self (by norm_num) h2
  generalize circleAt ⟨0, 0, 0, 0⟩ true true true (hc_cc_circle_param 1 20000) = c at *
  rw [drivesAll_iff] at he
  have hz := libAll_near (cs := (hc_turn_controls c q true).map seg)
    (Near.of_same (e := 0) le_rfl (SameConfig.refl (cfg ⟨0, 0, 0, 0⟩)))
  rw [zero_add, ← he] at hz
  simp only [tTo, tFrom, if_true, hst] at hta
  simp only [if_true, hle, hfo] at f1 f2 hta hq' hcen
  generalize libAll ((hc_turn_controls c q true).map seg) (cfg ⟨0, 0, 0, 0⟩) = z at *
  have hzq : AngleEq z.theta (cfg q).theta := f2.trans hta.symm
  have h1 : z.dist (cfg q) ≤ 1 / 10 ^ 10 + 5 / 10 ^ 16 := by
    have := Config.dist_triangle z e (cfg q)
    have h2 := hnear.1
    have h3 := hz.1
    rw [Config.dist_comm] at h3
    linarith
  rw [dist_of_cen (a := 0) (b := 1 / (sg true * 1)) hzq, f1, hq', hcen] at h1
  have h2 : cen (direction true true * ccA 1 20000) (sg true * ccB 1 20000) (cfg ⟨0, 0, 0, 0⟩)
      - cen (sg true * 0) (sg true * (1 / 1)) (cfg ⟨0, 0, 0, 0⟩) = ⟨ccA 1 20000, ccB 1 20000 - 1⟩ := by
    unfold cen cfg Config.pos cis
    apply Complex.ext <;> simp [sg, direction]
  rw [h2] at h1
  have h3 := (Complex.abs_re_le_norm ⟨ccA 1 20000, ccB 1 20000 - 1⟩).trans h1
  have hsq : √(π * 20000) ≤ 400 := by
    rw [sqrt_le_iff]; constructor
    · norm_num
    · nlinarith [pi_lt_four]
  have hsp : 0 < √(π * 20000) := sqrt_pos.2 (by have := pi_pos; positivity)
  have h4 := ccA_lower (k := 1) (s := 20000) one_pos (by norm_num) (by
    rw [cArg_full (by norm_num), le_div_iff₀ hsp]
    generalize √(π * 20000) = w at *
    linarith)
  have h5 : 1 / 200 ≤ cScale 20000 := by
    unfold cScale
    have g1 : (1:ℝ) ≤ √π := by rw [one_le_sqrt]; linarith [pi_gt_three]
    have g2 : √(20000:ℝ) ≤ 200 := by rw [sqrt_le_iff]; norm_num
    have g3 : 0 < √(20000:ℝ) := sqrt_pos.2 (by norm_num)
    have g4 : (1:ℝ) / 200 ≤ 1 / √20000 := one_div_le_one_div_of_le g3 g2
    nlinarith
  have h6 := (le_abs_self (ccA 1 20000)).trans h3
  norm_num at h4 h6
  linarith

/-! ## C34 -/

/-- **C34, RS turns.** -/
theorem C34_rs_turn (c : Circle) (q : Configuration) (order : Bool) :
    totalLength ((rs_turn_controls c q order).map seg) = c.rs_turn_length q := rs_turn_length_eq c q order

/-- **C34, HC turns.** -/
theorem C34_hc_turn (c : Circle) (q : Configuration) (order : Bool) :
    totalLength ((hc_turn_controls c q order).map seg) = c.hc_turn_length q := hc_turn_length_eq c q order

/-- **C34, CC turns.** Full statement: for every circle and every target on it.  Proved for deflections
of at least `1e-4` (for every circle and target, even off the circle).  For smaller ones see
`C34_cc_turn_tiny_partial` and `C34_cc_turn_tiny_false`. -/
theorem C34_cc_turn_partial (c : Circle) (q : Configuration) (order : Bool)
    (h : SF.epsilon ≤ c.deflection q) :
    totalLength ((cc_turn_controls c q order).map seg) = c.cc_turn_length q :=
  cc_turn_length_eq c q order h

/-- **C34, CC turns of deflection below `1e-4`.** The reported length differs from the length of the
controls by at most radius times deflection; in particular it is exact for deflection zero. -/
theorem C34_cc_turn_tiny_partial {k s : ℝ} (hk : k > SF.epsilon) (hs : 0 < s) (hl : k / s > SF.epsilon)
    (start q : Configuration) (left forward regular order : Bool)
    (hq : EndsCC (hc_cc_circle_param k s)
      (circleAt start left forward regular (hc_cc_circle_param k s)) q)
    (hd : (circleAt start left forward regular (hc_cc_circle_param k s)).deflection q < SF.epsilon) :
    |totalLength ((cc_turn_controls (circleAt start left forward regular (hc_cc_circle_param k s)) q
        order).map seg)
      - (circleAt start left forward regular (hc_cc_circle_param k s)).cc_turn_length q|
      ≤ (hc_cc_circle_param k s).radius
        * (circleAt start left forward regular (hc_cc_circle_param k s)).deflection q := by
  have hP := hc_param_ok hk hs hl
  have hok := circleAt_ok hP start left forward regular
  have hcc := endsCC_center hk hs hl hq order
  have := cc_turn_length_tiny hok (ccA_pos hk hs hl).le (ccB_pos hk hs hl).le hd
    (le_of_eq (norm_eq_zero.2 (sub_eq_zero.2 hcc)))
  rw [zero_add] at this
  exact this

/-- **C34 is false for CC turns of tiny deflection**: on the circle of curvature 1 and sharpness 1
the reported length of the turn of deflection `5e-5` is too short. -/
theorem C34_cc_turn_tiny_false : ∃ start q : Configuration,
    EndsCC (hc_cc_circle_param 1 1) (circleAt start true true true (hc_cc_circle_param 1 1)) q ∧
    (circleAt start true true true (hc_cc_circle_param 1 1)).cc_turn_length q
      < totalLength ((cc_turn_controls (circleAt start true true true (hc_cc_circle_param 1 1)) q
        true).map seg) := by
  obtain ⟨q, h1, _, h2⟩ := exists_endsCC (hc_cc_circle_param 1 1)
    (circleAt ⟨0, 0, 0, 0⟩ true true true (hc_cc_circle_param 1 1)) (1 / 20000)
  refine ⟨⟨0, 0, 0, 0⟩, q, h2, ?_⟩
  have hdq := deflection_lf (q0 := ⟨0, 0, 0, 0⟩) (q := q) (r := true) (P := hc_cc_circle_param 1 1) rfl
    (by rw [h1]; norm_num) (by rw [h1]; linarith [pi_gt_three])
  rw [h1] at hdq
  have hd : (circleAt ⟨0, 0, 0, 0⟩ true true true (hc_cc_circle_param 1 1)).deflection q < SF.epsilon := by
    rw [hdq]; unfold SF.epsilon; norm_num
  have e1 : (1:ℝ) > SF.epsilon := by unfold SF.epsilon; norm_num
  have e2 : (1:ℝ) / 1 > SF.epsilon := by unfold SF.epsilon; norm_num
  have hP := hc_param_ok e1 one_pos e2
  have hok := circleAt_ok hP ⟨0, 0, 0, 0⟩ true true true
  have hcc := endsCC_center e1 one_pos e2 h2 true
  have hta := turn_angle (circleAt ⟨0, 0, 0, 0⟩ true true true (hc_cc_circle_param 1 1)) q true
  have hdist := turn_distance (circleAt ⟨0, 0, 0, 0⟩ true true true (hc_cc_circle_param 1 1)) q true
  have hA := ccA_pos e1 one_pos e2
  have hB := ccB_pos e1 one_pos e2
  have hlen : totalLength ((cc_turn_controls (circleAt ⟨0, 0, 0, 0⟩ true true true
      (hc_cc_circle_param 1 1)) q true).map seg) = point_distance 0 0 q.x q.y := by
    unfold cc_turn_controls
    simp only [if_pos hd, if_true]
    simp only [straight_controls, List.map_cons, List.map_nil, seg, totalLength, List.sum_cons,
      List.sum_nil, add_zero, abs_mul]
    rw [show ∀ x, |sgn x| = 1 from fun x => by unfold sgn; split_ifs <;> simp, one_mul]
    exact abs_of_nonneg (sqrt_nonneg _)
  have hcl : (circleAt ⟨0, 0, 0, 0⟩ true true true (hc_cc_circle_param 1 1)).cc_turn_length q
      = 2 * ccA 1 1 := by
    unfold Circle.cc_turn_length
    simp only [if_pos hd]
    rw [mul_assoc 2, hok.sin_mu]
  have hst : (circleAt ⟨0, 0, 0, 0⟩ true true true (hc_cc_circle_param 1 1)).start = ⟨0, 0, 0, 0⟩ := rfl
  rw [hlen, hcl]
  rw [hdq, show (1:ℝ) / 20000 = 2 * (1 / 40000) by norm_num] at hta
  rw [hst] at hdist
  simp only at hdist
  have hc1 : 0 ≤ cos (1 / 40000) := cos_nonneg_of_mem_Icc ⟨by linarith [pi_gt_three], by linarith [pi_gt_three]⟩
  have hs1 : 1 / 40000 / 2 ≤ sin (1 / 40000 : ℝ) := by
    have := mul_le_sin (x := 1 / 40000) (by norm_num) (by linarith [pi_gt_three])
    have h3 : (1:ℝ) / 2 ≤ 2 / π := by
      rw [div_le_div_iff₀ (by norm_num) pi_pos]; linarith [pi_le_four]
    nlinarith
  have hc2 : 1 - (1 / 40000) ^ 2 / 2 ≤ cos (1 / 40000 : ℝ) := one_sub_sq_div_two_le_cos
  have hch := chord_dist (direction_pm _ _) (sg_pm _) hta (le_of_eq (norm_eq_zero.2 (sub_eq_zero.2 hcc)))
    (by have : 0 ≤ sin (1 / 40000 : ℝ) := by linarith
        positivity)
  rw [← hdist] at hch
  have hpd := sub_eq_zero.1 (abs_nonpos_iff.1 hch)
  rw [hpd]
  -- the lateral offset is not negligible
  have hAB : ccA 1 1 ≤ 20 * ccB 1 1 := by
    rw [ccA_eq one_pos one_pos, ccB_eq one_pos one_pos]
    obtain ⟨t, ht⟩ : ∃ t, t = cArg 1 (1 / 1) := ⟨_, rfl⟩
    rw [← ht]
    have htv : t = 1 / √(π * 1) := by rw [ht]; exact cArg_full one_pos
    have ht0 : 0 < t := by rw [htv]; have := pi_pos; positivity
    have ht1 : t ≤ 1 := by
      rw [htv, div_le_one (by have := pi_pos; positivity), one_le_sqrt]; linarith [pi_gt_three]
    have hX : cenX t ≤ 1 := by
      have hm := Poly.le_of_deriv_nonneg (a := 0) (b := t) (f := fun x => x - fresnelC x)
        (f' := fun x => 1 - cos (π / 2 * x ^ 2)) ht0.le
        (fun x _ _ => (hasDerivAt_id' x).sub (Poly.hasDerivAt_fresnelC x))
        (fun x _ _ => by linarith [cos_le_one (π / 2 * x ^ 2)])
      simp only [fresnelC_zero, sub_zero] at hm
      have hsin : 0 ≤ sin (π / 2 * t ^ 2) := sin_nonneg_of_mem_Icc ⟨by have := pi_pos; positivity, by
        nlinarith [pi_pos, mul_le_one₀ ht1 ht0.le ht1]⟩
      have : 0 ≤ sin (π / 2 * t ^ 2) / (π * t) := div_nonneg hsin (by have := pi_pos; positivity)
      unfold cenX; linarith
    have hY := cenY_lower ht0
    have g1 := (abs_le.1 (Poly.fresnel_accurate t).1).1
    have g2 := (abs_le.1 (Poly.fresnel_accurate t).2).2
    have := cScale_pos (s := 1) one_pos
    have g3 : cenX t + ((fresnel t).2 - fresnelC t) ≤ 20 * (cenY t + ((fresnel t).1 - fresnelS t)) := by
      norm_num at g1 g2 hY ⊢; linarith
    nlinarith
  have k1 : ccB 1 1 * (1 / 40000 / 2) ≤ ccB 1 1 * sin (1 / 40000) := by gcongr
  have k2 : ccA 1 1 * (1 - (1 / 40000) ^ 2 / 2) ≤ ccA 1 1 * cos (1 / 40000) := by gcongr
  norm_num at k1 k2 ⊢
  linarith

/-- Both branches of `C34`: a turn of deflection 2 and one of deflection zero. -/
example (q : Configuration) (h : q.theta = 2) :
    SF.epsilon ≤ (circleAt ⟨0, 0, 0, 0⟩ true true true (hc_cc_circle_param 1 1)).deflection q := by
  rw [deflection_lf rfl (by rw [h]; norm_num) (by rw [h]; linarith [pi_gt_three]), h]
  unfold SF.epsilon; norm_num

/-! ## C35 -/

/-- **C35, RS turns**: constant curvature `±kappa`. -/
theorem C35_rs_turn {k : ℝ} (hk : 0 < k) (start q : Configuration) (left forward regular order : Bool) :
    CurvatureAtMost k ((rs_turn_controls (circleAt start left forward regular (rs_circle_param k)) q
      order).map seg) ∧
    SharpnessAtMost 0 ((rs_turn_controls (circleAt start left forward regular (rs_circle_param k)) q
      order).map seg) := by
  have h1 : (circleAt start left forward regular (rs_circle_param k)).kappa = sg left * k := by
    cases left <;> simp [circleAt, sg, rs_param_ok]
  constructor
  · intro c hc t _ _
    simp only [rs_turn_controls, List.map_cons, List.map_nil, List.mem_singleton, seg] at hc
    subst hc
    simp only [h1, zero_mul, add_zero]
    exact le_of_eq (abs_pm_mul (sg_pm _) hk.le)
  · intro c hc
    simp only [rs_turn_controls, List.map_cons, List.map_nil, List.mem_singleton, seg] at hc
    subst hc
    simp

/-- **C35, HC turns**: curvature at most `kappa`, sharpness `sigma`, curvature continuous,
from zero to `±kappa` or back. -/
theorem C35_hc_turn {k s : ℝ} (hk : 0 < k) (hs : 0 < s) (start q : Configuration)
    (left forward regular order : Bool) (cs : List Segment)
    (hcs : cs = (hc_turn_controls (circleAt start left forward regular (hc_cc_circle_param k s)) q
      order).map seg) :
    CurvatureAtMost k cs ∧ SharpnessAtMost s cs ∧
    CurvatureContinuous (if order then 0 else if left then k else -k) cs
      (if order then if left then k else -k else 0) := by
  obtain ⟨c, hc⟩ : ∃ c, c = circleAt start left forward regular (hc_cc_circle_param k s) := ⟨_, rfl⟩
  rw [← hc] at hcs
  have h1 : c.kappa = sg left * k := by rw [hc]; cases left <;> simp [circleAt, sg, hc_cc_circle_param, set_param]
  have h2 : c.sigma = sg left * s := by rw [hc]; cases left <;> simp [circleAt, sg, hc_cc_circle_param, set_param]
  have hl := sg_pm left
  have hd := direction_pm c.forward order
  have hks : |c.kappa / c.sigma| = k / s := by
    rw [h1, h2]
    rcases hl with e | e <;> rw [e]
    · rw [one_mul, one_mul, abs_of_pos (div_pos hk hs)]
    · rw [neg_one_mul, neg_one_mul, neg_div_neg_eq, abs_of_pos (div_pos hk hs)]
  have hite : (if left then k else -k) = sg left * k := by cases left <;> simp [sg]
  rw [hite]
  have hdl : |direction c.forward order * (k / s)| = k / s := abs_pm_mul hd (by positivity)
  have hak : |sg left * k| = k := abs_pm_mul hl hk.le
  have has : |sg left * s| = s := abs_pm_mul hl hs.le
  unfold hc_turn_controls at hcs
  rw [hks] at hcs
  simp only [h1, h2] at hcs
  generalize direction c.forward order = d at *
  generalize |c.kappa_inv| * c.hc_circular_deflection (c.deflection q) = w at *
  generalize sg left = l at *
  have e1 : l * s * (k / s) = l * k := by field_simp
  cases order
  · simp only [Bool.false_eq_true, if_false, List.nil_append, List.cons_append, List.map_cons, List.map_nil,
      seg] at hcs ⊢
    subst hcs
    refine ⟨?_, ?_, ?_⟩
    · intro c hc t ht0 ht1
      simp only [List.mem_cons, List.not_mem_nil, or_false] at hc
      rcases hc with rfl | rfl
      · simp [hak]
      · simp only [hdl] at ht1 ⊢
        refine linear_abs_le (L := k / s) hak.le ?_ ht0 ht1
        rw [neg_mul, e1, add_neg_cancel, abs_zero]; exact hk.le
    · intro c hc
      simp only [List.mem_cons, List.not_mem_nil, or_false] at hc
      rcases hc with rfl | rfl
      · simp [hs.le]
      · simp [has]
    · simp only [CurvatureContinuous, hdl, zero_mul, add_zero, neg_mul, e1, add_neg_cancel, and_self]
  · simp only [if_true, List.nil_append, List.cons_append, List.append_nil, List.map_cons, List.map_nil,
      seg] at hcs ⊢
    subst hcs
    refine ⟨?_, ?_, ?_⟩
    · intro c hc t ht0 ht1
      simp only [List.mem_cons, List.not_mem_nil, or_false] at hc
      rcases hc with rfl | rfl
      · simp only [hdl] at ht1 ⊢
        refine linear_abs_le (L := k / s) (by simp [hk.le]) ?_ ht0 ht1
        rw [e1, zero_add, hak]
      · simp [hak]
    · intro c hc
      simp only [List.mem_cons, List.not_mem_nil, or_false] at hc
      rcases hc with rfl | rfl
      · simp [has]
      · simp [hs.le]
    · simp only [CurvatureContinuous, hdl, zero_mul, add_zero, zero_add, e1, and_self]

/-- **C35, CC turns.** Full statement: curvature at most `kappa` and sharpness at most `sigma`.  Proved with
a relative tolerance of `1e-8` (`2e-8`), needed because the elementary paths use
approximate Fresnel integrals; the curvature is exactly continuous and zero at both ends. -/
theorem C35_cc_turn_partial {k s : ℝ} (hk : k > SF.epsilon) (hs : 0 < s) (hl : k / s > SF.epsilon)
    (start q : Configuration) (left forward regular order : Bool)
    (hq : EndsCC (hc_cc_circle_param k s)
      (circleAt start left forward regular (hc_cc_circle_param k s)) q) (cs : List Segment)
    (hcs : cs = (cc_turn_controls (circleAt start left forward regular (hc_cc_circle_param k s)) q
      order).map seg) :
    CurvatureAtMost (k * (1 + 1 / 10 ^ 8)) cs ∧ SharpnessAtMost (s * (1 + 2 / 10 ^ 8)) cs ∧
    CurvatureContinuous 0 cs 0 := by
  have hk0 : 0 < k := by unfold SF.epsilon at hk; linarith
  have hP := hc_param_ok hk hs hl
  have hok := circleAt_ok hP start left forward regular
  have hcc := endsCC_center hk hs hl hq order
  obtain ⟨c, hc⟩ : ∃ c, c = circleAt start left forward regular (hc_cc_circle_param k s) := ⟨_, rfl⟩
  rw [← hc] at hok hcc hcs
  have hf : c.forward = forward := by rw [hc]; rfl
  have hle : c.left = left := by rw [hc]; rfl
  rw [← hf, ← hle] at hcc
  have hl' := sg_pm c.left
  have hd := direction_pm c.forward order
  have hkb : k ≤ k * (1 + 1 / 10 ^ 8) := by nlinarith
  have hsb : s ≤ s * (1 + 2 / 10 ^ 8) := by nlinarith
  have hK0 : 0 ≤ k * (1 + 1 / 10 ^ 8) := hk0.le.trans hkb
  have hS0 : 0 ≤ s * (1 + 2 / 10 ^ 8) := hs.le.trans hsb
  have hdef : ∀ cs, cs = (cc_default_controls c (c.deflection q) order).map seg →
      CurvatureAtMost (k * (1 + 1 / 10 ^ 8)) cs ∧ SharpnessAtMost (s * (1 + 2 / 10 ^ 8)) cs ∧
      CurvatureContinuous 0 cs 0 := by
    intro cs hcs
    unfold cc_default_controls at hcs
    rw [abs_kappa_sigma hok hk0 hs] at hcs
    simp only [hok.kappa, hok.sigma] at hcs
    have hdl : |direction c.forward order * (k / s)| = k / s := abs_pm_mul hd (by positivity)
    have hak : |sg c.left * k| = k := abs_pm_mul hl' hk0.le
    have has : |sg c.left * s| = s := abs_pm_mul hl' hs.le
    generalize direction c.forward order = d at *
    generalize |c.kappa_inv| * c.cc_circular_deflection (c.deflection q) = w at *
    generalize sg c.left = l at *
    have e1 : l * s * (k / s) = l * k := by field_simp
    simp only [List.map_cons, List.map_nil, seg] at hcs
    subst hcs
    refine ⟨?_, ?_, ?_⟩
    · intro c hc t ht0 ht1
      simp only [List.mem_cons, List.not_mem_nil, or_false] at hc
      rcases hc with rfl | rfl | rfl
      · simp only [hdl] at ht1 ⊢
        refine linear_abs_le (L := k / s) (by rw [abs_zero]; exact hK0) ?_ ht0 ht1
        rw [e1, zero_add, hak]; exact hkb
      · simp only [zero_mul, add_zero, hak]; exact hkb
      · simp only [hdl] at ht1 ⊢
        refine linear_abs_le (L := k / s) (by rw [hak]; exact hkb) ?_ ht0 ht1
        rw [neg_mul, e1, add_neg_cancel, abs_zero]; exact hK0
    · intro c hc
      simp only [List.mem_cons, List.not_mem_nil, or_false] at hc
      rcases hc with rfl | rfl | rfl
      · simp only [has]; exact hsb
      · simp only [abs_zero]; exact hS0
      · simp only [abs_neg, has]; exact hsb
    · simp only [CurvatureContinuous, hdl, zero_mul, add_zero, zero_add, neg_mul, e1, add_neg_cancel, and_self]
  unfold cc_turn_controls at hcs
  simp only at hcs
  split_ifs at hcs with h1 h2 h3
  · subst hcs
    refine ⟨?_, ?_, ?_⟩
    · intro c hc t _ _
      simp only [straight_controls, List.map_cons, List.map_nil, List.mem_singleton, seg] at hc
      subst hc; simp only [zero_mul, add_zero, abs_zero]; exact hK0
    · intro c hc
      simp only [straight_controls, List.map_cons, List.map_nil, List.mem_singleton, seg] at hc
      subst hc; simp only [abs_zero]; exact hS0
    · simp [straight_controls, seg, CurvatureContinuous]
  · subst hcs
    refine ⟨?_, ?_, ?_⟩
    · intro c hc t _ _
      simp only [straight_controls, List.map_cons, List.map_nil, List.mem_singleton, seg] at hc
      subst hc; simp only [zero_mul, add_zero, abs_zero]; exact hK0
    · intro c hc
      simp only [straight_controls, List.map_cons, List.map_nil, List.mem_singleton, seg] at hc
      subst hc; simp only [abs_zero]; exact hS0
    · simp [straight_controls, seg, CurvatureContinuous]
  · rcases hel : cc_elementary_controls c q (c.deflection q) order with _ | el
    · rw [hel] at hcs; exact hdef cs hcs
    · rw [hel] at hcs
      dsimp only at hcs
      split_ifs at hcs with h4
      · obtain ⟨s0, L, p1, p2, p3, p4, p5⟩ := elementary_limits hok hk hs (not_lt.1 h1) h3 hel hcc
        have hdl : |direction c.forward order * L| = L := abs_pm_mul hd p2.le
        have hak : |sg c.left * s0 * L| = s0 * L := by
          rw [mul_assoc]; exact abs_pm_mul hl' (by positivity)
        have has : |sg c.left * s0| = s0 := abs_pm_mul hl' p1.le
        generalize direction c.forward order = d at *
        generalize sg c.left = l at *
        rw [p5] at hcs
        simp only [List.map_cons, List.map_nil, seg] at hcs
        subst hcs
        refine ⟨?_, ?_, ?_⟩
        · intro c hc t ht0 ht1
          simp only [List.mem_cons, List.not_mem_nil, or_false] at hc
          rcases hc with rfl | rfl
          · simp only [hdl] at ht1 ⊢
            refine linear_abs_le (L := L) (by rw [abs_zero]; exact hK0) ?_ ht0 ht1
            rw [zero_add, hak]; exact p4
          · simp only [hdl] at ht1 ⊢
            refine linear_abs_le (L := L) (by rw [hak]; exact p4) ?_ ht0 ht1
            rw [neg_mul, add_neg_cancel, abs_zero]; exact hK0
        · intro c hc
          simp only [List.mem_cons, List.not_mem_nil, or_false] at hc
          rcases hc with rfl | rfl
          · simp only [has]; exact p3
          · simp only [abs_neg, has]; exact p3
        · simp only [CurvatureContinuous, hdl, zero_add, neg_mul, add_neg_cancel, and_self]
      · exact hdef cs hcs
  · exact hdef cs hcs

/-- A target of heading 2 on a circle of curvature 1 and sharpness 1 meets the
hypotheses of `C35_cc_turn_partial`. -/
example : ∃ q : Configuration, q.theta = 2 ∧
    CurvatureContinuous 0 ((cc_turn_controls (circleAt ⟨0, 0, 0, 0⟩ true true true
      (hc_cc_circle_param 1 1)) q true).map seg) 0 := by
  obtain ⟨q, h1, _, h2⟩ := exists_endsCC (hc_cc_circle_param 1 1)
    (circleAt ⟨0, 0, 0, 0⟩ true true true (hc_cc_circle_param 1 1)) 2
  exact ⟨q, h1, (C35_cc_turn_partial (by unfold SF.epsilon; norm_num) one_pos
    (by unfold SF.epsilon; norm_num) _ _ _ _ _ _ h2 _ rfl).2.2⟩

end Props
