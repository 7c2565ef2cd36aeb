import Verif.Lemmas.HcPair
import Verif.Props.CcDubinsAll

/-!
# Properties of the HC-Reeds-Shepp planner for arbitrary curvatures
-/

noncomputable section

namespace Props

open SF Spec Real

variable {sp : HCSpace} {junk : ℝ}

/-- Position tolerance of the planner for controls `cs`. -/
def hcAnyTol (sp : HCSpace) (cs : List Control) : ℝ :=
  1 / 10000 * (4 + 10 * radiusBound sp.kappa sp.sigma + (4 + sp.kappa) * lengthOf cs)

/-- States so far apart that none of the shortcuts of the planners applies. -/
def HcFarApart (sp : HCSpace) (s1 s2 : State) : Prop :=
  4 * radiusBound sp.kappa sp.sigma + 1 / 5000 + 4 * (sp.kappa / sp.sigma) ≤ dist2 s1 s2

theorem HcFarApart.far {s1 s2 : State} (h : HcFarApart sp s1 s2) : Spec.HC.Far sp s1 s2 := by
  unfold Spec.HC.Far; rw [SF.epsilon]
  unfold HcFarApart at h
  norm_num at h ⊢
  linarith

/-- States to which the theorems apply. -/
example : InReach ⟨1, 1, 1, true⟩ ⟨0, 0, 0, 1 / 2, 0⟩ ⟨100, 0, 0, -1 / 3, 0⟩ ∧
    HcFarApart ⟨1, 1, 1, true⟩ ⟨0, 0, 0, 1 / 2, 0⟩ ⟨100, 0, 0, -1 / 3, 0⟩ ∧ InRange 1 1 := by
  have e : dist2 ⟨0, 0, 0, 1 / 2, 0⟩ ⟨100, 0, 0, -1 / 3, 0⟩ = 100 := by
    rw [dist2, show ((100:ℝ) - 0) ^ 2 + (0 - 0) ^ 2 = 100 ^ 2 by norm_num, sqrt_sq (by norm_num)]
  refine ⟨?_, ?_, by constructor <;> norm_num⟩
  · rw [InReach, e]; norm_num
  · rw [HcFarApart, e, radiusBound]; norm_num

/-! ## C76 -/

/-- **C76 (partial).** If coinciding predicted states can be joined and no predicted states have opposed circles, every possible result of
HC-Reeds-Shepp leads from `state1` to `state2` up to the resolution of the library. -/
theorem C76_hcrs_reaches_partial (h : InRange sp.kappa sp.sigma) (s1 s2 : State) (hr : InReach sp s1 s2)
    (ho : ¬ HC.Opposed sp junk s1 s2) (hA : HC.AllJoinable sp junk s1 s2) {cs : List Control}
    (hcs : SF.HC.IsControls sp junk s1 s2 cs) : LeadsTo cs s1 s2 (hcAnyTol sp cs) (anyTurn sp) := by
  obtain ⟨_, _, hall⟩ := Spec.HC.plan h junk s1 s2 hr
  obtain ⟨len, hp⟩ := hall cs hcs
  refine Leads.leadsTo ((hp.leads (by tauto)).mono ?_ ?_ le_rfl)
  · rw [hcAnyTol, SF.epsilon, lengthOf]
  · rw [anyTurn, SF.epsilon]

/-- **C76, far apart (partial).** The same without further assumptions for states that are far apart, whatever their curvatures. -/
theorem C76_hcrs_reaches_far_partial (h : InRange sp.kappa sp.sigma) (s1 s2 : State) (hr : InReach sp s1 s2)
    (hf : HcFarApart sp s1 s2) {cs : List Control} (hcs : SF.HC.IsControls sp junk s1 s2 cs) :
    LeadsTo cs s1 s2 (hcAnyTol sp cs) (anyTurn sp) ∧ SF.HC.Asserts sp junk s1 s2 := by
  obtain ⟨h1, h2⟩ := Spec.HC.far_good (junk := junk) h hf.far
  exact ⟨C76_hcrs_reaches_partial h s1 s2 hr h1 h2 hcs, fun a ha b hb he => (h2 a ha b hb he).1⟩

/-- **C76, `get_path` (partial).** If no control has a sharpness that the integration neglects, the last state of the path integrated from
the controls is `state2` up to the same errors. -/
theorem C76_hcrs_get_path_partial (h : InRange sp.kappa sp.sigma) (hd : 0 < sp.discretization) (s1 s2 : State) (hr : InReach sp s1 s2)
    (ho : ¬ HC.Opposed sp junk s1 s2) (hA : HC.AllJoinable sp junk s1 s2) (hk : s1.kappa = 0 ∨ |s1.kappa| > 1 / 10000)
    {cs : List Control} (hcs : SF.HC.IsControls sp junk s1 s2 cs) (hs : Sharp cs) :
    ∃ l e, hcIntegrate sp.discretization s1 cs = some l ∧ l.getLast? = some e ∧
      Within (hcAnyTol sp cs + 2 * pathTol (cs.map seg)) (anyTurn sp) (pose e) (pose s2) := by
  obtain ⟨_, _, hall⟩ := Spec.HC.plan h junk s1 s2 hr
  obtain ⟨len, hp⟩ := hall cs hcs
  exact integrate_of_rep hp.ne (hp.rep (by tauto) hs (.inr (by rw [SF.epsilon]; exact hk))) hd
    (C76_hcrs_reaches_partial h s1 s2 hr ho hA hcs)

/-- **C76, `get_path`, far apart (partial).** -/
theorem C76_hcrs_get_path_far_partial (h : InRange sp.kappa sp.sigma) (hd : 0 < sp.discretization) (s1 s2 : State) (hr : InReach sp s1 s2)
    (hf : HcFarApart sp s1 s2) {cs : List Control} (hcs : SF.HC.IsControls sp junk s1 s2 cs) (hs : Sharp cs) :
    ∃ l e, hcIntegrate sp.discretization s1 cs = some l ∧ l.getLast? = some e ∧
      Within (hcAnyTol sp cs + 2 * pathTol (cs.map seg)) (anyTurn sp) (pose e) (pose s2) := by
  obtain ⟨h1, h2⟩ := Spec.HC.far_good (junk := junk) h hf.far
  obtain ⟨_, _, hall⟩ := Spec.HC.plan h junk s1 s2 hr
  obtain ⟨len, hp⟩ := hall cs hcs
  exact integrate_of_rep hp.ne (hp.rep (by tauto) hs (.inl hf.far)) hd (C76_hcrs_reaches_partial h s1 s2 hr h1 h2 hcs)

theorem hc_witness_single (junk : ℝ) : ∃ cs len, (∀ x, SF.HC.IsControls Spec.CC0pm.wsp junk Spec.CC0pm.ws1 Spec.CC0pm.ws2 x ↔ x = cs) ∧
    SF.HC.get_distance Spec.CC0pm.wsp junk Spec.CC0pm.ws1 Spec.CC0pm.ws2 = some len ∧ len ≤ 1 / 100 ∧
    (∀ e, DrivesAll (cs.map seg) (pose Spec.CC0pm.ws1) e → 9 / 10 ≤ e.dist (pose Spec.CC0pm.ws2)) ∧
    1 ≤ dist2 Spec.CC0pm.ws1 Spec.CC0pm.ws2 := by
  obtain ⟨p, hp, hl⟩ := Spec.HcRs.x_plan
  obtain ⟨w1, w2, _⟩ := Spec.HcRs.w_far
  have k1 : |Spec.CC0pm.ws1.kappa| < epsilon := by
    show |(0:ℝ)| < _
    norm_num [SF.epsilon]
  have k2 : |Spec.CC0pm.ws2.kappa| = 1 := by
    show |(-1:ℝ)| = 1
    norm_num
  have k2' : ¬ |Spec.CC0pm.ws2.kappa| < epsilon := by rw [k2]; norm_num [SF.epsilon]
  have hne : ¬ state_equal Spec.CC0pm.ws1 Spec.CC0pm.ws2 := by
    intro he
    have := (state_equal_within he).1.1
    rw [pose_dist] at this
    norm_num [SF.epsilon] at this
    linarith
  obtain ⟨g1, g2⟩ := Spec.HC.single (junk := junk) (sp := Spec.CC0pm.wsp) (.inl k1)
    (.inr (by rw [k2]; show (1:ℝ) - 1 < _; norm_num [SF.epsilon])) hne (cs := SF.HcRs.path_controls p) (len := p.length)
    (by rw [SubPlanners.call, if_pos k1, if_neg k2']; show SF.HcRs.get_controls _ _ _ _ _ = _; rw [SF.HcRs.get_controls, hp]; rfl)
    (by rw [SubPlanners.call, if_pos k1, if_neg k2']; show SF.HcRs.get_distance _ _ _ _ _ = _; rw [SF.HcRs.get_distance, hp]; rfl)
  exact ⟨_, _, g1, g2, hl, Spec.HcRs.short w1 w2 hp hl, w1⟩

/-- **C76 is false.** From a state of curvature 0 to one of curvature -1, at least 1 m apart, all possible results end at least 0.9 m away from
the goal (they are those of HC0pm-Reeds-Shepp). -/
theorem C76_hcrs_false (junk : ℝ) : ∃ (sp : HCSpace) (s1 s2 : State), InRange sp.kappa sp.sigma ∧ |s1.kappa| ≤ sp.kappa ∧
    |s2.kappa| ≤ sp.kappa ∧ 1 ≤ dist2 s1 s2 ∧ ∀ cs, SF.HC.IsControls sp junk s1 s2 cs → ∀ e, DrivesAll (cs.map seg) (pose s1) e →
      9 / 10 ≤ e.dist (pose s2) := by
  obtain ⟨cs, len, h1, _, _, h3, h4⟩ := hc_witness_single junk
  refine ⟨_, Spec.CC0pm.ws1, Spec.CC0pm.ws2, Spec.CC0pm.wrng, ?_, ?_, h4, fun x hx => ?_⟩
  · show |(0:ℝ)| ≤ 1; norm_num
  · show |(-1:ℝ)| ≤ 1; norm_num
  · rw [(h1 x).1 hx]; exact h3

/-! ## C77 -/

/-- **C77.** `get_distance` of HC-Reeds-Shepp is the summed length of every possible result of `get_controls`, up to the tolerance of the
library. -/
theorem C77_hcrs_distance (h : InRange sp.kappa sp.sigma) (s1 s2 : State) (hr : InReach sp s1 s2) :
    ∃ m, SF.HC.get_distance sp junk s1 s2 = some m ∧ ∀ cs, SF.HC.IsControls sp junk s1 s2 cs →
      |lengthOf cs - m| ≤ 1 / 10000 * (1 + 4 * radiusBound sp.kappa sp.sigma) := by
  obtain ⟨⟨m, h1, _, h3⟩, _⟩ := Spec.HC.plan h junk s1 s2 hr
  refine ⟨m, h1, fun cs hcs => ?_⟩
  have := h3 cs hcs
  rw [SF.epsilon] at this
  exact this

/-! ## C78 -/

/-- **C78.** HC-Reeds-Shepp always finds a path: no null pointer is dereferenced, there is a result, every result has at least one
control, and the distance is bounded. -/
theorem C78_hcrs_always (h : InRange sp.kappa sp.sigma) (s1 s2 : State) (hr : InReach sp s1 s2) :
    (∃ m, SF.HC.get_distance sp junk s1 s2 = some m ∧ m ≤ dist2 s1 s2 + 50 * (sp.kappa / sp.sigma) + 60 / sp.kappa) ∧
    (∃ cs, SF.HC.IsControls sp junk s1 s2 cs) ∧ ∀ cs, SF.HC.IsControls sp junk s1 s2 cs → cs ≠ [] := by
  obtain ⟨⟨m, h1, h2, _⟩, h4, h5⟩ := Spec.HC.plan h junk s1 s2 hr
  refine ⟨⟨m, h1, h2⟩, h4, fun cs hcs => ?_⟩
  obtain ⟨len, hp⟩ := h5 cs hcs
  exact hp.ne

/-! ## C79 -/

/-- **C79 (partial).** For states that are far apart and respect the limit `kappa`, the curvature of every possible result agrees with those of
`state1` and `state2` up to 1e-4 (1 + sigma) and jumps only where the driving direction changes. -/
theorem C79_hcrs_curvature_far_partial (h : InRange sp.kappa sp.sigma) (s1 s2 : State) (hr : InReach sp s1 s2)
    (hf : HcFarApart sp s1 s2) (h1 : |s1.kappa| ≤ sp.kappa) (h2 : |s2.kappa| ≤ sp.kappa) {cs : List Control}
    (hcs : SF.HC.IsControls sp junk s1 s2 cs) :
    ∃ k0 k1, HybridPath k0 (cs.map seg) k1 ∧ |k0 - s1.kappa| ≤ 1 / 10000 * (1 + sp.sigma) ∧
      |k1 - s2.kappa| ≤ 1 / 10000 * (1 + sp.sigma) := by
  obtain ⟨ho, hA⟩ := Spec.HC.far_good (junk := junk) h hf.far
  obtain ⟨_, _, hall⟩ := Spec.HC.plan h junk s1 s2 hr
  obtain ⟨len, hp⟩ := hall cs hcs
  have := hp.prof (by tauto) hf.far h1 h2
  rw [SF.epsilon] at this
  exact this

/-- **C79 is false.** From a state of curvature 0 to the same pose with curvature 1 all possible results have curvature zero throughout. -/
theorem C79_hcrs_false (junk : ℝ) : ∃ (sp : HCSpace) (s1 s2 : State), InRange sp.kappa sp.sigma ∧ s2.kappa = sp.kappa ∧
    ∀ cs, SF.HC.IsControls sp junk s1 s2 cs → ∀ k, EndsWith k (cs.map seg) → k = 0 := by
  have k1 : |Spec.CC0pm.es1.kappa| < epsilon := by
    show |(0:ℝ)| < _
    norm_num [SF.epsilon]
  have k2 : |Spec.CC0pm.es2.kappa| = 1 := by
    show |(1:ℝ)| = 1
    norm_num
  have k2' : ¬ |Spec.CC0pm.es2.kappa| < epsilon := by rw [k2]; norm_num [SF.epsilon]
  have hne : ¬ state_equal Spec.CC0pm.es1 Spec.CC0pm.es2 := by
    intro he
    have := (state_equal_within he).2
    change |(1:ℝ) - 0| ≤ _ at this
    norm_num [SF.epsilon] at this
  have hp := Spec.HcRs.same_pose (sp := ⟨1, 1, 1, true⟩) (pm1 := false) (pm2 := true) (s1 := Spec.CC0pm.es1) (s2 := Spec.CC0pm.es2)
    rfl rfl rfl
  obtain ⟨g1, _⟩ := Spec.HC.single (junk := junk) (sp := ⟨1, 1, 1, true⟩) (.inl k1)
    (.inr (by rw [k2]; norm_num [SF.epsilon])) hne (cs := empty_controls)
    (by rw [SubPlanners.call, if_pos k1, if_neg k2']; show SF.HcRs.get_controls _ _ _ _ _ = _; rw [SF.HcRs.get_controls, hp]; rfl)
    (by rw [SubPlanners.call, if_pos k1, if_neg k2']; show SF.HcRs.get_distance _ _ _ _ _ = _; rw [SF.HcRs.get_distance, hp]; rfl)
  refine ⟨⟨1, 1, 1, true⟩, Spec.CC0pm.es1, Spec.CC0pm.es2, by constructor <;> norm_num, rfl, fun cs hcs k hk => ?_⟩
  rw [(g1 cs).1 hcs] at hk
  obtain ⟨c, hc, hk⟩ := hk
  simp only [empty_controls, seg, List.map_cons, List.map_nil, List.getLast?_singleton, Option.some.injEq] at hc
  simp [← hk, ← hc]

/-! ## C80 -/

/-- **C80 (partial).** For states that are far apart and respect the limit `kappa`, curvature and sharpness of every possible result respect
the limits up to the relative error of the Fresnel integrals. -/
theorem C80_hcrs_limits_far_partial (h : InRange sp.kappa sp.sigma) (s1 s2 : State) (hr : InReach sp s1 s2)
    (hf : HcFarApart sp s1 s2) (h1 : |s1.kappa| ≤ sp.kappa) (h2 : |s2.kappa| ≤ sp.kappa) {cs : List Control}
    (hcs : SF.HC.IsControls sp junk s1 s2 cs) :
    CurvatureAtMost (sp.kappa * (1 + 1 / 10 ^ 8)) (cs.map seg) ∧ SharpnessAtMost (sp.sigma * (1 + 2 / 10 ^ 8)) (cs.map seg) := by
  obtain ⟨ho, hA⟩ := Spec.HC.far_good (junk := junk) h hf.far
  obtain ⟨_, _, hall⟩ := Spec.HC.plan h junk s1 s2 hr
  obtain ⟨len, hp⟩ := hall cs hcs
  exact hp.limits (by tauto) hf.far h1 h2

/-! ## C81 -/

/-- **C81 (partial).** If coinciding predicted states can be joined and no predicted states have opposed circles, `get_distance` is not
shorter than the Euclidean distance, up to the tolerances. -/
theorem C81_hcrs_euclid_partial (h : InRange sp.kappa sp.sigma) (s1 s2 : State) (hr : InReach sp s1 s2)
    (ho : ¬ HC.Opposed sp junk s1 s2) (hA : HC.AllJoinable sp junk s1 s2) {cs : List Control}
    (hcs : SF.HC.IsControls sp junk s1 s2 cs) :
    ∃ m, SF.HC.get_distance sp junk s1 s2 = some m ∧
      dist2 s1 s2 ≤ m + hcAnyTol sp cs + 1 / 10000 * (1 + 4 * radiusBound sp.kappa sp.sigma) + pathTol (cs.map seg) := by
  obtain ⟨⟨m, h1, _, h3⟩, _, hall⟩ := Spec.HC.plan h junk s1 s2 hr
  obtain ⟨len, hp⟩ := hall cs hcs
  have h4 := h3 cs hcs
  have hl := hp.leads (by tauto)
  have h5 : Leads (cs.map seg) (pose s1) (pose s2) m _ _ _ := ⟨hl.arrives, h4⟩
  have := h5.euclid
  rw [pose_dist, SF.epsilon] at this
  exact ⟨m, h1, by rw [hcAnyTol, lengthOf]; exact this⟩

/-- **C81, far apart (partial).** -/
theorem C81_hcrs_euclid_far_partial (h : InRange sp.kappa sp.sigma) (s1 s2 : State) (hr : InReach sp s1 s2)
    (hf : HcFarApart sp s1 s2) {cs : List Control} (hcs : SF.HC.IsControls sp junk s1 s2 cs) :
    ∃ m, SF.HC.get_distance sp junk s1 s2 = some m ∧
      dist2 s1 s2 ≤ m + hcAnyTol sp cs + 1 / 10000 * (1 + 4 * radiusBound sp.kappa sp.sigma) + pathTol (cs.map seg) := by
  obtain ⟨ho, hA⟩ := Spec.HC.far_good (junk := junk) h hf.far
  exact C81_hcrs_euclid_partial h s1 s2 hr ho hA hcs

/-- **C81 is false:** states at least 1 m apart at a distance of at most 1 cm. -/
theorem C81_hcrs_false (junk : ℝ) : ∃ (sp : HCSpace) (s1 s2 : State) (m : ℝ), InRange sp.kappa sp.sigma ∧
    SF.HC.get_distance sp junk s1 s2 = some m ∧ m ≤ 1 / 100 ∧ 1 ≤ dist2 s1 s2 := by
  obtain ⟨cs, len, _, h2, h3, _, h5⟩ := hc_witness_single junk
  exact ⟨_, _, _, len, Spec.CC0pm.wrng, h2, h3, h5⟩

/-! ## C82 -/

/-- **C82 (partial).** If a predicted start and a predicted end state coincide up to 1e-4, the assertion of `subtract_control` holds and the
difference of the two controls drives in the direction of the first one, the single control for this pair leads from `state1` to
`state2` up to 1e-4, and its curvature is that of `state1` at the start and that of `state2` at the end. -/
theorem C82_hcrs_join_partial (h : InRange sp.kappa sp.sigma) (s1 s2 : State) {a b : Predicted}
    (ha : a ∈ SF.HC.predict_state sp junk s1) (hb : b ∈ SF.HC.predict_state sp junk s2) (he : state_equal a.1 b.1)
    (hA : PairAsserts a b) (hdir : 0 ≤ a.2.delta_s * (a.2.delta_s - b.2.delta_s)) :
    ∃ c, pair_controls (SF.HC.controls_planners sp) a b = some [c] ∧ c.kappa = s1.kappa ∧
      |c.kappa + c.sigma * |c.delta_s| - s2.kappa| ≤ 1 / 10000 ∧
      LeadsTo [c] s1 s2 (1 / 10000 * (2 + 2 * radiusBound sp.kappa sp.sigma + |c.delta_s|)) (1 / 10000) := by
  obtain ⟨da, hda, oa⟩ := (Spec.HC.predict_ok junk s1).2 a ha
  obtain ⟨db, hdb, ob⟩ := (Spec.HC.predict_ok junk s2).2 b hb
  obtain ⟨h1, h3⟩ := hjoin_leads h.rng hda hdb oa ob he fun _ => ⟨hA he, hdir⟩
  refine ⟨_, if_pos he, (oa.facts h.rng hda).kappa, by rw [SF.epsilon] at h3; exact h3,
    Leads.leadsTo (h1.mono (le_of_eq ?_) (le_of_eq ?_) le_rfl)⟩
  · rw [SF.epsilon]; simp [totalLength, seg]
  · rw [SF.epsilon]

/-- The heading of a predicted state. -/
theorem predicted_heading (junk : ℝ) {s : State} {c : Control} {t : ℝ} (hs : c.sigma ≠ 0) (hk : c.kappa = s.kappa)
    (ht : AngleEq s.theta t) :
    AngleEq (predicted junk s c).1.theta (t + SF.sgn c.delta_s * (c.kappa * |c.delta_s| + c.sigma * |c.delta_s| ^ 2 / 2)) := by
  have h1 := (predicted_leads junk hs hk).arrives.near.2
  have e : (arriveAll ([c].map seg) (pose s)).theta
      = s.theta + SF.sgn c.delta_s * (c.kappa * |c.delta_s| + c.sigma * |c.delta_s| ^ 2 / 2) := rfl
  rw [e] at h1
  exact h1.symm.trans (ht.add_right _)

theorem heading_apart {a b : State} {x y : ℝ} (ha : AngleEq a.theta x) (hb : AngleEq b.theta y) (h1 : 1 / 100 ≤ |x - y|)
    (h2 : |x - y| ≤ 3) : ¬ state_equal a b := by
  intro he
  obtain ⟨⟨_, t, h3, h4⟩, _⟩ := state_equal_within he
  obtain ⟨n, hn⟩ := ha
  obtain ⟨m, hm⟩ := hb
  obtain ⟨k, hk⟩ := h3
  change t = b.theta + _ at hk
  change |a.theta - t| ≤ _ at h4
  have key : a.theta - t = x - y + ((n - m - k : ℤ):ℝ) * (2 * π) := by push_cast; linarith
  rw [key, abs_le] at h4
  have hpi := pi_gt_three
  norm_num [SF.epsilon] at h4
  rcases lt_trichotomy (n - m - k) 0 with hz | hz | hz
  · have : ((n - m - k : ℤ):ℝ) ≤ -1 := by exact_mod_cast (by omega : n - m - k ≤ -1)
    push_cast at this
    have := (abs_le.1 h2).2
    nlinarith [h4.1]
  · have : ((n - m - k : ℤ):ℝ) = 0 := by exact_mod_cast hz
    push_cast at this
    rw [this, zero_mul, add_zero] at h4
    have := abs_le.2 h4
    linarith
  · have : (1:ℝ) ≤ ((n - m - k : ℤ):ℝ) := by exact_mod_cast (by omega : 1 ≤ n - m - k)
    push_cast at this
    have := (abs_le.1 h2).1
    nlinarith [h4.2]

theorem kappa_apart {a b : State} (h : 1 / 2 ≤ |b.kappa - a.kappa|) : ¬ state_equal a b := by
  intro he
  have := (state_equal_within he).2
  norm_num [SF.epsilon] at this
  linarith

/-- The predicted states of a state of curvature `k` on the left. -/
theorem predict_left {s : State} {k : ℝ} (hk : s.kappa = k) (h1 : 1 / 100 ≤ k) (h2 : k ≤ 99 / 100) :
    SF.HC.predict_state jsp junk s = [predicted junk s ⟨1 - k, k, 1⟩, predicted junk s ⟨-(1 - k), k, 1⟩,
      predicted junk s ⟨k, k, -1⟩, predicted junk s ⟨-k, k, -1⟩] := by
  have hp : |s.kappa| = k := by rw [hk]; exact abs_of_pos (by linarith)
  have h : ¬ (|s.kappa| < epsilon ∨ jsp.kappa - |s.kappa| < epsilon) := by
    rw [hp, SF.epsilon]
    push Not
    exact ⟨by linarith, by show (_:ℝ) ≤ 1 - k; linarith⟩
  have h2 : SF.sgn k = 1 := by rw [SF.sgn, if_neg (by linarith)]
  rw [SF.HC.predict_state, if_neg h]
  simp only [hk, h2]
  simp [jsp]

theorem sgn_pos' {x : ℝ} (h : 0 < x) : SF.sgn x = 1 := by rw [SF.sgn, if_neg (by linarith)]
theorem sgn_neg' {x : ℝ} (h : x < 0) : SF.sgn x = -1 := by rw [SF.sgn, if_pos h]

/-- The end of the clothoid of length 1/4 that starts from `jmid`; its curvature is 3/4. -/
def jlate : State := (predicted 0 jmid ⟨1 / 4, 1 / 2, 1⟩).1

theorem jlate_kappa : jlate.kappa = 3 / 4 := by
  rw [jlate, predicted_kappa]
  show (1:ℝ) / 2 + 1 * |1 / 4| = 3 / 4
  rw [abs_of_pos (by norm_num)]; norm_num

theorem jlate_heading : AngleEq jlate.theta (5 / 32) := by
  have h := predicted_heading 0 (s := jmid) (c := ⟨1 / 4, 1 / 2, 1⟩) (t := 0) (by norm_num) rfl (.refl _)
  simp only at h
  rw [sgn_pos' (by norm_num), abs_of_pos (by norm_num)] at h
  norm_num at h
  exact h

/-- The clothoids from `jlate` and from `jmid` that end with curvature 1 meet. -/
theorem jpair (junk : ℝ) : state_equal (predicted junk jlate ⟨1 / 4, 3 / 4, 1⟩).1 (predicted junk jmid ⟨1 / 2, 1 / 2, 1⟩).1 := by
  have a1 : |(1:ℝ) / 4| = 1 / 4 := abs_of_pos (by norm_num)
  have a2 : |(1:ℝ) / 2| = 1 / 2 := abs_of_pos (by norm_num)
  have p1 : SF.sgn (1 / 4) = 1 := sgn_pos' (by norm_num)
  have p2 : SF.sgn (1 / 2) = 1 := sgn_pos' (by norm_num)
  obtain ⟨ca, hca⟩ : ∃ c : Control, c = ⟨1 / 4, 3 / 4, 1⟩ := ⟨_, rfl⟩
  obtain ⟨cb, hcb⟩ : ∃ c : Control, c = ⟨1 / 2, 1 / 2, 1⟩ := ⟨_, rfl⟩
  obtain ⟨c0, hc0⟩ : ∃ c : Control, c = ⟨1 / 4, 1 / 2, 1⟩ := ⟨_, rfl⟩
  have hjl : jlate = (predicted 0 jmid c0).1 := by rw [hc0]; rfl
  rw [← hca, ← hcb]
  have l0 := predicted_leads 0 (s := jmid) (c := c0) (by rw [hc0]; norm_num) (by rw [hc0]; rfl)
  have l1 := predicted_leads junk (s := jlate) (c := ca) (by rw [hca]; norm_num) (by rw [hca, jlate_kappa])
  have l2 := predicted_leads junk (s := jmid) (c := cb) (by rw [hcb]; norm_num) (by rw [hcb]; rfl)
  rw [← hjl] at l0
  have l3 := (l0.append l1).arrives
  simp only [zero_mul, add_zero] at l3
  replace l3 := l3.near
  have l4 := l2.arrives.near
  have e : arriveAll ([c0].map seg ++ [ca].map seg) (pose jmid) = arriveAll ([cb].map seg) (pose jmid) := by
    rw [hc0, hca, hcb]
    show arrive (SF.sgn (1 / 4)) (3 / 4) 1 |1 / 4| (arrive (SF.sgn (1 / 4)) (1 / 2) 1 |1 / 4| (pose jmid))
      = arrive (SF.sgn (1 / 2)) (1 / 2) 1 |1 / 2| (pose jmid)
    rw [p1, p2, a1, a2]
    have := arrive_add 1 (1 / 2) 1 (1 / 4) (1 / 4) (pose jmid)
    rw [show (1:ℝ) / 2 + 1 * (1 / 4) = 3 / 4 by norm_num, show (1:ℝ) / 4 + 1 / 4 = 1 / 2 by norm_num] at this
    exact this
  rw [e] at l3
  have t1 : pathTol ([c0].map seg ++ [ca].map seg) = 10 / 10 ^ 16 := by
    rw [hc0, hca]; simp [pathTol, segTol, seg]; norm_num
  have t2 : pathTol ([cb].map seg) = 5 / 10 ^ 16 := by
    rw [hcb]; simp [pathTol, segTol, seg]
  have l3a := l3.1
  have l4a := l4.1
  rw [t1] at l3a
  rw [t2] at l4a
  have ht : twopify (predicted junk jmid cb).1.theta = twopify (predicted junk jlate ca).1.theta :=
    twopify_congr (l4.2.symm.trans l3.2)
  have hd : point_distance (predicted junk jlate ca).1.x (predicted junk jlate ca).1.y (predicted junk jmid cb).1.x (predicted junk jmid cb).1.y
      ≤ 1 / 10 ^ 14 := by
    have t := Config.dist_triangle (pose (predicted junk jmid cb).1) (arriveAll ([cb].map seg) (pose jmid)) (pose (predicted junk jlate ca).1)
    rw [Config.dist_comm] at l4a
    refine le_trans (le_trans (le_of_eq ?_) t) (by linarith)
    rfl
  have k1 : (predicted junk jlate ca).1.kappa = 1 := by
    rw [predicted_kappa, jlate_kappa, hca]
    show (3:ℝ) / 4 + 1 * |1 / 4| = 1
    rw [a1]; norm_num
  have k2 : (predicted junk jmid cb).1.kappa = 1 := by
    rw [predicted_kappa, hcb]
    show (1:ℝ) / 2 + 1 * |1 / 2| = 1
    rw [a2]; norm_num
  have he0 : ¬ (0:ℝ) > SF.epsilon := by norm_num [SF.epsilon]
  unfold state_equal
  rw [ht, k1, k2, sub_self, sub_self, abs_zero, if_neg he0, if_neg he0,
    if_neg (by norm_num [SF.epsilon]; exact hd.trans (by norm_num))]
  trivial

theorem state_equal_symm {a b : State} (h : state_equal a b) : state_equal b a := by
  unfold state_equal at h ⊢
  have h1 : point_distance b.x b.y a.x a.y = point_distance a.x a.y b.x b.y := by unfold point_distance; congr 1; ring
  rw [h1, abs_sub_comm a.kappa, abs_sub_comm (twopify a.theta)]
  exact h

/-- Two states on one clothoid to which the partial theorem applies: driving forwards from `jmid` to `jlate`. -/
example (junk : ℝ) : ∃ a ∈ SF.HC.predict_state jsp junk jmid, ∃ b ∈ SF.HC.predict_state jsp junk jlate, state_equal a.1 b.1 ∧
    PairAsserts a b ∧ 0 ≤ a.2.delta_s * (a.2.delta_s - b.2.delta_s) ∧ a.2.delta_s - b.2.delta_s = 1 / 4 := by
  refine ⟨predicted junk jmid ⟨1 / 2, 1 / 2, 1⟩, ?_, predicted junk jlate ⟨1 / 4, 3 / 4, 1⟩, ?_, state_equal_symm (jpair junk), ?_, ?_, ?_⟩
  · rw [predict_left (k := 1 / 2) rfl (by norm_num) (by norm_num), show (1:ℝ) - 1 / 2 = 1 / 2 by norm_num]; simp
  · rw [predict_left jlate_kappa (by norm_num) (by norm_num), show (1:ℝ) - 3 / 4 = 1 / 4 by norm_num]; simp
  · intro _
    simp only [subtract_control_assert, predicted, sgn_pos' (show (0:ℝ) < 1 / 4 by norm_num), sgn_pos' (show (0:ℝ) < 1 / 2 by norm_num)]
  · simp only [predicted]; norm_num
  · simp only [predicted]; norm_num

/-- **C82 is false: the assertion of `subtract_control` fails.** The goal is the end of the clothoid on which the start lies:
`state1` has curvature 1/2, `state2` curvature 1 = `kappa`. -/
theorem C82_hcrs_assert_false (junk : ℝ) : ∃ (sp : HCSpace) (s1 s2 : State) (c : Control), InRange sp.kappa sp.sigma ∧
    c.sigma = sp.sigma ∧ c.kappa = s1.kappa ∧ s2.kappa = sp.kappa ∧ LeadsTo [c] s1 s2 0 0 ∧
    ¬ SF.HC.Asserts sp junk s1 s2 := by
  have h12 : |(1:ℝ) / 2| = 1 / 2 := abs_of_pos (by norm_num)
  obtain ⟨c, hc⟩ : ∃ c : Control, c = ⟨1 / 2, 1 / 2, 1⟩ := ⟨_, rfl⟩
  obtain ⟨s2, hs2⟩ : ∃ s2, s2 = (predicted 0 jmid c).1 := ⟨_, rfl⟩
  have hk : s2.kappa = 1 := by
    rw [hs2, predicted_kappa, hc]
    show (1:ℝ) / 2 + 1 * |1 / 2| = 1
    rw [h12]; norm_num
  have hb : SF.HC.predict_state jsp junk s2 = [(s2, ⟨0, s2.kappa, 0⟩)] := by
    refine Spec.HC.predict_stay (.inr ?_)
    rw [hk]; norm_num [jsp, SF.epsilon]
  refine ⟨jsp, jmid, s2, c, by constructor <;> norm_num [jsp], by rw [hc]; rfl, by rw [hc]; rfl, hk, ?_, ?_⟩
  · rw [hs2]
    exact (predicted_leads 0 (by rw [hc]; norm_num) (by rw [hc]; rfl)).leadsTo
  · intro hA
    have hm : predicted junk jmid c ∈ SF.HC.predict_state jsp junk jmid := by
      rw [predict_left (k := 1 / 2) rfl (by norm_num) (by norm_num), hc]
      norm_num
    have := hA (predicted junk jmid c) hm (s2, ⟨0, s2.kappa, 0⟩) (by rw [hb]; simp)
      (by rw [hs2]; exact state_equal_of rfl rfl rfl rfl)
    rw [subtract_control_assert, hc] at this
    change SF.sgn (1 / 2) * (1:ℝ) = SF.sgn 0 * 0 at this
    rw [SF.sgn, if_neg (by norm_num)] at this
    norm_num at this

/-- All assertions hold for the states `jlate` and `jmid`. -/
theorem jlate_asserts (junk : ℝ) : SF.HC.Asserts jsp junk jlate jmid := by
  have hka : ∀ {c : Control}, c.kappa = 3 / 4 → (predicted junk jlate c).1.kappa = 3 / 4 + c.sigma * |c.delta_s| := by
    intro c _; rw [predicted_kappa, jlate_kappa]
  have hkb : ∀ {c : Control}, c.kappa = 1 / 2 → (predicted junk jmid c).1.kappa = 1 / 2 + c.sigma * |c.delta_s| := by
    intro c _; rw [predicted_kappa]; rfl
  have hha : ∀ {c : Control}, c.kappa = 3 / 4 → c.sigma ≠ 0 → AngleEq (predicted junk jlate c).1.theta
      (5 / 32 + SF.sgn c.delta_s * (c.kappa * |c.delta_s| + c.sigma * |c.delta_s| ^ 2 / 2)) := by
    intro c h1 h2; exact predicted_heading junk h2 (h1.trans jlate_kappa.symm) jlate_heading
  have hhb : ∀ {c : Control}, c.kappa = 1 / 2 → c.sigma ≠ 0 → AngleEq (predicted junk jmid c).1.theta
      (0 + SF.sgn c.delta_s * (c.kappa * |c.delta_s| + c.sigma * |c.delta_s| ^ 2 / 2)) := by
    intro c h1 h2; exact predicted_heading junk h2 h1 (.refl _)
  have p1 : SF.sgn (1 / 4) = 1 := sgn_pos' (by norm_num)
  have p2 : SF.sgn (1 / 2) = 1 := sgn_pos' (by norm_num)
  have p3 : SF.sgn (3 / 4) = 1 := sgn_pos' (by norm_num)
  have n1 : SF.sgn (-(1 / 4)) = -1 := sgn_neg' (by norm_num)
  have n2 : SF.sgn (-(1 / 2)) = -1 := sgn_neg' (by norm_num)
  have n3 : SF.sgn (-(3 / 4)) = -1 := sgn_neg' (by norm_num)
  have a1 : |(1:ℝ) / 4| = 1 / 4 := abs_of_pos (by norm_num)
  have a2 : |(1:ℝ) / 2| = 1 / 2 := abs_of_pos (by norm_num)
  have a3 : |(3:ℝ) / 4| = 3 / 4 := abs_of_pos (by norm_num)
  intro a ha b hb
  rw [predict_left jlate_kappa (by norm_num) (by norm_num)] at ha
  rw [predict_left (k := 1 / 2) rfl (by norm_num) (by norm_num)] at hb
  rw [show (1:ℝ) - 3 / 4 = 1 / 4 by norm_num] at ha
  rw [show (1:ℝ) - 1 / 2 = 1 / 2 by norm_num] at hb
  simp only [List.mem_cons, List.not_mem_nil, or_false] at ha hb
  rcases ha with rfl | rfl | rfl | rfl <;> rcases hb with rfl | rfl | rfl | rfl
  all_goals first
    | (intro _
       simp only [subtract_control_assert, predicted, p1, p2, p3, n1, n2, n3]
       try norm_num
       done)
    | (intro he
       refine absurd he (kappa_apart ?_)
       rw [hka rfl, hkb rfl]
       simp only [abs_neg, a1, a2, a3]
       norm_num; done)
    | (intro he
       refine absurd he (heading_apart (hha rfl (by norm_num)) (hhb rfl (by norm_num)) ?_ ?_) <;>
       simp only [abs_neg, a1, a2, a3, p1, p2, p3, n1, n2, n3] <;> norm_num [abs_le, le_abs])

/-- **C82 is false: `get_controls` may return a wrong control although all assertions hold.** A clothoid of length 1/4, driven backwards, leads
from `state1` (curvature 3/4) to `state2` (curvature 1/2).  A possible result of `get_controls` is a single control of the same
length and direction whose curvature grows to 1 instead of falling to 1/2 and whose end misses the heading of `state2` by more
than 1/20. -/
theorem C82_hcrs_controls_false (junk : ℝ) : ∃ (sp : HCSpace) (s1 s2 : State) (c c' : Control), InRange sp.kappa sp.sigma ∧
    LeadsTo [c] s1 s2 0 0 ∧ c.kappa = s1.kappa ∧ c.sigma = -sp.sigma ∧ c.delta_s = -(1 / 4) ∧ SF.HC.Asserts sp junk s1 s2 ∧
    SF.HC.IsControls sp junk s1 s2 [c'] ∧ c'.delta_s = c.delta_s ∧ c'.kappa + c'.sigma * |c'.delta_s| = 1 ∧ s2.kappa = 1 / 2 ∧
    ∀ a, ¬ LeadsTo [c'] s1 s2 a (1 / 20) := by
  have hr : InRange jsp.kappa jsp.sigma := by constructor <;> norm_num [jsp]
  have a1 : |(1:ℝ) / 4| = 1 / 4 := abs_of_pos (by norm_num)
  have a2 : |(1:ℝ) / 2| = 1 / 2 := abs_of_pos (by norm_num)
  have p1 : SF.sgn (1 / 4) = 1 := sgn_pos' (by norm_num)
  have p2 : SF.sgn (1 / 2) = 1 := sgn_pos' (by norm_num)
  have n1 : SF.sgn (-(1 / 4)) = -1 := sgn_neg' (by norm_num)
  -- the wrong pair
  obtain ⟨ca, hca⟩ : ∃ c : Control, c = ⟨1 / 4, 3 / 4, 1⟩ := ⟨_, rfl⟩
  obtain ⟨cb, hcb⟩ : ∃ c : Control, c = ⟨1 / 2, 1 / 2, 1⟩ := ⟨_, rfl⟩
  obtain ⟨c0, hc0⟩ : ∃ c : Control, c = ⟨1 / 4, 1 / 2, 1⟩ := ⟨_, rfl⟩
  have hjl : jlate = (predicted 0 jmid c0).1 := by rw [hc0]; rfl
  have hma : predicted junk jlate ca ∈ SF.HC.predict_state jsp junk jlate := by
    rw [predict_left jlate_kappa (by norm_num) (by norm_num), hca, show (1:ℝ) - 3 / 4 = 1 / 4 by norm_num]; simp
  have hmb : predicted junk jmid cb ∈ SF.HC.predict_state jsp junk jmid := by
    rw [predict_left (k := 1 / 2) rfl (by norm_num) (by norm_num), hcb, show (1:ℝ) - 1 / 2 = 1 / 2 by norm_num]; simp
  have heq : state_equal (predicted junk jlate ca).1 (predicted junk jmid cb).1 := by rw [hca, hcb]; exact jpair junk
  have hc' : pair_controls (SF.HC.controls_planners jsp) (predicted junk jlate ca) (predicted junk jmid cb) = some [⟨-(1 / 4), 3 / 4, 1⟩] := by
    rw [pair_controls, if_pos heq]
    congr 2
    show subtract_control ca cb = _
    rw [hca, hcb, subtract_control]; norm_num [p1]
  -- the right control
  have hback : Leads ([reverse_control c0].map seg) (pose jlate) (pose jmid) |c0.delta_s| 0 0 0 := by
    rw [hjl]; exact predicted_back 0 (by rw [hc0]; norm_num) (by rw [hc0]; rfl)
  have hrev : reverse_control c0 = ⟨-(1 / 4), 3 / 4, -1⟩ := by
    rw [hc0, reverse_control]; norm_num
  -- no path is shorter
  have hdist : dist2 jlate jmid ≤ 2 := by
    have := ((Spec.HC.predict_ok (sp := jsp) 0 jmid).2)
    have e := hback.euclid
    rw [pose_dist, hrev] at e
    have t : pathTol ([(⟨-(1 / 4), 3 / 4, -1⟩ : Control)].map seg) = 5 / 10 ^ 16 := by simp [pathTol, segTol, seg]
    rw [t, hc0, show |(⟨1 / 4, 1 / 2, 1⟩ : Control).delta_s| = 1 / 4 from a1] at e
    linarith
  have hlow : ∀ {a b : Predicted} {cs : List Control}, 1 / 4 ≤ |a.2.delta_s| → 1 / 4 ≤ |a.2.delta_s - b.2.delta_s| →
      pair_controls (SF.HC.controls_planners jsp) a b = some cs → 1 / 4 ≤ controls_length cs := by
    classical
    intro a b cs h1 h2 h
    rw [controls_length_eq]
    unfold pair_controls at h
    by_cases he : state_equal a.1 b.1
    · rw [if_pos he] at h
      rw [← Option.some_inj.1 h]
      simpa [totalLength, seg, subtract_control] using h2
    · rw [if_neg he] at h
      obtain ⟨x, _, hx⟩ := Option.map_eq_some_iff.1 h
      have hb : |a.2.delta_s| > SF.epsilon := by norm_num [SF.epsilon]; linarith
      simp only [if_pos hb] at hx
      rw [← hx]
      have : |a.2.delta_s| ≤ totalLength ((a.2 :: x).map seg) := by
        have := totalLength_nonneg (x.map seg)
        have e : totalLength ((a.2 :: x).map seg) = |a.2.delta_s| + totalLength (x.map seg) := by
          simp [totalLength, seg]
        linarith
      split_ifs
      · rw [List.map_append, totalLength_append]
        have := totalLength_nonneg ([reverse_control b.2].map seg)
        linarith
      · linarith
  obtain ⟨l, hl1, hl2, hl3⟩ := mapM_spec (fun p : Predicted × Predicted => pair_controls (SF.HC.controls_planners jsp) p.1 p.2)
    (pairs (SF.HC.predict_state jsp junk jlate) (SF.HC.predict_state jsp junk jmid)) fun p hp => by
      have hm := mem_pairs.1 hp
      obtain ⟨cs, len, h1, _⟩ := Spec.HC.pair hr junk jlate jmid (by
        have e : jsp.kappa / jsp.sigma = 1 := by norm_num [jsp]
        rw [e]; norm_num; linarith) p.1 hm.1 p.2 hm.2
      exact ⟨cs, h1⟩
  refine ⟨jsp, jlate, jmid, reverse_control c0, ⟨-(1 / 4), 3 / 4, 1⟩, hr, hback.leadsTo, by rw [hrev, jlate_kappa], by rw [hrev]; rfl,
    by rw [hrev], jlate_asserts junk, ⟨l, hl1, ?_, ?_⟩, by rw [hrev], ?_, rfl, ?_⟩
  · obtain ⟨y, hy, e⟩ := hl3 (predicted junk jlate ca, predicted junk jmid cb) (mem_pairs.2 ⟨hma, hmb⟩)
    have : y = [⟨-(1 / 4), 3 / 4, 1⟩] := Option.some_inj.1 (e.symm.trans hc')
    rw [← this]; exact hy
  · intro x hx
    obtain ⟨p, hp, e⟩ := hl2 x hx
    have hm := mem_pairs.1 hp
    have e1 : controls_length [(⟨-(1 / 4), 3 / 4, 1⟩ : Control)] = 1 / 4 := by
      simp only [controls_length, List.foldl_cons, List.foldl_nil, zero_add, abs_neg]
      exact a1
    rw [e1]
    rw [predict_left jlate_kappa (by norm_num) (by norm_num), predict_left (k := 1 / 2) rfl (by norm_num) (by norm_num)] at hm
    refine hlow ?_ ?_ e
    · rcases p with ⟨a, b⟩
      simp only [List.mem_cons, List.not_mem_nil, or_false] at hm
      rcases hm.1 with rfl | rfl | rfl | rfl <;> simp only [predicted] <;> norm_num [le_abs]
    · rcases p with ⟨a, b⟩
      simp only [List.mem_cons, List.not_mem_nil, or_false] at hm
      rcases hm with ⟨rfl | rfl | rfl | rfl, rfl | rfl | rfl | rfl⟩ <;> simp only [predicted] <;> norm_num [le_abs]
  · show (3:ℝ) / 4 + 1 * |-(1 / 4)| = 1
    rw [abs_neg, a1]; norm_num
  · rintro a ⟨e, h1, _, t, h2, h3⟩
    rw [drivesAll_iff.1 h1] at h3
    have e1 : (arriveAll ([(⟨-(1 / 4), 3 / 4, 1⟩ : Control)].map seg) (pose jlate)).theta
        = jlate.theta + SF.sgn (-(1 / 4)) * (3 / 4 * |-(1 / 4)| + 1 * |-(1 / 4)| ^ 2 / 2) := rfl
    rw [e1, n1, abs_neg, a1] at h3
    obtain ⟨n, hn⟩ := h2
    obtain ⟨m, hm⟩ := jlate_heading
    change t = 0 + _ at hn
    have key : jlate.theta + -1 * (3 / 4 * (1 / 4) + 1 * (1 / 4) ^ 2 / 2) - t = -(1 / 16) + ((m - n : ℤ):ℝ) * (2 * π) := by
      push_cast
      linarith
    rw [key, abs_le] at h3
    have hpi := pi_gt_three
    rcases lt_trichotomy (m - n) 0 with hz | hz | hz
    · have : ((m - n : ℤ):ℝ) ≤ -1 := by exact_mod_cast (by omega : m - n ≤ -1)
      nlinarith [h3.1, h3.2]
    · rw [hz] at h3
      norm_num at h3
    · have : (1:ℝ) ≤ ((m - n : ℤ):ℝ) := by exact_mod_cast (by omega : 1 ≤ m - n)
      nlinarith [h3.1, h3.2]

end Props
