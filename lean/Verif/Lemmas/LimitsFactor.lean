import Verif.Lemmas.LimitsUp
import Verif.Lemmas.HcPair

/-!
# Limits of all paths of the planners, up to a factor
-/

noncomputable section

namespace Spec

open Real Props CC00

namespace CC0pm

open SF.CC0pm

variable {sp : SF.HCSpace}

/-- Limits of all paths. -/
theorem limits_factor (h : InRange sp.kappa sp.sigma) (s1 s2 : SF.State) (hfar : dist2 s1 s2 ≤ 10 ^ 100) {m : ℝ}
    (hm : Slack sp.kappa sp.sigma (SF.epsilon * (1 + 1 / sp.kappa)) m) :
    ∃ cs, get_controls sp s1 s2 = some cs ∧ WithinFactor sp.kappa sp.sigma m cs := by
  have H := h.rng
  obtain ⟨l, t, r, cs', _, hd, hcs', _, hle, _, _⟩ := plan h s1 s2 hfar
  refine ⟨cs', hcs', ?_⟩
  have hp := hd
  have hlt := hle.trans_lt (bound_finite h hfar)
  obtain ⟨n, hn, hpn⟩ := best_of_some hp
  obtain ⟨_, e⟩ := path_some.1 hpn
  have hsc : CircOk (start_circle sp (startOf s1) (n / 2)) sp.kappa sp.sigma :=
    circOk_at H.kappa H.sigma H.clothoid (startOf s1) (decide (n / 2 = 0)) sp.forwards true
  have hec : RsOk (end_circle sp s2 (n % 2)) sp.kappa := rsOk_at H.pos (if n % 2 = 0 then SF.configuration s2.x s2.y s2.theta sp.kappa
    else SF.configuration s2.x s2.y s2.theta (-sp.kappa)) (decide (n % 2 = 0)) (!sp.forwards) true
  have hlt' : (circles_dubins_path sp (start_circle sp (startOf s1) (n / 2)) (end_circle sp s2 (n % 2))).length < SF.dblMax := by
    rw [← e]; exact hlt
  rw [get_controls, hp, Option.bind_some] at hcs'
  by_cases h2 : t = 2
  · subst h2
    have hr := (row_short hlt').1 (by rw [← e])
    rw [← e] at hr
    simp only [path_controls] at hcs'
    rw [show r.cstart = _ from hr.2] at hcs'
    obtain rfl := Option.some.inj hcs'
    exact InLimits.factor (hc_at_limits H _ _ _ _ _) hm.1 H.pos.le H.sigma.le
  · obtain ⟨t', r', he, hr⟩ := found H hsc rfl rfl hec rfl hlt'
    rw [← e] at he
    rcases hr with ⟨rfl, _⟩ | ⟨cs, hcs, hok⟩
    · exact absurd (congrArg SF.CCPath.type he) h2
    · rw [he, hcs] at hcs'
      obtain rfl := Option.some.inj hcs'
      exact hok.limitsUp H.pos.le H.sigma.le hm

end CC0pm

namespace CCpm0

open SF.CCpm0

variable {sp : SF.HCSpace}

/-- Limits of all paths. -/
theorem limits_factor (h : InRange sp.kappa sp.sigma) (s1 s2 : SF.State) (hfar : dist2 s1 s2 ≤ 10 ^ 100) {m : ℝ}
    (hm : Slack sp.kappa sp.sigma (SF.epsilon * (1 + 1 / sp.kappa)) m) :
    ∃ cs, get_controls sp s1 s2 = some cs ∧ WithinFactor sp.kappa sp.sigma m cs := by
  have H := h.rng
  obtain ⟨l, t, r, cs', _, hd, hcs', _, hle, _, _⟩ := plan h s1 s2 hfar
  refine ⟨cs', hcs', ?_⟩
  have hp := hd
  have hlt := hle.trans_lt (bound_finite h hfar)
  obtain ⟨n, hn, hpn⟩ := best_of_some hp
  obtain ⟨_, e⟩ := (path_some hn).1 hpn
  have hec : CircOk (end_circle sp (startOf s2) (n % 2)) sp.kappa sp.sigma :=
    circOk_at H.kappa H.sigma H.clothoid (startOf s2) (decide (n % 2 = 0)) (!sp.forwards) true
  have hsc : RsOk (start_circle sp s1 (n / 2)) sp.kappa := rsOk_at H.pos (if n / 2 = 0 then SF.configuration s1.x s1.y s1.theta sp.kappa
    else SF.configuration s1.x s1.y s1.theta (-sp.kappa)) (decide (n / 2 = 0)) sp.forwards true
  have hlt' : (circles_dubins_path sp (start_circle sp s1 (n / 2)) (end_circle sp (startOf s2) (n % 2))).length < SF.dblMax := by
    rw [← e]; exact hlt
  rw [get_controls, hp, Option.bind_some] at hcs'
  by_cases h2 : t = 2
  · subst h2
    have hr := (row_short hlt').1 (by rw [← e])
    rw [← e] at hr
    simp only [path_controls] at hcs'
    rw [show r.cend = _ from hr.2] at hcs'
    obtain rfl := Option.some.inj hcs'
    exact InLimits.factor (hc_at_limits H _ _ _ _ _) hm.1 H.pos.le H.sigma.le
  · obtain ⟨t', r', he, hr⟩ := found H hsc hec rfl rfl rfl hlt'
    rw [← e] at he
    rcases hr with ⟨rfl, _⟩ | ⟨cs, hcs, hok⟩
    · exact absurd (congrArg SF.CCPath.type he) h2
    · rw [he, hcs] at hcs'
      obtain rfl := Option.some.inj hcs'
      exact hok.limitsUp H.pos.le H.sigma.le hm

end CCpm0


/-- The controls in front of and behind the path between predicted states. -/
theorem pair_factor {sp : SF.HCSpace} {m : ℝ} (H : Rng sp.kappa sp.sigma) (hm : 1 ≤ m) {s1 s2 : SF.State} {a b : SF.Predicted} {da db : ℝ}
    (fa : PredFacts sp.kappa sp.sigma s1 da a) (fb : PredFacts sp.kappa sp.sigma s2 db b) (k1 : |s1.kappa| ≤ sp.kappa) (k2 : |s2.kappa| ≤ sp.kappa)
    {mid : List SF.Control} (hlim : WithinFactor sp.kappa sp.sigma m mid) {cs : List SF.Control}
    (e : (let cs := if |a.2.delta_s| > SF.epsilon then a.2 :: mid else mid
      if |b.2.delta_s| > SF.epsilon then cs ++ [SF.reverse_control b.2] else cs) = cs) : WithinFactor sp.kappa sp.sigma m cs := by
  have hK := H.pos
  have hS := H.sigma
  have he0 : (0:ℝ) < SF.epsilon := by norm_num [SF.epsilon]
  have hKle : sp.kappa ≤ sp.kappa * (1 + 1 / 10 ^ 8) := by nlinarith
  have hSle : sp.sigma ≤ sp.sigma * (1 + 2 / 10 ^ 8) := by nlinarith
  have nz : ∀ {x : ℝ}, |x| > SF.epsilon → x ≠ 0 := by
    rintro x h rfl; rw [abs_zero] at h; linarith
  have hpre : WithinFactor sp.kappa sp.sigma m (if |a.2.delta_s| > SF.epsilon then a.2 :: mid else mid) := by
    by_cases hd : |a.2.delta_s| > SF.epsilon
    · rw [if_pos hd]
      have := fa.limits H k1 (nz hd)
      exact WithinFactor.append (cs := [a.2])
        (InLimits.factor ⟨this.1.mono hKle, this.2.2.1.mono hSle⟩ hm hK.le hS.le) hlim
    · rw [if_neg hd]; exact hlim
  rw [← e]
  by_cases hd : |b.2.delta_s| > SF.epsilon
  · simp only [if_pos hd]
    have := fb.limits H k2 (nz hd)
    exact hpre.append (InLimits.factor ⟨this.2.1.mono hKle, this.2.2.2.mono hSle⟩ hm hK.le hS.le)
  · simp only [if_neg hd]; exact hpre

/-- The difference of the controls of coinciding predicted states. -/
theorem join_limits {sp : SF.HCSpace} {m : ℝ} (H : Rng sp.kappa sp.sigma) (hm : 1 ≤ m) {s1 s2 : SF.State} {a b : SF.Predicted} {da : ℝ}
    (fa : PredFacts sp.kappa sp.sigma s1 da a) (k1 : |s1.kappa| ≤ sp.kappa) (k2 : |s2.kappa| ≤ sp.kappa)
    (hend : |(SF.subtract_control a.2 b.2).kappa + (SF.subtract_control a.2 b.2).sigma * |(SF.subtract_control a.2 b.2).delta_s|
      - s2.kappa| ≤ SF.epsilon) :
    CurvatureAtMost (m * (sp.kappa * (1 + 1 / 10 ^ 8)) + SF.epsilon) ([SF.subtract_control a.2 b.2].map seg) ∧
      SharpnessAtMost (m ^ 2 * (sp.sigma * (1 + 2 / 10 ^ 8))) ([SF.subtract_control a.2 b.2].map seg) := by
  have hK := H.pos
  have hS := H.sigma
  have he0 : (0:ℝ) < SF.epsilon := by norm_num [SF.epsilon]
  have hk0 : (SF.subtract_control a.2 b.2).kappa = s1.kappa := fa.kappa
  have hKle : sp.kappa ≤ m * (sp.kappa * (1 + 1 / 10 ^ 8)) := by nlinarith
  obtain ⟨c, hc⟩ : ∃ c, c = SF.subtract_control a.2 b.2 := ⟨_, rfl⟩
  have hsig : |c.sigma| ≤ sp.sigma := by
    rw [hc]
    rcases fa.sigma with h | h
    · change |a.2.sigma| ≤ _; rw [h.1, abs_zero]; exact hS.le
    · exact h.le
  rw [← hc] at hend hk0 ⊢
  constructor
  · intro x hx u hu0 hu
    simp only [List.map_cons, List.map_nil, List.mem_singleton] at hx
    subst hx
    simp only [seg] at hu ⊢
    rw [hk0] at hend ⊢
    have e := abs_le.1 hend
    have e1 := abs_le.1 k1
    have e2 := abs_le.1 k2
    rw [abs_le]
    rcases le_total 0 c.sigma with hs | hs
    · have g1 := mul_le_mul_of_nonneg_left hu hs
      have g2 := mul_nonneg hs hu0
      constructor <;> linarith
    · have g1 := mul_le_mul_of_nonpos_left hu hs
      have g2 := mul_nonpos_of_nonpos_of_nonneg hs hu0
      constructor <;> linarith
  · intro x hx
    simp only [List.map_cons, List.map_nil, List.mem_singleton] at hx
    subst hx
    have : sp.sigma ≤ m ^ 2 * (sp.sigma * (1 + 2 / 10 ^ 8)) := by
      have : 1 ≤ m ^ 2 := one_le_pow₀ hm
      nlinarith
    exact hsig.trans this

theorem one_add_le {k s : ℝ} (H : Rng k s) : SF.epsilon * (1 + 1 / k) ≤ SF.epsilon * (1 + radiusBound k s) := by
  have := H.inv_le
  have := H.pos
  have : 0 < 1 / k := by positivity
  exact mul_le_mul_of_nonneg_left (by linarith) (by norm_num [SF.epsilon])

theorem slack_inv {k s m : ℝ} (H : Rng k s) (hm : Slack k s (SF.epsilon * (1 + radiusBound k s)) m) :
    Slack k s (SF.epsilon * (1 + 1 / k)) m := by
  have he0 : (0:ℝ) < SF.epsilon := by norm_num [SF.epsilon]
  have hk := H.pos
  exact hm.mono (by positivity) (one_add_le H)

theorem CC00.limits_factor {sp : SF.HCSpace} {m : ℝ} (h : InRange sp.kappa sp.sigma) (a b : SF.State)
    (hfar : dist2 a b ≤ 10 ^ 100) (hm : Slack sp.kappa sp.sigma (SF.epsilon * (1 + radiusBound sp.kappa sp.sigma)) m) :
    ∃ cs, SF.CC00.get_controls sp a b = some cs ∧ WithinFactor sp.kappa sp.sigma m cs := by
  have H := h.rng
  have he0 : (0:ℝ) < SF.epsilon := by norm_num [SF.epsilon]
  have hR := Spec.CC00.radius_le' h
  obtain ⟨cs, hcs, hok, _⟩ := Spec.CC00.plan h a b hfar (tau := SF.epsilon) (by norm_num [SF.epsilon])
    fun x _ => tiny_le _ _
  have hR0 : 0 ≤ sp.param.radius := by
    change 0 ≤ (SF.hc_cc_circle_param sp.kappa sp.sigma).radius
    rw [(hc_param_ok h.kappa h.sigma h.clothoid).radius]; exact sqrt_nonneg _
  exact ⟨cs, hcs, hok.limitsUp H.pos.le H.sigma.le hR0
    (hm.mono (by positivity) (mul_le_mul_of_nonneg_left (by linarith) he0.le))⟩

namespace CC

open SF.CC

variable {sp : SF.HCSpace} {m : ℝ}

theorem call_factor (h : InRange sp.kappa sp.sigma) (a b : SF.State) (hfar : dist2 a b ≤ 10 ^ 100)
    (hm : Slack sp.kappa sp.sigma (SF.epsilon * (1 + radiusBound sp.kappa sp.sigma)) m) :
    ∃ cs, (controls_planners sp).call a b = some cs ∧ WithinFactor sp.kappa sp.sigma m cs := by
  have H := h.rng
  have he0 : (0:ℝ) < SF.epsilon := by norm_num [SF.epsilon]
  have hk := H.pos
  have hm' : Slack sp.kappa sp.sigma (SF.epsilon * (1 + 1 / sp.kappa)) m := slack_inv H hm
  unfold SF.SubPlanners.call
  by_cases ha : |a.kappa| < SF.epsilon <;> by_cases hb : |b.kappa| < SF.epsilon
  · rw [if_pos ha, if_pos hb]
    exact Spec.CC00.limits_factor h a b hfar hm
  · rw [if_pos ha, if_neg hb]
    exact Spec.CC0pm.limits_factor h a b hfar hm'
  · rw [if_neg ha, if_pos hb]
    exact Spec.CCpm0.limits_factor h a b hfar hm'
  · rw [if_neg ha, if_neg hb]
    obtain ⟨cs, h1, h2⟩ := Spec.CCpmpm.limits h a b hfar
    exact ⟨cs, h1, InLimits.factor h2 hm.1 hk.le H.sigma.le⟩

open Classical in
theorem factor (h : InRange sp.kappa sp.sigma) (junk : ℝ) (s1 s2 : SF.State)
    (hfar : dist2 s1 s2 + 4 * (sp.kappa / sp.sigma) ≤ 10 ^ 100) (hF : 4 * (sp.kappa / sp.sigma) + 2 * SF.epsilon ≤ dist2 s1 s2)
    (k1 : |s1.kappa| ≤ sp.kappa) (k2 : |s2.kappa| ≤ sp.kappa)
    (hm : Slack sp.kappa sp.sigma (SF.epsilon * (1 + radiusBound sp.kappa sp.sigma)) m)
    {cs : List SF.Control} (hcs : IsControls sp junk s1 s2 cs) : WithinFactor sp.kappa sp.sigma m cs := by
  have H := h.rng
  have he0 : (0:ℝ) < SF.epsilon := by norm_num [SF.epsilon]
  obtain ⟨l, hl, hmem, _⟩ := hcs
  obtain ⟨lc, c1, c2, _⟩ := mapM_spec (fun p : SF.Predicted × SF.Predicted => SF.pair_controls (controls_planners sp) p.1 p.2)
    (SF.pairs (start_states sp junk s1) (end_states sp junk s2)) fun p hp => by
      obtain ⟨cs, len, h1, _⟩ := pair h junk s1 s2 hfar p.1 (mem_pairs.1 hp).1 p.2 (mem_pairs.1 hp).2
      exact ⟨cs, h1⟩
  obtain rfl := Option.some.inj (c1.symm.trans hl)
  obtain ⟨⟨a, b⟩, hp, e⟩ := c2 cs hmem
  obtain ⟨ha, hb⟩ := mem_pairs.1 hp
  simp only at ha hb e
  have fa := ((predict_ok junk s1 sp.forwards).2 a ha).facts H (sg_pm _)
  have fb := ((predict_ok junk s2 (!sp.forwards)).2 b hb).facts H (sg_pm _)
  have n1 := fa.near
  have n2 := fb.near
  have t1 := dist2_triangle a.1 s1 b.1
  have t2 := dist2_triangle s1 s2 b.1
  have t3 := dist2_triangle s1 a.1 s2
  have t4 := dist2_triangle a.1 b.1 s2
  rw [dist2_comm a.1 s1] at t1
  rw [dist2_comm b.1 s2] at t4
  have hne : ¬ SF.state_equal a.1 b.1 := by
    intro hq
    have := (state_equal_within hq).1.1
    rw [pose_dist] at this
    linarith
  obtain ⟨mid, hmid, hlim⟩ := call_factor h a.1 b.1 (by linarith) hm
  rw [SF.pair_controls, if_neg hne, hmid] at e
  simp only [Option.map_some, Option.some.injEq] at e
  exact pair_factor H hm.1 fa fb k1 k2 hlim e

open Classical in
theorem factor_near (h : InRange sp.kappa sp.sigma) (junk : ℝ) (s1 s2 : SF.State)
    (hfar : dist2 s1 s2 + 4 * (sp.kappa / sp.sigma) ≤ 10 ^ 100) (hA : Asserts sp junk s1 s2)
    (k1 : |s1.kappa| ≤ sp.kappa) (k2 : |s2.kappa| ≤ sp.kappa)
    (hm : Slack sp.kappa sp.sigma (SF.epsilon * (1 + radiusBound sp.kappa sp.sigma)) m)
    {cs : List SF.Control} (hcs : IsControls sp junk s1 s2 cs) :
    CurvatureAtMost (m * (sp.kappa * (1 + 1 / 10 ^ 8)) + SF.epsilon) (cs.map seg) ∧
      SharpnessAtMost (m ^ 2 * (sp.sigma * (1 + 2 / 10 ^ 8))) (cs.map seg) := by
  have H := h.rng
  have he0 : (0:ℝ) < SF.epsilon := by norm_num [SF.epsilon]
  obtain ⟨l, hl, hmem, _⟩ := hcs
  obtain ⟨lc, c1, c2, _⟩ := mapM_spec (fun p : SF.Predicted × SF.Predicted => SF.pair_controls (controls_planners sp) p.1 p.2)
    (SF.pairs (start_states sp junk s1) (end_states sp junk s2)) fun p hp => by
      obtain ⟨cs, len, h1, _⟩ := pair h junk s1 s2 hfar p.1 (mem_pairs.1 hp).1 p.2 (mem_pairs.1 hp).2
      exact ⟨cs, h1⟩
  obtain rfl := Option.some.inj (c1.symm.trans hl)
  obtain ⟨⟨a, b⟩, hp, e⟩ := c2 cs hmem
  obtain ⟨ha, hb⟩ := mem_pairs.1 hp
  simp only at ha hb e
  have fa := ((predict_ok junk s1 sp.forwards).2 a ha).facts H (sg_pm _)
  have fb := ((predict_ok junk s2 (!sp.forwards)).2 b hb).facts H (sg_pm _)
  have n1 := fa.near
  have n2 := fb.near
  have t1 := dist2_triangle a.1 s1 b.1
  have t2 := dist2_triangle s1 s2 b.1
  have t3 := dist2_triangle s1 a.1 s2
  have t4 := dist2_triangle a.1 b.1 s2
  rw [dist2_comm a.1 s1] at t1
  rw [dist2_comm b.1 s2] at t4
  by_cases hne : SF.state_equal a.1 b.1
  · rw [SF.pair_controls, if_pos hne] at e
    obtain rfl := Option.some.inj e
    exact join_limits H hm.1 fa k1 k2 ((join_leads H (sg_pm _) ((predict_ok junk s1 sp.forwards).2 a ha)
      (by rw [← sg_not]; exact (predict_ok junk s2 (!sp.forwards)).2 b hb) hne (hA a ha b hb)).2.2)
  obtain ⟨mid, hmid, hlim⟩ := call_factor h a.1 b.1 (by linarith) hm
  rw [SF.pair_controls, if_neg hne, hmid] at e
  simp only [Option.map_some, Option.some.injEq] at e
  have := pair_factor H hm.1 fa fb k1 k2 hlim e
  exact ⟨this.1.mono (by linarith), this.2⟩

end CC

namespace HC

open SF.HC

variable {sp : SF.HCSpace} {m : ℝ}

theorem one_factor (h : InRange sp.kappa sp.sigma) (pm1 pm2 : Bool) (a b : SF.State) (hfar : dist2 a b ≤ 10 ^ 100)
    (hm : Slack sp.kappa sp.sigma (SF.epsilon * (1 + radiusBound sp.kappa sp.sigma)) m) :
    ∃ cs, SF.HcRs.get_controls pm1 pm2 sp a b = some cs ∧ WithinFactor sp.kappa sp.sigma m cs := by
  have H := h.rng
  obtain ⟨p, l1, l2, hp, _, _, _, hb, _⟩ := Spec.HcRs.plan (pm1 := pm1) (pm2 := pm2) h a b hfar
  exact ⟨_, by rw [SF.HcRs.get_controls, hp]; rfl, hb.limitsUp m hm⟩

theorem call_factor (h : InRange sp.kappa sp.sigma) (a b : SF.State) (hfar : dist2 a b ≤ 10 ^ 100)
    (hm : Slack sp.kappa sp.sigma (SF.epsilon * (1 + radiusBound sp.kappa sp.sigma)) m) :
    ∃ cs, (controls_planners sp).call a b = some cs ∧ WithinFactor sp.kappa sp.sigma m cs := by
  unfold SF.SubPlanners.call
  by_cases ha : |a.kappa| < SF.epsilon <;> by_cases hb : |b.kappa| < SF.epsilon
  · rw [if_pos ha, if_pos hb]
    exact one_factor h false false a b hfar hm
  · rw [if_pos ha, if_neg hb]
    exact one_factor h false true a b hfar hm
  · rw [if_neg ha, if_pos hb]
    exact one_factor h true false a b hfar hm
  · rw [if_neg ha, if_neg hb]
    exact one_factor h true true a b hfar hm

open Classical in
theorem factor (h : InRange sp.kappa sp.sigma) (junk : ℝ) (s1 s2 : SF.State)
    (hfar : dist2 s1 s2 + 4 * (sp.kappa / sp.sigma) ≤ 10 ^ 100) (hF : 4 * (sp.kappa / sp.sigma) + 2 * SF.epsilon ≤ dist2 s1 s2)
    (k1 : |s1.kappa| ≤ sp.kappa) (k2 : |s2.kappa| ≤ sp.kappa)
    (hm : Slack sp.kappa sp.sigma (SF.epsilon * (1 + radiusBound sp.kappa sp.sigma)) m)
    {cs : List SF.Control} (hcs : IsControls sp junk s1 s2 cs) : WithinFactor sp.kappa sp.sigma m cs := by
  have H := h.rng
  have he0 : (0:ℝ) < SF.epsilon := by norm_num [SF.epsilon]
  obtain ⟨l, hl, hmem, _⟩ := hcs
  obtain ⟨lc, c1, c2, _⟩ := mapM_spec (fun p : SF.Predicted × SF.Predicted => SF.pair_controls (controls_planners sp) p.1 p.2)
    (SF.pairs (predict_state sp junk s1) (predict_state sp junk s2)) fun p hp => by
      obtain ⟨cs, len, h1, _⟩ := pair h junk s1 s2 hfar p.1 (mem_pairs.1 hp).1 p.2 (mem_pairs.1 hp).2
      exact ⟨cs, h1⟩
  obtain rfl := Option.some.inj (c1.symm.trans hl)
  obtain ⟨⟨a, b⟩, hp, e⟩ := c2 cs hmem
  obtain ⟨ha, hb⟩ := mem_pairs.1 hp
  simp only at ha hb e
  obtain ⟨da, hda, oa⟩ := (predict_ok junk s1).2 a ha
  obtain ⟨db, hdb, ob⟩ := (predict_ok junk s2).2 b hb
  have fa := oa.facts H hda
  have fb := ob.facts H hdb
  have n1 := fa.near
  have n2 := fb.near
  have t1 := dist2_triangle a.1 s1 b.1
  have t2 := dist2_triangle s1 s2 b.1
  have t3 := dist2_triangle s1 a.1 s2
  have t4 := dist2_triangle a.1 b.1 s2
  rw [dist2_comm a.1 s1] at t1
  rw [dist2_comm b.1 s2] at t4
  have hne : ¬ SF.state_equal a.1 b.1 := by
    intro hq
    have := (state_equal_within hq).1.1
    rw [pose_dist] at this
    linarith
  obtain ⟨mid, hmid, hlim⟩ := call_factor h a.1 b.1 (by linarith) hm
  rw [SF.pair_controls, if_neg hne, hmid] at e
  simp only [Option.map_some, Option.some.injEq] at e
  exact pair_factor H hm.1 fa fb k1 k2 hlim e

open Classical in
theorem factor_near (h : InRange sp.kappa sp.sigma) (junk : ℝ) (s1 s2 : SF.State)
    (hfar : dist2 s1 s2 + 4 * (sp.kappa / sp.sigma) ≤ 10 ^ 100) (hA : Props.HC.AllJoinable sp junk s1 s2)
    (k1 : |s1.kappa| ≤ sp.kappa) (k2 : |s2.kappa| ≤ sp.kappa)
    (hm : Slack sp.kappa sp.sigma (SF.epsilon * (1 + radiusBound sp.kappa sp.sigma)) m)
    {cs : List SF.Control} (hcs : IsControls sp junk s1 s2 cs) :
    CurvatureAtMost (m * (sp.kappa * (1 + 1 / 10 ^ 8)) + SF.epsilon) (cs.map seg) ∧
      SharpnessAtMost (m ^ 2 * (sp.sigma * (1 + 2 / 10 ^ 8))) (cs.map seg) := by
  have H := h.rng
  have he0 : (0:ℝ) < SF.epsilon := by norm_num [SF.epsilon]
  obtain ⟨l, hl, hmem, _⟩ := hcs
  obtain ⟨lc, c1, c2, _⟩ := mapM_spec (fun p : SF.Predicted × SF.Predicted => SF.pair_controls (controls_planners sp) p.1 p.2)
    (SF.pairs (predict_state sp junk s1) (predict_state sp junk s2)) fun p hp => by
      obtain ⟨cs, len, h1, _⟩ := pair h junk s1 s2 hfar p.1 (mem_pairs.1 hp).1 p.2 (mem_pairs.1 hp).2
      exact ⟨cs, h1⟩
  obtain rfl := Option.some.inj (c1.symm.trans hl)
  obtain ⟨⟨a, b⟩, hp, e⟩ := c2 cs hmem
  obtain ⟨ha, hb⟩ := mem_pairs.1 hp
  simp only at ha hb e
  obtain ⟨da, hda, oa⟩ := (predict_ok junk s1).2 a ha
  obtain ⟨db, hdb, ob⟩ := (predict_ok junk s2).2 b hb
  have fa := oa.facts H hda
  have fb := ob.facts H hdb
  have n1 := fa.near
  have n2 := fb.near
  have t1 := dist2_triangle a.1 s1 b.1
  have t2 := dist2_triangle s1 s2 b.1
  have t3 := dist2_triangle s1 a.1 s2
  have t4 := dist2_triangle a.1 b.1 s2
  rw [dist2_comm a.1 s1] at t1
  rw [dist2_comm b.1 s2] at t4
  by_cases hne : SF.state_equal a.1 b.1
  · rw [SF.pair_controls, if_pos hne] at e
    obtain rfl := Option.some.inj e
    exact join_limits H hm.1 fa k1 k2 (hjoin_leads H hda hdb oa ob hne (hA a ha b hb)).2
  obtain ⟨mid, hmid, hlim⟩ := call_factor h a.1 b.1 (by linarith) hm
  rw [SF.pair_controls, if_neg hne, hmid] at e
  simp only [Option.map_some, Option.some.injEq] at e
  have := pair_factor H hm.1 fa fb k1 k2 hlim e
  exact ⟨this.1.mono (by linarith), this.2⟩

end HC

end Spec
