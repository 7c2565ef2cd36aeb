import Verif.Lemmas.CcMid
import Verif.Props.Turn

/-!
# Prediction of states, and the pairs of predicted states
-/

noncomputable section

namespace Spec

open Real Props

/-! ### Prediction -/

theorem sgn_eq_dir (c : SF.Control) : SF.sgn c.delta_s = (seg c).dir := rfl

theorem predicted_lib {s : SF.State} {c : SF.Control} (junk : ℝ) (hs : c.sigma ≠ 0) (hk : c.kappa = s.kappa) :
    libArrive (seg c) (pose s) = pose (SF.predicted junk s c).1 := by
  unfold libArrive
  rw [if_neg (show (seg c).sigma ≠ 0 from hs)]
  simp only [SF.predicted, sgn_eq_dir, ← hk]
  rfl

/-- The control leads to the predicted state. -/
theorem predicted_leads {s : SF.State} {c : SF.Control} (junk : ℝ) (hs : c.sigma ≠ 0) (hk : c.kappa = s.kappa) :
    Leads ([c].map seg) (pose s) (pose (SF.predicted junk s c).1) |c.delta_s| 0 0 0 := by
  refine leads_of_lib ?_ (by simp [totalLength, seg])
  simp only [List.map_cons, List.map_nil, libAll, predicted_lib junk hs hk]
  exact (SameConfig.refl _).within

/-- The reversed control leads back. -/
theorem predicted_back {s : SF.State} {c : SF.Control} (junk : ℝ) (hs : c.sigma ≠ 0) (hk : c.kappa = s.kappa) :
    Leads ([SF.reverse_control c].map seg) (pose (SF.predicted junk s c).1) (pose s) |c.delta_s| 0 0 0 := by
  have hdel : (SF.reverse_control c).delta_s = -c.delta_s := rfl
  refine ⟨?_, by simp [totalLength, seg, hdel]⟩
  have h1 : Near (segTol (seg c)) (arriveAll ([c].map seg) (pose s)) (pose (SF.predicted junk s c).1) := by
    have := (predicted_leads junk hs hk).arrives.near
    simpa [pathTol] using this
  have h2 := (C32_reverse c (pose s) (arriveAll ([c].map seg) (pose s))
    (arriveAll [seg c, seg (SF.reverse_control c)] (pose s)) (drivesAll_iff.2 rfl) (drivesAll_iff.2 rfl)).2.1
  have h3 := drivesAll_iff.1 h2
  have h4 : Near (segTol (seg c)) (pose (SF.predicted junk s c).1) (arriveAll ([c].map seg) (pose s)) :=
    ⟨by rw [Config.dist_comm]; exact h1.1, h1.2.symm⟩
  have h5 := h4.within.arriveAll (cs := [SF.reverse_control c].map seg)
  have h6 : arriveAll ([SF.reverse_control c].map seg) (arriveAll ([c].map seg) (pose s)) = pose s := h3.symm
  rw [h6] at h5
  refine h5.mono ?_ le_rfl
  have e : (SF.reverse_control c).sigma = -c.sigma := rfl
  exact le_of_eq (by simp [pathTol, segTol, seg, e, hs])

/-- Curvature after a control. -/
theorem predicted_kappa (junk : ℝ) (s : SF.State) (c : SF.Control) :
    (SF.predicted junk s c).1.kappa = s.kappa + c.sigma * |c.delta_s| := rfl

theorem reverse_kappa (c : SF.Control) : (SF.reverse_control c).kappa = c.kappa + c.sigma * |c.delta_s| := by
  simp only [SF.reverse_control, abs_neg]; ring

/-- Driving on. -/
theorem arrive_add (d kappa sigma L1 L2 : ℝ) (p : Config) :
    arrive d (kappa + sigma * L1) sigma L2 (arrive d kappa sigma L1 p) = arrive d kappa sigma (L1 + L2) p := by
  obtain ⟨X, Y, T, hX, hY, hT, x0, y0, t0, x1, y1, t1⟩ := drives_arrive d kappa sigma (L1 + L2) p
  have hm : Drives d kappa sigma L1 p ⟨X L1, Y L1, T L1⟩ :=
    ⟨X, Y, T, hX, hY, hT, x0, y0, t0, rfl, rfl, rfl⟩
  have hm' := drives_iff.1 hm
  have he : Drives d (kappa + sigma * L1) sigma L2 ⟨X L1, Y L1, T L1⟩ (arrive d kappa sigma (L1 + L2) p) := by
    refine ⟨fun s => X (s + L1), fun s => Y (s + L1), fun s => T (s + L1), fun s => ?_, fun s => ?_, fun s => ?_,
      by simp, by simp, by simp, by simp only [add_comm L2 L1, x1], by simp only [add_comm L2 L1, y1],
      by simp only [add_comm L2 L1, t1]⟩
    · exact (hX (s + L1)).comp_add_const s L1
    · exact (hY (s + L1)).comp_add_const s L1
    · exact ((hT (s + L1)).comp_add_const s L1).congr_deriv (by ring)
  have := drives_iff.1 he
  rw [← hm']; exact this.symm

theorem state_equal_within {a b : SF.State} (h : SF.state_equal a b) :
    Within SF.epsilon SF.epsilon (pose a) (pose b) ∧ |b.kappa - a.kappa| ≤ SF.epsilon := by
  unfold SF.state_equal at h
  split_ifs at h with h1 h2 h3
  push Not at h1 h2 h3
  refine ⟨⟨?_, ?_⟩, h1⟩
  · rw [Config.dist_comm]; exact h3
  · obtain ⟨n, hn⟩ := SF.twopify_angleEq a.theta
    refine ⟨SF.twopify b.theta + (a.theta - SF.twopify a.theta), ?_, ?_⟩
    · obtain ⟨m, hm⟩ := SF.twopify_angleEq b.theta
      refine ⟨m - n, ?_⟩
      show _ = b.theta + _
      rw [hm, hn]; push_cast; ring
    · have : (pose a).theta - (SF.twopify b.theta + (a.theta - SF.twopify a.theta))
          = -(SF.twopify b.theta - SF.twopify a.theta) := by simp only [pose]; ring
      rw [this, abs_neg]; exact h2

/-- A predicted state, for driving direction `d`. -/
inductive PredOk (K S : ℝ) (s : SF.State) (d : ℝ) : SF.Predicted → Prop
  | stay : |s.kappa| < SF.epsilon ∨ K - |s.kappa| < SF.epsilon → PredOk K S s d (s, ⟨0, s.kappa, 0⟩)
  | drive (junk : ℝ) (up : Bool) : SF.epsilon ≤ |s.kappa| → SF.epsilon ≤ K - |s.kappa| →
      PredOk K S s d (SF.predicted junk s
        ⟨d * (if up then (K - |s.kappa|) / S else |s.kappa| / S), s.kappa, sg up * (SF.sgn s.kappa * S)⟩)

theorem sgn_mul_self (x : ℝ) : SF.sgn x * x = |x| := by
  unfold SF.sgn
  split_ifs with h
  · rw [abs_of_neg h]; ring
  · rw [abs_of_nonneg (not_lt.1 h)]; ring

theorem abs_pm {d : ℝ} (hd : d = 1 ∨ d = -1) (x : ℝ) : |d * x| = |x| := by
  rcases hd with rfl | rfl <;> simp

section
variable {sp : SF.HCSpace} {s : SF.State} {d : ℝ} {a : SF.Predicted}

/-- What is needed about a predicted state. -/
structure PredFacts (K S : ℝ) (s : SF.State) (d : ℝ) (a : SF.Predicted) : Prop where
  start : Leads ([a.2].map seg) (pose s) (pose a.1) |a.2.delta_s| 0 0 0
  back : Leads ([SF.reverse_control a.2].map seg) (pose a.1) (pose s) |a.2.delta_s| 0 0 0
  kappa : a.2.kappa = s.kappa
  kappa' : a.1.kappa = s.kappa + a.2.sigma * |a.2.delta_s|
  len : |a.2.delta_s| ≤ K / S
  way : 0 ≤ d * a.2.delta_s
  sigma : a.2.sigma = 0 ∧ a.2.delta_s = 0 ∨ |a.2.sigma| = S
  turn : |a.2.kappa * |a.2.delta_s| + a.2.sigma * |a.2.delta_s| ^ 2 / 2| ≤ K * |a.2.delta_s|
  round : rounded K a.1.kappa = a.1.kappa ∧ a.2.delta_s ≠ 0 ∨
    a.2.delta_s = 0 ∧ (|s.kappa| ≤ K → |rounded K a.1.kappa - s.kappa| ≤ SF.epsilon)
  near : dist2 s a.1 ≤ 2 * (K / S)

theorem stay_leads (p : Config) (k : ℝ) : Leads ([(⟨0, k, 0⟩ : SF.Control)].map seg) p p 0 0 0 0 := by
  have e : arriveAll ([(⟨0, k, 0⟩ : SF.Control)].map seg) p = p := by
    have := drivesAll_zero ([(⟨0, k, 0⟩ : SF.Control)].map seg) p (by simp [seg, totalLength])
    exact (drivesAll_iff.1 this).symm
  refine ⟨?_, by simp [totalLength, seg]⟩
  rw [e]
  exact (SameConfig.refl _).within.mono (by simp [pathTol, segTol, seg]) le_rfl

/-- The error of a clothoid is small compared to a full one. -/
theorem segTol_small {K S : ℝ} (H : Rng K S) {c : Segment} (hc : |c.sigma| = S) :
    segTol c ≤ K / S / 10 ^ 6 := by
  have hK := H.kappa
  have hS := H.sigma
  have hKp := H.pos
  have hcl := H.clothoid
  norm_num [SF.epsilon] at hK hcl
  have hc0 : c.sigma ≠ 0 := by intro h; rw [h, abs_zero] at hc; linarith
  rw [segTol, if_neg hc0, hc]
  have hsq : 0 < √S := sqrt_pos.2 hS
  have hss : √S * √S = S := mul_self_sqrt hS.le
  rw [div_le_iff₀ hsq, div_div, div_mul_eq_mul_div, le_div_iff₀ (by positivity)]
  have h1 : S ≤ 10000 * K := by
    rw [lt_div_iff₀ hS] at hcl; linarith
  -- √S ≤ 10^4 K
  have h2 : √S ≤ 10000 * K := by
    rw [sqrt_le_left (by positivity)]
    nlinarith
  nlinarith

theorem PredOk.facts (H : Rng sp.kappa sp.sigma) (hd : d = 1 ∨ d = -1) (h : PredOk sp.kappa sp.sigma s d a) :
    PredFacts sp.kappa sp.sigma s d a := by
  have hK := H.pos
  have hS := H.sigma
  have hKS : 0 < sp.kappa / sp.sigma := by positivity
  have he : (0:ℝ) < SF.epsilon := by norm_num [SF.epsilon]
  have hk := H.kappa
  cases h with
  | stay h =>
    refine ⟨by simpa using stay_leads (pose s) s.kappa, ?_, rfl, by simp, by simpa using hKS.le, by simp, .inl ⟨rfl, rfl⟩, by simp,
      .inr ⟨rfl, fun hle => ?_⟩, ?_⟩
    · have := stay_leads (pose s) s.kappa
      simpa [SF.reverse_control] using this
    · by_cases h0 : |s.kappa| < SF.epsilon
      · rw [rounded_small h0, zero_sub, abs_neg]; exact h0.le
      · have h1 := h.resolve_left h0
        have h0' : ¬ |s.kappa| < 1 / 10000 := by norm_num [SF.epsilon] at h0; norm_num; exact h0
        simp only [rounded]
        rw [if_neg h0']
        split_ifs with h2
        · rw [abs_of_nonneg h2] at h1 hle
          rw [abs_of_nonneg (by linarith)]; exact h1.le
        · push Not at h2
          rw [abs_of_neg h2] at h1 hle
          rw [abs_of_nonpos (by linarith)]; linarith
    · have : dist2 s s = 0 := by simp [dist2]
      rw [this]; positivity
  | drive junk up h1 h2 =>
    obtain ⟨L, hL⟩ : ∃ L, L = (if up then (sp.kappa - |s.kappa|) / sp.sigma else |s.kappa| / sp.sigma) := ⟨_, rfl⟩
    have hLp : 0 < L := by
      rw [hL]; split_ifs <;> apply div_pos <;> linarith
    have hLle : L ≤ sp.kappa / sp.sigma := by
      rw [hL]; split_ifs <;> gcongr <;> linarith [abs_nonneg s.kappa]
    rw [← hL]
    obtain ⟨c, hc⟩ : ∃ c : SF.Control, c = ⟨d * L, s.kappa, sg up * (SF.sgn s.kappa * sp.sigma)⟩ := ⟨_, rfl⟩
    rw [← hc]
    have hcs : |c.sigma| = sp.sigma := by
      rw [hc]
      show |sg up * (SF.sgn s.kappa * sp.sigma)| = _
      rw [abs_pm (sg_pm up), abs_pm (sgn_pm _), abs_of_pos hS]
    have hc0 : c.sigma ≠ 0 := by intro h; rw [h, abs_zero] at hcs; linarith
    have hck : c.kappa = s.kappa := by rw [hc]
    have hcd : |c.delta_s| = L := by
      rw [hc]
      show |d * L| = L
      rw [abs_pm hd, abs_of_pos hLp]
    have hend : s.kappa + c.sigma * L = if up then SF.sgn s.kappa * sp.kappa else 0 := by
      have := sgn_mul_abs s.kappa
      rw [hc, hL]
      cases up with
      | true =>
        simp only [sg, if_true, one_mul]
        field_simp
        linear_combination -this
      | false =>
        simp only [sg, Bool.false_eq_true, if_false]
        field_simp
        linear_combination -this
    have st := predicted_leads junk hc0 hck
    refine ⟨st, predicted_back junk hc0 hck, hck, rfl, by change |c.delta_s| ≤ _; rw [hcd]; exact hLle, ?_, ?_, ?_, .inl ⟨?_, ?_⟩, ?_⟩
    · rw [show (SF.predicted junk s c).2 = c from rfl, hc]
      rcases hd with rfl | rfl <;> simp <;> exact hLp.le
    · exact .inr hcs
    · change |c.kappa * |c.delta_s| + c.sigma * |c.delta_s| ^ 2 / 2| ≤ sp.kappa * |c.delta_s|
      rw [hcd]
      have e1 : |s.kappa + c.sigma * L| ≤ sp.kappa := by
        rw [hend]; split_ifs
        · rw [abs_pm (sgn_pm _), abs_of_pos hK]
        · rw [abs_zero]; exact hK.le
      have e2 : |s.kappa| ≤ sp.kappa := by linarith
      rw [hck, show s.kappa * L + c.sigma * L ^ 2 / 2 = (s.kappa + (s.kappa + c.sigma * L)) / 2 * L by ring, abs_mul, abs_of_pos hLp]
      refine mul_le_mul_of_nonneg_right ?_ hLp.le
      rw [abs_div, abs_of_pos (by norm_num : (0:ℝ) < 2), div_le_iff₀ (by norm_num)]
      exact (abs_add_le _ _).trans (by linarith)
    · rw [predicted_kappa, hcd, hend]
      split_ifs
      · have hge : ¬ |SF.sgn s.kappa * sp.kappa| < 1 / 10000 := by
          rw [abs_pm (sgn_pm _), abs_of_pos hK, not_lt]
          norm_num [SF.epsilon] at hk ⊢; exact hk.le
        rw [rounded, if_neg hge]
        rcases sgn_pm s.kappa with h | h <;> rw [h]
        · rw [if_pos (by linarith)]; ring
        · rw [if_neg (by linarith)]; ring
      · exact rounded_small (by rw [abs_zero]; exact he)
    · change c.delta_s ≠ 0
      intro h; rw [h, abs_zero] at hcd; linarith
    · have := st.euclid
      rw [pose_dist, hcd] at this
      have ht := segTol_small H (c := seg c) hcs
      simp only [pathTol, List.map_cons, List.map_nil, List.sum_cons, List.sum_nil, add_zero] at this
      have : sp.kappa / sp.sigma / 10 ^ 6 ≤ sp.kappa / sp.sigma := by
        rw [div_le_iff₀ (by norm_num)]; nlinarith
      linarith

/-- The controls driven to a predicted state: none if they are short. -/
structure Part (K S : ℝ) (d : ℝ) (p q : Config) (k0 k1 : ℝ) (cs : List SF.Control) (l : ℝ) : Prop where
  leads : Leads (cs.map seg) p q l (SF.epsilon * (1 + radiusBound K S)) (SF.epsilon * K) 0
  way : OneWay d cs
  len : 0 ≤ l ∧ l ≤ K / S
  flat : ∀ c ∈ cs, c.sigma ≠ 0
  cont : CurvatureContinuous k0 (cs.map seg) k1

theorem short_within {K S : ℝ} (H : Rng K S) {c : SF.Control} {p q : Config} (hc : |c.delta_s| ≤ SF.epsilon)
    (hs : c.sigma = 0 ∧ c.delta_s = 0 ∨ |c.sigma| = S)
    (ht : |c.kappa * |c.delta_s| + c.sigma * |c.delta_s| ^ 2 / 2| ≤ K * |c.delta_s|)
    (h : Leads ([c].map seg) p q |c.delta_s| 0 0 0) :
    Within (SF.epsilon * (1 + radiusBound K S)) (SF.epsilon * K) p q := by
  have he : (0:ℝ) < SF.epsilon := by norm_num [SF.epsilon]
  have hK := H.pos
  have hS := H.sigma
  have hKS : 0 < K / S := by positivity
  have hiK : 0 < 2 / K := by positivity
  have h1 : Within |c.delta_s| (K * |c.delta_s|) p (arriveAll ([c].map seg) p) := by
    constructor
    · have := arriveAll_dist ([c].map seg) p
      rw [Config.dist_comm]
      simpa [totalLength, seg] using this
    · refine ⟨_, .refl _, ?_⟩
      have e : (arriveAll ([c].map seg) p).theta
          = p.theta + (seg c).dir * (c.kappa * |c.delta_s| + c.sigma * |c.delta_s| ^ 2 / 2) := rfl
      rw [e, sub_add_cancel_left, abs_neg, abs_pm (dir_pm _)]
      exact ht
  refine (h1.trans h.arrives).mono ?_ ?_
  · have h2 : segTol (seg c) ≤ K / S / 10 ^ 6 := by
      rcases hs with ⟨h0, _⟩ | h0
      · rw [segTol, if_pos (show (seg c).sigma = 0 from h0)]; positivity
      · exact segTol_small H h0
    have h3 : pathTol ([c].map seg) = segTol (seg c) := by simp [pathTol]
    rw [h3, radiusBound]
    have h4 : K / S / 10 ^ 6 ≤ SF.epsilon * (K / S) := by
      rw [SF.epsilon, div_le_iff₀ (by norm_num)]; linarith
    have h5 := mul_pos he hKS
    have h6 := mul_pos he hiK
    linarith
  · have := mul_le_mul_of_nonneg_left hc hK.le
    linarith

theorem nil_leads {p q : Config} {a b : ℝ} (h : Within a b p q) : Leads [] p q 0 a b 0 :=
  ⟨by simpa [pathTol, arriveAll] using h, by simp [totalLength]⟩

theorem abs_mul_pm {d x : ℝ} (hd : d = 1 ∨ d = -1) : |x * d| = |x| := by rw [mul_comm]; exact abs_pm hd x

open Classical in
/-- The part before the planned path. -/
theorem PredFacts.start_part (H : Rng sp.kappa sp.sigma) (h : PredFacts sp.kappa sp.sigma s d a) :
    ∃ pre l k0, Part sp.kappa sp.sigma d (pose s) (pose a.1) k0 (rounded sp.kappa a.1.kappa) pre l ∧
      (∀ cs, (if |a.2.delta_s| > SF.epsilon then a.2 :: cs else cs) = pre ++ cs) ∧
      (∀ x, (if |a.2.delta_s| > SF.epsilon then x + |a.2.delta_s| else x) = x + l) ∧
      (|s.kappa| ≤ sp.kappa → |k0 - s.kappa| ≤ SF.epsilon * (1 + sp.sigma)) := by
  have he : (0:ℝ) < SF.epsilon := by norm_num [SF.epsilon]
  have hK := H.pos
  have hS := H.sigma
  have hR : 0 ≤ radiusBound sp.kappa sp.sigma := by rw [radiusBound]; positivity
  by_cases hb : |a.2.delta_s| > SF.epsilon
  · have hne : a.2.delta_s ≠ 0 := by intro h0; rw [h0, abs_zero] at hb; linarith
    have hr := h.round.resolve_right fun h0 => hne h0.1
    have hs := h.sigma.resolve_left fun h0 => hne h0.2
    refine ⟨[a.2], |a.2.delta_s|, s.kappa, ⟨h.start.mono (by positivity) (by positivity) le_rfl, ?_, ⟨abs_nonneg _, h.len⟩, ?_, ?_⟩,
      fun cs => if_pos hb, fun x => if_pos hb, fun _ => by rw [sub_self, abs_zero]; positivity⟩
    · intro c hc; rw [List.mem_singleton.1 hc]; exact h.way
    · intro c hc h0; rw [List.mem_singleton.1 hc] at h0
      rw [h0, abs_zero] at hs; linarith
    · refine ⟨h.kappa, ?_⟩
      show a.2.kappa + a.2.sigma * |a.2.delta_s| = _
      rw [hr.1, h.kappa, h.kappa']
  · refine ⟨[], 0, rounded sp.kappa a.1.kappa, ⟨nil_leads (short_within H (not_lt.1 hb) h.sigma h.turn h.start), by intro c hc; simp at hc,
      ⟨le_rfl, by positivity⟩, by simp, rfl⟩, fun cs => if_neg hb, fun x => by rw [if_neg hb, add_zero], fun hle => ?_⟩
    rcases h.round with ⟨h1, h2⟩ | ⟨_, h2⟩
    · have hs := h.sigma.resolve_left fun h0 => h2 h0.2
      rw [h1, h.kappa', add_sub_cancel_left, abs_mul, hs, abs_abs]
      have := mul_le_mul_of_nonneg_left (not_lt.1 hb) hS.le
      linarith
    · have := h2 hle
      have := mul_pos he hS
      linarith

open Classical in
/-- The part after the planned path. -/
theorem PredFacts.end_part (H : Rng sp.kappa sp.sigma) (h : PredFacts sp.kappa sp.sigma s (-d) a) :
    ∃ post l k1, Part sp.kappa sp.sigma d (pose a.1) (pose s) (rounded sp.kappa a.1.kappa) k1 post l ∧
      (∀ cs, (if |a.2.delta_s| > SF.epsilon then cs ++ [SF.reverse_control a.2] else cs) = cs ++ post) ∧
      (∀ x, (if |a.2.delta_s| > SF.epsilon then x + |a.2.delta_s| else x) = x + l) ∧
      (|s.kappa| ≤ sp.kappa → |k1 - s.kappa| ≤ SF.epsilon * (1 + sp.sigma)) := by
  have he : (0:ℝ) < SF.epsilon := by norm_num [SF.epsilon]
  have hK := H.pos
  have hS := H.sigma
  have hR : 0 ≤ radiusBound sp.kappa sp.sigma := by rw [radiusBound]; positivity
  have hdel : (SF.reverse_control a.2).delta_s = -a.2.delta_s := rfl
  have hsig : (SF.reverse_control a.2).sigma = -a.2.sigma := rfl
  by_cases hb : |a.2.delta_s| > SF.epsilon
  · have hne : a.2.delta_s ≠ 0 := by intro h0; rw [h0, abs_zero] at hb; linarith
    have hr := h.round.resolve_right fun h0 => hne h0.1
    have hs := h.sigma.resolve_left fun h0 => hne h0.2
    refine ⟨[SF.reverse_control a.2], |a.2.delta_s|, s.kappa, ⟨h.back.mono (by positivity) (by positivity) le_rfl, ?_, ⟨abs_nonneg _, h.len⟩, ?_, ?_⟩,
      fun cs => if_pos hb, fun x => if_pos hb, fun _ => by rw [sub_self, abs_zero]; positivity⟩
    · intro c hc; rw [List.mem_singleton.1 hc, hdel]
      have := h.way; linarith
    · intro c hc h0; rw [List.mem_singleton.1 hc, hsig, neg_eq_zero] at h0
      rw [h0, abs_zero] at hs; linarith
    · refine ⟨?_, ?_⟩
      · show (SF.reverse_control a.2).kappa = _
        rw [reverse_kappa, hr.1, h.kappa, h.kappa']
      · show (SF.reverse_control a.2).kappa + (SF.reverse_control a.2).sigma * |(SF.reverse_control a.2).delta_s| = _
        rw [reverse_kappa, hsig, hdel, abs_neg, h.kappa]; ring
  · have hw : Within (SF.epsilon * (1 + radiusBound sp.kappa sp.sigma)) (SF.epsilon * sp.kappa) (pose a.1) (pose s) := by
      refine short_within H (c := SF.reverse_control a.2) (by rw [hdel, abs_neg]; exact not_lt.1 hb) ?_ ?_ ?_
      · rw [hdel, hsig, neg_eq_zero, neg_eq_zero, abs_neg]; exact h.sigma
      · rw [reverse_kappa, hdel, hsig, abs_neg]
        refine le_trans (le_of_eq ?_) h.turn
        congr 1; ring
      · rw [hdel, abs_neg]; exact h.back
    refine ⟨[], 0, rounded sp.kappa a.1.kappa, ⟨nil_leads hw, by intro c hc; simp at hc,
      ⟨le_rfl, by positivity⟩, by simp, rfl⟩, fun cs => by rw [if_neg hb, List.append_nil], fun x => by rw [if_neg hb, add_zero], fun hle => ?_⟩
    rcases h.round with ⟨h1, h2⟩ | ⟨_, h2⟩
    · have hs := h.sigma.resolve_left fun h0 => h2 h0.2
      rw [h1, h.kappa', add_sub_cancel_left, abs_mul, hs, abs_abs]
      have := mul_le_mul_of_nonneg_left (not_lt.1 hb) hS.le
      linarith
    · have := h2 hle
      have := mul_pos he hS
      linarith

end

end Spec
