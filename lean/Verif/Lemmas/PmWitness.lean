import Verif.Lemmas.PmPlan

/-!
# CC0pm- and CCpm0-Dubins: goals that are missed
-/

noncomputable section

namespace Spec

open Real Props
open CC00 (CircOk circOk_at startOf cfg_startOf)

theorem set_all {P : SF.Row → Prop} {t : SF.Table} {i : ℕ} {r : SF.Row} (h : ∀ j, P (t j)) (hr : P r) (j : ℕ) :
    P (t.set i r j) := by
  unfold SF.Table.set
  split_ifs
  · exact hr
  · exact h j

theorem hc_at_ge {k s : ℝ} (H : Rng k s) (q o : SF.Configuration) (l f : Bool) :
    k / s ≤ (SF.circleAt q l f true (SF.hc_cc_circle_param k s)).hc_turn_length o := by
  have h := (circOk_at H.kappa H.sigma H.clothoid q l f true).ok
  unfold SF.Circle.hc_turn_length
  simp only
  rw [abs_kappa_sigma h H.pos H.sigma]
  exact le_add_of_nonneg_right (abs_nonneg _)

theorem cc_at_nonneg {k s : ℝ} (H : Rng k s) (q o : SF.Configuration) (l f : Bool) :
    0 ≤ (SF.circleAt q l f true (SF.hc_cc_circle_param k s)).cc_turn_length o := by
  have h := (circOk_at H.kappa H.sigma H.clothoid q l f true).ok
  have h1 : 0 ≤ (SF.circleAt q l f true (SF.hc_cc_circle_param k s)).radius := by rw [h.radius]; positivity
  have h2 : 0 ≤ (SF.circleAt q l f true (SF.hc_cc_circle_param k s)).sin_mu := by
    rw [h.geom.sin_mu_eq]
    change 0 ≤ sin (arctan |_|)
    exact sin_nonneg_of_nonneg_of_le_pi (arctan_nonneg.2 (abs_nonneg _))
      (by linarith [arctan_lt_pi_div_two |(SF.first_clothoid k s).x - sin (SF.first_clothoid k s).theta / k|,
        arctan_lt_pi_div_two (|((SF.first_clothoid k s).x - sin (SF.first_clothoid k s).theta / k)
          / ((SF.first_clothoid k s).y + cos (SF.first_clothoid k s).theta / k)|), pi_pos])
  generalize SF.circleAt q l f true (SF.hc_cc_circle_param k s) = c at h1 h2
  unfold SF.Circle.cc_turn_length
  simp only
  split_ifs
  · positivity
  · cases c.cc_elementary_sharpness o (c.deflection o)
    · positivity
    · dsimp only
      split_ifs <;> positivity
  · positivity

theorem deflection_same (c : SF.Circle) {q q' : SF.Configuration} (h : q.theta = q'.theta) :
    c.deflection q = c.deflection q' := by
  unfold SF.Circle.deflection; rw [h]

theorem hc_controls_same (c : SF.Circle) {q q' : SF.Configuration} (h : q.theta = q'.theta) (o : Bool) :
    SF.hc_turn_controls c q o = SF.hc_turn_controls c q' o := by
  unfold SF.hc_turn_controls; rw [deflection_same c h]

theorem arriveAll_dist_eq (cs : List Segment) {p q : Config} (h : p.theta = q.theta) :
    (arriveAll cs p).dist (arriveAll cs q) = p.dist q := by
  have e : q = ⟨p.x + (q.x - p.x), p.y + (q.y - p.y), p.theta⟩ := by
    rcases p with ⟨a, b, c⟩; rcases q with ⟨a', b', c'⟩; simp only at h; subst h; simp
  have := arriveAll_translate cs p (q.x - p.x) (q.y - p.y)
  rw [← e] at this
  rw [this, Config.dist, Config.dist]
  congr 1
  ring

namespace CC0pm

open SF.CC0pm

theorem entry_ge {sp : SF.HCSpace} (H : Rng sp.kappa sp.sigma) (hb : sp.kappa / sp.sigma ≤ SF.dblMax)
    (c1 c2 : SF.Circle) (hne : ¬ SF.configuration_equal c1.start c2.start) (i : ℕ) :
    sp.kappa / sp.sigma ≤ (table sp (SF.scratch c1 c2) c1 c2 i).length := by
  have ta := fun q o l f => hc_at_ge H q o l f
  have tb := fun q o l f => cc_at_nonneg H q o l f
  have hd := fun q1 q2 : SF.Configuration => (sqrt_nonneg _ : 0 ≤ SF.configuration_distance q1 q2)
  have h0 : ∀ j, sp.kappa / sp.sigma ≤ (SF.Table.init j).length := fun j => by rw [init_length]; exact hb
  have e : ∀ {a b : ℝ}, 0 ≤ a → sp.kappa / sp.sigma ≤ b → sp.kappa / sp.sigma ≤ a + b := fun ha hb => by linarith
  have hline : ∀ q, sp.kappa / sp.sigma ≤ (line_path sp.param q c1 c2).length := fun q =>
    e (add_nonneg (tb _ _ _ _) (hd _ _)) (ta _ _ _ _)
  have hTST : sp.kappa / sp.sigma ≤ (TST_path sp.param (SF.scratch c1 c2) c1 c2).length := by
    unfold TST_path
    split_ifs
    · exact hline _
    · exact hline _
    · exact hb
  have hTT : sp.kappa / sp.sigma ≤ (TT_path sp.param c1 c2).length := e (tb _ _ _ _) (ta _ _ _ _)
  have hTTT : sp.kappa / sp.sigma ≤ (TTT_path sp.param (SF.scratch c1 c2) c1 c2).length := by
    unfold TTT_path
    simp only
    split_ifs
    · exact e (add_nonneg (tb _ _ _ _) (tb _ _ _ _)) (ta _ _ _ _)
    · exact e (add_nonneg (tb _ _ _ _) (tb _ _ _ _)) (ta _ _ _ _)
  have step : ∀ (p : Prop) (_ : Decidable p) (t : SF.Table) (n : ℕ) (r : SF.Row),
      (∀ j, sp.kappa / sp.sigma ≤ (t j).length) → sp.kappa / sp.sigma ≤ r.length →
      ∀ j, sp.kappa / sp.sigma ≤ ((if p then t.set n r else t) j).length := by
    intro p _ t n r ht hr j
    split_ifs
    · exact set_all (P := fun r => sp.kappa / sp.sigma ≤ r.length) ht hr j
    · exact ht j
  unfold table
  rw [if_neg hne]
  by_cases h1 : (SF.scratch c1 c2).distance < SF.epsilon
  · rw [if_pos h1]
    exact set_all (P := fun r => sp.kappa / sp.sigma ≤ r.length) h0 (ta _ _ _ _) i
  · rw [if_neg h1]
    exact step _ _ _ _ _ (step _ _ _ _ _ (step _ _ _ _ _ h0 hTT) hTST) hTTT i

/-- Parameters of the example. -/
def wsp : SF.HCSpace := ⟨1, 100, 1, true⟩

/-- Start of the example. -/
def ws1 : SF.State := ⟨0, 0, 0, 0, 0⟩

/-- Start circle of the example. -/
def wc1 : SF.Circle := start_circle wsp (startOf ws1) 0

/-- The goal, on the far side of the start circle. -/
def ws2 : SF.State :=
  ⟨(center wc1 + cis (1 / 200) * ⟨0, 1⟩).re, (center wc1 + cis (1 / 200) * ⟨0, 1⟩).im, 1 / 200, -1, 0⟩

theorem wrng : InRange wsp.kappa wsp.sigma := by constructor <;> norm_num [wsp]

theorem ws2_theta : SF.twopify (1 / 200 : ℝ) = 1 / 200 :=
  SF.twopify_of_mem (by norm_num) (by linarith [pi_gt_three])

theorem ws2_center : center (end_circle wsp ws2 1) = center wc1 := by
  have hec : RsOk (end_circle wsp ws2 1) wsp.kappa :=
    rsOk_at (by norm_num [wsp]) _ _ (!wsp.forwards) true
  rw [hec.cen, end_start]
  have e1 : (cfg (curvedOf wsp ws2 (decide (1 = 0)))).pos = center wc1 + cis (1 / 200) * ⟨0, 1⟩ := rfl
  have e2 : (cfg (curvedOf wsp ws2 (decide (1 = 0)))).theta = 1 / 200 := ws2_theta
  have e3 : sg (end_circle wsp ws2 1).left = -1 := rfl
  rw [cen, e1, e2, e3, show (⟨0, 1 / (-1 * wsp.kappa)⟩ : ℂ) = -⟨0, 1⟩ by apply Complex.ext <;> norm_num [wsp]]
  ring

theorem w_deflection (q : SF.Configuration) (hq : q.theta = 1 / 200) : wc1.deflection q = 1 / 200 := by
  have h0 : SF.twopify 0 = 0 := SF.twopify_of_mem le_rfl (by positivity)
  change SF.twopify (q.theta - SF.twopify 0) = _
  rw [hq, h0, sub_zero, ws2_theta]

theorem w_arc : wc1.hc_circular_deflection (1 / 200) = 0 := by
  have : SF.twopify wc1.delta_min = 1 / 200 := by
    rw [show wc1.delta_min = 1 / 200 by
      change 0.5 * (1:ℝ) ^ 2 / 100 = _; norm_num]
    exact ws2_theta
  unfold SF.Circle.hc_circular_deflection
  simp only [this]
  simp [wc1, start_circle, SF.circleAt]

theorem w_length (q : SF.Configuration) (hq : q.theta = 1 / 200) : wc1.hc_turn_length q = 1 / 100 := by
  have h := (circOk_at wrng.rng.kappa wrng.rng.sigma wrng.rng.clothoid (startOf ws1) (decide (0 = 0)) wsp.forwards
    true).ok
  unfold SF.Circle.hc_turn_length
  simp only
  rw [w_deflection q hq, w_arc, mul_zero, abs_zero, add_zero]
  refine (abs_kappa_sigma h wrng.rng.pos wrng.rng.sigma).trans ?_
  norm_num [wsp]

theorem w_ne (c1 c2 : SF.Circle) (h1 : c1.start = startOf ws1) (h2 : c2.start = curvedOf wsp ws2 false) :
    ¬ SF.configuration_equal c1.start c2.start := by
  unfold SF.configuration_equal
  have a : c1.start.theta = 0 := by
    rw [h1]; exact SF.twopify_of_mem le_rfl (by positivity)
  have b : c2.start.theta = 1 / 200 := by rw [h2]; exact ws2_theta
  rw [a, b, if_pos (by norm_num [SF.epsilon, abs_of_pos])]
  exact id

theorem w_small : (1:ℝ) / 100 < SF.dblMax := lt_trans (by norm_num) SF.dblMax_large

/-- The path between the opposed circles. -/
theorem w_path : circles_dubins_path wsp wc1 (end_circle wsp ws2 1)
    = ⟨startOf ws1, curvedOf wsp ws2 false, 2, { length := 1 / 100, cstart := some wc1 }⟩ := by
  obtain ⟨i, hi, hb, hmin⟩ := best_entry (t := table wsp (SF.scratch wc1 (end_circle wsp ws2 1)) wc1
    (end_circle wsp ws2 1)) (n := SF.nb_cc_dubins_paths) (by norm_num [SF.nb_cc_dubins_paths]) wc1.start
    (end_circle wsp ws2 1).start
  have hd : (SF.scratch wc1 (end_circle wsp ws2 1)).distance < SF.epsilon := by
    change SF.center_distance wc1 (end_circle wsp ws2 1) < _
    rw [center_distance_eq, ws2_center, sub_self, norm_zero]; norm_num [SF.epsilon]
  have ht : table wsp (SF.scratch wc1 (end_circle wsp ws2 1)) wc1 (end_circle wsp ws2 1)
      = SF.Table.init.set 2 { length := 1 / 100, cstart := some wc1 } := by
    unfold table
    rw [if_neg (w_ne _ _ rfl (end_start _ _)), if_pos hd]
    have e : cstart wsp.param wc1 = wc1 := rfl
    rw [e, w_length _ (by rw [end_start]; exact ws2_theta)]
  have h2 := hmin 2 (by norm_num [SF.nb_cc_dubins_paths])
  rw [circles_dubins_path, hb]
  rw [ht] at h2 ⊢
  have : i = 2 := single_entry (r := { length := 1 / 100, cstart := some wc1 })
    (lt_of_le_of_lt h2 (by rw [set_same]; exact w_small))
  subst this
  rw [set_same, end_start]
  rfl

/-- It is selected. -/
theorem w_plan : cc0pm_dubins wsp ws1 ws2
    = some ⟨startOf ws1, curvedOf wsp ws2 false, 2, { length := 1 / 100, cstart := some wc1 }⟩ := by
  have hk : ws2.kappa = -1 := rfl
  have p1 : path wsp ws1 ws2 1
      = some ⟨startOf ws1, curvedOf wsp ws2 false, 2, { length := 1 / 100, cstart := some wc1 }⟩ := by
    rw [path_some]
    exact ⟨by simp [Toward, hk], w_path.symm⟩
  have h := C04_array_index_min (fun n => ((path wsp ws1 ws2 n).map SF.CCPath.length).getD SF.dblMax) 4 (by norm_num)
  rw [cc0pm_dubins, SF.best_of]
  generalize SF.array_index_min (fun n => ((path wsp ws1 ws2 n).map SF.CCPath.length).getD SF.dblMax) 4 = n at h ⊢
  have e0 : ∀ n, n % 2 = 0 → path wsp ws1 ws2 n = none := by
    intro n hn
    unfold path
    simp only
    rw [if_pos ⟨hn, by rw [hk]; norm_num⟩]
  have e1 : ((path wsp ws1 ws2 1).map SF.CCPath.length).getD SF.dblMax = 1 / 100 := by rw [p1]; rfl
  have hn : n < 4 := h.1
  have hle := h.2.1 1 (by norm_num)
  simp only [e1] at hle
  have hcases : n = 0 ∨ n = 1 ∨ n = 2 ∨ n = 3 := by omega
  rcases hcases with rfl | rfl | rfl | rfl
  · rw [e0 0 rfl] at hle
    exact absurd hle (not_le.2 w_small)
  · exact p1
  · rw [e0 2 rfl] at hle
    exact absurd hle (not_le.2 w_small)
  · have hlt := h.2.2 1 (by norm_num)
    simp only [e1] at hlt
    obtain ⟨p, hp⟩ : ∃ p, path wsp ws1 ws2 3 = some p := ⟨_, path_some.2 ⟨by simp [Toward, hk], rfl⟩⟩
    rw [hp] at hlt
    obtain ⟨_, rfl⟩ := path_some.1 hp
    have := entry_ge wrng.rng (by rw [show wsp.kappa / wsp.sigma = 1 / 100 by norm_num [wsp]]; exact w_small.le)
      (start_circle wsp (startOf ws1) (3 / 2)) (end_circle wsp ws2 (3 % 2)) (w_ne _ _ rfl (end_start _ _))
      (SF.array_index_min (fun i => (table wsp (SF.scratch (start_circle wsp (startOf ws1) (3 / 2))
        (end_circle wsp ws2 (3 % 2))) (start_circle wsp (startOf ws1) (3 / 2))
        (end_circle wsp ws2 (3 % 2)) i).length) SF.nb_cc_dubins_paths)
    have e2 : wsp.kappa / wsp.sigma = 1 / 100 := by norm_num [wsp]
    rw [e2] at this
    exact absurd (lt_of_le_of_lt this hlt) (lt_irrefl _)

/-- Where the controls lead instead. -/
def wq : SF.Configuration :=
  ⟨(center wc1 - cis (1 / 200) * ⟨0, 1⟩).re, (center wc1 - cis (1 / 200) * ⟨0, 1⟩).im, 1 / 200, 1⟩

theorem w_leg : DLeg wsp.kappa wsp.sigma 1 0 1 [] 0
    (SF.hc_turn_controls wc1 (curvedOf wsp ws2 false) true) (cfg (startOf ws1)) (cfg wq) (1 / 100) := by
  have hc : CircOk wc1 wsp.kappa wsp.sigma :=
    circOk_at wrng.rng.kappa wrng.rng.sigma wrng.rng.clothoid (startOf ws1) (decide (0 = 0)) wsp.forwards true
  have e : cen 0 (1 / (sg wc1.left * wsp.kappa)) (cfg wq) = center wc1 := by
    have e1 : (cfg wq).pos = center wc1 - cis (1 / 200) * ⟨0, 1⟩ := rfl
    have e2 : (cfg wq).theta = 1 / 200 := rfl
    have e3 : sg wc1.left = 1 := rfl
    rw [cen, e1, e2, e3, show (⟨0, 1 / (1 * wsp.kappa)⟩ : ℂ) = ⟨0, 1⟩ by apply Complex.ext <;> norm_num [wsp]]
    ring
  have L := leg_hc_to wrng.rng hc rfl (q := wq) (e := 0) (by rw [e, sub_self, norm_zero])
  rw [w_length wq rfl, hc_controls_same wc1 (q' := curvedOf wsp ws2 false) ws2_theta.symm] at L
  have e4 : sg wc1.left * wsp.kappa = 1 := by
    rw [show sg wc1.left = 1 from rfl]; norm_num [wsp]
  rw [e4] at L
  exact L

theorem w_tol : pathTol ((SF.hc_turn_controls wc1 (curvedOf wsp ws2 false) true).map seg) ≤ 1 / 100 := by
  have h100 : √(100:ℝ) = 10 := by
    rw [show (100:ℝ) = 10 ^ 2 by norm_num, sqrt_sq (by norm_num)]
  have hs : wc1.sigma = 100 := rfl
  simp only [SF.hc_turn_controls, pathTol]
  simp only [segTol, seg, if_true, List.append_nil, List.singleton_append, List.map_cons, List.map_nil, List.sum_cons, List.sum_nil,
    hs]
  norm_num [h100]

theorem w_dist : (cfg wq).dist (pose ws2) = 2 := by
  have e2 : (pose ws2).pos = center wc1 + cis (1 / 200) * ⟨0, 1⟩ := rfl
  have e1 : (cfg wq).pos = center wc1 - cis (1 / 200) * ⟨0, 1⟩ := rfl
  rw [Config.dist_eq, e1, e2]
  rw [show ∀ z w : ℂ, z - w - (z + w) = -(w + w) from fun z w => by ring, norm_neg, ← two_mul, norm_mul, norm_cis_mul,
    show ‖(⟨0, 1⟩ : ℂ)‖ = 1 from by rw [← sqrt_eq_norm]; norm_num]
  norm_num

/-- The goal is missed. -/
theorem witness : ∃ cs, get_controls wsp ws1 ws2 = some cs ∧ get_distance wsp ws1 ws2 = some (1 / 100) ∧
    CurvatureContinuous 0 (cs.map seg) 1 ∧ (∀ a b, LeadsTo cs ws1 ws2 a b → 1 ≤ a) ∧ 1 ≤ dist2 ws1 ws2 := by
  have hT := w_leg.track 0 le_rfl (by simp)
  have hL := (hT.leads.congr (cfg_startOf ws1) (SameConfig.refl _))
  have htol := w_tol
  refine ⟨_, by rw [get_controls, w_plan]; rfl, by rw [get_distance, w_plan]; rfl, hT.cont, ?_, ?_⟩
  · rintro a b ⟨e, h1, h2⟩
    rw [drivesAll_iff.1 h1] at h2
    have h3 := hL.arrives.1
    have h4 := h2.1
    have h5 := w_dist
    have h6 := Config.dist_triangle (cfg wq) (arriveAll ((SF.hc_turn_controls wc1 (curvedOf wsp ws2 false) true).map seg)
      (pose ws1)) (pose ws2)
    rw [Config.dist_comm] at h3
    simp only [List.length_nil, Nat.cast_zero, zero_mul, mul_zero, add_zero, zero_add] at h3
    linarith
  · have h1 := hL.euclid
    have h5 := w_dist
    have h6 := Config.dist_triangle (cfg wq) (pose ws1) (pose ws2)
    have hd : (pose ws1).dist (pose ws2) = dist2 ws1 ws2 := by rw [Config.dist_comm]; rfl
    rw [hd] at h6
    rw [Config.dist_comm] at h1
    simp only [List.length_nil, Nat.cast_zero, zero_mul, mul_zero, add_zero] at h1
    linarith

end CC0pm

namespace CCpm0

open SF.CCpm0
open CC0pm (wc1 ws1 ws2 wq ws2_theta w_length w_small w_dist ws2_center)

theorem entry_ge {sp : SF.HCSpace} (H : Rng sp.kappa sp.sigma) (hb : sp.kappa / sp.sigma ≤ SF.dblMax)
    (c1 c2 : SF.Circle) (hne : ¬ SF.configuration_equal c1.start c2.start) (i : ℕ) :
    sp.kappa / sp.sigma ≤ (table sp (SF.scratch c1 c2) c1 c2 i).length := by
  have ta := fun q o l f => hc_at_ge H q o l f
  have tb := fun q o l f => cc_at_nonneg H q o l f
  have hd := fun q1 q2 : SF.Configuration => (sqrt_nonneg _ : 0 ≤ SF.configuration_distance q1 q2)
  have h0 : ∀ j, sp.kappa / sp.sigma ≤ (SF.Table.init j).length := fun j => by rw [init_length]; exact hb
  have e : ∀ {a b : ℝ}, sp.kappa / sp.sigma ≤ a → 0 ≤ b → sp.kappa / sp.sigma ≤ a + b := fun ha hb => by linarith
  have hline : ∀ q, sp.kappa / sp.sigma ≤ (line_path sp.param q c1 c2).length := fun q =>
    e (e (ta _ _ _ _) (hd _ _)) (tb _ _ _ _)
  have hTST : sp.kappa / sp.sigma ≤ (TST_path sp.param (SF.scratch c1 c2) c1 c2).length := by
    unfold TST_path
    split_ifs
    · exact hline _
    · exact hline _
    · exact hb
  have hTT : sp.kappa / sp.sigma ≤ (TT_path sp.param c1 c2).length := e (ta _ _ _ _) (tb _ _ _ _)
  have hTTT : sp.kappa / sp.sigma ≤ (TTT_path sp.param (SF.scratch c1 c2) c1 c2).length := by
    unfold TTT_path
    simp only
    split_ifs
    · exact e (e (ta _ _ _ _) (tb _ _ _ _)) (tb _ _ _ _)
    · exact e (e (ta _ _ _ _) (tb _ _ _ _)) (tb _ _ _ _)
  have step : ∀ (p : Prop) (_ : Decidable p) (t : SF.Table) (n : ℕ) (r : SF.Row),
      (∀ j, sp.kappa / sp.sigma ≤ (t j).length) → sp.kappa / sp.sigma ≤ r.length →
      ∀ j, sp.kappa / sp.sigma ≤ ((if p then t.set n r else t) j).length := by
    intro p _ t n r ht hr j
    split_ifs
    · exact set_all (P := fun r => sp.kappa / sp.sigma ≤ r.length) ht hr j
    · exact ht j
  unfold table
  rw [if_neg hne]
  by_cases h1 : (SF.scratch c1 c2).distance < SF.epsilon
  · rw [if_pos h1]
    exact set_all (P := fun r => sp.kappa / sp.sigma ≤ r.length) h0 (ta _ _ _ _) i
  · rw [if_neg h1]
    exact step _ _ _ _ _ (step _ _ _ _ _ (step _ _ _ _ _ h0 hTT) hTST) hTTT i

/-- The mirrored example, driven backwards. -/
def wsp : SF.HCSpace := ⟨1, 100, 1, false⟩

theorem wrng : InRange wsp.kappa wsp.sigma := by constructor <;> norm_num [wsp]

theorem w_end : end_circle wsp (startOf ws1) 0 = wc1 := rfl

theorem w_center : center (start_circle wsp ws2 1) = center wc1 := by
  have hec : RsOk (start_circle wsp ws2 1) wsp.kappa :=
    rsOk_at (by norm_num [wsp]) _ _ wsp.forwards true
  have hec' : RsOk (SF.CC0pm.end_circle CC0pm.wsp ws2 1) CC0pm.wsp.kappa :=
    rsOk_at (by norm_num [CC0pm.wsp]) _ _ (!CC0pm.wsp.forwards) true
  rw [← ws2_center, hec.cen, hec'.cen]
  rfl

theorem w_ne (c1 c2 : SF.Circle) (h1 : c1.start = curvedOf wsp ws2 false) (h2 : c2.start = startOf ws1) :
    ¬ SF.configuration_equal c1.start c2.start := by
  unfold SF.configuration_equal
  have a : c2.start.theta = 0 := by
    rw [h2]; exact SF.twopify_of_mem le_rfl (by positivity)
  have b : c1.start.theta = 1 / 200 := by rw [h1]; exact ws2_theta
  rw [a, b, if_pos (by norm_num [SF.epsilon, abs_of_pos])]
  exact id

/-- The path between the opposed circles. -/
theorem w_path : circles_dubins_path wsp (start_circle wsp ws2 1) wc1
    = ⟨curvedOf wsp ws2 false, startOf ws1, 2, { length := 1 / 100, cend := some wc1 }⟩ := by
  obtain ⟨i, hi, hb, hmin⟩ := best_entry (t := table wsp (SF.scratch (start_circle wsp ws2 1) wc1)
    (start_circle wsp ws2 1) wc1) (n := SF.nb_cc_dubins_paths) (by norm_num [SF.nb_cc_dubins_paths])
    (start_circle wsp ws2 1).start wc1.start
  have hd : (SF.scratch (start_circle wsp ws2 1) wc1).distance < SF.epsilon := by
    change SF.center_distance (start_circle wsp ws2 1) wc1 < _
    rw [center_distance_eq, w_center, sub_self, norm_zero]; norm_num [SF.epsilon]
  have ht : table wsp (SF.scratch (start_circle wsp ws2 1) wc1) (start_circle wsp ws2 1) wc1
      = SF.Table.init.set 2 { length := 1 / 100, cend := some wc1 } := by
    unfold table
    rw [if_neg (w_ne _ _ (start_start _ _) rfl), if_pos hd]
    have e : cend wsp.param wc1 = wc1 := rfl
    rw [e, w_length _ (by rw [start_start]; exact ws2_theta)]
  have h2 := hmin 2 (by norm_num [SF.nb_cc_dubins_paths])
  rw [circles_dubins_path, hb]
  rw [ht] at h2 ⊢
  have : i = 2 := single_entry (r := { length := 1 / 100, cend := some wc1 })
    (lt_of_le_of_lt h2 (by rw [set_same]; exact w_small))
  subst this
  rw [set_same, start_start]
  rfl

/-- It is selected. -/
theorem w_plan : ccpm0_dubins wsp ws2 ws1
    = some ⟨curvedOf wsp ws2 false, startOf ws1, 2, { length := 1 / 100, cend := some wc1 }⟩ := by
  have hk : ws2.kappa = -1 := rfl
  have p1 : path wsp ws2 ws1 2
      = some ⟨curvedOf wsp ws2 false, startOf ws1, 2, { length := 1 / 100, cend := some wc1 }⟩ := by
    rw [path_some (by norm_num)]
    exact ⟨by simp [Toward, hk], w_path.symm⟩
  have h := C04_array_index_min (fun n => ((path wsp ws2 ws1 n).map SF.CCPath.length).getD SF.dblMax) 4 (by norm_num)
  rw [ccpm0_dubins, SF.best_of]
  generalize SF.array_index_min (fun n => ((path wsp ws2 ws1 n).map SF.CCPath.length).getD SF.dblMax) 4 = n at h ⊢
  have e0 : ∀ n, n / 2 = 0 → path wsp ws2 ws1 n = none := by
    intro n hn
    unfold path
    simp only
    rw [if_pos ⟨hn, by rw [hk]; norm_num⟩]
  have e1 : ((path wsp ws2 ws1 2).map SF.CCPath.length).getD SF.dblMax = 1 / 100 := by rw [p1]; rfl
  have hn : n < 4 := h.1
  have hle := h.2.1 2 (by norm_num)
  simp only [e1] at hle
  have hcases : n = 0 ∨ n = 1 ∨ n = 2 ∨ n = 3 := by omega
  rcases hcases with rfl | rfl | rfl | rfl
  · rw [e0 0 rfl] at hle
    exact absurd hle (not_le.2 w_small)
  · rw [e0 1 rfl] at hle
    exact absurd hle (not_le.2 w_small)
  · exact p1
  · have hlt := h.2.2 2 (by norm_num)
    simp only [e1] at hlt
    obtain ⟨p, hp⟩ : ∃ p, path wsp ws2 ws1 3 = some p :=
      ⟨_, (path_some (by norm_num)).2 ⟨by simp [Toward, hk], rfl⟩⟩
    rw [hp] at hlt
    obtain ⟨_, rfl⟩ := (path_some (by norm_num)).1 hp
    have := entry_ge wrng.rng (by rw [show wsp.kappa / wsp.sigma = 1 / 100 by norm_num [wsp]]; exact w_small.le)
      (start_circle wsp ws2 (3 / 2)) (end_circle wsp (startOf ws1) (3 % 2)) (w_ne _ _ (start_start _ _) rfl)
      (SF.array_index_min (fun i => (table wsp (SF.scratch (start_circle wsp ws2 (3 / 2))
        (end_circle wsp (startOf ws1) (3 % 2))) (start_circle wsp ws2 (3 / 2))
        (end_circle wsp (startOf ws1) (3 % 2)) i).length) SF.nb_cc_dubins_paths)
    have e2 : wsp.kappa / wsp.sigma = 1 / 100 := by norm_num [wsp]
    rw [e2] at this
    exact absurd (lt_of_le_of_lt this hlt) (lt_irrefl _)

theorem w_leg : DLeg wsp.kappa wsp.sigma (-1) 1 0 [] 0
    (SF.hc_turn_controls wc1 (curvedOf wsp ws2 false) false) (cfg wq) (cfg (startOf ws1)) (1 / 100) := by
  have hc : CircOk wc1 wsp.kappa wsp.sigma :=
    circOk_at wrng.rng.kappa wrng.rng.sigma wrng.rng.clothoid (startOf ws1) (decide (0 = 0)) true true
  have e : cen 0 (1 / (sg wc1.left * wsp.kappa)) (cfg wq) = center wc1 := by
    have e1 : (cfg wq).pos = center wc1 - cis (1 / 200) * ⟨0, 1⟩ := rfl
    have e2 : (cfg wq).theta = 1 / 200 := rfl
    have e3 : sg wc1.left = 1 := rfl
    rw [cen, e1, e2, e3, show (⟨0, 1 / (1 * wsp.kappa)⟩ : ℂ) = ⟨0, 1⟩ by apply Complex.ext <;> norm_num [wsp]]
    ring
  have L := leg_hc_from wrng.rng hc rfl (q := wq) (e := 0) (by rw [e, sub_self, norm_zero])
  rw [w_length wq rfl, hc_controls_same wc1 (q' := curvedOf wsp ws2 false) ws2_theta.symm] at L
  have e4 : sg wc1.left * wsp.kappa = 1 := by
    rw [show sg wc1.left = 1 from rfl]; norm_num [wsp]
  rw [e4] at L
  exact L

theorem w_tol : pathTol ((SF.hc_turn_controls wc1 (curvedOf wsp ws2 false) false).map seg) ≤ 1 / 100 := by
  have h100 : √(100:ℝ) = 10 := by
    rw [show (100:ℝ) = 10 ^ 2 by norm_num, sqrt_sq (by norm_num)]
  have hs : wc1.sigma = 100 := rfl
  simp only [SF.hc_turn_controls, pathTol]
  simp only [segTol, seg, Bool.false_eq_true, if_false, List.nil_append, List.singleton_append, List.map_cons,
    List.map_nil, List.sum_cons, List.sum_nil, hs]
  norm_num [h100]

/-- The goal is missed. -/
theorem witness : ∃ cs, get_controls wsp ws2 ws1 = some cs ∧ get_distance wsp ws2 ws1 = some (1 / 100) ∧
    CurvatureContinuous 1 (cs.map seg) 0 ∧ (∀ a b, LeadsTo cs ws2 ws1 a b → 1 ≤ a) ∧ 1 ≤ dist2 ws2 ws1 := by
  have hT := w_leg.track 0 le_rfl (by simp)
  have hL := (hT.leads.congr (SameConfig.refl _) (cfg_startOf ws1))
  have htol := w_tol
  refine ⟨_, by rw [get_controls, w_plan]; rfl, by rw [get_distance, w_plan]; rfl, hT.cont, ?_, ?_⟩
  · rintro a b ⟨e, h1, h2⟩
    rw [drivesAll_iff.1 h1] at h2
    have h3 := hL.arrives.1
    have h4 := h2.1
    have h5 := w_dist
    rw [← arriveAll_dist_eq ((SF.hc_turn_controls wc1 (curvedOf wsp ws2 false) false).map seg)
      (show (cfg wq).theta = (pose ws2).theta from rfl)] at h5
    have h6 := Config.dist_triangle (arriveAll ((SF.hc_turn_controls wc1 (curvedOf wsp ws2 false) false).map seg)
      (cfg wq)) (pose ws1) (arriveAll ((SF.hc_turn_controls wc1 (curvedOf wsp ws2 false) false).map seg) (pose ws2))
    rw [Config.dist_comm] at h4
    simp only [List.length_nil, Nat.cast_zero, zero_mul, mul_zero, add_zero, zero_add] at h3
    linarith
  · have h1 := hL.euclid
    have h5 := w_dist
    have h6 := Config.dist_triangle (cfg wq) (pose ws1) (pose ws2)
    have hd : (pose ws1).dist (pose ws2) = dist2 ws2 ws1 := rfl
    rw [hd] at h6
    simp only [List.length_nil, Nat.cast_zero, zero_mul, mul_zero, add_zero] at h1
    linarith

end CCpm0

end Spec
