import Verif.Lemmas.HcPlan
import Verif.Lemmas.PmEmpty

/-!
# Hybrid-curvature Reeds-Shepp: goals that are missed and curvatures that are ignored
-/

noncomputable section

namespace Spec

open Real Props

namespace HcRs

open SF.HcRs

variable {sp : SF.HCSpace} {pm1 pm2 : Bool} {c1 c2 : SF.Circle}

theorem opposed_near (h : InRange sp.kappa sp.sigma) {s1 s2 : SF.State} (ho : Props.HcRs.Opposed pm1 pm2 sp s1 s2) :
    dist2 s1 s2 < 2 * radiusBound sp.kappa sp.sigma + 1 / 10000 := by
  have H := h.rng
  obtain ⟨_, i, j, _, _, _, _, _, hd⟩ := ho
  have hc := (centers_le (end_dist H pm1 s1 i) (end_dist H pm2 s2 j)).2
  have hd' : SF.configuration_distance (end_circle pm1 sp s1 i).start (end_circle pm2 sp s2 j).start = dist2 s1 s2 := rfl
  rw [hd'] at hc
  have h1 := H.ccR_le
  have h2 := H.inv_le
  have hk := H.pos
  have h3 : 0 < 1 / sp.kappa := by positivity
  have e : ∀ pm : Bool, (if pm then 1 / sp.kappa else ccR sp.kappa sp.sigma) ≤ radiusBound sp.kappa sp.sigma := by
    intro pm; cases pm <;> simp only [Bool.false_eq_true, if_true, if_false] <;> linarith
  have := e pm1
  have := e pm2
  linarith

/-- A shortcut is taken. -/
theorem shortcut_path {t : ℕ} {r : SF.RSRow} (h : shortcut pm1 pm2 sp (SF.scratch c1 c2) c1 c2 = some (t, r)) (ht : t < 18)
    (hlt : r.length < SF.dblMax) : circles_rs_path pm1 pm2 sp c1 c2 = ⟨t, r⟩ := by
  have hT : ∀ i, table pm1 pm2 sp (SF.scratch c1 c2) c1 c2 i = if i = t then r else {} := by
    intro i; unfold table; rw [h]
  have hm := C04_array_index_min (fun i => (table pm1 pm2 sp (SF.scratch c1 c2) c1 c2 i).length) SF.nb_hc_cc_rs_paths
    (by norm_num [SF.nb_hc_cc_rs_paths])
  obtain ⟨n, hn⟩ : ∃ n, n = SF.array_index_min (fun i => (table pm1 pm2 sp (SF.scratch c1 c2) c1 c2 i).length)
    SF.nb_hc_cc_rs_paths := ⟨_, rfl⟩
  rw [← hn] at hm
  have h1 := hm.2.1 t ht
  have e : circles_rs_path pm1 pm2 sp c1 c2 = ⟨n, table pm1 pm2 sp (SF.scratch c1 c2) c1 c2 n⟩ := by rw [hn]; rfl
  rw [e, hT]
  simp only [hT, if_true] at h1
  have : n = t := by
    by_contra hne
    rw [if_neg hne] at h1
    exact absurd h1 (not_le.2 hlt)
  rw [this, if_pos rfl]

/-- If all paths considered are the same, this is the result. -/
theorem all_same {s1 s2 : SF.State} {P : RSPath → Prop} {n0 : ℕ} (hn0 : n0 < 16)
    (h0 : (pm1 = true → Toward (n0 / 4 % 2 = 0) s1.kappa) ∧ (pm2 = true → Toward (n0 % 4 % 2 = 0) s2.kappa))
    (h : ∀ i j, i < 4 → j < 4 → (pm1 = true → Toward (i % 2 = 0) s1.kappa) → (pm2 = true → Toward (j % 2 = 0) s2.kappa) →
      P (circles_rs_path pm1 pm2 sp (end_circle pm1 sp s1 i) (end_circle pm2 sp s2 j)) ∧
      (circles_rs_path pm1 pm2 sp (end_circle pm1 sp s1 i) (end_circle pm2 sp s2 j)).length < SF.dblMax) :
    ∃ p, reeds_shepp pm1 pm2 sp s1 s2 = some p ∧ P p := by
  obtain ⟨n, p, hn, hp, hb, _⟩ := best_spec hn0 (path_some.2 ⟨h0.1, h0.2, rfl⟩)
    (h (n0 / 4) (n0 % 4) (by omega) (by omega) h0.1 h0.2).2
  obtain ⟨g1, g2, rfl⟩ := path_some.1 hp
  exact ⟨_, hb, (h (n / 4) (n % 4) (by omega) (by omega) g1 g2).1⟩

/-- Between states with the same pose. -/
theorem same_pose {s1 s2 : SF.State} (hx : s1.x = s2.x) (hy : s1.y = s2.y) (ht : s1.theta = s2.theta) :
    reeds_shepp pm1 pm2 sp s1 s2 = some ⟨0, { length := 0 }⟩ := by
  have hp : ∀ i j, circles_rs_path pm1 pm2 sp (end_circle pm1 sp s1 i) (end_circle pm2 sp s2 j) = ⟨0, { length := 0 }⟩ := by
    intro i j
    refine shortcut_path ?_ (by norm_num) small_dbl
    unfold shortcut
    refine if_pos (configuration_equal_refl hx hy ?_)
    change SF.twopify _ = SF.twopify _
    rw [ht]
  have side : ∀ s : SF.State, ∃ i < 2, Toward (decide (i % 2 = 0)) s.kappa := by
    intro s
    rcases le_total 0 s.kappa with hk | hk
    · exact ⟨0, by norm_num, by simp [Toward, hk]⟩
    · exact ⟨1, by norm_num, by simp [Toward, hk]⟩
  obtain ⟨i, hi, hTi⟩ := side s1
  obtain ⟨j, hj, hTj⟩ := side s2
  obtain ⟨p, h1, rfl⟩ := all_same (pm1 := pm1) (pm2 := pm2) (sp := sp) (s1 := s1) (s2 := s2)
    (P := fun p => p = ⟨0, { length := 0 }⟩) (n0 := 4 * i + j) (by omega)
    (by rw [show (4 * i + j) / 4 = i by omega, show (4 * i + j) % 4 = j by omega]; exact ⟨fun _ => hTi, fun _ => hTj⟩)
    (fun i j _ _ _ _ => ⟨hp i j, by rw [hp i j]; exact small_dbl⟩)
  exact h1

/-! ### A single turn to a goal of the other sense -/

open CC0pm (wsp ws1 ws2 wc1 wrng ws2_theta ws2_center)

theorem w_arc' (l f : Bool) (q : SF.Configuration) :
    (SF.circleAt q l f false wsp.param).hc_circular_deflection (1 / 200) = 0 := by
  have : SF.twopify (SF.circleAt q l f false wsp.param).delta_min = 1 / 200 := by
    rw [show (SF.circleAt q l f false wsp.param).delta_min = 1 / 200 by
      change 0.5 * (1:ℝ) ^ 2 / 100 = _; norm_num]
    exact ws2_theta
  unfold SF.Circle.hc_circular_deflection
  simp only [this]
  have hr : (SF.circleAt q l f false wsp.param).regular = false := rfl
  rw [hr]
  simp [abs_of_pos pi_pos, pi_pos]

/-- Circle of the first turn of the example. -/
def xc : SF.Circle := SF.circleAt (SF.configuration 0 0 0 0) true true false wsp.param

theorem x_length (q : SF.Configuration) (hq : q.theta = 1 / 200) : xc.hc_turn_length q = 1 / 100 := by
  have h := (CC00.circOk_at wrng.rng.kappa wrng.rng.sigma wrng.rng.clothoid (SF.configuration 0 0 0 0) true true false).ok
  have hd : xc.deflection q = 1 / 200 := by
    have h0 : SF.twopify 0 = 0 := SF.twopify_of_mem le_rfl (by positivity)
    change SF.twopify (q.theta - SF.twopify 0) = _
    rw [hq, h0, sub_zero, ws2_theta]
  unfold SF.Circle.hc_turn_length
  simp only
  rw [hd, xc, w_arc', mul_zero, abs_zero, add_zero]
  refine (abs_kappa_sigma h wrng.rng.pos wrng.rng.sigma).trans ?_
  norm_num [wsp]

theorem x_centers : SF.center_distance (end_circle false wsp ws1 0) (end_circle true wsp ws2 1) = 0 ∧
    SF.center_distance (end_circle true wsp ws2 1) (end_circle false wsp ws1 0) = 0 := by
  have h1 : center (end_circle false wsp ws1 0) = center wc1 := rfl
  have h2 : center (end_circle true wsp ws2 1) = center wc1 := by
    rw [← ws2_center, (end_ok wrng.rng true ws2 1).rs.cen]
    have hec : RsOk (SF.CC0pm.end_circle wsp ws2 1) wsp.kappa :=
      rsOk_at (by norm_num [wsp]) _ _ (!wsp.forwards) true
    rw [hec.cen]
    rfl
  rw [center_distance_eq, center_distance_eq, h1, h2, sub_self, norm_zero]
  exact ⟨rfl, rfl⟩

theorem x_ne (c1 c2 : SF.Circle) (h1 : c1.start.theta = 0) (h2 : c2.start.theta = 1 / 200) :
    ¬ SF.configuration_equal c1.start c2.start ∧ ¬ SF.configuration_equal c2.start c1.start := by
  unfold SF.configuration_equal
  rw [h1, h2, if_pos (by norm_num [SF.epsilon, abs_of_pos]), if_pos (by norm_num [SF.epsilon, abs_of_pos])]
  exact ⟨id, id⟩

theorem x_plan : ∃ p, reeds_shepp false true wsp ws1 ws2 = some p ∧ p.length ≤ 1 / 100 := by
  have hp : circles_rs_path false true wsp (end_circle false wsp ws1 0) (end_circle true wsp ws2 1)
      = ⟨2, { length := 1 / 100, moves := [.hc xc (end_circle true wsp ws2 1).start true] }⟩ := by
    refine shortcut_path ?_ (by norm_num) CC0pm.w_small
    unfold shortcut
    have hn := (x_ne (end_circle false wsp ws1 0) (end_circle true wsp ws2 1)
      (SF.twopify_of_mem le_rfl (by positivity)) ws2_theta).1
    rw [if_neg hn]
    have hd : (SF.scratch (end_circle false wsp ws1 0) (end_circle true wsp ws2 1)).distance < SF.epsilon := by
      change SF.center_distance _ _ < _
      rw [x_centers.1]; norm_num [SF.epsilon]
    simp only
    rw [if_pos hd, ← x_length (end_circle true wsp ws2 1).start ws2_theta]
    rfl
  have h1 : path false true wsp ws1 ws2 1 = some ⟨2, { length := 1 / 100, moves := [.hc xc (end_circle true wsp ws2 1).start true] }⟩ :=
    path_some.2 ⟨by simp, fun _ => by simp [Toward, ws2], hp.symm⟩
  obtain ⟨n, p, hn, _, hb, hmin⟩ := best_spec (by norm_num) h1 CC0pm.w_small
  exact ⟨p, hb, hmin 1 (by norm_num) _ h1⟩

theorem y_plan : ∃ p, reeds_shepp true false wsp ws2 ws1 = some p ∧ p.length ≤ 1 / 100 := by
  have hp : circles_rs_path true false wsp (end_circle true wsp ws2 1) (end_circle false wsp ws1 0)
      = ⟨2, { length := 1 / 100, moves := [.hc xc (end_circle true wsp ws2 1).start false] }⟩ := by
    refine shortcut_path ?_ (by norm_num) CC0pm.w_small
    unfold shortcut
    have hn := (x_ne (end_circle false wsp ws1 0) (end_circle true wsp ws2 1)
      (SF.twopify_of_mem le_rfl (by positivity)) ws2_theta).2
    rw [if_neg hn]
    have hd : (SF.scratch (end_circle true wsp ws2 1) (end_circle false wsp ws1 0)).distance < SF.epsilon := by
      change SF.center_distance _ _ < _
      rw [x_centers.2]; norm_num [SF.epsilon]
    simp only
    rw [if_pos hd, ← x_length (end_circle true wsp ws2 1).start ws2_theta]
    rfl
  have h1 : path true false wsp ws2 ws1 4 = some ⟨2, { length := 1 / 100, moves := [.hc xc (end_circle true wsp ws2 1).start false] }⟩ :=
    path_some.2 ⟨fun _ => by simp [Toward, ws2], by simp, hp.symm⟩
  obtain ⟨n, p, hn, _, hb, hmin⟩ := best_spec (by norm_num) h1 CC0pm.w_small
  exact ⟨p, hb, hmin 4 (by norm_num) _ h1⟩

theorem w_far : 1 ≤ dist2 ws1 ws2 ∧ dist2 ws1 ws2 ≤ 10 ^ 100 ∧ dist2 ws2 ws1 = dist2 ws1 ws2 := by
  obtain ⟨_, _, _, _, _, h⟩ := CC0pm.witness
  have hs : dist2 ws2 ws1 = dist2 ws1 ws2 := by
    rw [dist2, dist2]; congr 1; ring
  refine ⟨h, ?_, hs⟩
  have ho : Props.HcRs.Opposed false true wsp ws1 ws2 := ⟨by simp, 0, 1, by norm_num, by norm_num, by norm_num, by simp,
    fun _ => by simp [Toward, ws2], by rw [x_centers.1]; norm_num⟩
  have := opposed_near wrng ho
  refine this.le.trans ?_
  rw [radiusBound]
  norm_num [wsp]

/-- Short controls do not reach a distant goal. -/
theorem short {s1 s2 : SF.State} (hd : 1 ≤ dist2 s1 s2) (hf : dist2 s1 s2 ≤ 10 ^ 100) {p : RSPath}
    (hp : reeds_shepp pm1 pm2 wsp s1 s2 = some p) (hl : p.length ≤ 1 / 100) (e : Config)
    (he : DrivesAll ((path_controls p).map seg) (pose s1) e) : 9 / 10 ≤ e.dist (pose s2) := by
  obtain ⟨p', l1, l2, hp', _, _, _, hb, _⟩ := plan (pm1 := pm1) (pm2 := pm2) wrng s1 s2 hf
  obtain rfl := Option.some.inj (hp.symm.trans hp')
  have h1 := (abs_le.1 hb.length).2
  have h2 := arriveAll_dist ((path_controls p).map seg) (pose s1)
  rw [← drivesAll_iff.1 he] at h2
  have h3 := Config.dist_triangle (pose s1) e (pose s2)
  rw [Config.dist_comm] at h2
  have hd' : (pose s1).dist (pose s2) = dist2 s1 s2 := by rw [Config.dist_comm]; rfl
  have h4 : SF.epsilon * (1 + 4 * radiusBound wsp.kappa wsp.sigma) ≤ 1 / 100 := by
    rw [radiusBound]; norm_num [wsp, SF.epsilon]
  linarith

/-! ### A single turn that ignores the curvature of the goal -/

open CCpmpm (ts1 ts2 tsp ts1_theta ts2_theta)

theorem t_on (i : ℕ) (hi : i % 2 = 0) :
    SF.configuration_on_hc_cc_circle (end_circle true tsp ts1 i) (SF.configuration 1 1 (π / 2) (-1)) := by
  obtain ⟨c, hc⟩ : ∃ c, c = end_circle true tsp ts1 i := ⟨_, rfl⟩
  rw [← hc]
  have hl : c.left = true := by rw [hc]; exact decide_eq_true hi
  have h : RsOk c tsp.kappa := by rw [hc]; exact rsOk_at (by norm_num [tsp]) _ _ _ true
  have hxy : c.xc = 0 ∧ c.yc = 1 := by
    have e := h.cen
    have e1 : (cfg c.start).pos = ⟨0, 0⟩ := by rw [hc]; rfl
    have e2 : (cfg c.start).theta = 0 := by rw [hc]; exact ts1_theta
    rw [cen, e1, e2, hl] at e
    have hre := congrArg Complex.re e
    have him := congrArg Complex.im e
    simp [cis, center, tsp, sg] at hre him
    exact ⟨hre, him⟩
  have hr : c.radius = 1 := by
    rw [hc]; change (1:ℝ) / 1 = 1; norm_num
  have hm : c.mu = 0 := by rw [hc]; rfl
  have qx : (SF.configuration 1 1 (π / 2) (-1)).x = 1 := rfl
  have qy : (SF.configuration 1 1 (π / 2) (-1)).y = 1 := rfl
  have qt : (SF.configuration 1 1 (π / 2) (-1)).theta = π / 2 := ts2_theta
  have h0 : SF.atan2 0 1 = 0 := by
    rw [SF.atan2, show (⟨1, 0⟩ : ℂ) = 1 from rfl]; exact Complex.arg_one
  obtain ⟨hx, hy⟩ := hxy
  unfold SF.configuration_on_hc_cc_circle
  simp only [hx, hy, hr, hm, qx, qy, qt, hl, SF.point_distance]
  cases c.forward <;>
  · norm_num [SF.epsilon, h0]
    rw [ts2_theta, sub_self, abs_zero]; norm_num

theorem t_plan : ∃ p, reeds_shepp true true tsp ts1 ts2 = some p ∧ p.type = 2 := by
  have hr : InRange tsp.kappa tsp.sigma := by constructor <;> norm_num [tsp]
  refine all_same (n0 := 1) (by norm_num) ⟨fun _ => by simp [Toward, ts1], fun _ => by simp [Toward, ts2]⟩ ?_
  intro i j hi hj h1 h2
  have hi' : i % 2 = 0 := by
    by_contra hc
    have := (h1 rfl).2 (decide_eq_false hc)
    norm_num [ts1] at this
  have hj' : j % 2 = 1 := by
    by_contra hc
    have := (h2 rfl).1 (decide_eq_true (by omega))
    norm_num [ts2] at this
  have hstart : (end_circle true tsp ts2 j).start = SF.configuration 1 1 (π / 2) (-1) := by
    change SF.configuration 1 1 (π / 2) (if true = true then (if j % 2 = 0 then tsp.kappa else -tsp.kappa) else 0) = _
    rw [if_pos rfl, if_neg (by omega)]
    rfl
  have hlen : (SF.circleAt (end_circle true tsp ts1 i).start (end_circle true tsp ts1 i).left (end_circle true tsp ts1 i).forward true
      tsp.rs_param).rs_turn_length (end_circle true tsp ts2 j).start < SF.dblMax := by
    have hc := rsOk_at hr.rng.pos (end_circle true tsp ts1 i).start (end_circle true tsp ts1 i).left
      (end_circle true tsp ts1 i).forward true
    refine lt_of_le_of_lt (rs_length_le hr.rng hc rfl _) ?_
    have h1 := bound_le hr.rng
    have h2 := bound_finite hr (x := 0) (by norm_num)
    have h3 := TB_nonneg hr.rng
    have h4 := ccR_nonneg tsp.kappa tsp.sigma
    have h5 : (0:ℝ) < 1 / tsp.kappa := by norm_num [tsp]
    linarith
  have hp := shortcut_path (pm1 := true) (pm2 := true) (sp := tsp) (c1 := end_circle true tsp ts1 i) (c2 := end_circle true tsp ts2 j)
    (t := 2)
    (r := ⟨(SF.circleAt (end_circle true tsp ts1 i).start (end_circle true tsp ts1 i).left
        (end_circle true tsp ts1 i).forward true tsp.rs_param).rs_turn_length (end_circle true tsp ts2 j).start,
      [.rs (SF.circleAt (end_circle true tsp ts1 i).start (end_circle true tsp ts1 i).left
        (end_circle true tsp ts1 i).forward true tsp.rs_param) (end_circle true tsp ts2 j).start true]⟩) (by
      unfold shortcut
      rw [if_neg]
      · simp only
        rw [if_pos (by rw [hstart]; exact t_on i hi')]
      · unfold SF.configuration_equal
        have a : (end_circle true tsp ts1 i).start.theta = 0 := ts1_theta
        have b : (end_circle true tsp ts2 j).start.theta = π / 2 := ts2_theta
        rw [a, b, if_pos]
        · exact id
        · rw [sub_zero, abs_of_pos (by positivity), SF.epsilon]
          linarith [pi_gt_three]) (by norm_num) hlen
  rw [hp]
  exact ⟨rfl, hlen⟩

end HcRs

end Spec
