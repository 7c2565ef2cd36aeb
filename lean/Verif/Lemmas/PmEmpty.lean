import Verif.Lemmas.PmWitness

/-!
# CC-Dubins with curvature at the ends: paths that ignore the curvature
-/

noncomputable section

namespace Spec

open Real Props
open CC00 (CircOk circOk_at startOf cfg_startOf)

theorem small_dbl : (0:ℝ) < SF.dblMax := lt_trans (by norm_num) SF.dblMax_large

theorem configuration_equal_refl {q q' : SF.Configuration} (hx : q.x = q'.x) (hy : q.y = q'.y)
    (ht : q.theta = q'.theta) : SF.configuration_equal q q' := by
  unfold SF.configuration_equal
  have h0 : SF.configuration_distance q q' = 0 := by
    rw [SF.configuration_distance, SF.point_distance, hx, hy]; simp
  rw [ht, h0, sub_self, abs_zero, if_neg (by norm_num [SF.epsilon]), if_neg (by norm_num [SF.epsilon])]
  trivial

/-- A table with a single entry. -/
theorem best_single {t : SF.Table} {i : ℕ} {r : SF.Row} (ht : t = SF.Table.init.set i r) (hi : i < 7)
    (hr : r.length < SF.dblMax) (s e : SF.Configuration) : t.best SF.nb_cc_dubins_paths s e = ⟨s, e, i, r⟩ := by
  obtain ⟨j, hj, hb, hmin⟩ := best_entry (t := t) (n := SF.nb_cc_dubins_paths)
    (by norm_num [SF.nb_cc_dubins_paths]) s e
  have h2 := hmin i hi
  rw [hb]
  rw [ht] at h2 ⊢
  have : j = i := single_entry (r := r) (lt_of_le_of_lt h2 (by rw [set_same]; exact hr))
  subst this
  rw [set_same]

namespace CC0pm

open SF.CC0pm

/-- Start and goal of the example. -/
def es1 : SF.State := ⟨0, 0, 0, 0, 0⟩

/-- The same pose with curvature. -/
def es2 : SF.State := ⟨0, 0, 0, 1, 0⟩

theorem e_plan (sp : SF.HCSpace) : cc0pm_dubins sp es1 es2 = some ⟨startOf es1, curvedOf sp es2 true, 0, { length := 0 }⟩ := by
  have hp : ∀ n < 4, ∀ p, path sp es1 es2 n = some p → p = ⟨startOf es1, curvedOf sp es2 true, 0, { length := 0 }⟩ := by
    intro n hn p h
    obtain ⟨hT, rfl⟩ := path_some.1 h
    have hT' : n % 2 = 0 := by
      by_contra hc
      have := hT.2 (by simp [hc])
      norm_num [es2] at this
    have he : SF.configuration_equal (start_circle sp (startOf es1) (n / 2)).start (end_circle sp es2 (n % 2)).start := by
      rw [end_start]; exact configuration_equal_refl rfl rfl rfl
    have := best_single (t := table sp (SF.scratch (start_circle sp (startOf es1) (n / 2)) (end_circle sp es2 (n % 2)))
      (start_circle sp (startOf es1) (n / 2)) (end_circle sp es2 (n % 2))) (i := 0) (r := { length := 0 })
      (by unfold table; rw [if_pos he]) (by norm_num) small_dbl (start_circle sp (startOf es1) (n / 2)).start
      (end_circle sp es2 (n % 2)).start
    rw [circles_dubins_path, this, end_start, hT']
    rfl
  have p0 : ∃ p, path sp es1 es2 0 = some p := ⟨_, path_some.2 ⟨by simp [Toward, es2], rfl⟩⟩
  obtain ⟨p, h0⟩ := p0
  have e := hp 0 (by norm_num) p h0
  obtain ⟨n, p', hn, hpn, hb, _⟩ := best_of_spec (path := path sp es1 es2) (by norm_num : 0 < 4) h0
    (by rw [e]; exact small_dbl)
  rw [cc0pm_dubins, hb, hp n hn p' hpn]

end CC0pm

namespace CCpm0

open SF.CCpm0
open CC0pm (es1 es2)

theorem e_plan (sp : SF.HCSpace) : ccpm0_dubins sp es2 es1 = some ⟨curvedOf sp es2 true, startOf es1, 0, { length := 0 }⟩ := by
  have hp : ∀ n < 4, ∀ p, path sp es2 es1 n = some p → p = ⟨curvedOf sp es2 true, startOf es1, 0, { length := 0 }⟩ := by
    intro n hn p h
    obtain ⟨hT, rfl⟩ := (path_some hn).1 h
    have hT' : n / 2 = 0 := by
      by_contra hc
      have := hT.2 (decide_eq_false hc)
      norm_num [es2] at this
    have he : SF.configuration_equal (start_circle sp es2 (n / 2)).start (end_circle sp (startOf es1) (n % 2)).start := by
      rw [start_start]; exact configuration_equal_refl rfl rfl rfl
    have := best_single (t := table sp (SF.scratch (start_circle sp es2 (n / 2)) (end_circle sp (startOf es1) (n % 2)))
      (start_circle sp es2 (n / 2)) (end_circle sp (startOf es1) (n % 2))) (i := 0) (r := { length := 0 })
      (by unfold table; rw [if_pos he]) (by norm_num) small_dbl (start_circle sp es2 (n / 2)).start
      (end_circle sp (startOf es1) (n % 2)).start
    rw [circles_dubins_path, this, start_start, hT']
    rfl
  have p0 : ∃ p, path sp es2 es1 0 = some p := ⟨_, (path_some (by norm_num)).2 ⟨by simp [Toward, es2], rfl⟩⟩
  obtain ⟨p, h0⟩ := p0
  have e := hp 0 (by norm_num) p h0
  obtain ⟨n, p', hn, hpn, hb, _⟩ := best_of_spec (path := path sp es2 es1) (by norm_num : 0 < 4) h0
    (by rw [e]; exact small_dbl)
  rw [ccpm0_dubins, hb, hp n hn p' hpn]

end CCpm0

namespace CCpmpm

open SF.CCpmpm

/-- A state at the origin that turns left. -/
def ts1 : SF.State := ⟨0, 0, 0, 1, 0⟩

/-- A quarter turn further, turning right. -/
def ts2 : SF.State := ⟨1, 1, π / 2, -1, 0⟩

/-- Parameters of the example. -/
def tsp : SF.HCSpace := ⟨1, 1, 1, true⟩

theorem ts2_theta : SF.twopify (π / 2) = π / 2 :=
  SF.twopify_of_mem (by positivity) (by linarith [pi_pos])

theorem ts1_theta : SF.twopify (0:ℝ) = 0 := SF.twopify_of_mem le_rfl (by positivity)

/-- Start circle of the example. -/
def tc1 : SF.Circle := start_circle tsp ts1 0

theorem tc1_center : tc1.xc = 0 ∧ tc1.yc = 1 := by
  have h : RsOk tc1 tsp.kappa := rsOk_at (by norm_num [tsp]) _ _ tsp.forwards true
  have e := h.cen
  have e1 : (cfg tc1.start).pos = ⟨0, 0⟩ := rfl
  have e2 : (cfg tc1.start).theta = 0 := ts1_theta
  have e3 : sg tc1.left = 1 := rfl
  rw [cen, e1, e2, e3] at e
  have hre := congrArg Complex.re e
  have him := congrArg Complex.im e
  simp [cis, center, tsp] at hre him
  exact ⟨hre, him⟩

theorem t_on : SF.configuration_on_hc_cc_circle tc1 (curvedOf tsp ts2 false) := by
  obtain ⟨hx, hy⟩ := tc1_center
  have hr : tc1.radius = 1 := by
    change (1:ℝ) / 1 = 1; norm_num
  have hm : tc1.mu = 0 := rfl
  have qx : (curvedOf tsp ts2 false).x = 1 := rfl
  have qy : (curvedOf tsp ts2 false).y = 1 := rfl
  have qt : (curvedOf tsp ts2 false).theta = π / 2 := ts2_theta
  have hl : tc1.left = true := rfl
  have hf : tc1.forward = true := rfl
  have h0 : SF.atan2 0 1 = 0 := by
    rw [SF.atan2, show (⟨1, 0⟩ : ℂ) = 1 from rfl]; exact Complex.arg_one
  unfold SF.configuration_on_hc_cc_circle
  simp only [hx, hy, hr, hm, qx, qy, qt, hl, hf, SF.point_distance]
  norm_num [SF.epsilon, h0]
  rw [ts2_theta, sub_self, abs_zero]; norm_num

theorem t_plan : ccpmpm_dubins tsp ts1 ts2 = some ⟨curvedOf tsp ts1 true, curvedOf tsp ts2 false, 2,
    { length := tc1.rs_turn_length (curvedOf tsp ts2 false), cstart := some tc1 }⟩ := by
  have H : Rng tsp.kappa tsp.sigma := by
    constructor <;> norm_num [tsp, SF.epsilon]
  have hlt : tc1.rs_turn_length (curvedOf tsp ts2 false) < SF.dblMax := by
    have hc : RsOk tc1 tsp.kappa := rsOk_at (by norm_num [tsp]) _ _ tsp.forwards true
    refine lt_of_le_of_lt (rs_length_le H hc rfl _) ?_
    have h1 := bound_le H
    have h2 := bound_finite (k := tsp.kappa) (s := tsp.sigma) (by constructor <;> norm_num [tsp]) (x := 0) (by norm_num)
    have h3 := TB_nonneg H
    have h4 := ccR_nonneg tsp.kappa tsp.sigma
    have h5 : (0:ℝ) < 1 / tsp.kappa := by norm_num [tsp]
    linarith
  have hp : ∀ n < 4, ∀ p, path tsp ts1 ts2 n = some p → p = ⟨curvedOf tsp ts1 true, curvedOf tsp ts2 false, 2,
      { length := tc1.rs_turn_length (curvedOf tsp ts2 false), cstart := some tc1 }⟩ := by
    intro n hn p h
    obtain ⟨hT, hT2, rfl⟩ := (path_some hn).1 h
    have hT' : n / 2 = 0 := by
      by_contra hc
      have := hT.2 (decide_eq_false hc)
      norm_num [ts1] at this
    have hT2' : n % 2 = 1 := by
      by_contra hc
      have := hT2.1 (decide_eq_true (by omega))
      norm_num [ts2] at this
    rw [hT', hT2']
    have hne : ¬ SF.configuration_equal (start_circle tsp ts1 0).start (end_circle tsp ts2 1).start := by
      unfold SF.configuration_equal
      have a : (start_circle tsp ts1 0).start.theta = 0 := ts1_theta
      have b : (end_circle tsp ts2 1).start.theta = π / 2 := by rw [end_start]; exact ts2_theta
      rw [a, b, if_pos]
      · exact id
      · rw [sub_zero, abs_of_pos (by positivity), SF.epsilon]
        linarith [pi_gt_three]
    have hon : SF.configuration_on_hc_cc_circle (start_circle tsp ts1 0) (end_circle tsp ts2 1).start := by
      rw [end_start]; exact t_on
    have := best_single (t := table tsp (SF.scratch (start_circle tsp ts1 0) (end_circle tsp ts2 1))
      (start_circle tsp ts1 0) (end_circle tsp ts2 1)) (i := 2)
      (r := { length := tc1.rs_turn_length (curvedOf tsp ts2 false), cstart := some tc1 })
      (by
        unfold table
        rw [if_neg hne, if_pos hon, end_start]
        rfl) (by norm_num) hlt (start_circle tsp ts1 0).start (end_circle tsp ts2 1).start
    rw [circles_dubins_path, this, end_start]
    rfl
  have p0 : ∃ p, path tsp ts1 ts2 1 = some p :=
    ⟨_, (path_some (by norm_num)).2 ⟨by simp [Toward, ts1], by simp [Toward, ts2], rfl⟩⟩
  obtain ⟨p, h0⟩ := p0
  have e := hp 1 (by norm_num) p h0
  obtain ⟨n, p', hn, hpn, hb, _⟩ := best_of_spec (path := path tsp ts1 ts2) (by norm_num : 1 < 4) h0
    (by rw [e]; exact hlt)
  rw [ccpmpm_dubins, hb, hp n hn p' hpn]

/-- The controls of the example: one left turn. -/
theorem t_controls : ∃ x, get_controls tsp ts1 ts2 = some [⟨x, 1, 0⟩] := by
  have hk : tc1.kappa = 1 := rfl
  have h : get_controls tsp ts1 ts2 = some (SF.rs_turn_controls tc1 (curvedOf tsp ts2 false) true) := by
    rw [get_controls, t_plan]; rfl
  rw [SF.rs_turn_controls] at h
  simp only [hk] at h
  exact ⟨_, h⟩

end CCpmpm

end Spec
