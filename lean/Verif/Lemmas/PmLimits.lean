import Verif.Lemmas.PmPlan
import Verif.Lemmas.HcPair

/-!
# CC-Dubins with curvature at the ends: limits of paths of one and two turns
-/

noncomputable section

namespace Spec

open Real Props
open CC00 (CircOk circOk_at startOf cfg_startOf)

/-- Curvature and sharpness respect the limits up to the relative error of the Fresnel integrals. -/
def InLimits (k s : ℝ) (cs : List SF.Control) : Prop :=
  CurvatureAtMost (k * (1 + 1 / 10 ^ 8)) (cs.map seg) ∧ SharpnessAtMost (s * (1 + 2 / 10 ^ 8)) (cs.map seg)

theorem InLimits.append {k s : ℝ} {cs cs' : List SF.Control} (h : InLimits k s cs) (h' : InLimits k s cs') :
    InLimits k s (cs ++ cs') := by
  unfold InLimits
  rw [List.map_append]
  exact ⟨h.1.append h'.1, h.2.append h'.2⟩

theorem InLimits.nil (k s : ℝ) : InLimits k s [] := ⟨fun c hc => by simp at hc, fun c hc => by simp at hc⟩

theorem hc_at_limits {k s : ℝ} (H : Rng k s) (o q : SF.Configuration) (l f order : Bool) :
    InLimits k s (SF.hc_turn_controls (SF.circleAt o l f true (SF.hc_cc_circle_param k s)) q order) :=
  hc_limits (circOk_at H.kappa H.sigma H.clothoid o l f true).ok H.kappa H.sigma q order

theorem best_of_some {path : ℕ → Option SF.CCPath} {p : SF.CCPath} (h : SF.best_of path = some p) : ∃ n < 4, path n = some p :=
  ⟨_, (C04_array_index_min _ 4 (by norm_num)).1, h⟩

namespace CC0pm

open SF.CC0pm

variable {sp : SF.HCSpace} {c1 c2 : SF.Circle}

/-- The rows of the types `T` and `TT`. -/
theorem row_short (hlt : (circles_dubins_path sp c1 c2).length < SF.dblMax) :
    ((circles_dubins_path sp c1 c2).type = 2 → (SF.scratch c1 c2).distance < SF.epsilon ∧
      (circles_dubins_path sp c1 c2).row.cstart = some (cstart sp.param c1)) ∧
    ((circles_dubins_path sp c1 c2).type = 3 → TT_exists (SF.scratch c1 c2) c1 c2 ∧
      (circles_dubins_path sp c1 c2).row = TT_path sp.param c1 c2) := by
  classical
  obtain ⟨i, _, hb, _⟩ := best_entry (t := table sp (SF.scratch c1 c2) c1 c2) (n := SF.nb_cc_dubins_paths)
    (by norm_num [SF.nb_cc_dubins_paths]) c1.start c2.start
  rw [circles_dubins_path, hb] at hlt ⊢
  change (table sp (SF.scratch c1 c2) c1 c2 i).length < SF.dblMax at hlt
  simp only
  unfold table at hlt ⊢
  by_cases e1 : SF.configuration_equal c1.start c2.start
  · rw [if_pos e1] at hlt ⊢
    obtain rfl := single_entry hlt
    exact ⟨fun h => absurd h (by decide), fun h => absurd h (by decide)⟩
  rw [if_neg e1] at hlt ⊢
  by_cases e2 : (SF.scratch c1 c2).distance < SF.epsilon
  · rw [if_pos e2] at hlt ⊢
    obtain rfl := single_entry hlt
    rw [set_same]
    exact ⟨fun _ => ⟨e2, rfl⟩, fun h => absurd h (by decide)⟩
  rw [if_neg e2] at hlt ⊢
  rcases ite_set (TTT_exists (SF.scratch c1 c2) c1 c2) _ SF.cc_dubins.TTT
    (TTT_path sp.param (SF.scratch c1 c2) c1 c2) i with h | ⟨hx, rfl, h'⟩
  swap
  · exact ⟨fun h => absurd h (by decide), fun h => absurd h (by decide)⟩
  rw [h] at hlt ⊢
  rcases ite_set (TST_exists (SF.scratch c1 c2) c1 c2) _ SF.cc_dubins.TST
    (TST_path sp.param (SF.scratch c1 c2) c1 c2) i with h | ⟨hx, rfl, h'⟩
  swap
  · exact ⟨fun h => absurd h (by decide), fun h => absurd h (by decide)⟩
  rw [h] at hlt ⊢
  rcases ite_set (TT_exists (SF.scratch c1 c2) c1 c2) _ SF.cc_dubins.TT
    (TT_path sp.param c1 c2) i with h | ⟨hx, rfl, h'⟩
  swap
  · rw [h']; exact ⟨fun h => absurd h (by decide), fun _ => ⟨hx, rfl⟩⟩
  rw [h, init_length] at hlt
  exact absurd hlt (lt_irrefl _)

/-- A path of two turns is short. -/
theorem TT_near (H : Rng sp.kappa sp.sigma) {s1 s2 : SF.State} {p : SF.CCPath} (hp : cc0pm_dubins sp s1 s2 = some p)
    (hlt : p.length < SF.dblMax) (ht : p.type = 3) :
    dist2 s1 s2 < 4 * radiusBound sp.kappa sp.sigma + SF.epsilon := by
  obtain ⟨n, hn, hpn⟩ := best_of_some hp
  obtain ⟨_, rfl⟩ := path_some.1 hpn
  obtain ⟨hx, _⟩ := (row_short hlt).2 ht
  have hsc : CircOk (start_circle sp (startOf s1) (n / 2)) sp.kappa sp.sigma :=
    circOk_at H.kappa H.sigma H.clothoid (startOf s1) (decide (n / 2 = 0)) sp.forwards true
  have hec : RsOk (end_circle sp s2 (n % 2)) sp.kappa := rsOk_at H.pos (if n % 2 = 0 then SF.configuration s2.x s2.y s2.theta sp.kappa
    else SF.configuration s2.x s2.y s2.theta (-sp.kappa)) (decide (n % 2 = 0)) (!sp.forwards) true
  have hc := (centers_le (CircOk_start_dist hsc) (hec.start_dist H.pos)).2
  have hd' : SF.configuration_distance (start_circle sp (startOf s1) (n / 2)).start (end_circle sp s2 (n % 2)).start
      = dist2 s1 s2 := by rw [end_start]; rfl
  rw [hd'] at hc
  have := H.ccR_le
  have := H.inv_le
  have := H.pos
  have : 0 < 1 / sp.kappa := by positivity
  unfold TT_exists SF.CC00.TT_exists at hx
  split_ifs at hx
  have hx := (abs_lt.1 hx).2
  have hr : (start_circle sp (startOf s1) (n / 2)).radius = ccR sp.kappa sp.sigma := by rw [hsc.ok.geom.ccR]
  rw [hr] at hx
  change SF.center_distance (start_circle sp (startOf s1) (n / 2)) (end_circle sp s2 (n % 2)) - _ < _ at hx
  linarith

/-- Unless the path consists of two turns, the limits are respected. -/
theorem limits (h : InRange sp.kappa sp.sigma) (s1 s2 : SF.State) (hfar : dist2 s1 s2 ≤ 10 ^ 100) {p : SF.CCPath}
    (hp : cc0pm_dubins sp s1 s2 = some p) (ht : p.type ≠ 3) :
    ∃ cs, get_controls sp s1 s2 = some cs ∧ InLimits sp.kappa sp.sigma cs := by
  have H := h.rng
  obtain ⟨l, t, r, cs', _, hd, hcs', _, hle, _, _⟩ := plan h s1 s2 hfar
  refine ⟨cs', hcs', ?_⟩
  obtain rfl := Option.some.inj (hp.symm.trans hd)
  have hlt := hle.trans_lt (bound_finite h hfar)
  obtain ⟨n, hn, hpn⟩ := best_of_some hp
  obtain ⟨_, e⟩ := path_some.1 hpn
  have hsc : CircOk (start_circle sp (startOf s1) (n / 2)) sp.kappa sp.sigma :=
    circOk_at H.kappa H.sigma H.clothoid (startOf s1) (decide (n / 2 = 0)) sp.forwards true
  have hec : RsOk (end_circle sp s2 (n % 2)) sp.kappa := rsOk_at H.pos (if n % 2 = 0 then SF.configuration s2.x s2.y s2.theta sp.kappa
    else SF.configuration s2.x s2.y s2.theta (-sp.kappa)) (decide (n % 2 = 0)) (!sp.forwards) true
  have hlt' : (circles_dubins_path sp (start_circle sp (startOf s1) (n / 2)) (end_circle sp s2 (n % 2))).length < SF.dblMax := by
    rw [← e]; exact hlt
  rw [get_controls, hp, Option.bind_some] at hcs'
  by_cases h2 : t = 2
  · subst h2
    have hr := (row_short hlt').1 (by rw [← e])
    rw [← e] at hr
    simp only [path_controls] at hcs'
    rw [show r.cstart = _ from hr.2] at hcs'
    obtain rfl := Option.some.inj hcs'
    exact hc_at_limits H _ _ _ _ _
  · obtain ⟨t', r', he, hr⟩ := found H hsc rfl rfl hec rfl hlt'
    rw [← e] at he
    rcases hr with ⟨rfl, _⟩ | ⟨cs, hcs, hok⟩
    · exact absurd (congrArg SF.CCPath.type he) h2
    · rw [he, hcs] at hcs'
      obtain rfl := Option.some.inj hcs'
      have et : t = t' := congrArg SF.CCPath.type he
      exact hok.limits H (et ▸ h2) (et ▸ ht)

end CC0pm

namespace CCpm0

open SF.CCpm0

variable {sp : SF.HCSpace} {c1 c2 : SF.Circle}

/-- The rows of the types `T` and `TT`. -/
theorem row_short (hlt : (circles_dubins_path sp c1 c2).length < SF.dblMax) :
    ((circles_dubins_path sp c1 c2).type = 2 → (SF.scratch c1 c2).distance < SF.epsilon ∧
      (circles_dubins_path sp c1 c2).row.cend = some (cend sp.param c2)) ∧
    ((circles_dubins_path sp c1 c2).type = 3 → TT_exists (SF.scratch c1 c2) c1 c2 ∧
      (circles_dubins_path sp c1 c2).row = TT_path sp.param c1 c2) := by
  classical
  obtain ⟨i, _, hb, _⟩ := best_entry (t := table sp (SF.scratch c1 c2) c1 c2) (n := SF.nb_cc_dubins_paths)
    (by norm_num [SF.nb_cc_dubins_paths]) c1.start c2.start
  rw [circles_dubins_path, hb] at hlt ⊢
  change (table sp (SF.scratch c1 c2) c1 c2 i).length < SF.dblMax at hlt
  simp only
  unfold table at hlt ⊢
  by_cases e1 : SF.configuration_equal c1.start c2.start
  · rw [if_pos e1] at hlt ⊢
    obtain rfl := single_entry hlt
    exact ⟨fun h => absurd h (by decide), fun h => absurd h (by decide)⟩
  rw [if_neg e1] at hlt ⊢
  by_cases e2 : (SF.scratch c1 c2).distance < SF.epsilon
  · rw [if_pos e2] at hlt ⊢
    obtain rfl := single_entry hlt
    rw [set_same]
    exact ⟨fun _ => ⟨e2, rfl⟩, fun h => absurd h (by decide)⟩
  rw [if_neg e2] at hlt ⊢
  rcases ite_set (TTT_exists (SF.scratch c1 c2) c1 c2) _ SF.cc_dubins.TTT
    (TTT_path sp.param (SF.scratch c1 c2) c1 c2) i with h | ⟨hx, rfl, h'⟩
  swap
  · exact ⟨fun h => absurd h (by decide), fun h => absurd h (by decide)⟩
  rw [h] at hlt ⊢
  rcases ite_set (TST_exists (SF.scratch c1 c2) c1 c2) _ SF.cc_dubins.TST
    (TST_path sp.param (SF.scratch c1 c2) c1 c2) i with h | ⟨hx, rfl, h'⟩
  swap
  · exact ⟨fun h => absurd h (by decide), fun h => absurd h (by decide)⟩
  rw [h] at hlt ⊢
  rcases ite_set (TT_exists (SF.scratch c1 c2) c1 c2) _ SF.cc_dubins.TT
    (TT_path sp.param c1 c2) i with h | ⟨hx, rfl, h'⟩
  swap
  · rw [h']; exact ⟨fun h => absurd h (by decide), fun _ => ⟨hx, rfl⟩⟩
  rw [h, init_length] at hlt
  exact absurd hlt (lt_irrefl _)

/-- A path of two turns is short. -/
theorem TT_near (H : Rng sp.kappa sp.sigma) {s1 s2 : SF.State} {p : SF.CCPath} (hp : ccpm0_dubins sp s1 s2 = some p)
    (hlt : p.length < SF.dblMax) (ht : p.type = 3) :
    dist2 s1 s2 < 4 * radiusBound sp.kappa sp.sigma + SF.epsilon := by
  obtain ⟨n, hn, hpn⟩ := best_of_some hp
  obtain ⟨_, rfl⟩ := (path_some hn).1 hpn
  obtain ⟨hx, _⟩ := (row_short hlt).2 ht
  have hec : CircOk (end_circle sp (startOf s2) (n % 2)) sp.kappa sp.sigma :=
    circOk_at H.kappa H.sigma H.clothoid (startOf s2) (decide (n % 2 = 0)) (!sp.forwards) true
  have hsc : RsOk (start_circle sp s1 (n / 2)) sp.kappa := rsOk_at H.pos (if n / 2 = 0 then SF.configuration s1.x s1.y s1.theta sp.kappa
    else SF.configuration s1.x s1.y s1.theta (-sp.kappa)) (decide (n / 2 = 0)) sp.forwards true
  have hc := (centers_le (hsc.start_dist H.pos) (CircOk_start_dist hec)).2
  have hd' : SF.configuration_distance (start_circle sp s1 (n / 2)).start (end_circle sp (startOf s2) (n % 2)).start
      = dist2 s1 s2 := by rw [start_start]; rfl
  rw [hd'] at hc
  have := H.ccR_le
  have := H.inv_le
  have := H.pos
  have : 0 < 1 / sp.kappa := by positivity
  unfold TT_exists SF.CC00.TT_exists at hx
  split_ifs at hx
  have hx := (abs_lt.1 hx).2
  have hr : ((start_circle sp s1 (n / 2)).reparam (end_circle sp (startOf s2) (n % 2)).toCircleParam).radius = ccR sp.kappa sp.sigma := by
    change (end_circle sp (startOf s2) (n % 2)).radius = _
    rw [hec.ok.geom.ccR]
  rw [hr] at hx
  change SF.center_distance (start_circle sp s1 (n / 2)) (end_circle sp (startOf s2) (n % 2)) - _ < _ at hx
  linarith

/-- Unless the path consists of two turns, the limits are respected. -/
theorem limits (h : InRange sp.kappa sp.sigma) (s1 s2 : SF.State) (hfar : dist2 s1 s2 ≤ 10 ^ 100) {p : SF.CCPath}
    (hp : ccpm0_dubins sp s1 s2 = some p) (ht : p.type ≠ 3) :
    ∃ cs, get_controls sp s1 s2 = some cs ∧ InLimits sp.kappa sp.sigma cs := by
  have H := h.rng
  obtain ⟨l, t, r, cs', _, hd, hcs', _, hle, _, _⟩ := plan h s1 s2 hfar
  refine ⟨cs', hcs', ?_⟩
  obtain rfl := Option.some.inj (hp.symm.trans hd)
  have hlt := hle.trans_lt (bound_finite h hfar)
  obtain ⟨n, hn, hpn⟩ := best_of_some hp
  obtain ⟨_, e⟩ := (path_some hn).1 hpn
  have hec : CircOk (end_circle sp (startOf s2) (n % 2)) sp.kappa sp.sigma :=
    circOk_at H.kappa H.sigma H.clothoid (startOf s2) (decide (n % 2 = 0)) (!sp.forwards) true
  have hsc : RsOk (start_circle sp s1 (n / 2)) sp.kappa := rsOk_at H.pos (if n / 2 = 0 then SF.configuration s1.x s1.y s1.theta sp.kappa
    else SF.configuration s1.x s1.y s1.theta (-sp.kappa)) (decide (n / 2 = 0)) sp.forwards true
  have hlt' : (circles_dubins_path sp (start_circle sp s1 (n / 2)) (end_circle sp (startOf s2) (n % 2))).length < SF.dblMax := by
    rw [← e]; exact hlt
  rw [get_controls, hp, Option.bind_some] at hcs'
  by_cases h2 : t = 2
  · subst h2
    have hr := (row_short hlt').1 (by rw [← e])
    rw [← e] at hr
    simp only [path_controls] at hcs'
    rw [show r.cend = _ from hr.2] at hcs'
    obtain rfl := Option.some.inj hcs'
    exact hc_at_limits H _ _ _ _ _
  · obtain ⟨t', r', he, hr⟩ := found H hsc hec rfl rfl rfl hlt'
    rw [← e] at he
    rcases hr with ⟨rfl, _⟩ | ⟨cs, hcs, hok⟩
    · exact absurd (congrArg SF.CCPath.type he) h2
    · rw [he, hcs] at hcs'
      obtain rfl := Option.some.inj hcs'
      have et : t = t' := congrArg SF.CCPath.type he
      exact hok.limits H (et ▸ h2) (et ▸ ht)

end CCpm0

namespace CCpmpm

open SF.CCpmpm

variable {sp : SF.HCSpace} {c1 c2 : SF.Circle}

/-- The rows of the types `T` and `TT`. -/
theorem row_short (hlt : (circles_dubins_path sp c1 c2).length < SF.dblMax) :
    ((circles_dubins_path sp c1 c2).type = 2 → (circles_dubins_path sp c1 c2).row.cstart = some (cturn sp c1)) ∧
    ((circles_dubins_path sp c1 c2).type = 3 → (circles_dubins_path sp c1 c2).row = TT_path sp.param c1 c2) := by
  classical
  obtain ⟨i, _, hb, _⟩ := best_entry (t := table sp (SF.scratch c1 c2) c1 c2) (n := SF.nb_cc_dubins_paths)
    (by norm_num [SF.nb_cc_dubins_paths]) c1.start c2.start
  rw [circles_dubins_path, hb] at hlt ⊢
  change (table sp (SF.scratch c1 c2) c1 c2 i).length < SF.dblMax at hlt
  simp only
  unfold table at hlt ⊢
  by_cases e1 : SF.configuration_equal c1.start c2.start
  · rw [if_pos e1] at hlt ⊢
    obtain rfl := single_entry hlt
    exact ⟨fun h => absurd h (by decide), fun h => absurd h (by decide)⟩
  rw [if_neg e1] at hlt ⊢
  by_cases e2 : SF.configuration_on_hc_cc_circle c1 c2.start
  · rw [if_pos e2] at hlt ⊢
    obtain rfl := single_entry hlt
    rw [set_same]
    exact ⟨fun _ => rfl, fun h => absurd h (by decide)⟩
  rw [if_neg e2] at hlt ⊢
  rcases ite_set (TTTT_exists sp.param (SF.scratch c1 c2) c1 c2) _ SF.cc_dubins.TTTT
    (TTTT_path sp.param (SF.scratch c1 c2) c1 c2) i with h | ⟨hx, rfl, h'⟩
  swap
  · exact ⟨fun h => absurd h (by decide), fun h => absurd h (by decide)⟩
  rw [h] at hlt ⊢
  rcases ite_set (TTT_exists sp.param (SF.scratch c1 c2) c1 c2) _ SF.cc_dubins.TTT
    (TTT_path sp.param (SF.scratch c1 c2) c1 c2) i with h | ⟨hx, rfl, h'⟩
  swap
  · exact ⟨fun h => absurd h (by decide), fun h => absurd h (by decide)⟩
  rw [h] at hlt ⊢
  rcases ite_set (TST_exists sp.param (SF.scratch c1 c2) c1 c2) _ SF.cc_dubins.TST
    (TST_path sp.param (SF.scratch c1 c2) c1 c2) i with h | ⟨hx, rfl, h'⟩
  swap
  · exact ⟨fun h => absurd h (by decide), fun h => absurd h (by decide)⟩
  rw [h] at hlt ⊢
  rcases ite_set (TT_exists sp.param (SF.scratch c1 c2) c1 c2) _ SF.cc_dubins.TT
    (TT_path sp.param c1 c2) i with h | ⟨hx, rfl, h'⟩
  swap
  · rw [h']; exact ⟨fun h => absurd h (by decide), fun _ => rfl⟩
  rw [h, init_length] at hlt
  exact absurd hlt (lt_irrefl _)

/-- The limits are always respected. -/
theorem limits (h : InRange sp.kappa sp.sigma) (s1 s2 : SF.State) (hfar : dist2 s1 s2 ≤ 10 ^ 100) :
    ∃ cs, get_controls sp s1 s2 = some cs ∧ InLimits sp.kappa sp.sigma cs := by
  have H := h.rng
  obtain ⟨l1, l2, t, r, cs', _, _, hp, hcs', _, hle, hok, _⟩ := plan h s1 s2 hfar
  refine ⟨cs', hcs', ?_⟩
  have hlt := hle.trans_lt (bound_finite h hfar)
  obtain ⟨n, hn, hpn⟩ := best_of_some hp
  obtain ⟨_, _, e⟩ := (path_some hn).1 hpn
  have hsc : RsOk (start_circle sp s1 (n / 2)) sp.kappa := rsOk_at H.pos (if n / 2 = 0 then SF.configuration s1.x s1.y s1.theta sp.kappa
    else SF.configuration s1.x s1.y s1.theta (-sp.kappa)) (decide (n / 2 = 0)) sp.forwards true
  have hlt' : (circles_dubins_path sp (start_circle sp s1 (n / 2)) (end_circle sp s2 (n % 2))).length < SF.dblMax := by
    rw [← e]; exact hlt
  have hr := row_short hlt'
  rw [← e] at hr
  simp only at hr
  rw [get_controls, hp, Option.bind_some] at hcs'
  by_cases h2 : t = 2
  · subst h2
    simp only [path_controls, hr.1 rfl] at hcs'
    obtain rfl := Option.some.inj hcs'
    exact rs_limits hsc H.pos H.sigma _ _
  by_cases h3 : t = 3
  · subst h3
    simp only [path_controls, hr.2 rfl, TT_path, Option.bind_some, Option.map_some] at hcs'
    obtain rfl := Option.some.inj hcs'
    exact (hc_at_limits H _ _ _ _ _).append (hc_at_limits H _ _ _ _ _)
  exact hok.limits H h2 h3

end CCpmpm

namespace CC

open SF.CC

variable {sp : SF.HCSpace}

/-- The planners between predicted states that are far apart. -/
theorem call_limits (h : InRange sp.kappa sp.sigma) (a b : SF.State) (hfar : dist2 a b ≤ 10 ^ 100)
    (hf : 4 * radiusBound sp.kappa sp.sigma + 2 * SF.epsilon ≤ dist2 a b) :
    ∃ cs, (controls_planners sp).call a b = some cs ∧ InLimits sp.kappa sp.sigma cs := by
  have H := h.rng
  have he0 : (0:ℝ) < SF.epsilon := by norm_num [SF.epsilon]
  unfold SF.SubPlanners.call
  by_cases ha : |a.kappa| < SF.epsilon <;> by_cases hb : |b.kappa| < SF.epsilon
  · rw [if_pos ha, if_pos hb]
    have hR := Spec.CC00.radius_le' h
    obtain ⟨t2, t3⟩ := Spec.CC00.far_type h a b hfar (by linarith)
    obtain ⟨cs, hcs, hok, _⟩ := Spec.CC00.plan h a b hfar (tau := SF.epsilon) (by norm_num [SF.epsilon])
      fun x _ => tiny_le _ _
    exact ⟨cs, hcs, hok.limits H.pos.le H.sigma.le t2 t3⟩
  · rw [if_pos ha, if_neg hb]
    obtain ⟨l, t, r, cs, _, hd, _, _, hle, _, _⟩ := Spec.CC0pm.plan h a b hfar
    refine Spec.CC0pm.limits h a b hfar hd fun ht => ?_
    have := Spec.CC0pm.TT_near H hd (hle.trans_lt (bound_finite h hfar)) ht
    linarith
  · rw [if_neg ha, if_pos hb]
    obtain ⟨l, t, r, cs, _, hd, _, _, hle, _, _⟩ := Spec.CCpm0.plan h a b hfar
    refine Spec.CCpm0.limits h a b hfar hd fun ht => ?_
    have := Spec.CCpm0.TT_near H hd (hle.trans_lt (bound_finite h hfar)) ht
    linarith
  · rw [if_neg ha, if_neg hb]
    exact Spec.CCpmpm.limits h a b hfar

/-- States too far apart for paths of one or two turns between predicted states. -/
def LimitsFar (sp : SF.HCSpace) (s1 s2 : SF.State) : Prop :=
  4 * radiusBound sp.kappa sp.sigma + 2 * SF.epsilon + 4 * (sp.kappa / sp.sigma) ≤ dist2 s1 s2

open Classical in
theorem far_limits (h : InRange sp.kappa sp.sigma) (junk : ℝ) (s1 s2 : SF.State)
    (hfar : dist2 s1 s2 + 4 * (sp.kappa / sp.sigma) ≤ 10 ^ 100) (hF : LimitsFar sp s1 s2) (k1 : |s1.kappa| ≤ sp.kappa)
    (k2 : |s2.kappa| ≤ sp.kappa) {cs : List SF.Control} (hcs : IsControls sp junk s1 s2 cs) :
    InLimits sp.kappa sp.sigma cs := by
  have H := h.rng
  have hK := H.pos
  have hS := H.sigma
  have he0 : (0:ℝ) < SF.epsilon := by norm_num [SF.epsilon]
  have hR0 : 0 < radiusBound sp.kappa sp.sigma := by rw [radiusBound]; positivity
  obtain ⟨l, hl, hmem, _⟩ := hcs
  obtain ⟨lc, c1, c2, _⟩ := mapM_spec (fun p : SF.Predicted × SF.Predicted => SF.pair_controls (controls_planners sp) p.1 p.2)
    (SF.pairs (start_states sp junk s1) (end_states sp junk s2)) fun p hp => by
      obtain ⟨cs, len, h1, _⟩ := pair h junk s1 s2 hfar p.1 (mem_pairs.1 hp).1 p.2 (mem_pairs.1 hp).2
      exact ⟨cs, h1⟩
  obtain rfl := Option.some.inj (c1.symm.trans hl)
  obtain ⟨⟨a, b⟩, hp, e⟩ := c2 cs hmem
  obtain ⟨ha, hb⟩ := mem_pairs.1 hp
  simp only at ha hb e
  have fa := ((predict_ok junk s1 sp.forwards).2 a ha).facts H (sg_pm _)
  have fb := ((predict_ok junk s2 (!sp.forwards)).2 b hb).facts H (sg_pm _)
  have n1 := fa.near
  have n2 := fb.near
  have t1 := dist2_triangle a.1 s1 b.1
  have t2 := dist2_triangle s1 s2 b.1
  have t3 := dist2_triangle s1 a.1 s2
  have t4 := dist2_triangle a.1 b.1 s2
  rw [dist2_comm a.1 s1] at t1
  rw [dist2_comm b.1 s2] at t4
  unfold LimitsFar at hF
  have hab : 4 * radiusBound sp.kappa sp.sigma + 2 * SF.epsilon ≤ dist2 a.1 b.1 := by linarith
  have hne : ¬ SF.state_equal a.1 b.1 := by
    intro hq
    have := (state_equal_within hq).1.1
    rw [pose_dist] at this
    linarith
  obtain ⟨m, hm, hlim⟩ := call_limits h a.1 b.1 (by linarith) hab
  rw [SF.pair_controls, if_neg hne, hm] at e
  simp only [Option.map_some, Option.some.injEq] at e
  have hKle : sp.kappa ≤ sp.kappa * (1 + 1 / 10 ^ 8) := by nlinarith
  have hSle : sp.sigma ≤ sp.sigma * (1 + 2 / 10 ^ 8) := by nlinarith
  have nz : ∀ {x : ℝ}, |x| > SF.epsilon → x ≠ 0 := by
    rintro x h rfl; rw [abs_zero] at h; linarith
  have hpre : InLimits sp.kappa sp.sigma (if |a.2.delta_s| > SF.epsilon then a.2 :: m else m) := by
    by_cases hd : |a.2.delta_s| > SF.epsilon
    · rw [if_pos hd]
      have := fa.limits H k1 (nz hd)
      exact InLimits.append (cs := [a.2]) ⟨this.1.mono hKle, this.2.2.1.mono hSle⟩ hlim
    · rw [if_neg hd]; exact hlim
  rw [← e]
  by_cases hd : |b.2.delta_s| > SF.epsilon
  · rw [if_pos hd]
    have := fb.limits H k2 (nz hd)
    exact hpre.append ⟨this.2.1.mono hKle, this.2.2.2.mono hSle⟩
  · rw [if_neg hd]; exact hpre

end CC

end Spec
