import Verif.Lemmas.PmExists

/-!
# CC-Dubins with curvature at the ends: summary
-/

noncomputable section

namespace Spec

open Real Props
open CC00 (CircOk circOk_at startOf cfg_startOf)

/-- What holds for all paths, also for those that miss the goal. -/
structure Basic (k s d : ℝ) (ts : List (SF.Circle × SF.Configuration)) (cs : List SF.Control) (len : ℝ) : Prop where
  ne : cs ≠ []
  exact : (∀ x ∈ ts, SF.epsilon ≤ SF.Circle.deflection x.1 x.2) → totalLength (cs.map seg) = len
  length : |totalLength (cs.map seg) - len| ≤ SF.epsilon * (1 + 4 * radiusBound k s)
  way : SF.epsilon * (1 + 1 / k) ≤ ccA k s → OneWay d cs
  cont : ∃ k0 k1, CurvatureContinuous k0 (cs.map seg) k1

theorem Rng.inv_le {k s : ℝ} (H : Rng k s) : 2 * (1 / k) ≤ radiusBound k s := by
  have := H.pos
  have := H.sigma
  have : 0 < k / s := by positivity
  rw [radiusBound, show 2 / k = 2 * (1 / k) by ring]; linarith

theorem Rng.ccR_le {k s : ℝ} (H : Rng k s) : ccR k s ≤ radiusBound k s := radius_le H.kappa H.sigma H.clothoid

section
variable {k s d k0 k1 len : ℝ} {ts : List (SF.Circle × SF.Configuration)} {cs : List SF.Control} {p q p' q' : Config}
  {t : ℕ}

theorem PlanOk.congr (h : PlanOk k s d k0 k1 ts cs p q len t) (hp : SameConfig p p') (hq : SameConfig q q') :
    PlanOk k s d k0 k1 ts cs p' q' len t := by
  cases h with
  | empty hc hw hl =>
    refine .empty hc ?_ hl
    have h1 : Near 0 p' p := Near.of_same le_rfl hp.symm
    have h2 : Near 0 q q' := Near.of_same le_rfl hq
    exact ((h1.within.trans hw).trans h2.within).mono (by linarith) (by linarith)
  | leg ht hE h0 hn h => exact .leg ht hE h0 hn (h.congr hp hq)

/-- All bounds for a leg. -/
theorem PlanOk.leads (h : PlanOk k s d k0 k1 ts cs p q len t) (H : Rng k s) :
    Leads (cs.map seg) p q len (SF.epsilon * (2 + 7 * radiusBound k s + 3 * totalLength (cs.map seg)))
      (3 * SF.epsilon) (SF.epsilon * (1 + 4 * radiusBound k s)) := by
  have he : (0:ℝ) < SF.epsilon := by norm_num [SF.epsilon]
  have hL := totalLength_nonneg (cs.map seg)
  have hR := H.ccR_le
  have hR0 := ccR_nonneg k s
  have hi := H.inv_le
  have hk := H.pos
  have hi0 : 0 < 1 / k := by positivity
  cases h with
  | empty hc hw hl =>
    rw [hc, hl]
    have := mul_nonneg he.le (hR0.trans hR)
    have := mul_nonneg he.le (totalLength_nonneg (SF.empty_controls.map seg))
    refine (CC00.empty_leads hw).mono ?_ ?_ ?_ <;> linarith
  | @leg _ E ht hE h0 hn h =>
    have hT := (h.track SF.epsilon he.le fun x _ => tiny_le x.1 x.2).leads
    have hn' : (ts.length : ℝ) ≤ 3 := by exact_mod_cast hn
    have hn0 : (0:ℝ) ≤ ts.length := Nat.cast_nonneg _
    have a1 : (ts.length : ℝ) * (2 * ccR k s * SF.epsilon + SF.epsilon * totalLength (cs.map seg))
        ≤ 3 * (2 * ccR k s * SF.epsilon + SF.epsilon * totalLength (cs.map seg)) :=
      mul_le_mul_of_nonneg_right hn' (by positivity)
    have a2 : (ts.length : ℝ) * (ccR k s * SF.epsilon) ≤ 3 * (ccR k s * SF.epsilon) :=
      mul_le_mul_of_nonneg_right hn' (by positivity)
    have a3 := mul_le_mul_of_nonneg_left hR he.le
    have a4 := mul_le_mul_of_nonneg_left hi he.le
    have a5 := mul_nonneg he.le (hR0.trans hR)
    refine hT.mono ?_ ?_ ?_
    · linarith
    · exact mul_le_mul_of_nonneg_right hn' he.le
    · linarith

theorem PlanOk.cont (h : PlanOk k s d k0 k1 ts cs p q len t) (ht : t ≠ 0) :
    CurvatureContinuous k0 (cs.map seg) k1 := by
  cases h with
  | empty => exact absurd rfl ht
  | leg _ _ _ _ h => exact (h.track SF.epsilon (by norm_num [SF.epsilon]) fun x _ => tiny_le x.1 x.2).cont

theorem PlanOk.flat (h : PlanOk k s d k0 k1 ts cs p q len t) :
    ∀ c ∈ cs, c.sigma = 0 → c.kappa = 0 ∨ |c.kappa| > SF.epsilon := by
  cases h with
  | empty hc =>
    subst hc
    intro c hc _
    rw [SF.empty_controls, List.mem_singleton] at hc
    rw [hc]; exact .inl rfl
  | leg _ _ _ _ h => exact (h.track SF.epsilon (by norm_num [SF.epsilon]) fun x _ => tiny_le x.1 x.2).flat

theorem PlanOk.limits (h : PlanOk k s d k0 k1 ts cs p q len t) (H : Rng k s) (h2 : t ≠ 2) (h3 : t ≠ 3) :
    CurvatureAtMost (k * (1 + 1 / 10 ^ 8)) (cs.map seg) ∧ SharpnessAtMost (s * (1 + 2 / 10 ^ 8)) (cs.map seg) := by
  have hk := H.pos
  have hs := H.sigma
  cases h with
  | empty hc =>
    subst hc
    refine ⟨?_, ?_⟩
    · intro c hc t _ _
      simp only [SF.empty_controls, List.map_cons, List.map_nil, List.mem_singleton, seg] at hc
      subst hc; simp only [zero_mul, add_zero, abs_zero]; positivity
    · intro c hc
      simp only [SF.empty_controls, List.map_cons, List.map_nil, List.mem_singleton, seg] at hc
      subst hc; simp only [abs_zero]; positivity
  | leg _ _ h0 _ h =>
    exact (h.track SF.epsilon (by norm_num [SF.epsilon]) fun x _ => tiny_le x.1 x.2).limits (h0 h2 h3)

/-- Without shortcuts. -/
theorem PlanOk.precise (h : PlanOk k s d k0 k1 ts cs p q len t) (h0 : t ≠ 0) (h2 : t ≠ 2) (h3 : t ≠ 3)
    (ht : ∀ x ∈ ts, SF.Circle.deflection x.1 x.2 = 0 ∨ SF.epsilon ≤ SF.Circle.deflection x.1 x.2) :
    Leads (cs.map seg) p q len 0 0 0 := by
  cases h with
  | empty => exact absurd rfl h0
  | leg _ _ hE _ h =>
    have := (h.track 0 le_rfl fun x hx => by
      unfold tiny
      split_ifs with hlt
      · rcases ht x hx with h0 | h0
        · exact h0.le
        · exact absurd hlt (not_lt.2 h0)
      · exact le_rfl).leads
    rw [hE h2 h3] at this
    exact this.mono (by simp) (by simp) (by simp)

theorem PlanOk.basic (h : PlanOk k s d k0 k1 ts cs p q len t) (H : Rng k s) : Basic k s d ts cs len := by
  have hl := (h.leads H).length
  cases h with
  | empty hc hw h0 =>
    refine ⟨by rw [hc]; simp [SF.empty_controls], fun _ => ?_, hl, fun _ => ?_, 0, 0, ?_⟩
    · rw [hc, h0]; simp [SF.empty_controls, seg, totalLength]
    · intro x hx
      rw [hc, SF.empty_controls, List.mem_singleton] at hx
      rw [hx, mul_zero]
    · rw [hc]; simp [SF.empty_controls, seg, CurvatureContinuous]
  | leg _ hE _ _ h =>
    exact ⟨h.ne, h.exact, hl, fun hA => h.way (hE.trans hA), _, _,
      (h.track SF.epsilon (by norm_num [SF.epsilon]) fun x _ => tiny_le x.1 x.2).cont⟩

/-- A turn with any error at the end. -/
theorem DLeg.basic {E : ℝ} (h : DLeg k s d k0 k1 [] E cs p q len) (H : Rng k s) (hw : OneWay d cs) :
    Basic k s d ts cs len := by
  have hl : totalLength (cs.map seg) = len := h.exact (by simp)
  refine ⟨h.ne, fun _ => hl, ?_, fun _ => hw, _, _,
    (h.track SF.epsilon (by norm_num [SF.epsilon]) fun x _ => tiny_le x.1 x.2).cont⟩
  have := (ccR_nonneg k s).trans H.ccR_le
  rw [hl, sub_self, abs_zero, SF.epsilon]; positivity

end

/-! ### Bounds -/

theorem RsOk.start_dist {c : SF.Circle} {k : ℝ} (h : RsOk c k) (hk : 0 < k) :
    ‖center c - (cfg c.start).pos‖ = 1 / k := by
  rw [h.cen, Spec.cen, add_sub_cancel_left, norm_cis_mul, ← sqrt_eq_norm]
  rcases sg_pm c.left with e | e <;> rw [e] <;>
    simp [sqrt_inv, sqrt_sq hk.le]

theorem RsOk.on_dist {c : SF.Circle} {k : ℝ} (h : RsOk c k) (hk : 0 < k) {q : SF.Configuration}
    (hq : SF.configuration_on_hc_cc_circle c q) :
    SF.configuration_distance c.start q ≤ 2 / k + SF.epsilon := by
  unfold SF.configuration_on_hc_cc_circle at hq
  simp only at hq
  by_cases h1 : |SF.point_distance c.xc c.yc q.x q.y - c.radius| > SF.epsilon
  · simp [h1] at hq
  push Not at h1
  have hd : SF.point_distance c.xc c.yc q.x q.y = ‖center c - (cfg q).pos‖ := by
    rw [SF.point_distance, sqrt_eq_norm, norm_sub_rev]
    congr 1
  rw [hd, h.radius] at h1
  have e : (cfg q).pos - (cfg c.start).pos = (center c - (cfg c.start).pos) - (center c - (cfg q).pos) := by ring
  rw [configuration_distance_eq, e]
  refine (norm_sub_le _ _).trans ?_
  rw [h.start_dist hk, show 2 / k = 2 * (1 / k) by ring]
  have := abs_le.1 h1
  linarith

theorem CircOk_start_dist {c : SF.Circle} {k s : ℝ} (h : CircOk c k s) :
    ‖center c - (cfg c.start).pos‖ = ccR k s := by
  rw [CC00.center_start h, h.ok.geom.ccR]

theorem centers_le {c1 c2 : SF.Circle} {a b : ℝ} (h1 : ‖center c1 - (cfg c1.start).pos‖ = a)
    (h2 : ‖center c2 - (cfg c2.start).pos‖ = b) :
    SF.center_distance c1 c2 ≤ a + b + SF.configuration_distance c1.start c2.start ∧
    SF.configuration_distance c1.start c2.start ≤ a + b + SF.center_distance c1 c2 := by
  rw [center_distance_eq, configuration_distance_eq]
  have n := norm_sub_le (center c2 - (cfg c2.start).pos) (center c1 - (cfg c1.start).pos)
  rw [h1, h2] at n
  constructor
  · rw [show center c2 - center c1 = (center c2 - (cfg c2.start).pos)
      - (center c1 - (cfg c1.start).pos) + ((cfg c2.start).pos - (cfg c1.start).pos) by ring]
    refine (norm_add_le _ _).trans ?_
    linarith
  · rw [show (cfg c2.start).pos - (cfg c1.start).pos = (center c2 - center c1)
      - ((center c2 - (cfg c2.start).pos) - (center c1 - (cfg c1.start).pos)) by ring]
    refine (norm_sub_le _ _).trans ?_
    linarith

theorem bound_le {k s : ℝ} (H : Rng k s) : 4 * TB k s + (2 * ccR k s + 2 * (1 / k)) ≤ 40 * (k / s) + 60 / k := by
  have hk := H.pos
  have hs := H.sigma
  have hr := H.ccR_le
  have e3 : 2 * π / k ≤ 8 * (1 / k) := by
    rw [show 2 * π / k = 2 * π * (1 / k) by ring]
    have : 0 < 1 / k := by positivity
    nlinarith [pi_lt_four]
  have h1 : 0 < k / s := by positivity
  have h2 : 0 < 1 / k := by positivity
  rw [radiusBound, show 2 / k = 2 * (1 / k) by ring] at hr
  rw [TB, turnBound, show 60 / k = 60 * (1 / k) by ring]
  linarith

theorem bound_finite {k s : ℝ} (h : InRange k s) {x : ℝ} (hx : x ≤ 10 ^ 100) :
    x + 40 * (k / s) + 60 / k < SF.dblMax := by
  have hk0 : 0 < k := lt_trans (by norm_num) h.kappa
  have hb := SF.dblMax_large
  have hki : 1 / k ≤ 10 ^ 4 := by
    have := h.kappa
    rw [div_le_iff₀ hk0]; linarith
  have h101 : (10:ℝ) ^ 100 * 10 ^ 3 ≤ 10 ^ 201 := by norm_num
  have h100 : (10:ℝ) ^ 4 * 10 ^ 3 ≤ 10 ^ 100 := by norm_num
  have h1 : (1:ℝ) ≤ 10 ^ 100 := by norm_num
  have := h.finite
  rw [show 60 / k = 60 * (1 / k) by ring]
  nlinarith

/-- A configuration with curvature. -/
def curvedOf (sp : SF.HCSpace) (s : SF.State) (l : Bool) : SF.Configuration :=
  SF.configuration s.x s.y s.theta (if l then sp.kappa else -sp.kappa)

theorem cfg_curvedOf (sp : SF.HCSpace) (s : SF.State) (l : Bool) : SameConfig (cfg (curvedOf sp s l)) (pose s) :=
  ⟨rfl, rfl, SF.twopify_angleEq _⟩

theorem sideCurvature_eq (k : ℝ) (l : Bool) : sideCurvature k l = sg l * k := by
  cases l <;> simp [sideCurvature, sg]

open Classical in
/-- The `continue` statements of the main loops. -/
theorem toward_guard {j : ℕ} (hj : j < 2) {x : ℝ} {a p : SF.CCPath} :
    (if j = 0 ∧ x < 0 then none else if j = 1 ∧ x > 0 then none else some a) = some p
      ↔ Toward (decide (j = 0)) x ∧ p = a := by
  unfold Toward
  obtain rfl | rfl : j = 0 ∨ j = 1 := by omega
  · by_cases hk : x < 0
    · simp [hk]
    · simp [hk, not_lt.1 hk, eq_comm]
  · by_cases hk : x > 0
    · simp [hk]
    · simp [hk, not_lt.1 hk, eq_comm]

namespace CC0pm

open SF.CC0pm

variable {sp : SF.HCSpace}

theorem end_start (s : SF.State) (j : ℕ) : (end_circle sp s j).start = curvedOf sp s (j = 0) := by
  unfold end_circle curvedOf
  by_cases h : j = 0 <;> simp [h, SF.circleAt]

theorem path_some {s1 s2 : SF.State} {n : ℕ} {p : SF.CCPath} :
    path sp s1 s2 n = some p ↔ Toward (n % 2 = 0) s2.kappa ∧
      p = circles_dubins_path sp (start_circle sp (startOf s1) (n / 2)) (end_circle sp s2 (n % 2)) := by
  unfold path
  rw [← toward_guard (by omega : n % 2 < 2)]
  rfl

theorem plan (h : InRange sp.kappa sp.sigma) (s1 s2 : SF.State) (hfar : dist2 s1 s2 ≤ 10 ^ 100) :
    ∃ l t r cs, Toward l s2.kappa ∧ cc0pm_dubins sp s1 s2 = some ⟨startOf s1, curvedOf sp s2 l, t, r⟩ ∧
      get_controls sp s1 s2 = some cs ∧ get_distance sp s1 s2 = some r.length ∧
      r.length ≤ dist2 s1 s2 + 40 * (sp.kappa / sp.sigma) + 60 / sp.kappa ∧
      Basic sp.kappa sp.sigma (sg sp.forwards) (turns t r) cs r.length ∧
      (Props.CC0pm.Opposed sp s1 s2 ∨
        PlanOk sp.kappa sp.sigma (sg sp.forwards) 0 (sideCurvature sp.kappa l) (turns t r) cs (pose s1) (pose s2)
          r.length t) := by
  have H := h.rng
  have hsc : ∀ i, CircOk (start_circle sp (startOf s1) i) sp.kappa sp.sigma := fun i => circOk_at H.kappa H.sigma H.clothoid (startOf s1) (decide (i = 0)) sp.forwards true
  have hec : ∀ j, RsOk (end_circle sp s2 j) sp.kappa := fun j => rsOk_at H.pos (if j = 0 then SF.configuration s2.x s2.y s2.theta sp.kappa
    else SF.configuration s2.x s2.y s2.theta (-sp.kappa)) (decide (j = 0)) (!sp.forwards) true
  obtain ⟨n0, hn0, hs0, hT0⟩ : ∃ n0 < 4, n0 % 2 = n0 / 2 ∧ Toward (n0 % 2 = 0) s2.kappa := by
    rcases le_total 0 s2.kappa with hk | hk
    · exact ⟨0, by norm_num, by norm_num, by simp [Toward, hk]⟩
    · exact ⟨3, by norm_num, by norm_num, by simp [Toward, hk]⟩
  have hb : (circles_dubins_path sp (start_circle sp (startOf s1) (n0 / 2)) (end_circle sp s2 (n0 % 2))).length
      ≤ dist2 s1 s2 + 40 * (sp.kappa / sp.sigma) + 60 / sp.kappa := by
    refine (same_side H (hsc (n0 / 2)).ok.geom rfl (by rw [hs0]; rfl)).trans ?_
    have hc := (centers_le (CircOk_start_dist (hsc (n0 / 2))) ((hec (n0 % 2)).start_dist H.pos)).1
    have hd : SF.configuration_distance (start_circle sp (startOf s1) (n0 / 2)).start
        (end_circle sp s2 (n0 % 2)).start = dist2 s1 s2 := by rw [end_start]; rfl
    have := bound_le H
    have := ccR_nonneg sp.kappa sp.sigma
    have := H.pos
    have : 0 < 1 / sp.kappa := by positivity
    change SF.center_distance (start_circle sp (startOf s1) (n0 / 2)) (end_circle sp s2 (n0 % 2)) ≤ _ + _
      + SF.configuration_distance (start_circle sp (startOf s1) (n0 / 2)).start (end_circle sp s2 (n0 % 2)).start at hc
    rw [hd] at hc
    linarith
  have hlt := hb.trans_lt (bound_finite h hfar)
  obtain ⟨n, p, hn, hp, hbest, hmin⟩ := best_of_spec hn0 (path_some.2 ⟨hT0, rfl⟩) hlt
  have hle := hmin n0 hn0 _ (path_some.2 ⟨hT0, rfl⟩)
  obtain ⟨hT, rfl⟩ := path_some.1 hp
  obtain ⟨t, r, he, hr⟩ := found H (hsc (n / 2)) rfl rfl (hec (n % 2)) rfl (hle.trans_lt hlt)
  have he' : circles_dubins_path sp (start_circle sp (startOf s1) (n / 2)) (end_circle sp s2 (n % 2))
      = ⟨startOf s1, curvedOf sp s2 (decide (n % 2 = 0)), t, r⟩ := by
    rw [← end_start]; exact he
  have hd : cc0pm_dubins sp s1 s2 = some ⟨startOf s1, curvedOf sp s2 (decide (n % 2 = 0)), t, r⟩ := by
    rw [cc0pm_dubins, hbest, he']
  have hlen : r.length ≤ dist2 s1 s2 + 40 * (sp.kappa / sp.sigma) + 60 / sp.kappa := by
    have := hle.trans hb
    rwa [he'] at this
  rcases hr with ⟨rfl, hlr, hdist, hcs, hrl⟩ | ⟨cs, hcs, hok⟩
  · refine ⟨_, _, r,
      SF.hc_turn_controls (start_circle sp (startOf s1) (n / 2)) (curvedOf sp s2 (decide (n % 2 = 0))) true,
      hT, hd, ?_, by rw [get_distance, hd]; rfl, hlen, ?_, .inl ?_⟩
    · rw [get_controls, hd]
      simp only [Option.bind_some, path_controls]
      rw [hcs]; rfl
    · have L := leg_hc_to H (hsc (n / 2)) rfl (q := curvedOf sp s2 (decide (n % 2 = 0))) le_rfl
      rw [hrl]
      have := DLeg.basic (ts := turns 2 r) L H (by
        have := hc_turn_way (c := start_circle sp (startOf s1) (n / 2)) rfl (curvedOf sp s2 (decide (n % 2 = 0))) true
        rwa [direction_to] at this)
      rw [← end_start] at this ⊢
      exact this
    · refine ⟨n / 2, n % 2, by omega, by omega, fun e => hlr ?_, hT, ?_⟩
      · change decide (n % 2 = 0) = decide (n / 2 = 0)
        rw [e]
      · have := hdist
        norm_num [SF.epsilon] at this
        exact this
  · have hok' : PlanOk sp.kappa sp.sigma (sg sp.forwards) 0 (sideCurvature sp.kappa (decide (n % 2 = 0))) (turns t r) cs
        (pose s1) (pose s2) r.length t := by
      rw [sideCurvature_eq]
      refine PlanOk.congr hok (cfg_startOf s1) ?_
      change SameConfig (cfg (end_circle sp s2 (n % 2)).start) _
      rw [end_start]
      exact cfg_curvedOf sp s2 _
    refine ⟨_, t, r, cs, hT, hd, ?_, by rw [get_distance, hd]; rfl, hlen, hok'.basic H, .inr hok'⟩
    rw [get_controls, hd, Option.bind_some, ← end_start]
    exact hcs

/-- Opposed circles only close to the start. -/
theorem opposed_near (h : InRange sp.kappa sp.sigma) {s1 s2 : SF.State} (ho : Props.CC0pm.Opposed sp s1 s2) :
    dist2 s1 s2 < 2 * radiusBound sp.kappa sp.sigma + 1 / 10000 := by
  have H := h.rng
  obtain ⟨i, j, _, _, _, _, hd⟩ := ho
  have hsc := circOk_at H.kappa H.sigma H.clothoid (startOf s1) (decide (i = 0)) sp.forwards true
  have hec := rsOk_at H.pos (if j = 0 then SF.configuration s2.x s2.y s2.theta sp.kappa
    else SF.configuration s2.x s2.y s2.theta (-sp.kappa)) (decide (j = 0)) (!sp.forwards) true
  have hc := (centers_le (CircOk_start_dist hsc) (hec.start_dist H.pos)).2
  have hd' : SF.configuration_distance (start_circle sp (startOf s1) i).start (end_circle sp s2 j).start
      = dist2 s1 s2 := by rw [end_start]; rfl
  change SF.configuration_distance (start_circle sp (startOf s1) i).start (end_circle sp s2 j).start
    ≤ _ + _ + SF.center_distance (start_circle sp (startOf s1) i) (end_circle sp s2 j) at hc
  rw [hd'] at hc
  have := H.ccR_le
  have := H.inv_le
  have := H.pos
  have : 0 < 1 / sp.kappa := by positivity
  have hd2 : SF.center_distance (start_circle sp (startOf s1) i) (end_circle sp s2 j) < 1 / 10000 := hd
  linarith

end CC0pm

namespace CCpm0

open SF.CCpm0

variable {sp : SF.HCSpace}

theorem start_start (s : SF.State) (i : ℕ) : (start_circle sp s i).start = curvedOf sp s (i = 0) := by
  unfold start_circle curvedOf
  by_cases h : i = 0 <;> simp [h, SF.circleAt]

theorem path_some {s1 s2 : SF.State} {n : ℕ} (hn : n < 4) {p : SF.CCPath} :
    path sp s1 s2 n = some p ↔ Toward (n / 2 = 0) s1.kappa ∧
      p = circles_dubins_path sp (start_circle sp s1 (n / 2)) (end_circle sp (startOf s2) (n % 2)) := by
  unfold path
  rw [← toward_guard (by omega : n / 2 < 2)]
  rfl

theorem plan (h : InRange sp.kappa sp.sigma) (s1 s2 : SF.State) (hfar : dist2 s1 s2 ≤ 10 ^ 100) :
    ∃ l t r cs, Toward l s1.kappa ∧ ccpm0_dubins sp s1 s2 = some ⟨curvedOf sp s1 l, startOf s2, t, r⟩ ∧
      get_controls sp s1 s2 = some cs ∧ get_distance sp s1 s2 = some r.length ∧
      r.length ≤ dist2 s1 s2 + 40 * (sp.kappa / sp.sigma) + 60 / sp.kappa ∧
      Basic sp.kappa sp.sigma (sg sp.forwards) (turns t r) cs r.length ∧
      (Props.CCpm0.Opposed sp s1 s2 ∨
        PlanOk sp.kappa sp.sigma (sg sp.forwards) (sideCurvature sp.kappa l) 0 (turns t r) cs (pose s1) (pose s2)
          r.length t) := by
  have H := h.rng
  have hec : ∀ j, CircOk (end_circle sp (startOf s2) j) sp.kappa sp.sigma := fun j =>
    circOk_at H.kappa H.sigma H.clothoid (startOf s2) (decide (j = 0)) (!sp.forwards) true
  have hsc : ∀ i, RsOk (start_circle sp s1 i) sp.kappa := fun i =>
    rsOk_at H.pos (if i = 0 then SF.configuration s1.x s1.y s1.theta sp.kappa
    else SF.configuration s1.x s1.y s1.theta (-sp.kappa)) (decide (i = 0)) sp.forwards true
  obtain ⟨n0, hn0, hs0, hT0⟩ : ∃ n0 < 4, n0 % 2 = n0 / 2 ∧ Toward (n0 / 2 = 0) s1.kappa := by
    rcases le_total 0 s1.kappa with hk | hk
    · exact ⟨0, by norm_num, by norm_num, by simp [Toward, hk]⟩
    · exact ⟨3, by norm_num, by norm_num, by simp [Toward, hk]⟩
  have hb : (circles_dubins_path sp (start_circle sp s1 (n0 / 2)) (end_circle sp (startOf s2) (n0 % 2))).length
      ≤ dist2 s1 s2 + 40 * (sp.kappa / sp.sigma) + 60 / sp.kappa := by
    refine (same_side H (hec (n0 % 2)).ok.geom rfl (by rw [hs0]; rfl)).trans ?_
    have hc := (centers_le ((hsc (n0 / 2)).start_dist H.pos) (CircOk_start_dist (hec (n0 % 2)))).1
    have hd : SF.configuration_distance (start_circle sp s1 (n0 / 2)).start
        (end_circle sp (startOf s2) (n0 % 2)).start = dist2 s1 s2 := by rw [start_start]; rfl
    have := bound_le H
    have := ccR_nonneg sp.kappa sp.sigma
    have := H.pos
    have : 0 < 1 / sp.kappa := by positivity
    rw [hd] at hc
    linarith
  have hlt := hb.trans_lt (bound_finite h hfar)
  obtain ⟨n, p, hn, hp, hbest, hmin⟩ := best_of_spec hn0 ((path_some hn0).2 ⟨hT0, rfl⟩) hlt
  have hle := hmin n0 hn0 _ ((path_some hn0).2 ⟨hT0, rfl⟩)
  obtain ⟨hT, rfl⟩ := (path_some hn).1 hp
  obtain ⟨t, r, he, hr⟩ := found H (hsc (n / 2)) (hec (n % 2)) rfl rfl rfl (hle.trans_lt hlt)
  have he' : circles_dubins_path sp (start_circle sp s1 (n / 2)) (end_circle sp (startOf s2) (n % 2))
      = ⟨curvedOf sp s1 (decide (n / 2 = 0)), startOf s2, t, r⟩ := by
    rw [← start_start]; exact he
  have hd : ccpm0_dubins sp s1 s2 = some ⟨curvedOf sp s1 (decide (n / 2 = 0)), startOf s2, t, r⟩ := by
    rw [ccpm0_dubins, hbest, he']
  have hlen : r.length ≤ dist2 s1 s2 + 40 * (sp.kappa / sp.sigma) + 60 / sp.kappa := by
    have := hle.trans hb
    rwa [he'] at this
  rcases hr with ⟨rfl, hlr, hdist, hcs, hrl⟩ | ⟨cs, hcs, hok⟩
  · refine ⟨_, _, r,
      SF.hc_turn_controls (end_circle sp (startOf s2) (n % 2)) (curvedOf sp s1 (decide (n / 2 = 0))) false,
      hT, hd, ?_, by rw [get_distance, hd]; rfl, hlen, ?_, .inl ?_⟩
    · rw [get_controls, hd]
      simp only [Option.bind_some, path_controls]
      rw [hcs]; rfl
    · have L := leg_hc_from H (hec (n % 2)) rfl (q := curvedOf sp s1 (decide (n / 2 = 0))) le_rfl
      rw [hrl]
      have hw := hc_turn_way (c := end_circle sp (startOf s2) (n % 2)) rfl (curvedOf sp s1 (decide (n / 2 = 0))) false
      rw [direction_from] at hw
      have := DLeg.basic (ts := turns 2 r) L H hw
      rw [show -sg (end_circle sp (startOf s2) (n % 2)).forward = sg sp.forwards from by
        change -sg (!sp.forwards) = _; rw [sg_not, neg_neg]] at this
      rw [← start_start] at this ⊢
      exact this
    · refine ⟨n / 2, n % 2, by omega, by omega, fun e => hlr ?_, hT, ?_⟩
      · change decide (n % 2 = 0) = decide (n / 2 = 0)
        rw [e]
      · have := hdist
        norm_num [SF.epsilon] at this
        exact this
  · have hok' : PlanOk sp.kappa sp.sigma (sg sp.forwards) (sideCurvature sp.kappa (decide (n / 2 = 0))) 0 (turns t r) cs
        (pose s1) (pose s2) r.length t := by
      rw [sideCurvature_eq]
      refine PlanOk.congr hok ?_ (cfg_startOf s2)
      change SameConfig (cfg (start_circle sp s1 (n / 2)).start) _
      rw [start_start]
      exact cfg_curvedOf sp s1 _
    refine ⟨_, t, r, cs, hT, hd, ?_, by rw [get_distance, hd]; rfl, hlen, hok'.basic H, .inr hok'⟩
    rw [get_controls, hd, Option.bind_some, ← start_start]
    exact hcs

/-- Opposed circles only close to the start. -/
theorem opposed_near (h : InRange sp.kappa sp.sigma) {s1 s2 : SF.State} (ho : Props.CCpm0.Opposed sp s1 s2) :
    dist2 s1 s2 < 2 * radiusBound sp.kappa sp.sigma + 1 / 10000 := by
  have H := h.rng
  obtain ⟨i, j, _, _, _, _, hd⟩ := ho
  have hec : CircOk (end_circle sp (startOf s2) j) sp.kappa sp.sigma :=
    circOk_at H.kappa H.sigma H.clothoid (startOf s2) (decide (j = 0)) (!sp.forwards) true
  have hsc : RsOk (start_circle sp s1 i) sp.kappa :=
    rsOk_at H.pos (if i = 0 then SF.configuration s1.x s1.y s1.theta sp.kappa
    else SF.configuration s1.x s1.y s1.theta (-sp.kappa)) (decide (i = 0)) sp.forwards true
  have hc := (centers_le (hsc.start_dist H.pos) (CircOk_start_dist hec)).2
  have hd' : SF.configuration_distance (start_circle sp s1 i).start (end_circle sp (startOf s2) j).start
      = dist2 s1 s2 := by rw [start_start]; rfl
  rw [hd'] at hc
  have := H.ccR_le
  have := H.inv_le
  have := H.pos
  have : 0 < 1 / sp.kappa := by positivity
  have hd2 : SF.center_distance (start_circle sp s1 i) (end_circle sp (startOf s2) j) < 1 / 10000 := hd
  linarith

end CCpm0

namespace CCpmpm

open SF.CCpmpm

variable {sp : SF.HCSpace}

theorem start_start (s : SF.State) (i : ℕ) : (start_circle sp s i).start = curvedOf sp s (i = 0) := by
  unfold start_circle curvedOf
  by_cases h : i = 0 <;> simp [h, SF.circleAt]

theorem end_start (s : SF.State) (i : ℕ) : (end_circle sp s i).start = curvedOf sp s (i = 0) := by
  unfold end_circle curvedOf
  by_cases h : i = 0 <;> simp [h, SF.circleAt]

theorem path_some {s1 s2 : SF.State} {n : ℕ} (hn : n < 4) {p : SF.CCPath} :
    path sp s1 s2 n = some p ↔ Toward (n / 2 = 0) s1.kappa ∧ Toward (n % 2 = 0) s2.kappa ∧
      p = circles_dubins_path sp (start_circle sp s1 (n / 2)) (end_circle sp s2 (n % 2)) := by
  unfold path
  rw [← toward_guard (by omega : n % 2 < 2)]
  by_cases h1 : n / 2 = 0 ∧ s1.kappa < 0
  · have t : ¬ Toward (n / 2 = 0) s1.kappa := by simp [Toward, h1]
    rw [if_pos h1]
    exact ⟨fun h => absurd h (by simp), fun h => absurd h.1 t⟩
  by_cases h2 : n / 2 = 1 ∧ s1.kappa > 0
  · have t : ¬ Toward (n / 2 = 0) s1.kappa := by simp [Toward, h2]
    rw [if_neg h1, if_pos h2]
    exact ⟨fun h => absurd h (by simp), fun h => absurd h.1 t⟩
  have t : Toward (n / 2 = 0) s1.kappa := by
    obtain h | h : n / 2 = 0 ∨ n / 2 = 1 := by omega
    · simpa [Toward, h] using h1
    · simpa [Toward, h] using h2
  rw [if_neg h1, if_neg h2]
  simp only [t, true_and]

theorem plan (h : InRange sp.kappa sp.sigma) (s1 s2 : SF.State) (hfar : dist2 s1 s2 ≤ 10 ^ 100) :
    ∃ l1 l2 t r cs, Toward l1 s1.kappa ∧ Toward l2 s2.kappa ∧
      ccpmpm_dubins sp s1 s2 = some ⟨curvedOf sp s1 l1, curvedOf sp s2 l2, t, r⟩ ∧
      get_controls sp s1 s2 = some cs ∧ get_distance sp s1 s2 = some r.length ∧
      r.length ≤ dist2 s1 s2 + 40 * (sp.kappa / sp.sigma) + 60 / sp.kappa ∧
      PlanOk sp.kappa sp.sigma (sg sp.forwards) (sideCurvature sp.kappa l1)
        (sideCurvature sp.kappa (if t = 2 then l1 else l2)) (turns t r) cs (pose s1) (pose s2) r.length t ∧
      (t = 2 → dist2 s1 s2 ≤ 2 / sp.kappa + SF.epsilon) := by
  have H := h.rng
  have hec : ∀ j, RsOk (end_circle sp s2 j) sp.kappa := fun i =>
    rsOk_at H.pos (if i = 0 then SF.configuration s2.x s2.y s2.theta sp.kappa
    else SF.configuration s2.x s2.y s2.theta (-sp.kappa)) (decide (i = 0)) (!sp.forwards) true
  have hsc : ∀ i, RsOk (start_circle sp s1 i) sp.kappa := fun i =>
    rsOk_at H.pos (if i = 0 then SF.configuration s1.x s1.y s1.theta sp.kappa
    else SF.configuration s1.x s1.y s1.theta (-sp.kappa)) (decide (i = 0)) sp.forwards true
  have hct : ∀ i, cturn sp (start_circle sp s1 i) = start_circle sp s1 i := fun i => rfl
  obtain ⟨n0, hn0, hT0, hT0'⟩ : ∃ n0 < 4, Toward (n0 / 2 = 0) s1.kappa ∧ Toward (n0 % 2 = 0) s2.kappa := by
    rcases le_total 0 s1.kappa with hk | hk <;> rcases le_total 0 s2.kappa with hk' | hk'
    · exact ⟨0, by norm_num, by simp [Toward, hk], by simp [Toward, hk']⟩
    · exact ⟨1, by norm_num, by simp [Toward, hk], by simp [Toward, hk']⟩
    · exact ⟨2, by norm_num, by simp [Toward, hk], by simp [Toward, hk']⟩
    · exact ⟨3, by norm_num, by simp [Toward, hk], by simp [Toward, hk']⟩
  have hb : (circles_dubins_path sp (start_circle sp s1 (n0 / 2)) (end_circle sp s2 (n0 % 2))).length
      ≤ dist2 s1 s2 + 40 * (sp.kappa / sp.sigma) + 60 / sp.kappa := by
    refine (always H (hsc (n0 / 2)) rfl (hct _) rfl).trans ?_
    have hc := (centers_le ((hsc (n0 / 2)).start_dist H.pos) ((hec (n0 % 2)).start_dist H.pos)).1
    have hd : SF.configuration_distance (start_circle sp s1 (n0 / 2)).start
        (end_circle sp s2 (n0 % 2)).start = dist2 s1 s2 := by rw [start_start, end_start]; rfl
    have := bound_le H
    have := ccR_nonneg sp.kappa sp.sigma
    have := H.pos
    have : 0 < 1 / sp.kappa := by positivity
    rw [hd] at hc
    linarith
  have hlt := hb.trans_lt (bound_finite h hfar)
  obtain ⟨n, p, hn, hp, hbest, hmin⟩ := best_of_spec hn0 ((path_some hn0).2 ⟨hT0, hT0', rfl⟩) hlt
  have hle := hmin n0 hn0 _ ((path_some hn0).2 ⟨hT0, hT0', rfl⟩)
  obtain ⟨hT, hT', rfl⟩ := (path_some hn).1 hp
  obtain ⟨t, r, he, ⟨cs, hcs, hok⟩, hon⟩ := found H (hsc (n / 2)) (hec (n % 2)) rfl rfl (hct _) (hle.trans_lt hlt)
  have he' : circles_dubins_path sp (start_circle sp s1 (n / 2)) (end_circle sp s2 (n % 2))
      = ⟨curvedOf sp s1 (decide (n / 2 = 0)), curvedOf sp s2 (decide (n % 2 = 0)), t, r⟩ := by
    rw [← start_start, ← end_start]; exact he
  have hd : ccpmpm_dubins sp s1 s2
      = some ⟨curvedOf sp s1 (decide (n / 2 = 0)), curvedOf sp s2 (decide (n % 2 = 0)), t, r⟩ := by
    rw [ccpmpm_dubins, hbest, he']
  have hlen : r.length ≤ dist2 s1 s2 + 40 * (sp.kappa / sp.sigma) + 60 / sp.kappa := by
    have := hle.trans hb
    rwa [he'] at this
  refine ⟨_, _, t, r, cs, hT, hT', hd, ?_, by rw [get_distance, hd]; rfl, hlen, ?_, fun h2 => ?_⟩
  · rw [get_controls, hd, Option.bind_some, ← start_start, ← end_start]
    exact hcs
  · rw [sideCurvature_eq, sideCurvature_eq]
    refine PlanOk.congr hok ?_ ?_
    · change SameConfig (cfg (start_circle sp s1 (n / 2)).start) _
      rw [start_start]
      exact cfg_curvedOf sp s1 _
    · change SameConfig (cfg (end_circle sp s2 (n % 2)).start) _
      rw [end_start]
      exact cfg_curvedOf sp s2 _
  · have := (hsc (n / 2)).on_dist H.pos (hon h2)
    rwa [start_start, end_start] at this

end CCpmpm

end Spec
