import Verif.Lemmas.CounterPlan
import Verif.Props.Dubins
import Verif.Props.ReedsShepp
import Verif.Props.Ekf
import Verif.Props.CcDubinsPm
import Verif.Props.HcReedsShepp

/-!
# C125: the step counters

`integrate`, `integrate_with_covariance` and `interpolate` count steps in variables of type `int`.  The number of steps
(`stepsTotal`) decides whether they overflow; it is bounded by the length of the path divided by the discretization.
-/

noncomputable section

namespace Props

open SF SF.Count Spec Spec.Count Real

/-! ## All controls -/

/-- **C125, `integrate` of Dubins and Reeds-Shepp.** The counters overflow exactly if the number of steps plus `extra` exceeds the
largest `int`; otherwise the path is that of `integrate` and has one state per step and one per control. -/
theorem C125_integrate {extra : ℤ} (he : 0 ≤ extra) {disc : ℝ} (hd : 0 < disc) (junk : ℝ × ℝ) (st : State) (cs : List Control) :
    (stepsTotal disc cs + extra ≤ 2 ^ 31 - 1 →
      Count.integrate extra disc junk st cs = some (stepsTotal disc cs + extra, SF.integrate disc junk st cs)) ∧
    (2 ^ 31 - 1 < stepsTotal disc cs + extra → Count.integrate extra disc junk st cs = none) ∧
    ((SF.integrate disc junk st cs).length : ℤ) = stepsTotal disc cs + cs.length := by
  unfold Count.integrate SF.integrate
  rw [reserve_eq hd he]
  refine ⟨fun h => ?_, fun h => ?_, integrateLoop_length hd _ _⟩
  · rw [if_pos (show _ ≤ intMax from h), Option.bind_some, integrateLoop_eq hd]
    · rfl
    · intro c hc
      have := ceil_le_total hd hc
      unfold intMax; omega
  · rw [if_neg (show ¬ _ ≤ intMax from not_le.2 h)]; rfl

/-- **C125, `integrate_with_covariance` of Dubins and Reeds-Shepp.** -/
theorem C125_integrate_with_covariance {extra : ℤ} (he : 0 ≤ extra) (e : EKF) {disc : ℝ} (hd : 0 < disc) (junk : State) (st : StateCov)
    (cs : List Control) :
    (stepsTotal disc cs + extra ≤ 2 ^ 31 - 1 → Count.integrate_with_covariance extra e disc junk st cs =
      some (stepsTotal disc cs + extra, SF.integrate_with_covariance e disc junk st cs)) ∧
    (2 ^ 31 - 1 < stepsTotal disc cs + extra → Count.integrate_with_covariance extra e disc junk st cs = none) := by
  unfold Count.integrate_with_covariance SF.integrate_with_covariance
  rw [reserve_eq hd he]
  refine ⟨fun h => ?_, fun h => ?_⟩
  · rw [if_pos (show _ ≤ intMax from h), Option.bind_some, covLoop_eq hd]
    · rfl
    · intro c hc
      have := ceil_le_total hd hc
      unfold intMax; omega
  · rw [if_neg (show ¬ _ ≤ intMax from not_le.2 h)]; rfl

/-- **C125, `integrate` of the other planners.** The number of states is at most one per step and one per control. -/
theorem C125_hc_integrate {disc : ℝ} (hd : 0 < disc) (st : State) {cs : List Control} (hne : cs ≠ []) :
    ∃ path, SF.hcIntegrate disc st cs = some path ∧
    (stepsTotal disc cs + 3 ≤ 2 ^ 31 - 1 → Count.hcIntegrate disc st cs = some (stepsTotal disc cs + 3, path)) ∧
    (2 ^ 31 - 1 < stepsTotal disc cs + 3 → Count.hcIntegrate disc st cs = none) ∧
    (path.length : ℤ) ≤ stepsTotal disc cs + cs.length := by
  obtain ⟨c, cs, rfl⟩ := List.exists_cons_of_ne_nil hne
  refine ⟨_, rfl, fun h => ?_, fun h => ?_, ?_⟩
  · unfold Count.hcIntegrate
    rw [reserve_eq hd (by norm_num), if_pos (show _ ≤ intMax from h), Option.bind_some]
    simp only [hcFirst, Option.bind_some]
    rw [hcIntegrateLoop_eq hd]
    · rfl
    · intro c hc
      have := ceil_le_total hd hc
      unfold intMax; omega
  · unfold Count.hcIntegrate
    rw [reserve_eq hd (by norm_num), if_neg (show ¬ _ ≤ intMax from not_le.2 h)]; rfl
  · rw [List.length_cons]
    have := hcIntegrateLoop_length_cons hd c cs ⟨st.x, st.y, st.theta, c.kappa, sgn c.delta_s⟩ rfl
    rw [List.length_cons]
    push_cast; linarith

/-- **C125, `integrate` along continuous curvature.** One state for each step besides the first: the reserved capacity suffices. -/
theorem C125_hc_integrate_continuous {disc : ℝ} (hd : 0 < disc) (st : State) {cs : List Control} (hne : cs ≠ [])
    (hs : Sharp cs) {k k' : ℝ} (hc : CurvatureContinuous k (cs.map seg) k') :
    ∃ path, SF.hcIntegrate disc st cs = some path ∧ (path.length : ℤ) = stepsTotal disc cs + 1 := by
  obtain ⟨c, cs, rfl⟩ := List.exists_cons_of_ne_nil hne
  refine ⟨_, rfl, ?_⟩
  rw [List.length_cons]
  push_cast
  rw [hcIntegrateLoop_length hd (c :: cs) hs _ (k' := k')]
  have : c.kappa = k := hc.1
  rw [← this] at hc
  exact hc

/-- **C125, `integrate_with_covariance` of the other planners.** -/
theorem C125_hc_integrate_with_covariance (e : EKF) {disc : ℝ} (hd : 0 < disc) (junk : State) (st : StateCov) {cs : List Control}
    (hne : cs ≠ []) :
    ∃ path, SF.hcIntegrateWithCovariance e disc junk st cs = some path ∧
    (stepsTotal disc cs + 3 ≤ 2 ^ 31 - 1 →
      Count.hcIntegrateWithCovariance e disc junk st cs = some (stepsTotal disc cs + 3, path)) ∧
    (2 ^ 31 - 1 < stepsTotal disc cs + 3 → Count.hcIntegrateWithCovariance e disc junk st cs = none) := by
  obtain ⟨c, cs, rfl⟩ := List.exists_cons_of_ne_nil hne
  refine ⟨_, rfl, fun h => ?_, fun h => ?_⟩
  · unfold Count.hcIntegrateWithCovariance
    rw [reserve_eq hd (by norm_num), if_pos (show _ ≤ intMax from h), Option.bind_some]
    simp only [hcFirst, Option.bind_some]
    rw [hcCovLoop_eq hd]
    · rfl
    · intro c hc
      have := ceil_le_total hd hc
      unfold intMax; omega
  · unfold Count.hcIntegrateWithCovariance
    rw [reserve_eq hd (by norm_num), if_neg (show ¬ _ ≤ intMax from not_le.2 h)]; rfl

theorem s_inter_nonneg (cs : List Control) {t : ℝ} (ht : 0 < t) : 0 ≤ if t > 1 then s_path cs else t * s_path cs := by
  have h0 := s_path_nonneg cs
  split_ifs
  · exact h0
  · positivity

/-- **C125, `interpolate`.** The counters do not overflow, at any `t`, if no single control has more than `2^31 - 1` steps. -/
theorem C125_interpolate {disc : ℝ} (hd : 0 < disc) (junk : ℝ × ℝ) (st : State) (cs : List Control)
    (hc : ∀ c ∈ cs, ⌈|c.delta_s| / disc⌉ ≤ 2 ^ 31 - 1) (t : ℝ) :
    Count.interpolate disc junk st cs t = some (SF.interpolate disc junk st cs t) := by
  unfold Count.interpolate SF.interpolate
  simp only
  by_cases h : t ≤ 0
  · rw [if_pos h, if_pos h]
  · rw [if_neg h, if_neg h]
    exact interpolateLoop_eq hd hc _ (s_inter_nonneg cs (not_le.1 h)) _

theorem C125_hc_interpolate {disc : ℝ} (hd : 0 < disc) (st : State) (cs : List Control)
    (hc : ∀ c ∈ cs, ⌈|c.delta_s| / disc⌉ ≤ 2 ^ 31 - 1) (t : ℝ) :
    Count.hcInterpolate disc st cs t = SF.hcInterpolate disc st cs t := by
  unfold Count.hcInterpolate SF.hcInterpolate
  cases hcFirst st cs with
  | none => rfl
  | some s =>
    simp only [Option.bind_some, Option.map_some]
    by_cases h : t ≤ 0
    · rw [if_pos h, if_pos h]
    · rw [if_neg h, if_neg h]
      exact hcInterpolateLoop_eq hd hc _ (s_inter_nonneg cs (not_le.1 h)) _

/-! ## The planners -/

/-- **C125, Dubins.** `get_path` does not overflow if the distance, plus a bound for the turns, has at most `2^31 - 7` steps; the reserved
capacity is then the number of states. -/
theorem C125_dubins {sp : DubinsSpace} (hv : sp.Valid) (junk : ℝ × ℝ) (s1 s2 : State) (hfar : sp.kappa * dist2 s1 s2 ≤ 10 ^ 200)
    (h : (dist2 s1 s2 + (4 * π + 2) / sp.kappa) / sp.discretization ≤ 2 ^ 31 - 7) :
    ∃ n, dubinsPath sp junk s1 s2 = some (n, sp.get_path junk s1 s2) ∧ ((sp.get_path junk s1 s2).length : ℤ) = n := by
  obtain ⟨hl, -⟩ := C17_dubins_controls hv s1 s2 hfar
  have hb := (C20_dubins_bounds hv s1 s2 hfar).2.2
  rw [C16_dubins_distance hv s1 s2 hfar] at hb
  have hf := fits hv.2 hl.le (show lengthOf _ ≤ _ from hb.le) 3 (by rw [intMax]; push_cast; linarith)
  obtain ⟨h1, -, h3⟩ := C125_integrate (extra := 3) (by norm_num) hv.2 junk s1 (sp.get_controls s1 s2)
  refine ⟨_, h1 hf, ?_⟩
  rw [hl] at h3
  exact h3

/-- **C125, Reeds-Shepp.** The number of states is at most the reserved capacity. -/
theorem C125_rs {sp : RSSpace} (hv : sp.Valid) (junk : ℝ × ℝ) (s1 s2 : State) (hfar : sp.kappa * dist2 s1 s2 ≤ 10 ^ 200)
    (h : (4 * dist2 s1 s2 + 14 / sp.kappa) / sp.discretization ≤ 2 ^ 31 - 11) :
    ∃ n, rsPath sp junk s1 s2 = some (n, sp.get_path junk s1 s2) ∧ ((sp.get_path junk s1 s2).length : ℤ) ≤ n := by
  obtain ⟨-, hl, -⟩ := C43_rs_controls hv s1 s2 hfar
  have hb := (C24_rs_finds_path hv s1 s2 hfar).1
  rw [C23_rs_distance hv s1 s2] at hb
  have hf := fits hv.2 hl (show lengthOf _ ≤ _ from hb) 5 (by rw [intMax]; push_cast; linarith)
  obtain ⟨h1, -, h3⟩ := C125_integrate (extra := 5) (by norm_num) hv.2 junk s1 (sp.get_controls s1 s2)
  refine ⟨_, h1 hf, ?_⟩
  have h4 : ((sp.get_controls s1 s2).length : ℤ) ≤ 5 := by exact_mod_cast hl
  have h5 : ((sp.get_path junk s1 s2).length : ℤ) = _ := h3
  rw [h5]; linarith

/-- Distances that `int` counters can count, with two thousand million steps. -/
def Countable (sp : HCSpace) (s1 s2 : State) : Prop :=
  dist2 s1 s2 + 60 * (sp.kappa / sp.sigma) + 70 / sp.kappa + 1 ≤ 2 * 10 ^ 9 * sp.discretization

/-- No counter overflows in `get_path`, `get_path_with_covariance` and `interpolate` with the controls `cs`. -/
def PathCounted (sp : HCSpace) (s1 : State) (cs : List Control) : Prop :=
  (∃ n path, Count.hcIntegrate sp.discretization s1 cs = some (n, path) ∧ SF.hcIntegrate sp.discretization s1 cs = some path) ∧
  (∀ (e : EKF) (junk : State) (st : StateCov), ∃ n path,
    Count.hcIntegrateWithCovariance e sp.discretization junk st cs = some (n, path) ∧
    SF.hcIntegrateWithCovariance e sp.discretization junk st cs = some path) ∧
  ∀ t, Count.hcInterpolate sp.discretization s1 cs t = SF.hcInterpolate sp.discretization s1 cs t

theorem counted {sp : HCSpace} (hd : 0 < sp.discretization) (s1 : State) {cs : List Control} (hne : cs ≠ []) (hn : cs.length ≤ 17)
    (h : lengthOf cs ≤ 2 * 10 ^ 9 * sp.discretization) : PathCounted sp s1 cs := by
  have hf := fits hd hn h 3 (by
    rw [mul_div_assoc, div_self hd.ne', intMax]; push_cast; norm_num)
  obtain ⟨path, h1, h2, -⟩ := C125_hc_integrate hd s1 hne
  refine ⟨⟨_, path, h2 hf, h1⟩, fun e junk st => ?_, fun t => C125_hc_interpolate hd s1 cs (fun c hc => ?_) t⟩
  · obtain ⟨path, h1, h2, -⟩ := C125_hc_integrate_with_covariance e hd junk st hne
    exact ⟨_, path, h2 hf, h1⟩
  · have := ceil_le_total hd hc
    unfold intMax at hf
    omega

variable {sp : HCSpace}

/-- **C125, CC00-Dubins.** -/
theorem C125_cc00 (h : InRange sp.kappa sp.sigma) (hd : 0 < sp.discretization) (s1 s2 : State) (hfar : dist2 s1 s2 ≤ 10 ^ 100)
    (hc : Countable sp s1 s2) : ∃ cs, CC00.get_controls sp s1 s2 = some cs ∧ PathCounted sp s1 cs := by
  obtain ⟨h1, -, cs, hcs, hne⟩ := C38_cc00_always h s1 s2 hfar
  obtain ⟨cs', hcs', h2⟩ := C37_cc00_distance_all h s1 s2 hfar
  obtain rfl : cs = cs' := Option.some.inj (hcs.symm.trans hcs')
  refine ⟨cs, hcs, counted hd s1 hne ((cc00_len hcs).trans (by omega)) ?_⟩
  have hk : 0 < 1 / sp.kappa := one_div_pos.2 (lt_trans (by norm_num) h.kappa)
  have hs := h.clothoid
  have := (abs_sub_le_iff.1 h2).2
  unfold Countable at hc
  unfold radiusBound at this
  rw [div_eq_mul_one_div 40] at h1
  rw [div_eq_mul_one_div 2] at this
  rw [div_eq_mul_one_div 70] at hc
  linarith

theorem pm_counted (h : InRange sp.kappa sp.sigma) (hd : 0 < sp.discretization) {s1 s2 : State} (hc : Countable sp s1 s2)
    {cs : List Control} (hne : cs ≠ []) (hn : cs.length ≤ 17) {len : ℝ}
    (h1 : len ≤ dist2 s1 s2 + 50 * (sp.kappa / sp.sigma) + 60 / sp.kappa)
    (h2 : |len - lengthOf cs| ≤ 1 / 10000 * (1 + 4 * radiusBound sp.kappa sp.sigma)) : PathCounted sp s1 cs := by
  refine counted hd s1 hne hn ?_
  have hk : 0 < 1 / sp.kappa := one_div_pos.2 (lt_trans (by norm_num) h.kappa)
  have hs := h.clothoid
  have := (abs_sub_le_iff.1 h2).2
  unfold Countable at hc
  unfold radiusBound at this
  rw [div_eq_mul_one_div 60] at h1
  rw [div_eq_mul_one_div 2] at this
  rw [div_eq_mul_one_div 70] at hc
  linarith

theorem pm_bound (h : InRange sp.kappa sp.sigma) {s1 s2 : State} {len : ℝ}
    (h1 : len ≤ dist2 s1 s2 + 40 * (sp.kappa / sp.sigma) + 60 / sp.kappa) :
    len ≤ dist2 s1 s2 + 50 * (sp.kappa / sp.sigma) + 60 / sp.kappa := by
  have := h.clothoid
  have : 0 ≤ dist2 s1 s2 := sqrt_nonneg _
  linarith

/-- **C125, CC0pm-Dubins.** -/
theorem C125_cc0pm (h : InRange sp.kappa sp.sigma) (hd : 0 < sp.discretization) (s1 s2 : State) (hfar : dist2 s1 s2 ≤ 10 ^ 100)
    (hc : Countable sp s1 s2) : ∃ cs, CC0pm.get_controls sp s1 s2 = some cs ∧ PathCounted sp s1 cs := by
  obtain ⟨len, cs, hl, h1, -, hcs, hne⟩ := C56_cc0pm_always h s1 s2 hfar
  obtain ⟨-, cs', len', -, hcs', hl', h2, -⟩ := C55_cc0pm_distance h s1 s2 hfar
  obtain rfl : cs = cs' := Option.some.inj (hcs.symm.trans hcs')
  obtain rfl : len = len' := Option.some.inj (hl.symm.trans hl')
  exact ⟨cs, hcs, pm_counted h hd hc hne ((cc0pm_len hcs).trans (by omega)) (pm_bound h h1) h2⟩

/-- **C125, CCpm0-Dubins.** -/
theorem C125_ccpm0 (h : InRange sp.kappa sp.sigma) (hd : 0 < sp.discretization) (s1 s2 : State) (hfar : dist2 s1 s2 ≤ 10 ^ 100)
    (hc : Countable sp s1 s2) : ∃ cs, CCpm0.get_controls sp s1 s2 = some cs ∧ PathCounted sp s1 cs := by
  obtain ⟨len, cs, hl, h1, -, hcs, hne⟩ := C56_ccpm0_always h s1 s2 hfar
  obtain ⟨-, cs', len', -, hcs', hl', h2, -⟩ := C55_ccpm0_distance h s1 s2 hfar
  obtain rfl : cs = cs' := Option.some.inj (hcs.symm.trans hcs')
  obtain rfl : len = len' := Option.some.inj (hl.symm.trans hl')
  exact ⟨cs, hcs, pm_counted h hd hc hne ((ccpm0_len hcs).trans (by omega)) (pm_bound h h1) h2⟩

/-- **C125, CCpmpm-Dubins.** -/
theorem C125_ccpmpm (h : InRange sp.kappa sp.sigma) (hd : 0 < sp.discretization) (s1 s2 : State) (hfar : dist2 s1 s2 ≤ 10 ^ 100)
    (hc : Countable sp s1 s2) : ∃ cs, CCpmpm.get_controls sp s1 s2 = some cs ∧ PathCounted sp s1 cs := by
  obtain ⟨len, cs, hl, h1, -, hcs, hne⟩ := C56_ccpmpm_always h s1 s2 hfar
  obtain ⟨-, cs', len', -, hcs', hl', h2, -⟩ := C55_ccpmpm_distance h s1 s2 hfar
  obtain rfl : cs = cs' := Option.some.inj (hcs.symm.trans hcs')
  obtain rfl : len = len' := Option.some.inj (hl.symm.trans hl')
  exact ⟨cs, hcs, pm_counted h hd hc hne ((ccpmpm_len hcs).trans (by omega)) (pm_bound h h1) h2⟩

/-- **C125, HC00, HC0pm, HCpm0 and HCpmpm-Reeds-Shepp.** -/
theorem C125_hc (pm1 pm2 : Bool) (h : InRange sp.kappa sp.sigma) (hd : 0 < sp.discretization) (s1 s2 : State)
    (hfar : dist2 s1 s2 ≤ 10 ^ 100) (hc : Countable sp s1 s2) :
    ∃ cs, HcRs.get_controls pm1 pm2 sp s1 s2 = some cs ∧ PathCounted sp s1 cs := by
  obtain ⟨len, cs, hl, h1, -, hcs, hne⟩ := C72_hc_always (pm1 := pm1) (pm2 := pm2) h s1 s2 hfar
  obtain ⟨-, cs', len', -, hcs', hl', h2, -⟩ := C71_hc_distance (pm1 := pm1) (pm2 := pm2) h s1 s2 hfar
  obtain rfl : cs = cs' := Option.some.inj (hcs.symm.trans hcs')
  obtain rfl : len = len' := Option.some.inj (hl.symm.trans hl')
  exact ⟨cs, hcs, pm_counted h hd hc hne ((Spec.HcRs.controls_len hcs).trans (by omega)) (pm_bound h h1) h2⟩

/-- **C125, CC-Dubins.** -/
theorem C125_cc (junk : ℝ) (h : InRange sp.kappa sp.sigma) (hd : 0 < sp.discretization) (s1 s2 : State) (hr : InReach sp s1 s2)
    (hc : Countable sp s1 s2) {cs : List Control} (hcs : SF.CC.IsControls sp junk s1 s2 cs) : PathCounted sp s1 cs := by
  obtain ⟨⟨len, hl, h1⟩, -, hne⟩ := C62_cc_always (junk := junk) h s1 s2 hr
  obtain ⟨len', hl', h2⟩ := C61_cc_distance (junk := junk) h s1 s2 hr
  obtain rfl : len = len' := Option.some.inj (hl.symm.trans hl')
  exact pm_counted h hd hc (hne cs hcs) (cc_any_len hcs) h1 (by rw [abs_sub_comm]; exact h2 cs hcs)

/-- **C125, HC-Reeds-Shepp.** -/
theorem C125_hcrs (junk : ℝ) (h : InRange sp.kappa sp.sigma) (hd : 0 < sp.discretization) (s1 s2 : State) (hr : InReach sp s1 s2)
    (hc : Countable sp s1 s2) {cs : List Control} (hcs : SF.HC.IsControls sp junk s1 s2 cs) : PathCounted sp s1 cs := by
  obtain ⟨⟨len, hl, h1⟩, -, hne⟩ := C78_hcrs_always (junk := junk) h s1 s2 hr
  obtain ⟨len', hl', h2⟩ := C77_hcrs_distance (junk := junk) h s1 s2 hr
  obtain rfl : len = len' := Option.some.inj (hl.symm.trans hl')
  have h0 : 0 ≤ dist2 s1 s2 := sqrt_nonneg _
  have h1' : len ≤ dist2 s1 s2 + 50 * (sp.kappa / sp.sigma) + 60 / sp.kappa := by linarith
  exact pm_counted h hd hc (hne cs hcs) (hc_any_len hcs) h1' (by rw [abs_sub_comm]; exact h2 cs hcs)

/-- **C125, CC00-Reeds-Shepp.** The tolerance of the length enters with a factor (`missBound`). -/
theorem C125_cc00_rs (h : InRange sp.kappa sp.sigma) (hd : 0 < sp.discretization) (s1 s2 : State) (hfar : dist2 s1 s2 ≤ 10 ^ 100)
    (hc : dist2 s1 s2 + 60 * (sp.kappa / sp.sigma) + 70 / sp.kappa + missBound sp.kappa sp.sigma ≤ 2 * 10 ^ 9 * sp.discretization)
    {cs : List Control} (hcs : CcRs.get_controls sp s1 s2 = some cs) (hne : cs ≠ []) : PathCounted sp s1 cs := by
  have h1 := (C85_cc00_rs_always h s1 s2 hfar).1
  have h2 := C84_cc00_rs_distance_all h s1 s2 hfar hcs
  refine counted hd s1 hne ((Spec.CcRs.controls_len hcs).trans (by omega)) ?_
  have hk : 0 < 1 / sp.kappa := one_div_pos.2 (lt_trans (by norm_num) h.kappa)
  have hs := h.clothoid
  have h0 : 0 ≤ dist2 s1 s2 := sqrt_nonneg _
  have hR : 0 ≤ radiusBound sp.kappa sp.sigma := by
    unfold radiusBound; rw [div_eq_mul_one_div 2]; linarith
  have hm : 0 ≤ missBound sp.kappa sp.sigma := by
    have hk' : 0 < sp.kappa := lt_trans (by norm_num) h.kappa
    have hs' := h.sigma
    unfold missBound clothoidBound
    positivity
  have := (abs_sub_le_iff.1 h2).2
  unfold radiusBound at this
  rw [div_eq_mul_one_div 60] at h1
  rw [div_eq_mul_one_div 2] at this
  rw [div_eq_mul_one_div 70] at hc
  linarith

/-! ## Cases -/

/-- Ten metres in steps of ten centimetres, one-metre clothoids. -/
example : Countable ⟨1, 1, 1 / 10, true⟩ ⟨0, 0, 0, 0, 0⟩ ⟨10, 0, 0, 0, 0⟩ ∧ InRange 1 1 := by
  refine ⟨?_, ⟨by norm_num, by norm_num, by norm_num, by norm_num⟩⟩
  have e : dist2 ⟨0, 0, 0, 0, 0⟩ ⟨10, 0, 0, 0, 0⟩ = 10 := by
    rw [dist2, show ((10:ℝ) - 0) ^ 2 + (0 - 0) ^ 2 = 10 ^ 2 by norm_num, sqrt_sq (by norm_num)]
  unfold Countable
  rw [e]
  norm_num

/-- Two controls with three steps each, and the curvature is continuous. -/
example : stepsTotal 1 [⟨5 / 2, 0, 1⟩, ⟨-3, 5 / 2, 0⟩] = 6 ∧ Sharp [⟨5 / 2, 0, 1⟩, ⟨-3, 5 / 2, 0⟩] ∧
    CurvatureContinuous 0 ([⟨5 / 2, 0, 1⟩, ⟨-3, 5 / 2, 0⟩].map seg) (5 / 2) := by
  refine ⟨?_, ?_, ?_⟩
  · have h1 : ⌈|(5 / 2 : ℝ)| / 1⌉ = 3 := by
      rw [abs_of_pos (by norm_num), Int.ceil_eq_iff]; norm_num
    have h2 : ⌈|(-3 : ℝ)| / 1⌉ = 3 := by
      rw [abs_of_neg (by norm_num), Int.ceil_eq_iff]; norm_num
    rw [stepsTotal_cons, stepsTotal_cons, h1, h2]
    norm_num [stepsTotal]
  · intro c hc
    rcases List.mem_cons.1 hc with rfl | hc
    · right; norm_num
    · rw [List.mem_singleton] at hc; subst hc; left; rfl
  · refine ⟨rfl, ?_, ?_⟩
    · simp only [seg]; rw [abs_of_pos (by norm_num : (0:ℝ) < 5 / 2)]; norm_num
    · simp [seg, CurvatureContinuous]

/-- **C125, overflow.** With positive but tiny discretization, `get_path` of valid Dubins and Reeds-Shepp planners overflows on the way to
a goal ten metres away. -/
theorem C125_overflow_witness : ∃ (d : DubinsSpace) (r : RSSpace) (s1 s2 : State), d.Valid ∧ r.Valid ∧ dist2 s1 s2 = 10 ∧
    ∀ junk, dubinsPath d junk s1 s2 = none ∧ rsPath r junk s1 s2 = none := by
  have e : dist2 ⟨0, 0, 0, 0, 0⟩ ⟨10, 0, 0, 0, 0⟩ = 10 := by
    rw [dist2, show ((10:ℝ) - 0) ^ 2 + (0 - 0) ^ 2 = 10 ^ 2 by norm_num, sqrt_sq (by norm_num)]
  have hv : (⟨1, 1 / 10 ^ 9, true⟩ : DubinsSpace).Valid := ⟨by norm_num, by norm_num⟩
  have hr : (⟨1, 1 / 10 ^ 9⟩ : RSSpace).Valid := ⟨by norm_num, by norm_num⟩
  refine ⟨⟨1, 1 / 10 ^ 9, true⟩, ⟨1, 1 / 10 ^ 9⟩, ⟨0, 0, 0, 0, 0⟩, ⟨10, 0, 0, 0, 0⟩, hv, hr, e, fun junk => ⟨?_, ?_⟩⟩
  · have hb := (C20_dubins_bounds hv ⟨0, 0, 0, 0, 0⟩ ⟨10, 0, 0, 0, 0⟩ (by rw [e]; norm_num)).1
    rw [C16_dubins_distance hv _ _ (by rw [e]; norm_num), e] at hb
    refine (C125_integrate (extra := 3) (by norm_num) hv.2 junk _ _).2.1 ?_
    have hg := stepsTotal_ge (disc := 1 / 10 ^ 9) ((⟨1, 1 / 10 ^ 9, true⟩ : DubinsSpace).get_controls ⟨0, 0, 0, 0, 0⟩ ⟨10, 0, 0, 0, 0⟩)
    rw [← lengthOf_eq] at hg
    change _ ≤ lengthOf _ at hb
    rw [div_div_eq_mul_div, div_one] at hg
    have : ((2 ^ 31 - 1 : ℤ) : ℝ) < _ := lt_of_lt_of_le (by norm_num at hb ⊢; linarith) hg
    have := Int.cast_lt.1 this
    change _ < stepsTotal (1 / 10 ^ 9) _ + 3
    omega
  · have hb := C26_rs_ge_euclid hr ⟨0, 0, 0, 0, 0⟩ ⟨10, 0, 0, 0, 0⟩ (by rw [e]; norm_num)
    rw [C23_rs_distance hr, e] at hb
    refine (C125_integrate (extra := 5) (by norm_num) hr.2 junk _ _).2.1 ?_
    have hg := stepsTotal_ge (disc := 1 / 10 ^ 9) ((⟨1, 1 / 10 ^ 9⟩ : RSSpace).get_controls ⟨0, 0, 0, 0, 0⟩ ⟨10, 0, 0, 0, 0⟩)
    rw [← lengthOf_eq] at hg
    change _ ≤ lengthOf _ at hb
    rw [div_div_eq_mul_div, div_one] at hg
    have : ((2 ^ 31 - 1 : ℤ) : ℝ) < _ := lt_of_lt_of_le (by norm_num at hb ⊢; linarith) hg
    have := Int.cast_lt.1 this
    change _ < stepsTotal (1 / 10 ^ 9) _ + 5
    omega

end Props
