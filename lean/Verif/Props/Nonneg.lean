import Verif.Lemmas.CcNonneg
import Verif.Props.SelfDistance

/-!
# Distances are not negative: C139
-/

noncomputable section

namespace Props

open SF Spec Real

variable {sp : HCSpace} {junk : ℝ}

/-- **C139, Reeds-Shepp.** -/
theorem C139_rs {sp : RSSpace} (hv : sp.Valid) (s1 s2 : State) : 0 ≤ sp.get_distance s1 s2 := by
  rw [C23_rs_distance hv]
  exact totalLength_nonneg _

/-- **C139, Dubins.** -/
theorem C139_dubins {sp : DubinsSpace} (hv : sp.Valid) (s1 s2 : State) (hfar : sp.kappa * dist2 s1 s2 ≤ 10 ^ 200) :
    0 ≤ sp.get_distance s1 s2 := by
  rw [C16_dubins_distance hv s1 s2 hfar]
  exact totalLength_nonneg _

/-- **C139, CC00-Dubins.** -/
theorem C139_cc00 (h : InRange sp.kappa sp.sigma) (s1 s2 : State) : 0 ≤ CC00.get_distance sp s1 s2 :=
  cc00_distance_nonneg h.rng s1 s2

/-- **C139, CC0pm-Dubins.** -/
theorem C139_cc0pm (h : InRange sp.kappa sp.sigma) (s1 s2 : State) {x : ℝ} (hx : CC0pm.get_distance sp s1 s2 = some x) :
    0 ≤ x := cc0pm_distance_nonneg h.rng hx

/-- **C139, CCpm0-Dubins.** -/
theorem C139_ccpm0 (h : InRange sp.kappa sp.sigma) (s1 s2 : State) {x : ℝ} (hx : CCpm0.get_distance sp s1 s2 = some x) :
    0 ≤ x := ccpm0_distance_nonneg h.rng hx

/-- **C139, CCpmpm-Dubins.** -/
theorem C139_ccpmpm (h : InRange sp.kappa sp.sigma) (s1 s2 : State) {x : ℝ} (hx : CCpmpm.get_distance sp s1 s2 = some x) :
    0 ≤ x := ccpmpm_distance_nonneg h.rng hx

/-- **C139, CC-Dubins.** For states in reach there is a distance, and it is not negative. -/
theorem C139_cc (h : InRange sp.kappa sp.sigma) (s1 s2 : State) (hr : InReach sp s1 s2) :
    ∃ x, CC.get_distance sp junk s1 s2 = some x ∧ 0 ≤ x := by
  obtain ⟨x, hx, _⟩ := (C62_cc_always (junk := junk) h s1 s2 hr).1
  refine ⟨x, hx, ?_⟩
  unfold CC.get_distance min_distance at hx
  obtain ⟨l, hl, hx⟩ := Option.bind_eq_some_iff.1 hx
  obtain ⟨p, -, e⟩ := mapM_inv hl (List.min?_eq_some_iff.1 hx).1
  unfold pair_distance at e
  by_cases hE : state_equal p.1.1 p.2.1
  · rw [if_pos hE] at e
    rw [← Option.some.inj e]; exact abs_nonneg _
  · rw [if_neg hE] at e
    obtain ⟨y, hy, rfl⟩ := Option.map_eq_some_iff.1 e
    have h0 : 0 ≤ y := by
      unfold SubPlanners.call CC.distance_planners at hy
      split_ifs at hy
      · have e0 : CC00.get_distance sp p.1.1 p.2.1 = y := Option.some.inj hy
        rw [← e0]
        exact cc00_distance_nonneg h.rng _ _
      · exact cc0pm_distance_nonneg h.rng hy
      · exact ccpm0_distance_nonneg h.rng hy
      · exact ccpmpm_distance_nonneg h.rng hy
    have a1 := abs_nonneg p.1.2.delta_s
    have a2 := abs_nonneg p.2.2.delta_s
    simp only
    split_ifs <;> linarith

/-- **C139, CC00-Reeds-Shepp.** -/
theorem C139_cc00_rs (h : InRange sp.kappa sp.sigma) (s1 s2 : State) : 0 ≤ CcRs.get_distance sp s1 s2 :=
  cc_rs_distance_nonneg h.rng s1 s2

/-- **C139, HC00-, HC0pm-, HCpm0- and HCpmpm-Reeds-Shepp.** -/
theorem C139_hc_fixed (pm1 pm2 : Bool) (h : InRange sp.kappa sp.sigma) (s1 s2 : State) {x : ℝ}
    (hx : HcRs.get_distance pm1 pm2 sp s1 s2 = some x) : 0 ≤ x := hc_distance_nonneg h.rng hx

/-- **C139, HC-Reeds-Shepp.** For states in reach there is a distance, and it is not negative. -/
theorem C139_hc (h : InRange sp.kappa sp.sigma) (s1 s2 : State) (hr : InReach sp s1 s2) :
    ∃ x, HC.get_distance sp junk s1 s2 = some x ∧ 0 ≤ x := by
  obtain ⟨x, hx, _⟩ := (C78_hcrs_always (junk := junk) h s1 s2 hr).1
  exact ⟨x, hx, hc_min_nonneg h.rng hx⟩

/-- Spaces and states to which the theorems apply. -/
example : InRange jsp.kappa jsp.sigma ∧ InReach jsp jmid jmid ∧ 0 ≤ CC00.get_distance jsp jmid jmid := by
  have h : InRange jsp.kappa jsp.sigma := by constructor <;> norm_num [jsp]
  exact ⟨h, by rw [InReach, dist2_self]; norm_num [jsp], C139_cc00 h _ _⟩

end Props
