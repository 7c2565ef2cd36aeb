import Verif.Lemmas.CcOptimalAll
import Verif.Props.Aligned
import Verif.Props.Utilities
import Verif.Model.CcReedsShepp
import Verif.Model.HcReedsShepp

/-!
# Goals straight ahead: the rows of the tables of CC00-Dubins, CC00-Reeds-Shepp and HC00-Reeds-Shepp
-/

noncomputable section

namespace Spec

namespace StraightGoal

open SF Real Props

/-- The entry below all others is found. -/
theorem argmin_eq {f : ℕ → ℝ} {n i : ℕ} (hi : i < n) (h : ∀ j, j ≠ i → f i < f j) : array_index_min f n = i := by
  obtain ⟨-, h2, -⟩ := C04_array_index_min f n (by omega)
  by_contra hne
  exact absurd (h _ hne) (not_lt.2 (h2 i hi))

variable {L : ℝ} {s1 s2 : State}

/-- The configurations of the states. -/
def conf (s : State) : Configuration := configuration s.x s.y s.theta 0

theorem conf_theta (h : StraightTo L s1 s2) : (conf s2).theta = (conf s1).theta := SF.twopify_congr h.2.2

theorem conf_dist (h : StraightTo L s1 s2) : configuration_distance (conf s1) (conf s2) = |L| := h.dist

theorem conf_dist' (h : StraightTo L s1 s2) : configuration_distance (conf s2) (conf s1) = |L| := by
  rw [← conf_dist h]
  unfold configuration_distance point_distance
  congr 1; ring

theorem conf_pos (h : StraightTo L s1 s2) :
    (cfg (conf s2)).pos = (cfg (conf s1)).pos + cis (conf s1).theta * (L : ℂ) := by
  have e : cis (conf s1).theta = cis s1.theta := cis_twopify _
  rw [e]
  apply Complex.ext
  · simp [Config.pos, cfg, conf, configuration, cis, h.1]; ring
  · simp [Config.pos, cfg, conf, configuration, cis, h.2.1]; ring

theorem conf_ne (h : StraightTo L s1 s2) (hL : epsilon < |L|) : ¬ configuration_equal (conf s1) (conf s2) := by
  unfold configuration_equal
  rw [if_neg (by rw [conf_theta h, sub_self]; norm_num [SF.epsilon]), if_pos]
  · exact id
  · rw [conf_dist h]; exact hL

theorem aligned_ahead (h : StraightTo L s1 s2) (hL : 0 < L) : configuration_aligned (conf s1) (conf s2) :=
  CC00.aligned_of hL (conf_theta h) (SF.twopify_nonneg _) (SF.twopify_lt _) (conf_pos h)

theorem aligned_behind (h : StraightTo L s1 s2) (hL : L < 0) : configuration_aligned (conf s2) (conf s1) := by
  refine CC00.aligned_of (x := -L) (by linarith) (conf_theta h).symm (SF.twopify_nonneg _) (SF.twopify_lt _) ?_
  rw [conf_pos h, conf_theta h]; push_cast; ring

theorem conf_controls (h : StraightTo L s1 s2) : straight_controls (conf s1) (conf s2) = [⟨L, 0, 0⟩] := by
  have e : cos (conf s1).theta * ((conf s2).x - (conf s1).x) + sin (conf s1).theta * ((conf s2).y - (conf s1).y) = L := by
    have hc : cos (conf s1).theta = cos s1.theta := SF.cos_twopify _
    have hs : sin (conf s1).theta = sin s1.theta := SF.sin_twopify _
    rw [hc, hs]
    change cos s1.theta * (s2.x - s1.x) + sin s1.theta * (s2.y - s1.y) = L
    rw [h.1, h.2.1]
    linear_combination L * sin_sq_add_cos_sq s1.theta
  have hd : point_distance (conf s1).x (conf s1).y (conf s2).x (conf s2).y = |L| := conf_dist h
  simp only [straight_controls]
  rw [e, hd]
  have : sgn L * |L| = L := by
    unfold sgn
    split_ifs with h0
    · rw [abs_of_neg h0]; ring
    · rw [abs_of_nonneg (not_lt.1 h0)]; ring
  rw [this]

/-! ### CC00-Dubins -/

theorem cc00_path {sp : HCSpace} (h : StraightTo L s1 s2) (hL : epsilon < |L|) (hfin : |L| < dblMax)
    (hdir : if sp.forwards then 0 < L else L < 0) (n : ℕ) :
    (CC00.path sp s1 s2 n).type = 1 ∧ (CC00.path sp s1 s2 n).length = |L| ∧
      (CC00.path sp s1 s2 n).start = conf s1 ∧ (CC00.path sp s1 s2 n).end_ = conf s2 := by
  set c1 := CC00.start_circle sp (conf s1) (n / 2) with h1
  set c2 := CC00.end_circle sp (conf s2) (n % 2) with h2
  have a1 : c1.start = conf s1 := rfl
  have a2 : c2.start = conf s2 := rfl
  have ht : CC00.table sp (scratch c1 c2) c1 c2 = Table.init.set cc_dubins.S { length := |L| } := by
    unfold CC00.table
    rw [a1, a2, if_neg (conf_ne h hL), conf_dist h, conf_dist' h]
    cases hf : sp.forwards
    · rw [hf] at hdir
      simp only [Bool.false_eq_true, if_false] at hdir
      simp [aligned_behind h hdir]
    · rw [hf] at hdir
      simp only [if_true] at hdir
      simp [aligned_ahead h hdir]
  have hb : array_index_min (fun i => (CC00.table sp (scratch c1 c2) c1 c2 i).length) nb_cc_dubins_paths = cc_dubins.S := by
    rw [ht]
    refine argmin_eq (by decide) fun j hj => ?_
    simp [Table.set, hj, Table.init, hfin]
  have e : CC00.path sp s1 s2 n = ⟨conf s1, conf s2, cc_dubins.S, CC00.table sp (scratch c1 c2) c1 c2 cc_dubins.S⟩ := by
    change (CC00.table sp (scratch c1 c2) c1 c2).best nb_cc_dubins_paths c1.start c2.start = _
    unfold Table.best
    simp only [hb, a1, a2]
  rw [e]
  refine ⟨rfl, ?_, rfl, rfl⟩
  simp [CCPath.length, ht, Table.set]

/-! ### CC00-Reeds-Shepp -/

theorem ccrs_path {sp : HCSpace} (h : StraightTo L s1 s2) (hL : epsilon < |L|) (hfin : |L| < dblMax) (n : ℕ) :
    ∃ p : Prop, ¬ p ∧ CcRs.path sp s1 s2 n = ⟨hc_cc_rs.S, { length := |L|, moves := [.line (conf s1) (conf s2)] }, p⟩ := by
  set c1 := CcRs.end_circle sp s1 (n / 4) with h1
  set c2 := CcRs.end_circle sp s2 (n % 4) with h2
  have a1 : c1.start = conf s1 := rfl
  have a2 : c2.start = conf s2 := rfl
  have hs : CcRs.shortcut c1 c2 = some (hc_cc_rs.S, { length := |L|, moves := [.line (conf s1) (conf s2)] }) := by
    unfold CcRs.shortcut
    rw [a1, a2, if_neg (conf_ne h hL), conf_dist h, conf_dist' h]
    rcases lt_or_ge 0 L with h0 | h0
    · rw [if_pos (aligned_ahead h h0)]
    · have h0' : L < 0 := lt_of_le_of_ne h0 fun e => by
        rw [e, abs_zero] at hL; norm_num [SF.epsilon] at hL
      split_ifs with g1 g2
      · rfl
      · rfl
      · exact absurd (aligned_behind h h0') g2
      · exact absurd (aligned_behind h h0') g2
  have ht : ∀ i, CcRs.table sp (scratch c1 c2) c1 c2 i
      = if i = hc_cc_rs.S then { length := |L|, moves := [.line (conf s1) (conf s2)] } else {} := by
    intro i; unfold CcRs.table; rw [hs]
  have hb : array_index_min (fun i => (CcRs.table sp (scratch c1 c2) c1 c2 i).length) nb_hc_cc_rs_paths = hc_cc_rs.S := by
    refine argmin_eq (by decide) fun j hj => ?_
    rw [ht, ht, if_pos rfl, if_neg hj]; exact hfin
  refine ⟨hc_cc_rs.S = hc_cc_rs.TcT ∧ CcRs.TcT_lost c1 c2, fun hp => absurd hp.1 (by decide), ?_⟩
  change CcRs.circles_rs_path sp c1 c2 = _
  unfold CcRs.circles_rs_path
  simp only [hb]
  rw [ht, if_pos rfl]

/-! ### HC00-Reeds-Shepp -/

theorem hc00_path {sp : HCSpace} (h : StraightTo L s1 s2) (hL : epsilon < |L|) (hfin : |L| < dblMax) (n : ℕ) :
    HcRs.path false false sp s1 s2 n
      = some ⟨hc_cc_rs.S, { length := |L|, moves := [.line (conf s1) (conf s2)] }⟩ := by
  set c1 := HcRs.end_circle false sp s1 (n / 4) with h1
  set c2 := HcRs.end_circle false sp s2 (n % 4) with h2
  have a1 : c1.start = conf s1 := rfl
  have a2 : c2.start = conf s2 := rfl
  have hs : HcRs.shortcut false false sp (scratch c1 c2) c1 c2
      = some (hc_cc_rs.S, { length := |L|, moves := [.line (conf s1) (conf s2)] }) := by
    unfold HcRs.shortcut
    simp only
    rw [a1, a2, if_neg (conf_ne h hL), conf_dist h, conf_dist' h]
    rcases lt_or_ge 0 L with h0 | h0
    · rw [if_pos (aligned_ahead h h0)]
    · have h0' : L < 0 := lt_of_le_of_ne h0 fun e => by
        rw [e, abs_zero] at hL; norm_num [SF.epsilon] at hL
      split_ifs with g1 g2
      · rfl
      · rfl
      · exact absurd (aligned_behind h h0') g2
      · exact absurd (aligned_behind h h0') g2
  have ht : ∀ i, HcRs.table false false sp (scratch c1 c2) c1 c2 i
      = if i = hc_cc_rs.S then { length := |L|, moves := [.line (conf s1) (conf s2)] } else {} := by
    intro i; unfold HcRs.table; rw [hs]
  have hb : array_index_min (fun i => (HcRs.table false false sp (scratch c1 c2) c1 c2 i).length) nb_hc_cc_rs_paths
      = hc_cc_rs.S := by
    refine argmin_eq (by decide) fun j hj => ?_
    rw [ht, ht, if_pos rfl, if_neg hj]; exact hfin
  unfold HcRs.path
  rw [if_neg (by simp [HcRs.skip])]
  change some (HcRs.circles_rs_path false false sp c1 c2) = _
  unfold HcRs.circles_rs_path
  simp only [hb]
  rw [ht, if_pos rfl]

end StraightGoal

end Spec
