import Verif.Lemmas.HcFamilies
import Verif.Lemmas.Kneser
import Verif.Lemmas.PmPlan

/-!
# Hybrid-curvature Reeds-Shepp: there is always a path
-/

noncomputable section

namespace Spec

open Real Props
open CC00 (CircOk circOk_at)

section
variable {k s : ℝ} (H : Rng k s) {pm1 pm2 : Bool} {c1 c2 : SF.Circle}

local notation "P" => SF.hc_cc_circle_param k s
local notation "m" => SF.scratch c1 c2

include H in
theorem firstT_le (pm : Bool) (c : SF.Circle) (q : SF.Configuration) :
    (SF.HcRs.firstT pm P c q).length ≤ TB k s := by
  cases pm
  · exact cc_length_le H (circOk_at H.kappa H.sigma H.clothoid _ _ _ _) _
  · exact hc_length_le H (circOk_at H.kappa H.sigma H.clothoid _ _ _ _).ok _

include H in
theorem lastT_le (pm : Bool) (c : SF.Circle) (q : SF.Configuration) :
    (SF.HcRs.lastT pm P c q).length ≤ TB k s := by
  cases pm
  · exact cc_length_le H (circOk_at H.kappa H.sigma H.clothoid _ _ _ _) _
  · exact hc_length_le H (circOk_at H.kappa H.sigma H.clothoid _ _ _ _).ok _

theorem shorter_le {a b : SF.RSRow} {x : ℝ} (ha : a.length ≤ x) (hb : b.length ≤ x) : (a.shorter b).length ≤ x := by
  unfold SF.RSRow.shorter
  split_ifs
  exacts [ha, hb]

include H in
theorem TST_line_le (q : SF.Configuration × SF.Configuration) :
    (SF.HcRs.TST_line pm1 pm2 P c1 c2 q).length ≤ 2 * TB k s + SF.configuration_distance q.1 q.2 := by
  have := firstT_le H pm1 c1 q.1
  have := lastT_le H pm2 c2 q.2
  unfold SF.HcRs.TST_line
  simp only
  linarith

include H in
theorem TTT_side_le (dx dy : ℝ) : (SF.HcRs.TTT_side pm1 pm2 P m c1 c2 dx dy).length ≤ 3 * TB k s := by
  unfold SF.HcRs.TTT_side
  simp only
  refine (add_le_add (add_le_add (firstT_le H _ _ _)
    (cc_length_le H (circOk_at H.kappa H.sigma H.clothoid _ _ _ _) _)) (lastT_le H _ _ _)).trans ?_
  linarith

include H in
theorem TTcTT_side_le (dx dy : ℝ) : (SF.HcRs.TTcTT_side pm1 pm2 P m c1 c2 dx dy).length ≤ 4 * TB k s := by
  unfold SF.HcRs.TTcTT_side
  simp only
  refine (add_le_add (add_le_add (add_le_add (firstT_le H _ _ _)
    (hc_length_le H (circOk_at H.kappa H.sigma H.clothoid _ _ _ _).ok _))
    (hc_length_le H (circOk_at H.kappa H.sigma H.clothoid _ _ _ _).ok _)) (lastT_le H _ _ _)).trans ?_
  linarith

end

namespace HcRs

open SF.HcRs

variable {sp : SF.HCSpace} (H : Rng sp.kappa sp.sigma) {pm1 pm2 : Bool} {c1 c2 : SF.Circle}

theorem entry_le (pm1 pm2 : Bool) (sp : SF.HCSpace) (c1 c2 : SF.Circle) {i : ℕ} (hi : i < 18) :
    (circles_rs_path pm1 pm2 sp c1 c2).length ≤ (table pm1 pm2 sp (SF.scratch c1 c2) c1 c2 i).length :=
  (C04_array_index_min (fun i => (table pm1 pm2 sp (SF.scratch c1 c2) c1 c2 i).length) 18 (by norm_num)).2.1 i hi

include H in
/-- The cases `E`, `S` and `T`. -/
theorem shortcut_le {t : ℕ} {r : SF.RSRow} (h : shortcut pm1 pm2 sp (SF.scratch c1 c2) c1 c2 = some (t, r)) :
    t < 3 ∧ r.length ≤ TB sp.kappa sp.sigma + SF.configuration_distance c1.start c2.start := by
  have hT := TB_nonneg H
  have hd : 0 ≤ SF.configuration_distance c1.start c2.start := sqrt_nonneg _
  have hsym : SF.configuration_distance c2.start c1.start = SF.configuration_distance c1.start c2.start := by
    rw [configuration_distance_eq, configuration_distance_eq, norm_sub_rev]
  have hok := fun q l f r => circOk_at H.kappa H.sigma H.clothoid q l f r
  unfold shortcut at h
  by_cases h0 : SF.configuration_equal c1.start c2.start
  · rw [if_pos h0] at h
    simp only [Option.some.injEq, Prod.mk.injEq] at h
    obtain ⟨rfl, rfl⟩ := h
    exact ⟨by decide, by simp only; linarith⟩
  · rw [if_neg h0] at h
    cases pm1 <;> cases pm2 <;> simp only at h
    · split_ifs at h <;> simp only [Option.some.injEq, Prod.mk.injEq] at h <;> obtain ⟨rfl, rfl⟩ := h <;>
        refine ⟨by decide, ?_⟩ <;> simp only
      · linarith
      · rw [hsym]; linarith
      · have := cc_length_le H (hok c1.start c1.left c1.forward false) c2.start
        exact this.trans (by linarith)
    · split_ifs at h
      simp only [Option.some.injEq, Prod.mk.injEq] at h
      obtain ⟨rfl, rfl⟩ := h
      have := hc_length_le H (hok c1.start c1.left c1.forward false).ok c2.start
      exact ⟨by decide, this.trans (by linarith)⟩
    · split_ifs at h
      simp only [Option.some.injEq, Prod.mk.injEq] at h
      obtain ⟨rfl, rfl⟩ := h
      have := hc_length_le H (hok c2.start c2.left c2.forward false).ok c1.start
      exact ⟨by decide, this.trans (by linarith)⟩
    · split_ifs at h
      simp only [Option.some.injEq, Prod.mk.injEq] at h
      obtain ⟨rfl, rfl⟩ := h
      have := rs_length_le H (rsOk_at H.pos c1.start c1.left c1.forward true) rfl c2.start
      exact ⟨by decide, this.trans (by linarith)⟩

include H in
/-- A family gives a bound. -/
theorem path_le_family {i : ℕ} (hi : i < 18) {x : ℝ}
    (hx : (family pm1 pm2 sp (SF.scratch c1 c2) c1 c2 i).length ≤ x)
    (hd : TB sp.kappa sp.sigma + SF.configuration_distance c1.start c2.start ≤ x) :
    (circles_rs_path pm1 pm2 sp c1 c2).length ≤ x := by
  rcases hs : shortcut pm1 pm2 sp (SF.scratch c1 c2) c1 c2 with _ | ⟨t, r⟩
  · have := entry_le pm1 pm2 sp c1 c2 hi
    unfold table at this
    rw [hs] at this
    exact this.trans hx
  · obtain ⟨ht, hr⟩ := shortcut_le H hs
    have := entry_le pm1 pm2 sp c1 c2 (i := t) (by omega)
    unfold table at this
    rw [hs] at this
    simp only [if_true] at this
    linarith

include H in
/-- Between circles on the same side. -/
theorem same_side (hl : c2.left = c1.left) (hf : c2.forward = !c1.forward) {x : ℝ}
    (hx1 : 4 * TB sp.kappa sp.sigma + SF.center_distance c1 c2 ≤ x)
    (hx2 : TB sp.kappa sp.sigma + SF.configuration_distance c1.start c2.start ≤ x) :
    (circles_rs_path pm1 pm2 sp c1 c2).length ≤ x := by
  have hT := TB_nonneg H
  have hcd : 0 ≤ SF.center_distance c1 c2 := sqrt_nonneg _
  have hd : 0 ≤ SF.configuration_distance c1.start c2.start := sqrt_nonneg _
  have hne : c1.forward ≠ c2.forward := by rw [hf]; cases c1.forward <;> simp
  by_cases e5 : TTT_exists sp.param (SF.scratch c1 c2) c1 c2
  · refine path_le_family H (i := SF.hc_cc_rs.TTT) (by decide) ?_ hx2
    simp only [family, if_pos e5]
    refine (shorter_le (TTT_side_le H _ _) (TTT_side_le H _ _)).trans (by linarith)
  · have hD : 4 * ccR sp.kappa sp.sigma < SF.center_distance c1 c2 := by
      by_contra hc
      push Not at hc
      refine e5 ?_
      unfold TTT_exists SF.CC00.TTT_exists
      rw [if_neg (by simp [hl, SF.Circle.reparam]), if_neg (by simpa [SF.Circle.reparam] using hne)]
      rw [← radius_param H] at hc
      exact hc
    have hA : ccA sp.kappa sp.sigma ≤ ccR sp.kappa sp.sigma := by
      rw [ccR]; exact le_sqrt_of_sq_le (by nlinarith [sq_nonneg (ccB sp.kappa sp.sigma)])
    have hR := ccR_nonneg sp.kappa sp.sigma
    have e7 : ¬ TiST_exists sp.param (SF.scratch c1 c2) c1 c2 := by
      unfold TiST_exists SF.CC00.TiST_exists; rw [if_pos (by simp [hl, SF.Circle.reparam])]; exact id
    have e6 : TeST_exists sp.param (SF.scratch c1 c2) c1 c2 := by
      unfold TeST_exists SF.CC00.TeST_exists
      rw [if_neg (by simp [hl, SF.Circle.reparam]), if_neg (by simpa [SF.Circle.reparam] using hne)]
      have : 2 * (sp.param.radius * sp.param.sin_mu) ≤ SF.center_distance c1 c2 := by
        rw [show sp.param.radius * sp.param.sin_mu = _ from sin_param H]; linarith
      rw [← mul_assoc] at this
      exact this
    refine path_le_family H (i := SF.hc_cc_rs.TST) (by decide) ?_ hx2
    simp only [family, TST_path, if_neg e7, if_pos e6]
    refine (TST_line_le H _).trans ?_
    rw [center_distance_eq] at hD hx1
    obtain ⟨_, _, y, hx, hx', ha⟩ := TeST_at H c1 c2 (by linarith)
    have := ha.length (sg_pm _) hx
    change _ + SF.configuration_distance (TeST_tangent_circles _ c1 c2).1 (TeST_tangent_circles _ c1 c2).2 ≤ _
    rw [show sp.param = SF.hc_cc_circle_param sp.kappa sp.sigma from rfl, this]
    linarith

include H in
/-- Between circles on different sides, far apart. -/
theorem other_side_far (hl : c2.left = !c1.left) (hf : c2.forward = !c1.forward)
    (hD : 2 * ccR sp.kappa sp.sigma ≤ SF.center_distance c1 c2) {x : ℝ}
    (hx1 : 4 * TB sp.kappa sp.sigma + SF.center_distance c1 c2 ≤ x)
    (hx2 : TB sp.kappa sp.sigma + SF.configuration_distance c1.start c2.start ≤ x) :
    (circles_rs_path pm1 pm2 sp c1 c2).length ≤ x := by
  have hT := TB_nonneg H
  have hcd : 0 ≤ SF.center_distance c1 c2 := sqrt_nonneg _
  have hd : 0 ≤ SF.configuration_distance c1.start c2.start := sqrt_nonneg _
  have hne : c1.forward ≠ c2.forward := by rw [hf]; cases c1.forward <;> simp
  have hnl : c1.left ≠ c2.left := by rw [hl]; cases c1.left <;> simp
  have e6 : TiST_exists sp.param (SF.scratch c1 c2) c1 c2 := by
    unfold TiST_exists SF.CC00.TiST_exists
    rw [if_neg (by simpa [SF.Circle.reparam] using hnl), if_neg (by simpa [SF.Circle.reparam] using hne)]
    rw [← radius_param H] at hD
    exact hD
  refine path_le_family H (i := SF.hc_cc_rs.TST) (by decide) ?_ hx2
  simp only [family, TST_path, if_pos e6]
  refine (TST_line_le H _).trans ?_
  rw [center_distance_eq] at hD hx1
  obtain ⟨_, _, y, hx, hx', ha⟩ := TiST_at H c1 c2 hD
  have := ha.length (sg_pm _) hx
  rw [show sp.param = SF.hc_cc_circle_param sp.kappa sp.sigma from rfl, this]
  linarith

include H in
/-- Between circles on different sides, close together. -/
theorem other_side_near (h1 : EndOk pm1 sp.kappa sp.sigma c1) (hl : c2.left = !c1.left) (hf : c2.forward = c1.forward)
    (hD : SF.center_distance c1 c2 ≤ 4 * ccR sp.kappa sp.sigma) {x : ℝ}
    (hx1 : 4 * TB sp.kappa sp.sigma + SF.center_distance c1 c2 ≤ x)
    (hx2 : TB sp.kappa sp.sigma + SF.configuration_distance c1.start c2.start ≤ x) :
    (circles_rs_path pm1 pm2 sp c1 c2).length ≤ x := by
  have hT := TB_nonneg H
  have hk := H.pos
  have hki : 0 < 1 / sp.kappa := by positivity
  have hR := ccR_nonneg sp.kappa sp.sigma
  have hcd : 0 ≤ SF.center_distance c1 c2 := sqrt_nonneg _
  have hd : 0 ≤ SF.configuration_distance c1.start c2.start := sqrt_nonneg _
  have hnl : c1.left ≠ c2.left := by rw [hl]; cases c1.left <;> simp
  have hrad : sp.param.radius = ccR sp.kappa sp.sigma := radius_param H
  have e : TTcTT_exists sp.param (SF.scratch c1 c2) c1 c2 := by
    unfold TTcTT_exists
    rw [if_neg hnl, if_neg (by simp [hf]), hrad, h1.abs_inv hk]
    exact le_trans (show (SF.scratch c1 c2).distance ≤ 4 * ccR sp.kappa sp.sigma from hD) (by linarith)
  refine path_le_family H (i := SF.hc_cc_rs.TTcTT) (by decide) ?_ hx2
  simp only [family, if_pos e]
  unfold TTcTT_path
  simp only [hrad, h1.abs_inv hk]
  clear hx2
  have hm : (SF.scratch c1 c2).distance = SF.center_distance c1 c2 := rfl
  have hi := H.inv_ccR
  rw [hm]
  generalize SF.center_distance c1 c2 = D at *
  have hx : ∀ x, x = (if D < 4 * ccR sp.kappa sp.sigma - 2 * (1 / sp.kappa) then (D + 2 * (1 / sp.kappa)) / 2
      else (D - 2 * (1 / sp.kappa)) / 2) → ¬ (2 * ccR sp.kappa sp.sigma) ^ 2 - x ^ 2 < 0 := by
    intro x hx
    split_ifs at hx with h
    · have : 0 ≤ x := by linarith
      have : x ≤ 2 * ccR sp.kappa sp.sigma := by linarith
      nlinarith
    · have : -(2 * ccR sp.kappa sp.sigma) ≤ x := by linarith
      have : x ≤ 2 * ccR sp.kappa sp.sigma := by linarith
      nlinarith
  rw [if_neg (hx _ rfl)]
  exact (shorter_le (TTcTT_side_le H _ _) (TTcTT_side_le H _ _)).trans (by linarith)

end HcRs

end Spec
