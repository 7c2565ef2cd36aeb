import Verif.Lemmas.PmFound

/-!
# CC-Dubins with curvature at the ends: there is always a path
-/

noncomputable section

namespace Spec

open Real Props
open CC00 (CircOk circOk_at)

/-- Upper bound for the length of a turn of any kind. -/
def TB (k s : ℝ) : ℝ := turnBound k s (ccR k s)

theorem TB_nonneg {k s : ℝ} (H : Rng k s) : 0 ≤ TB k s := by
  have := H.pos
  have := H.sigma
  have := ccR_nonneg k s
  rw [TB, turnBound]; positivity

theorem hc_circular_le {c : SF.Circle} {delta : ℝ} (h0 : 0 ≤ delta) (h1 : delta < 2 * π) :
    |c.hc_circular_deflection delta| ≤ 2 * π := by
  have a := SF.twopify_nonneg c.delta_min
  have b := SF.twopify_lt c.delta_min
  unfold SF.Circle.hc_circular_deflection
  simp only
  generalize SF.twopify c.delta_min = m at a b
  split_ifs <;> rw [abs_le] <;> constructor <;> linarith

theorem hc_length_le {k s : ℝ} (H : Rng k s) {c : SF.Circle} {A B : ℝ} (h : CircleOk c k s A B) (q : SF.Configuration) :
    c.hc_turn_length q ≤ TB k s := by
  have hk := H.pos
  have hs := H.sigma
  obtain ⟨_, d0, d1⟩ := deflection_spec c q
  have hR := ccR_nonneg k s
  have hks : 0 < k / s := by positivity
  unfold SF.Circle.hc_turn_length
  simp only
  rw [abs_kappa_sigma h hk hs, abs_mul, abs_kappa_inv h hk]
  have := mul_le_mul_of_nonneg_left (hc_circular_le (c := c) d0 d1) (show 0 ≤ 1 / k by positivity)
  rw [TB, turnBound, show 2 * π / k = 1 / k * (2 * π) by ring]
  linarith

theorem cc_length_le {k s : ℝ} (H : Rng k s) {c : SF.Circle} (h : CircOk c k s) (q : SF.Configuration) :
    c.cc_turn_length q ≤ TB k s := by
  have := cc_turn_length_le h.ok H.pos H.sigma q
  rwa [h.ok.geom.ccR] at this

theorem rs_length_le {k s : ℝ} (H : Rng k s) {c : SF.Circle} (h : RsOk c k) (hr : c.regular = true) (q : SF.Configuration) :
    c.rs_turn_length q ≤ TB k s := by
  have hk := H.pos
  have hs := H.sigma
  have hR := ccR_nonneg k s
  have hks : 0 < k / s := by positivity
  obtain ⟨_, d0, d1⟩ := deflection_spec c q
  have e : c.rs_circular_deflection (c.deflection q) = c.deflection q := by
    unfold SF.Circle.rs_circular_deflection; simp [hr]
  unfold SF.Circle.rs_turn_length
  simp only
  rw [e, abs_mul, h.kappa_inv, abs_pm_mul (sg_pm _) (show 0 ≤ 1 / k by positivity), abs_of_nonneg d0]
  have := mul_le_mul_of_nonneg_left d1.le (show 0 ≤ 1 / k by positivity)
  rw [TB, turnBound, show 2 * π / k = 1 / k * (2 * π) by ring]
  linarith

theorem hc_at_le {k s : ℝ} (H : Rng k s) (q o : SF.Configuration) (l f : Bool) :
    (SF.circleAt q l f true (SF.hc_cc_circle_param k s)).hc_turn_length o ≤ TB k s :=
  hc_length_le H (circOk_at H.kappa H.sigma H.clothoid q l f true).ok o

theorem cc_at_le {k s : ℝ} (H : Rng k s) (q o : SF.Configuration) (l f : Bool) :
    (SF.circleAt q l f true (SF.hc_cc_circle_param k s)).cc_turn_length o ≤ TB k s :=
  cc_length_le H (circOk_at H.kappa H.sigma H.clothoid q l f true) o

theorem TanLine.length {k s : ℝ} {c1 c2 : SF.Circle} {q : SF.Configuration × SF.Configuration}
    (h : TanLine k s c1 c2 q) : SF.configuration_distance q.1 q.2 ≤ SF.center_distance c1 c2 := by
  obtain ⟨_, _, _, x, h0, h1, h2⟩ := h
  rw [configuration_distance_eq, h2, norm_cis_mul, Complex.norm_real, Real.norm_eq_abs,
    abs_pm_mul (sg_pm _) h0]
  exact h1

namespace CC0pm

open SF.CC0pm

variable {sp : SF.HCSpace} (H : Rng sp.kappa sp.sigma) {c1 c2 : SF.Circle}

theorem entry_le (sp : SF.HCSpace) (c1 c2 : SF.Circle) {i : ℕ} (hi : i < 7) :
    (circles_dubins_path sp c1 c2).length ≤ (table sp (SF.scratch c1 c2) c1 c2 i).length :=
  (C04_array_index_min (fun i => (table sp (SF.scratch c1 c2) c1 c2 i).length) 7 (by norm_num)).2.1 i hi

include H in
/-- Between circles on the same side a path exists. -/
theorem same_side (h1 : GeomOk c1 (ccA sp.kappa sp.sigma) (ccB sp.kappa sp.sigma))
    (hf : c2.forward = !c1.forward) (hlr : c2.left = c1.left) :
    (circles_dubins_path sp c1 c2).length ≤ 4 * TB sp.kappa sp.sigma + SF.center_distance c1 c2 := by
  have hT := TB_nonneg H
  have hcd : 0 ≤ SF.center_distance c1 c2 := sqrt_nonneg _
  have hle := @entry_le sp c1 c2
  have hne : c1.forward ≠ c2.forward := by rw [hf]; cases c1.forward <;> simp
  have ta := fun q o l f => hc_at_le H q o l f
  have tb := fun q o l f => cc_at_le H q o l f
  by_cases e1 : SF.configuration_equal c1.start c2.start
  · have := hle (i := 0) (by norm_num)
    unfold table at this
    rw [if_pos e1, set_same] at this
    simp only at this; linarith
  by_cases e2 : (SF.scratch c1 c2).distance < SF.epsilon
  · have := hle (i := 2) (by norm_num)
    unfold table at this
    rw [if_neg e1, if_pos e2, set_same] at this
    simp only at this
    have t := ta c1.start c2.start c1.left c1.forward
    refine this.trans (le_trans t ?_)
    linarith
  by_cases e5 : TTT_exists (SF.scratch c1 c2) c1 c2
  · have := hle (i := 5) (by norm_num)
    unfold table at this
    rw [if_neg e1, if_neg e2] at this
    simp only [if_pos e5] at this
    rw [set_same] at this
    refine this.trans ?_
    unfold TTT_path
    simp only
    split_ifs
    · exact (add_le_add (add_le_add (tb _ _ _ _) (tb _ _ _ _)) (ta _ _ _ _)).trans (by linarith)
    · exact (add_le_add (add_le_add (tb _ _ _ _) (tb _ _ _ _)) (ta _ _ _ _)).trans (by linarith)
  · have hD : 4 * c1.radius < SF.center_distance c1 c2 := by
      by_contra hc
      push Not at hc
      exact e5 (by unfold TTT_exists SF.CC00.TTT_exists; rw [if_neg (by simp [hlr]), if_neg hne]; exact hc)
    have hR0 : 0 ≤ c1.radius := by rw [h1.radius]; positivity
    have hA : c1.radius * c1.sin_mu ≤ c1.radius := by
      rw [h1.sin_mu_eq]; nlinarith [sin_le_one c1.mu]
    have e6 : TeST_exists (SF.scratch c1 c2) c1 c2 := by
      unfold TeST_exists SF.CC00.TeST_exists
      rw [if_neg (by simp [hlr]), if_neg hne]
      change _ ≤ SF.center_distance c1 c2
      linarith
    have e7 : ¬ TiST_exists (SF.scratch c1 c2) c1 c2 := by
      unfold TiST_exists SF.CC00.TiST_exists; rw [if_pos hlr.symm]; exact id
    have := hle (i := 4) (by norm_num)
    unfold table at this
    rw [if_neg e1, if_neg e2] at this
    simp only [if_neg e5, if_pos (show TST_exists (SF.scratch c1 c2) c1 c2 from Or.inr e6)] at this
    rw [set_same] at this
    unfold TST_path at this
    rw [if_neg e7, if_pos e6] at this
    refine this.trans ?_
    have hd := (TeST_tan h1 hf H e6).length
    unfold line_path
    simp only
    exact (add_le_add (add_le_add (tb _ _ _ _) hd) (ta _ _ _ _)).trans (by linarith)

end CC0pm

namespace CCpm0

open SF.CCpm0

variable {sp : SF.HCSpace} (H : Rng sp.kappa sp.sigma) {c1 c2 : SF.Circle}

theorem entry_le (sp : SF.HCSpace) (c1 c2 : SF.Circle) {i : ℕ} (hi : i < 7) :
    (circles_dubins_path sp c1 c2).length ≤ (table sp (SF.scratch c1 c2) c1 c2 i).length :=
  (C04_array_index_min (fun i => (table sp (SF.scratch c1 c2) c1 c2 i).length) 7 (by norm_num)).2.1 i hi

include H in
/-- Between circles on the same side a path exists. -/
theorem same_side (h2 : GeomOk c2 (ccA sp.kappa sp.sigma) (ccB sp.kappa sp.sigma))
    (hf : c2.forward = !c1.forward) (hlr : c2.left = c1.left) :
    (circles_dubins_path sp c1 c2).length ≤ 4 * TB sp.kappa sp.sigma + SF.center_distance c1 c2 := by
  have hT := TB_nonneg H
  have hcd : 0 ≤ SF.center_distance c1 c2 := sqrt_nonneg _
  have hle := @entry_le sp c1 c2
  have hne : c1.forward ≠ c2.forward := by rw [hf]; cases c1.forward <;> simp
  have ta := fun q o l f => hc_at_le H q o l f
  have tb := fun q o l f => cc_at_le H q o l f
  by_cases e1 : SF.configuration_equal c1.start c2.start
  · have := hle (i := 0) (by norm_num)
    unfold table at this
    rw [if_pos e1, set_same] at this
    simp only at this; linarith
  by_cases e2 : (SF.scratch c1 c2).distance < SF.epsilon
  · have := hle (i := 2) (by norm_num)
    unfold table at this
    rw [if_neg e1, if_pos e2, set_same] at this
    simp only at this
    have t := ta c2.start c1.start c2.left c2.forward
    refine this.trans (le_trans t ?_)
    linarith
  by_cases e5 : TTT_exists (SF.scratch c1 c2) c1 c2
  · have := hle (i := 5) (by norm_num)
    unfold table at this
    rw [if_neg e1, if_neg e2] at this
    simp only [if_pos e5] at this
    rw [set_same] at this
    refine this.trans ?_
    unfold TTT_path
    simp only
    split_ifs
    · exact (add_le_add (add_le_add (ta _ _ _ _) (tb _ _ _ _)) (tb _ _ _ _)).trans (by linarith)
    · exact (add_le_add (add_le_add (ta _ _ _ _) (tb _ _ _ _)) (tb _ _ _ _)).trans (by linarith)
  · have hD : 4 * c2.radius < SF.center_distance c1 c2 := by
      by_contra hc
      push Not at hc
      exact e5 (by
        unfold TTT_exists SF.CC00.TTT_exists
        rw [if_neg (by simp [hlr, SF.Circle.reparam]), if_neg (by simpa [SF.Circle.reparam] using hne)]; exact hc)
    have hR0 : 0 ≤ c2.radius := by rw [h2.radius]; positivity
    have hA : c2.radius * c2.sin_mu ≤ c2.radius := by
      rw [h2.sin_mu_eq]; nlinarith [sin_le_one c2.mu]
    have e6 : TeST_exists (SF.scratch c1 c2) c1 c2 := by
      unfold TeST_exists SF.CC00.TeST_exists
      rw [if_neg (by simp [hlr, SF.Circle.reparam]), if_neg (by simpa [SF.Circle.reparam] using hne)]
      change 2 * c2.radius * c2.sin_mu ≤ SF.center_distance c1 c2
      linarith
    have e7 : ¬ TiST_exists (SF.scratch c1 c2) c1 c2 := by
      unfold TiST_exists SF.CC00.TiST_exists; rw [if_pos (by simp [hlr, SF.Circle.reparam])]; exact id
    have := hle (i := 4) (by norm_num)
    unfold table at this
    rw [if_neg e1, if_neg e2] at this
    simp only [if_neg e5, if_pos (show TST_exists (SF.scratch c1 c2) c1 c2 from Or.inr e6)] at this
    rw [set_same] at this
    unfold TST_path at this
    rw [if_neg e7, if_pos e6] at this
    refine this.trans ?_
    have hd := (TeST_tan (c1 := c1.reparam c2.toCircleParam) (h2.reparam c1) hf H e6).length
    unfold line_path
    simp only
    exact (add_le_add (add_le_add (ta _ _ _ _) hd) (tb _ _ _ _)).trans
      (by change TB sp.kappa sp.sigma + SF.center_distance c1 c2 + _ ≤ _; linarith)

end CCpm0

namespace CCpmpm

open SF.CCpmpm

variable {sp : SF.HCSpace} (H : Rng sp.kappa sp.sigma) {c1 c2 : SF.Circle}

theorem entry_le (sp : SF.HCSpace) (c1 c2 : SF.Circle) {i : ℕ} (hi : i < 7) :
    (circles_dubins_path sp c1 c2).length ≤ (table sp (SF.scratch c1 c2) c1 c2 i).length :=
  (C04_array_index_min (fun i => (table sp (SF.scratch c1 c2) c1 c2 i).length) 7 (by norm_num)).2.1 i hi

include H in
/-- Between all circles a path exists. -/
theorem always (h1 : RsOk c1 sp.kappa) (hr1 : c1.regular = true) (hct : cturn sp c1 = c1)
    (hf : c2.forward = !c1.forward) :
    (circles_dubins_path sp c1 c2).length ≤ 4 * TB sp.kappa sp.sigma + SF.center_distance c1 c2 := by
  have hT := TB_nonneg H
  have hcd : 0 ≤ SF.center_distance c1 c2 := sqrt_nonneg _
  have hle := @entry_le sp c1 c2
  have hne : c1.forward ≠ c2.forward := by rw [hf]; cases c1.forward <;> simp
  have ta := fun q o l f => hc_at_le H q o l f
  have tb := fun q o l f => cc_at_le H q o l f
  have hR0 : 0 ≤ sp.param.radius := by
    rw [show sp.param.radius = _ from (hc_param_ok H.kappa H.sigma H.clothoid).radius]; positivity
  by_cases e1 : SF.configuration_equal c1.start c2.start
  · have := hle (i := 0) (by norm_num)
    unfold table at this
    rw [if_pos e1, set_same] at this
    simp only at this; linarith
  by_cases e2 : SF.configuration_on_hc_cc_circle c1 c2.start
  · have := hle (i := 2) (by norm_num)
    unfold table at this
    rw [if_neg e1, if_pos e2, set_same, hct] at this
    simp only at this
    have t := rs_length_le H h1 hr1 c2.start
    linarith
  by_cases hlr : c2.left = c1.left
  · by_cases e5 : TTT_exists sp.param (SF.scratch c1 c2) c1 c2
    · have e8 : ¬ TTTT_exists sp.param (SF.scratch c1 c2) c1 c2 := by
        unfold TTTT_exists; rw [if_pos hlr.symm]; exact id
      have := hle (i := 5) (by norm_num)
      unfold table at this
      rw [if_neg e1, if_neg e2] at this
      simp only [if_pos e5, if_neg e8] at this
      rw [set_same] at this
      refine this.trans ?_
      unfold TTT_path
      simp only
      split_ifs
      · exact (add_le_add (add_le_add (ta _ _ _ _) (tb _ _ _ _)) (ta _ _ _ _)).trans (by linarith)
      · exact (add_le_add (add_le_add (ta _ _ _ _) (tb _ _ _ _)) (ta _ _ _ _)).trans (by linarith)
    · have hD : 4 * sp.param.radius < SF.center_distance c1 c2 := by
        by_contra hc
        push Not at hc
        exact e5 (by
          unfold TTT_exists SF.CC00.TTT_exists
          rw [if_neg (by simp [hlr, SF.Circle.reparam]), if_neg (by simpa [SF.Circle.reparam] using hne)]; exact hc)
      have hA : sp.param.radius * sp.param.sin_mu ≤ sp.param.radius := by
        rw [show sp.param.sin_mu = _ from (hc_param_ok H.kappa H.sigma H.clothoid).sin_mu_eq]
        nlinarith [sin_le_one (SF.hc_cc_circle_param sp.kappa sp.sigma).mu]
      have e6 : TeST_exists sp.param (SF.scratch c1 c2) c1 c2 := by
        unfold TeST_exists SF.CC00.TeST_exists
        rw [if_neg (by simp [hlr, SF.Circle.reparam]), if_neg (by simpa [SF.Circle.reparam] using hne)]
        change 2 * sp.param.radius * sp.param.sin_mu ≤ SF.center_distance c1 c2
        linarith
      have e7 : ¬ TiST_exists sp.param (SF.scratch c1 c2) c1 c2 := by
        unfold TiST_exists SF.CC00.TiST_exists; rw [if_pos (by simp [hlr, SF.Circle.reparam])]; exact id
      have e8 : ¬ TTTT_exists sp.param (SF.scratch c1 c2) c1 c2 := by
        unfold TTTT_exists; rw [if_pos hlr.symm]; exact id
      have := hle (i := 4) (by norm_num)
      unfold table at this
      rw [if_neg e1, if_neg e2] at this
      simp only [if_neg e5, if_neg e8, if_pos (show TST_exists sp.param (SF.scratch c1 c2) c1 c2 from Or.inr e6)] at this
      rw [set_same] at this
      unfold TST_path at this
      rw [if_neg e7, if_pos e6] at this
      refine this.trans ?_
      have hd := (TeST_tan (c1 := c1.reparam sp.param) (geom_reparam H c1) hf H e6).length
      unfold line_path
      simp only
      exact (add_le_add (add_le_add (ta _ _ _ _) hd) (ta _ _ _ _)).trans
        (by change TB sp.kappa sp.sigma + SF.center_distance c1 c2 + _ ≤ _; linarith)
  · have hlr' : ¬ c1.left = c2.left := fun h => hlr h.symm
    by_cases e5 : TTTT_exists sp.param (SF.scratch c1 c2) c1 c2
    · have := hle (i := 6) (by norm_num)
      unfold table at this
      rw [if_neg e1, if_neg e2] at this
      simp only [if_pos e5] at this
      rw [set_same] at this
      refine this.trans ?_
      unfold TTTT_path
      simp only
      split_ifs
      · exact (add_le_add (add_le_add (add_le_add (ta _ _ _ _) (tb _ _ _ _)) (tb _ _ _ _)) (ta _ _ _ _)).trans
          (by linarith)
      · exact (add_le_add (add_le_add (add_le_add (ta _ _ _ _) (tb _ _ _ _)) (tb _ _ _ _)) (ta _ _ _ _)).trans
          (by linarith)
    · have hD : 6 * sp.param.radius < SF.center_distance c1 c2 := by
        by_contra hc
        push Not at hc
        exact e5 (by unfold TTTT_exists; rw [if_neg hlr', if_neg hne]; exact hc)
      have e6 : TiST_exists sp.param (SF.scratch c1 c2) c1 c2 := by
        unfold TiST_exists SF.CC00.TiST_exists
        rw [if_neg (by simpa [SF.Circle.reparam] using hlr'), if_neg (by simpa [SF.Circle.reparam] using hne)]
        change 2 * sp.param.radius ≤ SF.center_distance c1 c2
        linarith
      have e7 : ¬ TTT_exists sp.param (SF.scratch c1 c2) c1 c2 := by
        unfold TTT_exists SF.CC00.TTT_exists; rw [if_pos (by simpa [SF.Circle.reparam] using hlr')]; exact id
      have := hle (i := 4) (by norm_num)
      unfold table at this
      rw [if_neg e1, if_neg e2] at this
      simp only [if_neg e5, if_neg e7, if_pos (show TST_exists sp.param (SF.scratch c1 c2) c1 c2 from Or.inl e6)] at this
      rw [set_same] at this
      unfold TST_path at this
      rw [if_pos e6] at this
      refine this.trans ?_
      have hd := (TiST_tan (c1 := c1.reparam sp.param) (geom_reparam H c1) hf H e6).length
      unfold line_path
      simp only
      exact (add_le_add (add_le_add (ta _ _ _ _) hd) (ta _ _ _ _)).trans
        (by change TB sp.kappa sp.sigma + SF.center_distance c1 c2 + _ ≤ _; linarith)

end CCpmpm

end Spec
