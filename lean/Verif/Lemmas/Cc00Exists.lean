import Verif.Lemmas.Cc00

/-!
# CC00-Dubins: there is always a path
-/

noncomputable section

namespace Spec

open Real Props

theorem cc_circular_le {c : SF.Circle} {delta : ℝ} (h0 : 0 ≤ delta) (h1 : delta < 2 * π) :
    |c.cc_circular_deflection delta| ≤ 2 * π := by
  have a := SF.twopify_nonneg (2 * c.delta_min)
  have b := SF.twopify_lt (2 * c.delta_min)
  unfold SF.Circle.cc_circular_deflection
  simp only
  generalize SF.twopify (2 * c.delta_min) = m at a b
  split_ifs <;> rw [abs_le] <;> constructor <;> linarith

/-- Upper bound for the length of a turn. -/
def turnBound (k s R : ℝ) : ℝ := 2 * R + 2 * (k / s) + 2 * π / k

theorem cc_turn_length_le {c : SF.Circle} {k s A B : ℝ} (h : CircleOk c k s A B) (hk : 0 < k) (hs : 0 < s)
    (q : SF.Configuration) : c.cc_turn_length q ≤ turnBound k s c.radius := by
  have hR0 : 0 ≤ c.radius := by rw [h.radius]; positivity
  obtain ⟨_, d0, d1⟩ := deflection_spec c q
  have hks : 0 < k / s := by positivity
  have hpk : 0 < 2 * π / k := by positivity
  have hdef : 2 * |c.kappa / c.sigma| + |c.kappa_inv * c.cc_circular_deflection (c.deflection q)|
      ≤ turnBound k s c.radius := by
    rw [abs_kappa_sigma h hk hs, abs_mul, abs_kappa_inv h hk]
    have := mul_le_mul_of_nonneg_left (cc_circular_le (c := c) d0 d1) (show 0 ≤ 1 / k by positivity)
    rw [turnBound, show 2 * π / k = 1 / k * (2 * π) by ring]
    linarith
  unfold SF.Circle.cc_turn_length
  simp only
  split_ifs with h1 h2
  · have hA : c.radius * c.sin_mu ≤ c.radius := by
      rw [h.sin_mu_eq]; nlinarith [sin_le_one c.mu]
    rw [turnBound]; linarith
  · split
    · split_ifs with h3
      · exact h3.le.trans hdef
      · exact hdef
    · exact hdef
  · exact hdef

namespace CC00

open SF.CC00

theorem body_le (sp : SF.HCSpace) (m : SF.Scratch) (c1 c2 : SF.Circle) {i : ℕ} (hi : i < 7) :
    (body sp m c1 c2).length ≤ (table sp m c1 c2 i).length :=
  (C04_array_index_min (fun i => (table sp m c1 c2 i).length) 7 (by norm_num)).2.1 i hi

/-- Between circles on the same side a path exists. -/
theorem same_side {sp : SF.HCSpace} (hk : sp.kappa > SF.epsilon) (hs : 0 < sp.sigma)
    (hl : sp.kappa / sp.sigma > SF.epsilon) {c1 c2 : SF.Circle} (h1 : CircOk c1 sp.kappa sp.sigma)
    (h2 : CircOk c2 sp.kappa sp.sigma) (hf : c2.forward = !c1.forward) (hlr : c2.left = c1.left)
    {b : ℝ}
    (hb : 3 * turnBound sp.kappa sp.sigma c1.radius + SF.center_distance c1 c2 ≤ b)
    (hb' : SF.configuration_distance c1.start c2.start ≤ b) :
    (circles_dubins_path sp c1 c2).length ≤ b := by
  have hk0 : 0 < sp.kappa := lt_trans (by norm_num [SF.epsilon]) hk
  have hR0 : 0 ≤ c1.radius := by rw [h1.ok.radius]; positivity
  have hrad2 : c2.radius = c1.radius := by rw [h2.ok.radius, h1.ok.radius]
  have hTB : 0 ≤ turnBound sp.kappa sp.sigma c1.radius := by rw [turnBound]; positivity
  have hcd : 0 ≤ SF.center_distance c1 c2 := sqrt_nonneg _
  have hqd : 0 ≤ SF.configuration_distance c1.start c2.start := sqrt_nonneg _
  have hsym : SF.configuration_distance c2.start c1.start = SF.configuration_distance c1.start c2.start := by
    rw [configuration_distance_eq, configuration_distance_eq, norm_sub_rev]
  have hle := @body_le sp (SF.scratch c1 c2) c1 c2
  have t1 := fun q => cc_turn_length_le h1.ok hk0 hs q
  have t2 := fun q => cc_turn_length_le h2.ok hk0 hs q
  rw [hrad2] at t2
  have hne : c1.forward ≠ c2.forward := by rw [hf]; cases c1.forward <;> simp
  rw [circles_dubins_path]
  by_cases e1 : SF.configuration_equal c1.start c2.start
  · have := hle (i := 0) (by norm_num)
    unfold table at this
    rw [if_pos e1, set_same] at this
    simp only at this; linarith
  by_cases e2 : sp.forwards ∧ SF.configuration_aligned c1.start c2.start
  · have := hle (i := 1) (by norm_num)
    unfold table at this
    rw [if_neg e1, if_pos e2, set_same] at this
    simp only at this; linarith
  by_cases e3 : ¬sp.forwards ∧ SF.configuration_aligned c2.start c1.start
  · have := hle (i := 1) (by norm_num)
    unfold table at this
    rw [if_neg e1, if_neg e2, if_pos e3, set_same] at this
    simp only at this; linarith
  by_cases e4 : SF.configuration_on_hc_cc_circle c1 c2.start
  · have := hle (i := 2) (by norm_num)
    unfold table at this
    rw [if_neg e1, if_neg e2, if_neg e3, if_pos e4, set_same] at this
    simp only at this; linarith [t1 c2.start]
  by_cases e5 : TTT_exists (SF.scratch c1 c2) c1 c2
  · have := hle (i := 5) (by norm_num)
    unfold table at this
    rw [if_neg e1, if_neg e2, if_neg e3, if_neg e4] at this
    simp only [if_pos e5] at this
    rw [set_same] at this
    simp only at this
    refine this.trans (le_trans ?_ hb)
    unfold TTT_path
    simp only
    have tm : ∀ q q', (SF.circleAt q (!c1.left) c1.forward c1.regular sp.param).cc_turn_length q'
        ≤ turnBound sp.kappa sp.sigma c1.radius := by
      intro q q'
      have hm := circOk_at hk hs hl q (!c1.left) c1.forward c1.regular
      have := cc_turn_length_le hm.ok hk0 hs q'
      rw [hm.ok.radius, ← h1.ok.radius] at this
      exact this
    split_ifs
    · exact (add_le_add (add_le_add (t1 _) (tm _ _)) (t2 _)).trans (by linarith)
    · exact (add_le_add (add_le_add (t1 _) (tm _ _)) (t2 _)).trans (by linarith)
  · have hD : 4 * c1.radius < SF.center_distance c1 c2 := by
      by_contra hc
      push Not at hc
      exact e5 (by unfold TTT_exists; rw [if_neg (by simp [hlr]), if_neg hne]; exact hc)
    have hA : c1.radius * c1.sin_mu ≤ c1.radius := by
      rw [h1.ok.sin_mu_eq]; nlinarith [sin_le_one c1.mu]
    have e6 : TeST_exists (SF.scratch c1 c2) c1 c2 := by
      unfold TeST_exists
      rw [if_neg (by simp [hlr]), if_neg hne]
      change _ ≤ SF.center_distance c1 c2
      linarith
    have e7 : ¬ TiST_exists (SF.scratch c1 c2) c1 c2 := by
      unfold TiST_exists; rw [if_pos hlr.symm]; exact id
    have := hle (i := 4) (by norm_num)
    unfold table at this
    rw [if_neg e1, if_neg e2, if_neg e3, if_neg e4] at this
    simp only [if_neg e5, if_pos (show TST_exists (SF.scratch c1 c2) c1 c2 from Or.inr e6)] at this
    rw [set_same] at this
    unfold TST_path at this
    rw [if_neg e7, if_pos e6] at this
    simp only at this
    refine this.trans (le_trans ?_ hb)
    obtain ⟨_, _, _, S4⟩ := TeST_spec h1.ok.geom c2
    have hd : SF.configuration_distance (TeST_tangent_circles c1 c2).1 (TeST_tangent_circles c1 c2).2
        ≤ SF.center_distance c1 c2 := by
      rw [configuration_distance_eq, S4, norm_cis_mul, Complex.norm_real, Real.norm_eq_abs, abs_mul]
      rw [show |sg c1.forward| = 1 by cases c1.forward <;> simp [sg], one_mul]
      have hA0 := ccA_pos hk hs hl
      rw [← h1.ok.sin_mu] at hA0 ⊢
      rw [abs_le]; constructor <;> linarith
    unfold TeST_path
    simp only
    linarith [t1 (TeST_tangent_circles c1 c2).1, t2 (TeST_tangent_circles c1 c2).2]

end CC00

end Spec
