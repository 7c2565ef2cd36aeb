import Verif.Lemmas.MotionPlan

/-!
# CC-Dubins: two headings on different sides of the cut of `twopify`
-/

noncomputable section

namespace Spec

open Real Props
open CC00 (CircOk circOk_at)

variable {sp : SF.HCSpace} {c : SF.Circle}

theorem rng_cut : Rng (1 / 2) 2500 := by constructor <;> norm_num [SF.epsilon]

/-- Without elementary paths every turn has positive length. -/
theorem turn_pos (h : CircOk c (1 / 2) 2500) (q : SF.Configuration) : 0 < c.cc_turn_length q := by
  have H := rng_cut
  have hA := ccA_pos H.kappa H.sigma H.clothoid
  have h1 : 0 < 2 * c.radius * c.sin_mu := by rw [mul_assoc, h.ok.sin_mu]; linarith
  have h3 : |c.kappa / c.sigma| = 1 / 5000 := by
    rw [h.ok.kappa, h.ok.sigma]
    cases c.left <;> norm_num [sg]
  have h2 : 0 < 2 * |c.kappa / c.sigma| + |c.kappa_inv * c.cc_circular_deflection (c.deflection q)| := by
    rw [h3]
    have := abs_nonneg (c.kappa_inv * c.cc_circular_deflection (c.deflection q))
    linarith
  have h4 : 2 * c.delta_min = SF.epsilon := by rw [h.ok.delta_min]; norm_num [SF.epsilon]
  unfold SF.Circle.cc_turn_length
  dsimp only
  rw [h4]
  by_cases g : c.deflection q < SF.epsilon
  · rw [if_pos g]; exact h1
  · rw [if_neg g, if_neg g]; exact h2

open Classical in
theorem cc00_table_T {m : SF.Scratch} {c1 c2 : SF.Circle} (h1 : ¬ SF.configuration_equal c1.start c2.start)
    (h2 : ¬ SF.configuration_aligned c1.start c2.start) (h3 : ¬ SF.configuration_aligned c2.start c1.start)
    (h4 : SF.configuration_on_hc_cc_circle c1 c2.start) (i : ℕ) :
    (SF.CC00.table sp m c1 c2 i).length = if i = 2 then c1.cc_turn_length c2.start else SF.dblMax := by
  unfold SF.CC00.table
  rw [if_neg h1, if_neg (fun g => h2 g.2), if_neg (fun g => h3 g.2), if_pos h4, SF.Table.set]
  split_ifs <;> rfl

theorem cc00_pos_of {c1 c2 : SF.Circle} (t1 : ∀ q, 0 < c1.cc_turn_length q) (t2 : ∀ q, 0 < c2.cc_turn_length q)
    (t : ∀ q l f r x, 0 < (SF.circleAt q l f r sp.param).cc_turn_length x) (g1 : ¬ SF.configuration_equal c1.start c2.start)
    (g2 : ¬ SF.configuration_aligned c1.start c2.start) (g3 : ¬ SF.configuration_aligned c2.start c1.start) :
    0 < (SF.CC00.circles_dubins_path sp c1 c2).length := by
  have hM : 0 < SF.dblMax := by unfold SF.dblMax; positivity
  have hd : ∀ p q : SF.Configuration, 0 ≤ SF.configuration_distance p q := fun _ _ => sqrt_nonneg _
  unfold SF.CC00.circles_dubins_path SF.CC00.body SF.Table.best SF.CCPath.length
  dsimp only
  generalize SF.array_index_min _ _ = i
  generalize SF.scratch c1 c2 = m
  by_cases g4 : SF.configuration_on_hc_cc_circle c1 c2.start
  · rw [cc00_table_T g1 g2 g3 g4]
    split_ifs
    exacts [t1 _, hM]
  · rw [cc00_table g1 g2 g3 g4]
    split_ifs
    · unfold SF.CcRs.TTT_path
      rw [shorter_length]
      refine lt_min ?_ ?_ <;> exact add_pos (add_pos (t1 _) (t _ _ _ _ _)) (t2 _)
    · unfold SF.CcRs.TST_path
      split_ifs
      · exact add_pos (add_pos_of_pos_of_nonneg (t1 _) (hd _ _)) (t2 _)
      · exact add_pos (add_pos_of_pos_of_nonneg (t1 _) (hd _ _)) (t2 _)
      · exact hM
    · exact add_pos (t1 _) (t2 _)
    · exact hM

theorem cc00_pos {c1 c2 : SF.Circle} (t1 : ∀ q, 0 < c1.cc_turn_length q) (t2 : ∀ q, 0 < c2.cc_turn_length q)
    (t : ∀ q l f r x, 0 < (SF.circleAt q l f r sp.param).cc_turn_length x)
    (h : ¬ |c2.start.theta - c1.start.theta| ≤ SF.epsilon) :
    0 < (SF.CC00.circles_dubins_path sp c1 c2).length := by
  push Not at h
  refine cc00_pos_of t1 t2 t ?_ ?_ ?_
  · unfold SF.configuration_equal; rw [if_pos h]; exact id
  · unfold SF.configuration_aligned; rw [if_pos h]; exact id
  · unfold SF.configuration_aligned; rw [if_pos (by rwa [abs_sub_comm])]; exact id

theorem cut_pos (hk : sp.kappa = 1 / 2) (hs : sp.sigma = 2500) {s1 s2 : SF.State} (h1 : s1.theta = 0) (h2 : s2.theta = -(1 / 20000)) :
    0 < SF.CC00.get_distance sp s1 s2 := by
  have hp := pi_gt_three
  have H := rng_cut
  have e : sp.param = SF.hc_cc_circle_param (1 / 2) 2500 := by rw [SF.HCSpace.param, hk, hs]
  have t : ∀ q l f r x, 0 < (SF.circleAt q l f r sp.param).cc_turn_length x := by
    intro q l f r x
    rw [e]
    exact turn_pos (circOk_at H.kappa H.sigma H.clothoid q l f r) x
  refine cc00_pos (t _ _ _ _) (t _ _ _ _) t ?_
  have e1 : SF.twopify s1.theta = 0 := by rw [h1]; exact SF.twopify_of_mem le_rfl (by linarith)
  have e2 : SF.twopify s2.theta = 2 * π - 1 / 20000 := by
    rw [h2, SF.twopify_congr (AngleEq.add_two_pi (-(1 / 20000))).symm, SF.twopify_of_mem] <;> linarith
  show ¬ |SF.twopify s2.theta - SF.twopify s1.theta| ≤ SF.epsilon
  rw [e1, e2, not_le]
  refine lt_of_lt_of_le ?_ (le_abs_self _)
  norm_num [SF.epsilon]
  linarith

open Classical in
theorem cc00_nonpos {c1 c2 : SF.Circle} (h : SF.configuration_equal c1.start c2.start) :
    (SF.CC00.circles_dubins_path sp c1 c2).length ≤ 0 := by
  have e : (SF.CC00.table sp (SF.scratch c1 c2) c1 c2 0).length = 0 := by
    unfold SF.CC00.table
    rw [if_pos h]
    rfl
  have hm : ∀ m, (SF.CC00.body sp m c1 c2).length ≤ (SF.CC00.table sp m c1 c2 0).length := by
    intro m
    have := C04_array_index_min (fun i => (SF.CC00.table sp m c1 c2 i).length) SF.nb_cc_dubins_paths (by norm_num [SF.nb_cc_dubins_paths])
    exact this.2.1 0 (by norm_num [SF.nb_cc_dubins_paths])
  exact (hm _).trans e.le

theorem atan2_up {y : ℝ} (h : 0 < y) : SF.atan2 y 0 = π / 2 := by
  have e : (⟨0, y⟩ : ℂ) = (y : ℂ) * Complex.I := by apply Complex.ext <;> simp
  rw [SF.atan2, e, Complex.arg_real_mul _ h, Complex.arg_I]

theorem atan2_down {y : ℝ} (h : y < 0) : SF.atan2 y 0 = -(π / 2) := by
  have e : (⟨0, y⟩ : ℂ) = ((-y : ℝ) : ℂ) * -Complex.I := by apply Complex.ext <;> simp
  rw [SF.atan2, e, Complex.arg_real_mul _ (by linarith), Complex.arg_neg_I]

theorem twopify_down : SF.twopify (-(π / 2)) = 3 * π / 2 := by
  have hp := pi_pos
  rw [← SF.twopify_of_mem (a := 3 * π / 2) (by linarith) (by linarith)]
  exact SF.twopify_congr ⟨-1, by push_cast; ring⟩

/-- Two states beside each other. -/
theorem beside_pos (hk : sp.kappa = 1 / 2) (hs : sp.sigma = 2500) {s1 s2 : SF.State} (h1 : s1.theta = 0) (h2 : s2.theta = 0)
    (hx : s2.x = s1.x) (hy : s1.y + 1 / 10000 < s2.y) : 0 < SF.CC00.get_distance sp s1 s2 := by
  have hp := pi_gt_three
  have H := rng_cut
  have e : sp.param = SF.hc_cc_circle_param (1 / 2) 2500 := by rw [SF.HCSpace.param, hk, hs]
  have t : ∀ q l f r x, 0 < (SF.circleAt q l f r sp.param).cc_turn_length x := by
    intro q l f r x
    rw [e]
    exact turn_pos (circOk_at H.kappa H.sigma H.clothoid q l f r) x
  have e1 : SF.twopify s1.theta = 0 := by rw [h1]; exact SF.twopify_of_mem le_rfl (by linarith)
  have e2 : SF.twopify s2.theta = 0 := by rw [h2]; exact SF.twopify_of_mem le_rfl (by linarith)
  refine cc00_pos_of (t _ _ _ _) (t _ _ _ _) t ?_ ?_ ?_
  · show ¬ SF.configuration_equal (confOf s1) (confOf s2)
    unfold SF.configuration_equal
    split_ifs with a b
    · exact id
    · exact id
    · exfalso
      apply b
      show SF.epsilon < √((s2.x - s1.x) ^ 2 + (s2.y - s1.y) ^ 2)
      rw [hx, sub_self, zero_pow two_ne_zero, zero_add, sqrt_sq (by linarith)]
      norm_num [SF.epsilon]; linarith
  · show ¬ SF.configuration_aligned (confOf s1) (confOf s2)
    unfold SF.configuration_aligned
    split_ifs with a
    · exact id
    · show ¬ |SF.twopify (SF.atan2 (s2.y - s1.y) (s2.x - s1.x)) - SF.twopify s1.theta| ≤ SF.epsilon
      rw [e1, hx, sub_self, atan2_up (by linarith), SF.twopify_of_mem (by linarith) (by linarith), sub_zero,
        abs_of_pos (by linarith)]
      norm_num [SF.epsilon]; linarith
  · show ¬ SF.configuration_aligned (confOf s2) (confOf s1)
    unfold SF.configuration_aligned
    split_ifs with a
    · exact id
    · show ¬ |SF.twopify (SF.atan2 (s1.y - s2.y) (s1.x - s2.x)) - SF.twopify s2.theta| ≤ SF.epsilon
      rw [e2, hx, sub_self, atan2_down (by linarith), twopify_down, sub_zero, abs_of_pos (by linarith)]
      norm_num [SF.epsilon]; linarith

/-- The same states in another unit of length. -/
theorem beside_zero (hk : sp.kappa = 3 / 4) (hs : sp.sigma = 5625) {s1 s2 : SF.State} (h1 : s1.theta = 0) (h2 : s2.theta = 0)
    (hx : s2.x = s1.x) (hy : s1.y ≤ s2.y) (hy' : s2.y ≤ s1.y + 1 / 10000) : SF.CC00.get_distance sp s1 s2 ≤ 0 := by
  apply cc00_nonpos
  show SF.configuration_equal (confOf s1) (confOf s2)
  unfold SF.configuration_equal
  rw [if_neg, if_neg]
  · trivial
  · show ¬ SF.epsilon < √((s2.x - s1.x) ^ 2 + (s2.y - s1.y) ^ 2)
    rw [hx, sub_self, zero_pow two_ne_zero, zero_add, sqrt_sq (by linarith)]
    norm_num [SF.epsilon]; linarith
  · show ¬ SF.epsilon < |SF.twopify s2.theta - SF.twopify s1.theta|
    rw [h1, h2, sub_self, abs_zero]
    norm_num [SF.epsilon]

theorem cut_zero {s1 s2 : SF.State} (hx : s2.x = s1.x) (hy : s2.y = s1.y) (h1 : s1.theta = 1) (h2 : s2.theta = 1 - 1 / 20000) :
    SF.CC00.get_distance sp s1 s2 ≤ 0 := by
  have hp := pi_gt_three
  have b := C04_array_index_min (fun n => (SF.CC00.path sp s1 s2 n).length) 4 (by norm_num)
  refine (b.2.1 0 (by norm_num)).trans (cc00_nonpos ?_)
  show SF.configuration_equal (confOf s1) (confOf s2)
  have e1 : SF.twopify s1.theta = 1 := by rw [h1]; exact SF.twopify_of_mem (by norm_num) (by linarith)
  have e2 : SF.twopify s2.theta = 1 - 1 / 20000 := by rw [h2]; exact SF.twopify_of_mem (by norm_num) (by linarith)
  unfold SF.configuration_equal
  rw [if_neg, if_neg]
  · trivial
  · show ¬ SF.epsilon < √((s2.x - s1.x) ^ 2 + (s2.y - s1.y) ^ 2)
    rw [hx, hy]; norm_num [SF.epsilon]
  · show ¬ SF.epsilon < |SF.twopify s2.theta - SF.twopify s1.theta|
    rw [e1, e2, not_lt]
    norm_num [SF.epsilon, abs_of_nonneg, abs_of_neg]

end Spec
