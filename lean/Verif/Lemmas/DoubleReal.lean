import Verif.Lemmas.DoubleDubins
import Verif.Lemmas.DubinsPick

/-!
# The goal straight ahead in real arithmetic
-/

noncomputable section

namespace Spec.Straight

open Real

theorem atan2_scale {c y x : ℝ} (hc : 0 < c) : SF.atan2 (c * y) (c * x) = SF.atan2 y x := by
  unfold SF.atan2
  have : (⟨c * x, c * y⟩ : ℂ) = (c : ℂ) * ⟨x, y⟩ := by apply Complex.ext <;> simp
  rw [this, Complex.arg_real_mul _ hc]

/-- In real arithmetic the word `RSL` for these states consists of two tiny turns and a straight line. -/
theorem RSL_real : (SF.dubinsRSL dist head head).length ≤ 1 / 8 := by
  obtain ⟨d0, d1⟩ := dist_bounds
  have hh : head ≤ 1 / 10 ^ 9 := by unfold head; norm_num
  have h0 : 0 < head := by unfold head; positivity
  obtain ⟨s, hs⟩ : ∃ s, s = sin head := ⟨_, rfl⟩
  obtain ⟨c, hc⟩ : ∃ c, c = cos head := ⟨_, rfl⟩
  have hsc : s ^ 2 + c ^ 2 = 1 := by rw [hs, hc]; exact sin_sq_add_cos_sq _
  have s0 : 0 < s := by rw [hs]; exact sin_pos_of_pos_of_lt_pi h0 (by linarith [pi_gt_three])
  have s1 : s ≤ head := by rw [hs]; exact sin_le h0.le
  have c0 : 1 - head ^ 2 / 2 ≤ c := by rw [hc]; exact one_sub_sq_div_two_le_cos
  have c1 : c ≤ 1 := by rw [hc]; exact cos_le_one _
  have c2 : 9 / 10 ≤ c := by nlinarith
  have ht : SF.tmpRSL dist head head = dist ^ 2 - 4 * dist * s := by
    unfold SF.tmpRSL
    rw [← hs, ← hc]
    linear_combination 2 * hsc
  have t0 : 0 < dist ^ 2 - 4 * dist * s := by nlinarith
  have hacc : SF.dubinsRSL dist head head = SF.pathRSL dist head head := by
    unfold SF.dubinsRSL
    rw [if_pos (le_trans SF.DUBINS_ZERO_neg.le (by rw [ht]; exact t0.le))]
  obtain ⟨p, hp⟩ : ∃ p, p = √(dist ^ 2 - 4 * dist * s) := ⟨_, rfl⟩
  have pp : p ^ 2 = dist ^ 2 - 4 * dist * s := by rw [hp]; exact sq_sqrt t0.le
  have p0 : 0 < p := by rw [hp]; exact sqrt_pos.2 t0
  have p1 : p ≤ dist - 2 * s := by
    refine abs_le_of_sq_le_sq' ?_ (by linarith) |>.2
    rw [pp]; nlinarith
  have p2 : dist - 4 * s ≤ p := by
    refine abs_le_of_sq_le_sq' ?_ p0.le |>.2
    rw [pp]; nlinarith
  obtain ⟨X, hX⟩ : ∃ X, X = (dist - 2 * s) / c := ⟨_, rfl⟩
  have hcX : c * X = dist - 2 * s := by rw [hX]; field_simp
  have X0 : 0 < X := by rw [hX]; apply div_pos <;> linarith
  have X1 : dist - 2 * s ≤ X := by nlinarith
  have X2 : X ≤ dist + 1 / 1000 := by
    rw [hX, div_le_iff₀ (by linarith)]
    nlinarith
  have hA : SF.atan2 (c + c) (dist - s - s) = π / 2 - arctan (X / 2) := by
    rw [← atan2_two X0, ← atan2_scale (c := c) (y := 2) (x := X) (by linarith), hcX]
    congr 1 <;> ring
  obtain ⟨-, k2⟩ := arctan_diff (a := p / 2) (b := X / 2) (by linarith) (by linarith) (by linarith)
  have k3 : arctan (p / 2) ≤ arctan (X / 2) := arctan_mono (by linarith)
  rw [hacc]
  unfold SF.pathRSL SF.DPath.length
  simp only
  rw [← hs, ← hc, hA, ht, max_eq_left t0.le, ← hp, atan2_two p0]
  rw [SF.twopify_of_mem (by linarith) (by linarith [pi_gt_three])]
  linarith

/-- The distance in real arithmetic. -/
theorem near_real (disc : ℝ) :
    (⟨1 / 16, disc, true⟩ : SF.DubinsSpace).get_distance ⟨0, 0, head, 0, 0⟩ ⟨16 * dist, 0, head, 0, 0⟩ ≤ 2 := by
  obtain ⟨d0, d1⟩ := dist_bounds
  have hh : head ≤ 1 / 10 ^ 9 := by unfold head; norm_num
  have h0 : 0 < head := by unfold head; positivity
  have e : (⟨1 / 16, disc, true⟩ : SF.DubinsSpace).params ⟨0, 0, head, 0, 0⟩ ⟨16 * dist, 0, head, 0, 0⟩ = (dist, head, head) := by
    unfold SF.DubinsSpace.params
    simp only [sub_zero, mul_zero, add_zero]
    rw [SF.atan2_zero_nonneg (by linarith), sub_zero, SF.twopify_of_mem h0.le (by linarith [pi_gt_three]),
      sqrt_mul_self (by linarith)]
    congr 1; ring
  unfold SF.DubinsSpace.get_distance
  rw [if_pos rfl]
  unfold SF.DubinsSpace.dubins SF.DubinsSpace.kappa_inv
  rw [e]
  have hs : ¬ (dist < SF.DUBINS_EPS ∧ |head - head| < SF.DUBINS_EPS) := by
    intro h; have := h.1; unfold SF.DUBINS_EPS at this; norm_num at this; linarith
  have := (SF.dubins_min hs).2 (SF.dubinsRSL dist head head) (by simp)
  have := this.trans RSL_real
  simp only
  linarith

/-- A goal exactly straight ahead, in real arithmetic. -/
theorem ahead_real {sp : SF.DubinsSpace} (hk : 0 < sp.kappa) (hf : sp.forwards = true) (s1 s2 : SF.State) {L : ℝ} (hL : 0 ≤ L)
    (hx : s2.x = s1.x + L * cos s1.theta) (hy : s2.y = s1.y + L * sin s1.theta) (ht : s2.theta = s1.theta) :
    sp.get_distance s1 s2 ≤ L := by
  have hd : (sp.params s1 s2).1 = L * sp.kappa := by
    unfold SF.DubinsSpace.params
    simp only
    rw [hx, hy]
    have : (s1.x + L * cos s1.theta - s1.x) * (s1.x + L * cos s1.theta - s1.x)
        + (s1.y + L * sin s1.theta - s1.y) * (s1.y + L * sin s1.theta - s1.y) = L ^ 2 := by
      linear_combination L ^ 2 * sin_sq_add_cos_sq s1.theta
    rw [this, sqrt_sq hL]
  have hd0 : 0 ≤ L * sp.kappa := by positivity
  have hab : (sp.params s1 s2).2.1 = (sp.params s1 s2).2.2 := by
    unfold SF.DubinsSpace.params
    simp only
    rw [ht]
  have key : (sp.dubins s1 s2).length ≤ L * sp.kappa := by
    unfold SF.DubinsSpace.dubins
    rw [← hab, hd]
    by_cases hs : L * sp.kappa < SF.DUBINS_EPS ∧ |(sp.params s1 s2).2.1 - (sp.params s1 s2).2.1| < SF.DUBINS_EPS
    · unfold SF.dubins
      rw [if_pos hs]
      unfold SF.DPath.length
      simp
    · have hL' : 0 < L := by
        rcases hL.lt_or_eq with h | h
        · exact h
        · refine absurd ?_ hs
          rw [← h, zero_mul, sub_self, abs_zero]
          unfold SF.DUBINS_EPS; constructor <;> norm_num
      have al : (sp.params s1 s2).2.1 = 0 := by
        unfold SF.DubinsSpace.params
        simp only
        rw [hx, hy, add_sub_cancel_left, add_sub_cancel_left]
        have h := SF.atan2_polar hL' s1.theta
        have : AngleEq (s1.theta - SF.atan2 (L * sin s1.theta) (L * cos s1.theta)) 0 := by
          obtain ⟨n, hn⟩ := h
          exact ⟨-n, by rw [hn]; push_cast; ring⟩
        rw [SF.twopify_congr this, SF.twopify_of_mem le_rfl (by positivity)]
      have := (SF.dubins_min hs).2 (SF.dubinsLSL (L * sp.kappa) (sp.params s1 s2).2.1 (sp.params s1 s2).2.1) (by simp)
      refine this.trans ?_
      rw [SF.dubinsLSL_accepted, al]
      unfold SF.pathLSL SF.DPath.length SF.tmpLSL
      simp only [sub_self, sin_zero, cos_zero, sub_zero, add_zero, mul_zero, mul_one, neg_zero, zero_add]
      rw [SF.atan2_zero_nonneg hd0, SF.twopify_of_mem le_rfl (by positivity), sub_zero, SF.twopify_of_mem le_rfl (by positivity)]
      rw [show 2 + L * sp.kappa * (L * sp.kappa) - 2 = L * sp.kappa * (L * sp.kappa) by ring, max_eq_left (mul_self_nonneg _),
        sqrt_mul_self hd0]
      simp
  unfold SF.DubinsSpace.get_distance
  rw [if_pos hf]
  unfold SF.DubinsSpace.kappa_inv
  calc 1 / sp.kappa * (sp.dubins s1 s2).length ≤ 1 / sp.kappa * (L * sp.kappa) := mul_le_mul_of_nonneg_left key (by positivity)
    _ = L := by field_simp

end Spec.Straight
