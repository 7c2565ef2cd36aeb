import Verif.Lemmas.DoubleDubins
import Verif.Lemmas.DoubleSteps

/-!
# Dubins' planner in double precision: a goal straight ahead along the first axis
-/

noncomputable section

namespace Spec.Straight

open Real

variable {fl : ℝ → ℝ} (F : Rounds fl)
include F

theorem up {x : ℝ} (h0 : 0 ≤ x) (h1 : x ≤ 2 ^ (1022 : ℤ)) : fl x ≤ x * (1 + 2 ^ (-53 : ℤ)) + 2 ^ (-1022 : ℤ) := by
  have hp : (0:ℝ) < 2 ^ (-1022 : ℤ) := by positivity
  rcases le_total x (2 ^ (-1022 : ℤ)) with h | h
  · have := F.le (.pow _ (by norm_num) (by norm_num)) h
    have : 0 ≤ x * (1 + 2 ^ (-53 : ℤ)) := by positivity
    linarith
  · have := (abs_le.1 (F.rel_err h h1)).2
    have e : x * (1 + 2 ^ (-53 : ℤ)) = x + 2 ^ (-53 : ℤ) * x := by ring
    rw [e]
    linarith

/-- A simpler form. -/
theorem up' {x : ℝ} (h0 : 0 ≤ x) (h1 : x ≤ 10 ^ 100) : fl x ≤ x * (1 + 1 / 10 ^ 15) + 1 / 10 ^ 200 := by
  have h2 : (10:ℝ) ^ 100 ≤ 2 ^ (1022 : ℤ) := by
    have : (2:ℝ) ^ (1022 : ℤ) = 2 ^ 400 * 2 ^ 622 := by rw [← pow_add]; rfl
    rw [this]
    calc (10:ℝ) ^ 100 ≤ 16 ^ 100 * 1 := by rw [mul_one]; exact pow_le_pow_left₀ (by norm_num) (by norm_num) _
      _ = 2 ^ 400 * 1 := by rw [show (16:ℝ) = 2 ^ 4 by norm_num, ← pow_mul]
      _ ≤ _ := mul_le_mul_of_nonneg_left (one_le_pow₀ (by norm_num)) (by positivity)
  have h3 : (2:ℝ) ^ (-1022 : ℤ) ≤ 1 / 10 ^ 200 := by
    rw [zpow_neg, one_div]
    apply inv_anti₀ (by positivity)
    have : (2:ℝ) ^ (1022 : ℤ) = 2 ^ 800 * 2 ^ 222 := by rw [← pow_add]; rfl
    rw [this]
    calc (10:ℝ) ^ 200 ≤ 16 ^ 200 * 1 := by rw [mul_one]; exact pow_le_pow_left₀ (by norm_num) (by norm_num) _
      _ = 2 ^ 800 * 1 := by rw [show (16:ℝ) = 2 ^ 4 by norm_num, ← pow_mul]
      _ ≤ _ := mul_le_mul_of_nonneg_left (one_le_pow₀ (by norm_num)) (by positivity)
  have := up F h0 (h1.trans h2)
  have h4 : x * (1 + 2 ^ (-53 : ℤ)) ≤ x * (1 + 1 / 10 ^ 15) := mul_le_mul_of_nonneg_left (by norm_num) h0
  exact this.trans (add_le_add h4 h3)

theorem tw_zero : SF.Dbl.twopify fl 0 = 0 := by rw [F.tw_small le_rfl (by norm_num), F.zero]

omit F in
theorem pick_le {st : ℝ × SF.DPath} {a : SF.DPath} (h : st.1 = SF.Dbl.length fl st.2) :
    SF.Dbl.length fl (SF.Dbl.dubinsPick fl st a).2 ≤ SF.Dbl.length fl st.2 ∧
    (SF.Dbl.dubinsPick fl st a).1 = SF.Dbl.length fl (SF.Dbl.dubinsPick fl st a).2 := by
  unfold SF.Dbl.dubinsPick
  split_ifs with hc
  · exact ⟨by rw [h] at hc; exact hc.le, rfl⟩
  · exact ⟨le_rfl, h⟩

omit F in
theorem dubins_le (d alpha beta : ℝ) (h : ¬ (d < SF.Dbl.DUBINS_EPS fl ∧ |fl (alpha - beta)| < SF.Dbl.DUBINS_EPS fl)) :
    SF.Dbl.length fl (SF.Dbl.dubins fl d alpha beta) ≤ SF.Dbl.length fl (SF.Dbl.dubinsLSL fl d alpha beta) := by
  unfold SF.Dbl.dubins
  rw [if_neg h]
  obtain ⟨a1, b1⟩ := pick_le (st := (SF.Dbl.length fl (SF.Dbl.dubinsLSL fl d alpha beta), SF.Dbl.dubinsLSL fl d alpha beta))
    (a := SF.Dbl.dubinsRSR fl d alpha beta) rfl
  obtain ⟨a2, b2⟩ := pick_le (a := SF.Dbl.dubinsRSL fl d alpha beta) b1
  obtain ⟨a3, b3⟩ := pick_le (a := SF.Dbl.dubinsLSR fl d alpha beta) b2
  obtain ⟨a4, b4⟩ := pick_le (a := SF.Dbl.dubinsRLR fl d alpha beta) b3
  obtain ⟨a5, -⟩ := pick_le (a := SF.Dbl.dubinsLRL fl d alpha beta) b4
  exact a5.trans (a4.trans (a3.trans (a2.trans a1)))

/-- The word `LSL` for a goal straight ahead. -/
theorem LSL_zero {d : ℝ} (hd0 : 0 < d) (hd : IsDouble d) (hd1 : d ≤ 10 ^ 20) :
    SF.Dbl.length fl (SF.Dbl.dubinsLSL fl d 0 0) ≤ d * (1 + 1 / 10 ^ 14) + 1 / 10 ^ 7 := by
  have one : fl (1:ℝ) = 1 := F.exact (.mul_pow 1 0 (by norm_num) (by norm_num) (by norm_num) (by norm_num))
  have c1 : SF.Dbl.cosF fl 0 = 1 := by unfold SF.Dbl.cosF; rw [cos_zero, one]
  have s1 : SF.Dbl.sinF fl 0 = 0 := by unfold SF.Dbl.sinF; rw [sin_zero, F.zero]
  have cm : SF.Dbl.common fl 1 0 1 0 = 1 := by
    unfold SF.Dbl.common; rw [mul_one, mul_zero, one, F.zero, add_zero, one]
  have at0 : SF.Dbl.atan2F fl 0 d = 0 := by unfold SF.Dbl.atan2F; rw [SF.atan2_zero_nonneg hd0.le, F.zero]
  obtain ⟨tmp, ht⟩ : ∃ tmp, tmp = fl (fl (2 + fl (d * d)) - 2) := ⟨_, rfl⟩
  have hdd : 0 ≤ fl (d * d) := F.nonneg (mul_self_nonneg _)
  have h2 : 2 ≤ fl (2 + fl (d * d)) := F.ge two_double (by linarith)
  have ht0 : 0 ≤ tmp := by rw [ht]; exact F.nonneg (by linarith)
  have hz : SF.Dbl.DUBINS_ZERO fl ≤ 0 := F.nonpos (by norm_num)
  have hlsl : SF.Dbl.dubinsLSL fl d 0 0 = ⟨SF.dubins_path_type 0, 0, SF.Dbl.sqrtF fl tmp, 0⟩ := by
    unfold SF.Dbl.dubinsLSL
    simp only [c1, s1, cm, sub_self, F.zero, mul_zero, sub_zero, one, mul_one, F.exact two_double, add_zero, F.exact hd, at0,
      neg_zero, tw_zero F, ← ht]
    rw [if_pos (by linarith), max_eq_left ht0]
  have hlen : SF.Dbl.length fl (SF.Dbl.dubinsLSL fl d 0 0) = SF.Dbl.sqrtF fl tmp := by
    rw [hlsl]
    unfold SF.Dbl.length
    simp only
    rw [zero_add, add_zero]
    have : fl (SF.Dbl.sqrtF fl tmp) = SF.Dbl.sqrtF fl tmp := F.exact (F.double _)
    rw [this, this]
  rw [hlen]
  have q0 : d * d ≤ 10 ^ 40 := by nlinarith
  have u1 := up' F (mul_self_nonneg d) (by linarith)
  have q1 : fl (d * d) ≤ 10 ^ 41 := by norm_num at u1 ⊢; linarith
  have u2 := up' F (x := 2 + fl (d * d)) (by linarith) (by linarith)
  have q2 : fl (2 + fl (d * d)) ≤ 10 ^ 42 := by norm_num at u2 q1 ⊢; linarith
  have u3 := up' F (x := fl (2 + fl (d * d)) - 2) (by linarith) (by linarith)
  rw [← ht] at u3
  have q3 : tmp ≤ d * d * (1 + 1 / 10 ^ 14) + 5 / 10 ^ 15 := by
    norm_num at u1 u2 u3 ⊢
    linarith
  have q4 : √tmp ≤ d * (1 + 1 / (2 * 10 ^ 14)) + 8 / 10 ^ 8 := by
    rw [sqrt_le_left (by positivity)]
    refine q3.trans ?_
    norm_num
    nlinarith
  have u4 := up' F (x := √tmp) (sqrt_nonneg _) (by norm_num at q4 hd1 ⊢; linarith)
  unfold SF.Dbl.sqrtF
  norm_num at u4 q4 ⊢
  linarith

/-- The distance to a goal straight ahead along the first axis. -/
theorem aligned {k L : ℝ} (disc : ℝ) (hk : 1 / 10 ^ 6 ≤ k) (hk1 : k ≤ 10 ^ 6) (hL : IsDouble L)
    (hL0 : 0 < L) (hL1 : L ≤ 10 ^ 6) :
    SF.Dbl.get_distance fl ⟨k, disc, true⟩ ⟨0, 0, 0, 0, 0⟩ ⟨L, 0, 0, 0, 0⟩ ≤ L * (1 + 1 / 10 ^ 13) + 2 / 10 ^ 7 / k := by
  have hk0 : 0 < k := by linarith [show (0:ℝ) < 1 / 10 ^ 6 by norm_num]
  have zz : IsDouble (0:ℝ) := .zero
  obtain ⟨w, hw⟩ : ∃ w, w = 1 / k := ⟨_, rfl⟩
  have hwk : w * k = 1 := by rw [hw]; field_simp
  have hw0 : 1 / 10 ^ 6 ≤ w := by rw [hw]; exact one_div_le_one_div_of_le hk0 hk1
  have hw1 : w ≤ 10 ^ 6 := by rw [hw, div_le_iff₀ hk0]; linarith
  -- the distance in units of the turning radius
  obtain ⟨d, hd⟩ : ∃ d, d = fl (SF.Dbl.sqrtF fl (fl (L * L)) * k) := ⟨_, rfl⟩
  have hs : SF.Dbl.space_dubins fl ⟨k, disc, true⟩ ⟨0, 0, 0, 0, 0⟩ ⟨L, 0, 0, 0, 0⟩ = SF.Dbl.dubins fl d 0 0 := by
    unfold SF.Dbl.space_dubins
    have e1 : SF.Dbl.atan2F fl 0 L = 0 := by unfold SF.Dbl.atan2F; rw [SF.atan2_zero_nonneg hL0.le, F.zero]
    simp only [sub_zero, F.exact hL, F.zero, e1, mul_zero, add_zero, F.exact (F.double (L * L)), tw_zero F, ← hd]
  have u1 := up' F (mul_self_nonneg L) (by nlinarith)
  have n1 : 0 ≤ fl (L * L) := F.nonneg (mul_self_nonneg L)
  have q1 : √(fl (L * L)) ≤ L * (1 + 1 / 10 ^ 15) + 1 / 10 ^ 100 := by
    rw [sqrt_le_left (by positivity)]
    refine u1.trans ?_
    have e1 : (L * (1 + 1 / 10 ^ 15) + 1 / 10 ^ 100) ^ 2 = L * L * (1 + 1 / 10 ^ 15) + 1 / 10 ^ 200
        + (L * L * (1 + 1 / 10 ^ 15) * (1 / 10 ^ 15) + 2 * L * (1 + 1 / 10 ^ 15) * (1 / 10 ^ 100)) := by ring
    rw [e1]
    have : 0 ≤ L * L * (1 + 1 / 10 ^ 15) * (1 / 10 ^ 15) + 2 * L * (1 + 1 / 10 ^ 15) * (1 / 10 ^ 100) := by positivity
    linarith
  have u2 := up' F (sqrt_nonneg (fl (L * L))) (by norm_num at q1 hL1 ⊢; linarith)
  have n2 : 0 ≤ SF.Dbl.sqrtF fl (fl (L * L)) := F.nonneg (sqrt_nonneg _)
  have q2 : SF.Dbl.sqrtF fl (fl (L * L)) ≤ L * (1 + 3 / 10 ^ 15) + 1 / 10 ^ 90 := by
    unfold SF.Dbl.sqrtF; norm_num at u2 q1 hL1 ⊢; linarith
  have q3 : SF.Dbl.sqrtF fl (fl (L * L)) * k ≤ L * k * (1 + 3 / 10 ^ 15) + 1 / 10 ^ 80 := by
    have := mul_le_mul_of_nonneg_right q2 hk0.le
    norm_num at this hk1 ⊢
    linarith
  have hLk : L * k ≤ 10 ^ 12 := by nlinarith
  have hLk0 : 0 < L * k := by positivity
  have u3 := up' F (x := SF.Dbl.sqrtF fl (fl (L * L)) * k) (by positivity) (by norm_num at q3 hLk ⊢; linarith)
  rw [← hd] at u3
  have q4 : d ≤ L * k * (1 + 5 / 10 ^ 15) + 1 / 10 ^ 70 := by norm_num at u3 q3 hLk ⊢; linarith
  have hd0 : 0 ≤ d := by rw [hd]; exact F.nonneg (by positivity)
  have hdd : IsDouble d := by rw [hd]; exact F.double _
  -- the length of the path in these units
  have ld : SF.Dbl.length fl (SF.Dbl.dubins fl d 0 0) ≤ d * (1 + 1 / 10 ^ 14) + 1 / 10 ^ 7 := by
    by_cases hc : d < SF.Dbl.DUBINS_EPS fl ∧ |fl ((0:ℝ) - 0)| < SF.Dbl.DUBINS_EPS fl
    · unfold SF.Dbl.dubins
      rw [if_pos hc]
      unfold SF.Dbl.length
      simp only
      rw [zero_add, add_zero, F.exact hdd, F.exact hdd]
      have : d * (1 + 1 / 10 ^ 14) = d + d * (1 / 10 ^ 14) := by ring
      have : 0 ≤ d * (1 / 10 ^ 14) := by positivity
      norm_num at *
      linarith
    · have hpos : 0 < d := by
        rcases hd0.lt_or_eq with h | h
        · exact h
        · refine absurd ?_ hc
          have : 0 < SF.Dbl.DUBINS_EPS fl := by
            have : (2:ℝ) ^ (-30 : ℤ) ≤ SF.Dbl.DUBINS_EPS fl :=
              F.ge (.pow _ (by norm_num) (by norm_num)) (by norm_num)
            exact lt_of_lt_of_le (by positivity) this
          rw [← h, sub_zero, F.zero, abs_zero]
          exact ⟨this, this⟩
      exact (dubins_le d 0 0 hc).trans (LSL_zero F hpos hdd (by norm_num at q4 hLk ⊢; linarith))
  unfold SF.Dbl.get_distance
  rw [if_pos rfl, hs]
  obtain ⟨l, hl⟩ : ∃ l, l = SF.Dbl.length fl (SF.Dbl.dubins fl d 0 0) := ⟨_, rfl⟩
  rw [← hl] at ld ⊢
  have q5 : l ≤ L * k * (1 + 16 / 10 ^ 15) + 11 / 10 ^ 8 := by norm_num at ld q4 hLk ⊢; linarith
  have u4 := up' F (x := w) (by linarith [show (0:ℝ) < 1 / 10 ^ 6 by norm_num]) (by norm_num at hw1 ⊢; linarith)
  have q6 : fl w ≤ w * (1 + 2 / 10 ^ 15) := by norm_num at u4 hw0 ⊢; linarith
  have n6 : 0 ≤ fl w := F.nonneg (by linarith [show (0:ℝ) < 1 / 10 ^ 6 by norm_num])
  have hwp : 0 < w := by linarith [show (0:ℝ) < 1 / 10 ^ 6 by norm_num]
  have q7 : fl w * l ≤ L * (1 + 3 / 10 ^ 14) + 12 / 10 ^ 8 * w := by
    calc fl w * l ≤ fl w * (L * k * (1 + 16 / 10 ^ 15) + 11 / 10 ^ 8) := mul_le_mul_of_nonneg_left q5 n6
      _ ≤ w * (1 + 2 / 10 ^ 15) * (L * k * (1 + 16 / 10 ^ 15) + 11 / 10 ^ 8) := mul_le_mul_of_nonneg_right q6 (by positivity)
      _ = L * (w * k) * ((1 + 2 / 10 ^ 15) * (1 + 16 / 10 ^ 15)) + w * ((1 + 2 / 10 ^ 15) * (11 / 10 ^ 8)) := by ring
      _ ≤ _ := by rw [hwk]; norm_num; linarith
  simp only
  rw [← hw]
  rw [show 2 / 10 ^ 7 / k = 2 / 10 ^ 7 * w by rw [hw]; ring]
  rcases le_total (fl w * l) 0 with hn | hn
  · have := F.nonpos hn
    exact this.trans (by positivity)
  have u5 := up' F (x := fl w * l) hn (by norm_num at q7 hL1 hw1 ⊢; linarith)
  norm_num at u5 q7 hw0 ⊢
  linarith

end Spec.Straight
