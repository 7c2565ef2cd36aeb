import Verif.Lemmas.Double
import Verif.Model.Double

/-!
# The integration steps of a segment in double precision
-/

noncomputable section

namespace Spec.Rounds

open Real

variable {fl : ℝ → ℝ} (F : Rounds fl)
include F

/-- Relative error of rounding. -/
theorem rel_err {x : ℝ} (h0 : 2 ^ (-1022 : ℤ) ≤ x) (h1 : x ≤ 2 ^ (1022 : ℤ)) : |fl x - x| ≤ 2 ^ (-53 : ℤ) * x := by
  have hx : 0 < x := lt_of_lt_of_le (by positivity) h0
  obtain ⟨e, he1, he2⟩ := exists_mem_Ico_zpow hx (show (1:ℝ) < 2 by norm_num)
  have l1 : -1022 ≤ e := by
    have : (2:ℝ) ^ (-1022 : ℤ) < 2 ^ (e + 1) := h0.trans_lt he2
    have := (zpow_lt_zpow_iff_right₀ (by norm_num : (1:ℝ) < 2)).1 this
    omega
  have l2 : e ≤ 1022 := (zpow_le_zpow_iff_right₀ (by norm_num : (1:ℝ) < 2)).1 (he1.trans h1)
  refine (F.err (e := e) (by rw [abs_of_pos hx]; exact he2.le) l1 l2).trans ?_
  rw [show e - 53 = -53 + e by ring, zpow_add₀ (by norm_num)]
  exact mul_le_mul_of_nonneg_left he1 (by positivity)

variable {disc a : ℝ} {e : ℤ} (hd : IsDouble disc) (hd0 : 0 < disc) (h : a + disc ≤ 2 ^ (e + 1)) (h1 : -1022 ≤ e) (h2 : e ≤ 900)
include hd hd0 h h1 h2

theorem step_cut {s : ℝ} (hs0 : 0 ≤ s) (hs : s ≤ a) (hc : a < fl (s + disc)) :
    |s + fl (disc - fl (fl (s + disc) - a)) - a| ≤ 3 * 2 ^ (e - 53) ∧ fl (disc - fl (fl (s + disc) - a)) ≤ disc := by
  have hu : (0:ℝ) < 2 ^ (e - 53) := by positivity
  have e1 := F.err (x := s + disc) (e := e) (by rw [abs_of_nonneg (by linarith)]; linarith) h1 (by omega)
  have b1 : fl (s + disc) ≤ 2 ^ (e + 1) := F.le (.pow _ (by omega) (by omega)) (by linarith)
  have b2 : 0 ≤ fl (fl (s + disc) - a) := F.nonneg (by linarith)
  have e2 := F.err (x := fl (s + disc) - a) (e := e) (by rw [abs_of_nonneg (by linarith)]; linarith) h1 (by omega)
  have b3 : fl (fl (s + disc) - a) ≤ 2 ^ (e + 1) := F.le (.pow _ (by omega) (by omega)) (by linarith)
  have e3 := F.err (x := disc - fl (fl (s + disc) - a)) (e := e) (by rw [abs_le]; constructor <;> linarith) h1 (by omega)
  rw [abs_le] at e1 e2 e3
  refine ⟨abs_le.2 ⟨by linarith, by linarith⟩, F.le hd (by linarith)⟩

/-- The steps of `n` iterations from `s`. -/
theorem steps_sum (n : ℕ) : ∀ {s : ℝ}, 0 ≤ s → s ≤ a →
    (∀ x ∈ SF.Dbl.steps fl disc a n s, x ≤ disc) ∧ (SF.Dbl.steps fl disc a n s).length = n ∧
    (((SF.Dbl.steps fl disc a n s).sum = n * disc ∧ s + n * disc ≤ a + n * 2 ^ (e - 53)) ∨
      |s + (SF.Dbl.steps fl disc a n s).sum - a| ≤ 3 * n * 2 ^ (e - 53)) := by
  have hu : (0:ℝ) < 2 ^ (e - 53) := by positivity
  induction n with
  | zero => intro s h0 hs; simp [SF.Dbl.steps, hs]
  | succ n ih =>
    intro s hs0 hs
    have hn : (0:ℝ) ≤ n := n.cast_nonneg
    simp only [SF.Dbl.steps]
    by_cases hc : fl (s + disc) > a
    · have hN : SF.Dbl.nextStep fl disc a s = (fl (disc - fl (fl (s + disc) - a)), a) := by
        unfold SF.Dbl.nextStep; simp only; rw [if_pos hc]
      obtain ⟨c1, c2⟩ := F.step_cut hd hd0 h h1 h2 hs0 hs hc
      obtain ⟨i1, i2, i3⟩ := ih (s := a) (by linarith) le_rfl
      rw [hN]
      simp only [List.mem_cons, List.length_cons, List.sum_cons]
      refine ⟨by rintro x (rfl | hx); exacts [c2, i1 x hx], by rw [i2], .inr ?_⟩
      push_cast
      rw [abs_le] at c1 ⊢
      rcases i3 with ⟨j1, j2⟩ | j
      · rw [j1]
        have : 0 ≤ (n:ℝ) * disc := by positivity
        constructor <;> nlinarith
      · rw [abs_le] at j
        constructor <;> linarith
    · have hN : SF.Dbl.nextStep fl disc a s = (disc, fl (s + disc)) := by
        unfold SF.Dbl.nextStep; simp only; rw [if_neg hc]
      push Not at hc
      have e1 := F.err (x := s + disc) (e := e) (by rw [abs_of_nonneg (by linarith)]; linarith) h1 (by omega)
      rw [abs_le] at e1
      obtain ⟨i1, i2, i3⟩ := ih (s := fl (s + disc)) (F.nonneg (by linarith)) hc
      rw [hN]
      simp only [List.mem_cons, List.length_cons, List.sum_cons]
      refine ⟨by rintro x (rfl | hx); exacts [le_rfl, i1 x hx], by rw [i2], ?_⟩
      push_cast
      rcases i3 with ⟨j1, j2⟩ | j
      · left
        rw [j1]
        constructor
        · ring
        · linarith
      · right
        rw [abs_le] at j ⊢
        constructor <;> linarith

/-- The steps of a whole segment. -/
theorem seg_steps (ha : 0 ≤ a) (hq : a = 0 ∨ 2 ^ (-1022 : ℤ) ≤ a / disc) (hq' : a / disc ≤ 2 ^ (1022 : ℤ)) :
    |(SF.Dbl.steps fl disc a (SF.Dbl.nSteps fl disc a) 0).sum - a| ≤ (3 * SF.Dbl.nSteps fl disc a + 2) * 2 ^ (e - 53) := by
  have hu : (0:ℝ) < 2 ^ (e - 53) := by positivity
  obtain ⟨-, -, i⟩ := F.steps_sum hd hd0 h h1 h2 (SF.Dbl.nSteps fl disc a) le_rfl ha
  obtain ⟨n, hn⟩ : ∃ n, n = SF.Dbl.nSteps fl disc a := ⟨_, rfl⟩
  rw [← hn] at i ⊢
  have hn0 : (0:ℝ) ≤ n := n.cast_nonneg
  rw [zero_add, zero_add] at i
  rcases i with ⟨j1, j2⟩ | j
  · rw [j1]
    have key : a - 2 * 2 ^ (e - 53) ≤ n * disc := by
      rcases hq with rfl | hq
      · have : 0 ≤ (n:ℝ) * disc := by positivity
        linarith
      · have e1 := F.rel_err hq hq'
        have e2 : fl (a / disc) ≤ n := by rw [hn]; exact Nat.le_ceil _
        rw [abs_le] at e1
        have e3 : a / disc - 2 ^ (-53 : ℤ) * (a / disc) ≤ n := by linarith
        have e4 : (a / disc - 2 ^ (-53 : ℤ) * (a / disc)) * disc ≤ n * disc := mul_le_mul_of_nonneg_right e3 hd0.le
        have e5 : (a / disc - 2 ^ (-53 : ℤ) * (a / disc)) * disc = a - 2 ^ (-53 : ℤ) * a := by field_simp
        have e6 : (2:ℝ) ^ (-53 : ℤ) * a ≤ 2 * 2 ^ (e - 53) := by
          have : (2:ℝ) * 2 ^ (e - 53) = 2 ^ (-53 : ℤ) * 2 ^ (e + 1) := by
            rw [← zpow_add₀ (by norm_num), show -53 + (e + 1) = 1 + (e - 53) by ring, zpow_add₀ (by norm_num), zpow_one]
          rw [this]
          exact mul_le_mul_of_nonneg_left (by linarith) (by positivity)
        rw [e5] at e4
        exact (sub_le_sub_left e6 a).trans e4
    rw [abs_le]
    constructor <;> nlinarith
  · refine j.trans ?_
    nlinarith

end Spec.Rounds
