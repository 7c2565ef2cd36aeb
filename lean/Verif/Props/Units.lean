import Verif.Props.Representation
import Verif.Props.Motion
import Verif.Lemmas.Units

/-!
# C101 for the CC00-Dubins planner, away from its tolerances
-/

noncomputable section

namespace Props

open SF Spec Real

theorem scaled_dist {c : ℝ} (hc : 0 < c) (s1 s2 : State) : dist2 (scaled c s1) (scaled c s2) = c * dist2 s1 s2 := by
  unfold dist2 scaled
  rw [← sqrt_sq hc.le, ← sqrt_mul (by positivity), sqrt_sq hc.le]
  congr 1; ring

theorem scaled_line {c : ℝ} (hc : 0 < c) {s1 s2 : State} (h : OnLine (scaled c s1) (scaled c s2)) : OnLine s1 s2 := by
  have e : ∀ a b : State, Complex.arg ⟨(scaled c a).x - (scaled c b).x, (scaled c a).y - (scaled c b).y⟩
      = Complex.arg ⟨a.x - b.x, a.y - b.y⟩ := by
    intro a b
    exact Units.atan_scaled hc a.y b.y a.x b.x
  unfold OnLine at h ⊢
  rw [e, e] at h
  exact h

theorem scaled_scaled {c : ℝ} (hc : 0 < c) (s : State) : scaled (1 / c) (scaled c s) = s := by
  unfold scaled
  refine State.ext ?_ ?_ rfl ?_ rfl <;> dsimp only <;> field_simp

theorem scaled_radius {c k s : ℝ} (hc : 0 < c) (hk : 0 < k) (hs : 0 < s) : radiusBound (k / c) (s / c ^ 2) = c * radiusBound k s := by
  unfold radiusBound; field_simp

/-- **C101, CC00-Dubins, partial.** In a unit of length that is `c` times smaller the distance is `c` times larger, if in both units
curvature and sharpness are in range, the clothoids are longer than 3e-3 and the states are more than six radii apart, and if the states
do not lie on a line and `kappa ^ 2 ≤ 2 sigma`. Missing: closer states, where the tolerances (an absolute length of 1e-4) decide which
paths exist; there it can be false (`C101_cc00_false`). -/
theorem C101_cc00_units_partial {k s disc disc' c : ℝ} (fw : Bool) (hc : 0 < c) (H : InRange k s) (H' : InRange (k / c) (s / c ^ 2))
    (hl : 3 / 1000 < k / s) (hl' : 3 / 1000 < c * (k / s)) (hks : k ^ 2 ≤ 2 * s) {s1 s2 : State}
    (far : 6 * radiusBound k s + 1 / 10000 < dist2 s1 s2) (far' : 6 * radiusBound k s + 1 / 10000 / c < dist2 s1 s2)
    (fin : dist2 s1 s2 ≤ 10 ^ 100) (fin' : c * dist2 s1 s2 ≤ 10 ^ 100) (line : ¬ OnLine s1 s2) :
    CC00.get_distance ⟨k / c, s / c ^ 2, disc', fw⟩ (scaled c s1) (scaled c s2) = c * CC00.get_distance ⟨k, s, disc, fw⟩ s1 s2 := by
  have hk := H.rng.pos
  have hs := H.sigma
  have hR : 0 ≤ radiusBound k s := by rw [radiusBound]; positivity
  have farc : 6 * radiusBound (k / c) (s / c ^ 2) + 1 / 10000 < dist2 (scaled c s1) (scaled c s2) := by
    rw [scaled_radius hc hk hs, scaled_dist hc]
    have := mul_lt_mul_of_pos_left far' hc
    have e : c * (6 * radiusBound k s + 1 / 10000 / c) = 6 * (c * radiusBound k s) + 1 / 10000 := by field_simp
    linarith
  have hR' : 0 ≤ radiusBound (k / c) (s / c ^ 2) := by rw [scaled_radius hc hk hs]; positivity
  have linec : ¬ OnLine (scaled c s1) (scaled c s2) := fun g => line (scaled_line hc g)
  have hc1 : 0 < 1 / c := by positivity
  have ek : k / c / (1 / c) = k := by field_simp
  have es : s / c ^ 2 / (1 / c) ^ 2 = s := by field_simp
  have el : k / c / (s / c ^ 2) = c * (k / s) := by field_simp
  apply le_antisymm
  · exact Units.le_scaled hc H hl hl' hks far fin line H'.rng ⟨by dsimp only; exact lt_of_le_of_lt (by linarith) farc, linec⟩
  · have e1 := scaled_scaled hc s1
    have e2 := scaled_scaled hc s2
    have back := Units.le_scaled (d := disc') (d' := disc) (fw := fw) hc1 H' (by rw [el]; exact hl')
      (by rw [el, ← mul_assoc, one_div_mul_cancel hc.ne', one_mul]; exact hl)
      (by rw [div_pow, mul_div_assoc', div_le_div_iff_of_pos_right (by positivity)]; exact hks)
      (s1 := scaled c s1) (s2 := scaled c s2) farc (by rw [scaled_dist hc]; exact fin') linec
      (by rw [ek, es]; exact H.rng)
      (by
        rw [ek, es]
        change Open _ (scaled (1 / c) (scaled c s1)) (scaled (1 / c) (scaled c s2))
        rw [e1, e2]
        exact ⟨by dsimp only; linarith, line⟩)
    rw [ek, es] at back
    change CC00.get_distance _ (scaled (1 / c) (scaled c s1)) (scaled (1 / c) (scaled c s2)) ≤ _ at back
    rw [e1, e2] at back
    have := mul_le_mul_of_nonneg_left back hc.le
    rwa [← mul_assoc, mul_one_div_cancel hc.ne', one_mul] at this

/-- Metres or half metres, for curvature and sharpness one and a goal 50 m ahead and 5 m to the side. -/
example : CC00.get_distance ⟨1 / 2, 1 / 2 ^ 2, 1, true⟩ (scaled 2 ⟨0, 0, 0, 0, 0⟩) (scaled 2 ⟨50, 5, 1, 0, 0⟩) =
    2 * CC00.get_distance ⟨1, 1, 1, true⟩ ⟨0, 0, 0, 0, 0⟩ ⟨50, 5, 1, 0, 0⟩ := by
  have h1 : (50:ℝ) ≤ dist2 ⟨0, 0, 0, 0, 0⟩ ⟨50, 5, 1, 0, 0⟩ := by
    unfold dist2; exact Real.le_sqrt_of_sq_le (by norm_num)
  have h2 : dist2 ⟨0, 0, 0, 0, 0⟩ ⟨50, 5, 1, 0, 0⟩ ≤ 100 := by
    unfold dist2; rw [Real.sqrt_le_left (by norm_num)]; norm_num
  have hr : radiusBound 1 1 = 5 := by unfold radiusBound; norm_num
  refine C101_cc00_units_partial true (by norm_num) ⟨by norm_num, by norm_num, by norm_num, by norm_num⟩
    ⟨by norm_num, by norm_num, by norm_num, by norm_num⟩ (by norm_num) (by norm_num) (by norm_num) ?_ ?_ ?_ ?_ ?_
  · rw [hr]; linarith
  · rw [hr]; norm_num; linarith
  · exact h2.trans (by norm_num)
  · have : (200:ℝ) ≤ 10 ^ 100 := by norm_num
    linarith
  · rintro ⟨⟨n, hn⟩, -⟩
    have hp := pi_gt_three
    have hp4 := pi_lt_four
    rw [abs_le] at hn
    obtain ⟨a, b⟩ := hn
    dsimp only at a b
    rcases lt_trichotomy n 0 with h | h | h
    · have : (n:ℝ) ≤ -1 := by exact_mod_cast (by omega : n ≤ -1)
      nlinarith
    · rw [h] at a; norm_num at a
    · have : (1:ℝ) ≤ n := by exact_mod_cast h
      nlinarith

end Props
