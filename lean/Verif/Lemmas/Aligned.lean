import Verif.Lemmas.Drive
import Verif.Lemmas.Dubins

/-!
# Paths as long as the distance of their ends are straight
-/

noncomputable section

namespace Spec

open Real

theorem abs_sin_sub_lt {x y : ℝ} (h : x ≠ y) : |sin x - sin y| < |x - y| := by
  rw [sin_sub_sin, abs_mul, abs_mul, abs_two]
  have h1 := abs_sin_lt_abs (x := (x - y) / 2) (by intro h0; apply h; linarith)
  have h2 := abs_cos_le_one ((x + y) / 2)
  have h3 : |(x - y) / 2| = |x - y| / 2 := by rw [abs_div, abs_two]
  have h4 := mul_le_mul_of_nonneg_left h2 (mul_nonneg zero_le_two (abs_nonneg (sin ((x - y) / 2))))
  linarith

/-- How far a segment leads in direction `psi`. -/
def gain (psi : ℝ) (p q : Config) : ℝ := (q.x - p.x) * cos psi + (q.y - p.y) * sin psi

/-- Lines and arcs lead at most their length; exactly their length only if they are empty or lines in that direction. -/
theorem gain_segment {d k l psi : ℝ} (hd : d = 1 ∨ d = -1) (hl : 0 ≤ l) (p : Config) :
    gain psi p (arrive d k 0 l p) ≤ l ∧ (gain psi p (arrive d k 0 l p) = l →
      (arrive d k 0 l p).theta = p.theta ∧ (l = 0 ∨ cos psi = d * cos p.theta ∧ sin psi = d * sin p.theta)) := by
  have hd2 : d * d = 1 := by rcases hd with rfl | rfl <;> norm_num
  have hda : |d| = 1 := by rcases hd with rfl | rfl <;> norm_num
  rcases eq_or_lt_of_le hl with h0 | h0
  · rw [← h0, arrive_zero]
    exact ⟨by simp [gain], fun _ => ⟨rfl, .inl rfl⟩⟩
  by_cases hk : k = 0
  · rw [hk, arrive_line]
    have e : gain psi p ⟨p.x + d * l * cos p.theta, p.y + d * l * sin p.theta, p.theta⟩ = l * (d * cos (p.theta - psi)) := by
      rw [gain, cos_sub]; ring
    rw [e]
    have h1 : d * cos (p.theta - psi) ≤ 1 := by
      refine (le_abs_self _).trans ?_
      rw [abs_mul, hda, one_mul]; exact abs_cos_le_one _
    refine ⟨by nlinarith, fun h => ⟨rfl, .inr ?_⟩⟩
    have h2 : d * cos (p.theta - psi) = 1 := by
      have : l * (d * cos (p.theta - psi)) = l * 1 := by rw [h, mul_one]
      exact mul_left_cancel₀ h0.ne' this
    rw [cos_sub] at h2
    have h3 : (cos psi - d * cos p.theta) ^ 2 + (sin psi - d * sin p.theta) ^ 2 = 0 := by
      linear_combination sin_sq_add_cos_sq psi + (d * d) * sin_sq_add_cos_sq p.theta - 2 * h2 + hd2
    constructor
    · have := pow_eq_zero_iff (two_ne_zero) |>.1 (le_antisymm (by nlinarith [sq_nonneg (sin psi - d * sin p.theta)])
        (sq_nonneg (cos psi - d * cos p.theta)))
      linarith
    · have := pow_eq_zero_iff (two_ne_zero) |>.1 (le_antisymm (by nlinarith [sq_nonneg (cos psi - d * cos p.theta)])
        (sq_nonneg (sin psi - d * sin p.theta)))
      linarith
  · rw [arrive_arc hk]
    have e : gain psi p ⟨p.x + (1 / k) * (-sin p.theta + sin (p.theta + d * l * k)),
        p.y + (1 / k) * (cos p.theta - cos (p.theta + d * l * k)), p.theta + k * d * l⟩
        = (1 / k) * (sin (p.theta + d * l * k - psi) - sin (p.theta - psi)) := by
      rw [gain, sin_sub, sin_sub]; ring
    rw [e]
    have hne : p.theta + d * l * k - psi ≠ p.theta - psi := by
      intro h
      have : d * l * k = 0 := by linarith
      rcases hd with rfl | rfl <;> simp [h0.ne', hk] at this
    have h1 := abs_sin_sub_lt hne
    have e2 : p.theta + d * l * k - psi - (p.theta - psi) = d * (l * k) := by ring
    rw [e2, abs_mul, hda, one_mul, abs_mul, abs_of_pos h0] at h1
    have h2 : (1 / k) * (sin (p.theta + d * l * k - psi) - sin (p.theta - psi)) < l := by
      refine (le_abs_self _).trans_lt ?_
      rw [abs_mul, abs_div, abs_one, one_div, inv_mul_lt_iff₀ (abs_pos.2 hk), mul_comm |k|]
      exact h1
    exact ⟨h2.le, fun h => absurd h h2.ne⟩

theorem gain_add (psi : ℝ) (p q r : Config) : gain psi p r = gain psi p q + gain psi q r := by
  unfold gain; ring

/-- The same for paths of lines and arcs. -/
theorem gain_path {psi : ℝ} {cs : List Segment} (hs : ∀ c ∈ cs, c.sigma = 0) {p q : Config} (h : DrivesAll cs p q) :
    gain psi p q ≤ totalLength cs ∧ (gain psi p q = totalLength cs →
      q.theta = p.theta ∧ (totalLength cs = 0 ∨ ∃ c ∈ cs, c.len ≠ 0 ∧ cos psi = c.dir * cos p.theta ∧ sin psi = c.dir * sin p.theta)) := by
  induction h with
  | nil p => simp [gain, totalLength]
  | @cons c cs p q r h1 _ ih =>
    obtain ⟨i1, i2⟩ := ih fun c' hc' => hs c' (List.mem_cons_of_mem _ hc')
    rw [drives_iff, hs c List.mem_cons_self] at h1
    have hd : c.dir = 1 ∨ c.dir = -1 := by unfold Segment.dir; split_ifs <;> simp
    obtain ⟨j1, j2⟩ := gain_segment (psi := psi) (k := c.kappa) hd (abs_nonneg c.len) p
    rw [← h1] at j1 j2
    have el : totalLength (c :: cs) = |c.len| + totalLength cs := by simp [totalLength]
    rw [el, gain_add psi p q r]
    refine ⟨by linarith, fun he => ?_⟩
    obtain ⟨a1, a2⟩ := j2 (by linarith)
    obtain ⟨b1, b2⟩ := i2 (by linarith)
    refine ⟨b1.trans a1, ?_⟩
    rcases eq_or_ne c.len 0 with h0 | h0
    · rcases b2 with b2 | ⟨c', hc', b3, b4, b5⟩
      · left; rw [h0, b2]; simp
      · right; exact ⟨c', List.mem_cons_of_mem _ hc', b3, by rw [← a1]; exact b4, by rw [← a1]; exact b5⟩
    · right
      exact ⟨c, List.mem_cons_self, h0, a2.resolve_left (abs_ne_zero.2 h0)⟩

/-- A path of lines and arcs that is as long as the distance of its ends. -/
theorem straight_of_length {cs : List Segment} (hs : ∀ c ∈ cs, c.sigma = 0) {p q : Config} (h : DrivesAll cs p q)
    (hl : totalLength cs = √((q.x - p.x) ^ 2 + (q.y - p.y) ^ 2)) :
    q.theta = p.theta ∧ ∃ d, (d = 0 ∨ ∃ c ∈ cs, c.len ≠ 0 ∧ c.dir = d) ∧
      q.x = p.x + d * totalLength cs * cos p.theta ∧ q.y = p.y + d * totalLength cs * sin p.theta := by
  obtain ⟨z, hz⟩ : ∃ z : ℂ, z = ⟨q.x - p.x, q.y - p.y⟩ := ⟨_, rfl⟩
  have hn : ‖z‖ = totalLength cs := by rw [hl, hz, Complex.norm_eq_sqrt_sq_add_sq]
  have hx : q.x - p.x = totalLength cs * cos z.arg := by rw [← hn, Complex.norm_mul_cos_arg, hz]
  have hy : q.y - p.y = totalLength cs * sin z.arg := by rw [← hn, Complex.norm_mul_sin_arg, hz]
  obtain ⟨-, h2⟩ := gain_path (psi := z.arg) hs h
  obtain ⟨ht, h3⟩ := h2 (by rw [gain, hx, hy]; linear_combination totalLength cs * sin_sq_add_cos_sq z.arg)
  refine ⟨ht, ?_⟩
  rcases h3 with h0 | ⟨c, hc, hc0, e1, e2⟩
  · rw [h0] at hx hy ⊢
    exact ⟨0, .inl rfl, by linarith, by linarith⟩
  · refine ⟨c.dir, .inr ⟨c, hc, hc0, rfl⟩, ?_, ?_⟩
    · rw [e1] at hx; linarith
    · rw [e2] at hy; linarith

end Spec
