import Verif.Props.Compare

/-!
# The detour of Reeds-Shepp paths: C24
-/

noncomputable section

namespace Props

open SF Spec Real

/-- A path that turns left, drives straight and turns left leads anywhere. -/
theorem left_straight_left {k : ℝ} (hk : 0 < k) (p q : Config) : ∃ cs, DubinsPath k cs ∧ Reaches cs p q ∧
    totalLength cs < √((q.x - p.x) ^ 2 + (q.y - p.y) ^ 2) + (4 * π + 2) / k := by
  have hk' := hk.ne'
  obtain ⟨vx, hvx⟩ : ∃ vx : ℝ, vx = (q.x - sin q.theta / k) - (p.x - sin p.theta / k) := ⟨_, rfl⟩
  obtain ⟨vy, hvy⟩ : ∃ vy : ℝ, vy = (q.y + cos q.theta / k) - (p.y + cos p.theta / k) := ⟨_, rfl⟩
  obtain ⟨l, hl⟩ : ∃ l : ℝ, l = ‖(⟨vx, vy⟩ : ℂ)‖ := ⟨_, rfl⟩
  obtain ⟨ψ, hψ⟩ : ∃ ψ : ℝ, ψ = Complex.arg ⟨vx, vy⟩ := ⟨_, rfl⟩
  have hl0 : 0 ≤ l := by rw [hl]; exact norm_nonneg _
  have ex : l * cos ψ = vx := by rw [hl, hψ]; exact Complex.norm_mul_cos_arg _
  have ey : l * sin ψ = vy := by rw [hl, hψ]; exact Complex.norm_mul_sin_arg _
  obtain ⟨a, ha⟩ : ∃ a : ℝ, a = twopify (ψ - p.theta) := ⟨_, rfl⟩
  obtain ⟨b, hb⟩ : ∃ b : ℝ, b = twopify (q.theta - ψ) := ⟨_, rfl⟩
  have a0 : 0 ≤ a := by rw [ha]; exact twopify_nonneg _
  have b0 : 0 ≤ b := by rw [hb]; exact twopify_nonneg _
  have a2 : a < 2 * π := by rw [ha]; exact twopify_lt _
  have b2 : b < 2 * π := by rw [hb]; exact twopify_lt _
  obtain ⟨m, hm⟩ : AngleEq a (ψ - p.theta) := by rw [ha]; exact twopify_angleEq _
  obtain ⟨n, hn⟩ : AngleEq b (q.theta - ψ) := by rw [hb]; exact twopify_angleEq _
  have ea : p.theta + a = ψ + m * (2 * π) := by rw [hm]; ring
  have eb : p.theta + a + b = q.theta + (m + n : ℤ) * (2 * π) := by rw [hm, hn]; push_cast; ring
  have la : 0 ≤ a / k := div_nonneg a0 hk.le
  have lb : 0 ≤ b / k := div_nonneg b0 hk.le
  refine ⟨_, DubinsPath.csc (e1 := 1) (e3 := 1) (.inl rfl) (.inl rfl) la hl0 lb, ⟨_, .cons (drives_iff.2 rfl) (.cons (drives_iff.2 rfl)
    (.cons (drives_iff.2 rfl) (.nil _))), ?_⟩, ?_⟩
  · simp only [Segment.dir, not_lt.2 la, not_lt.2 lb, not_lt.2 hl0, if_false, abs_of_nonneg la, abs_of_nonneg lb, abs_of_nonneg hl0, one_mul]
    rw [arrive_arc hk', arrive_line, arrive_arc hk']
    simp only [one_mul, mul_one, div_mul_cancel₀ _ hk', mul_div_cancel₀ _ hk']
    rw [eb, ea]
    refine ⟨?_, ?_, ⟨m + n, rfl⟩⟩
    · dsimp only
      rw [sin_add_int_mul_two_pi, sin_add_int_mul_two_pi, cos_add_int_mul_two_pi]
      rw [ex, hvx]; ring
    · dsimp only
      rw [sin_add_int_mul_two_pi, cos_add_int_mul_two_pi, cos_add_int_mul_two_pi]
      rw [ey, hvy]; ring
  · simp only [totalLength, List.map_cons, List.map_nil, List.sum_cons, List.sum_nil, abs_of_nonneg la, abs_of_nonneg lb, abs_of_nonneg hl0]
    have h1 : l ≤ √((q.x - p.x) ^ 2 + (q.y - p.y) ^ 2) + 2 / k := by
      have e : (⟨vx, vy⟩ : ℂ) = ⟨q.x - p.x, q.y - p.y⟩ + (⟨-sin q.theta / k, cos q.theta / k⟩ + ⟨sin p.theta / k, -cos p.theta / k⟩) := by
        apply Complex.ext
        · simp only [Complex.add_re, hvx]; ring
        · simp only [Complex.add_im, hvy]; ring
      have nrm : ∀ x y : ℝ, ‖(⟨x, y⟩ : ℂ)‖ = √(x ^ 2 + y ^ 2) := by
        intro x y
        rw [Complex.norm_def, Complex.normSq_mk, sq, sq]
      have one : ∀ t : ℝ, √((-sin t / k) ^ 2 + (cos t / k) ^ 2) = 1 / k := by
        intro t
        rw [show (-sin t / k) ^ 2 + (cos t / k) ^ 2 = (1 / k) ^ 2 by
          rw [div_pow, div_pow, neg_sq, ← add_div, sin_sq_add_cos_sq, div_pow, one_pow]]
        exact sqrt_sq (by positivity)
      have two : ∀ t : ℝ, √((sin t / k) ^ 2 + (-cos t / k) ^ 2) = 1 / k := by
        intro t
        rw [← one t]; congr 1; ring
      rw [hl, e]
      refine (norm_add_le _ _).trans ?_
      rw [nrm (q.x - p.x)]
      have := norm_add_le (⟨-sin q.theta / k, cos q.theta / k⟩ : ℂ) ⟨sin p.theta / k, -cos p.theta / k⟩
      rw [nrm (-sin q.theta / k), nrm (sin p.theta / k), one, two] at this
      have e2 : 2 / k = 1 / k + 1 / k := by ring
      linarith
    have h2 : a / k + b / k < 4 * π / k := by
      rw [← add_div]; exact div_lt_div_of_pos_right (by linarith) hk
    have e3 : (4 * π + 2) / k = 4 * π / k + 2 / k := add_div _ _ _
    linarith

/-- **C24, detour.** The Reeds-Shepp distance exceeds the distance of the positions by less than a constant times the turning radius. -/
theorem C24_rs_detour {sp : RSSpace} (hv : sp.Valid) (s1 s2 : State) :
    sp.get_distance s1 s2 < dist2 s1 s2 + (4 * π + 2) / sp.kappa := by
  obtain ⟨cs, h1, h2, h3⟩ := left_straight_left hv.1 (pose s1) (pose s2)
  exact (C111_rs_le_dubins_path hv s1 s2 cs h1 h2).trans_lt h3

/-- A goal 1 km away is less than 1015 m away. -/
example : (⟨1, 1⟩ : RSSpace).get_distance ⟨0, 0, 0, 0, 0⟩ ⟨1000, 0, 1, 0, 0⟩ < 1015 := by
  have := C24_rs_detour (sp := ⟨1, 1⟩) ⟨one_pos, one_pos⟩ ⟨0, 0, 0, 0, 0⟩ ⟨1000, 0, 1, 0, 0⟩
  have e : dist2 ⟨0, 0, 0, 0, 0⟩ ⟨1000, 0, 1, 0, 0⟩ = 1000 := by
    unfold dist2
    dsimp only
    rw [show ((1000:ℝ) - 0) ^ 2 + (0 - 0) ^ 2 = 1000 ^ 2 by norm_num]
    exact sqrt_sq (by norm_num)
  rw [e] at this
  have := pi_lt_d2
  norm_num at *
  linarith

end Props
